import Verif.Props.Ocean
import Mathlib.Algebra.Order.Ring.Rat
import Mathlib.Tactic.Linarith

/-!
# C47, C61: the split and the classes of the ocean dataset
-/

namespace Verif

variable {C K : Type}

/-! ### C47 -/

theorem count_positions {mask : List Nat} {n : Nat} (h : mask.length = n) (b : Nat) :
    (List.range n).countP (fun i => mask[i]? == some b) = mask.count b := by
  subst h
  induction mask using List.reverseRecOn with
  | nil => rfl
  | append_singleton l a ih =>
    rw [List.length_append, List.length_singleton, List.range_succ, List.countP_append, List.count_append, ← ih]
    congr 1
    · apply List.countP_congr
      intro i hi
      rw [List.mem_range] at hi
      rw [List.getElem?_append_left hi]
    · simp [List.count_singleton]

theorem rounds (n : Nat) : pyRound (4 * n) 5 + pyRound n 5 = n := by
  unfold pyRound
  simp only
  split_ifs <;> omega

/-- **C47** The mask has an entry for every path, and the entries 1 are the nearest to 80 percent; shuffling does not
change this. -/
theorem C47_mask (n : Nat) (mask : List Nat) (h : mask.Perm (maskBeforeShuffle n)) :
    mask.length = n ∧ (∀ b ∈ mask, b = 0 ∨ b = 1) ∧
    10 * mask.count 1 ≤ 8 * n + 5 ∧ 8 * n ≤ 10 * mask.count 1 + 5 ∧
    10 * mask.count 0 ≤ 2 * n + 5 ∧ 2 * n ≤ 10 * mask.count 0 + 5 := by
  have h1 : mask.count 1 = pyRound (4 * n) 5 := by
    rw [h.count_eq]
    simp [maskBeforeShuffle, List.count_replicate]
  have h0 : mask.count 0 = pyRound n 5 := by
    rw [h.count_eq]
    simp [maskBeforeShuffle, List.count_replicate]
  refine ⟨?_, ?_, ?_⟩
  · rw [h.length_eq]
    simp [maskBeforeShuffle, rounds]
  · intro b hb
    rw [h.mem_iff] at hb
    simp only [maskBeforeShuffle, List.mem_append, List.mem_replicate] at hb
    omega
  · rw [h1, h0]
    unfold pyRound
    simp only
    split_ifs <;> omega

example := C47_mask 7 [1, 0, 1, 1, 1, 1, 1] (by decide)

/-- The step of the loop of `splitCochains`. -/
def splitStep (mask : List Nat) (build : Nat → String → Py C) (trainOrient testOrient : String)
    (acc : List C × List C) (i : Nat) : Py (List C × List C) := do
  let b ← getAt mask i
  if b = 1 then do
    let c ← build i trainOrient
    return (acc.1 ++ [c], acc.2)
  else do
    let c ← build i testOrient
    return (acc.1, acc.2 ++ [c])

theorem splitCochains_eq (n : Nat) (mask : List Nat) (build : Nat → String → Py C) (tr te : String) :
    splitCochains n mask build tr te = (do
      pyAssert (decide (n = mask.length))
      foldE (splitStep mask build tr te) ([], []) (List.range n)) := rfl

/-- **C47** Every path gives exactly one cochain: those with mask 1 give the training cochains, with the training
orientation, the others the test cochains, with the test orientation, both in the order of the paths. -/
theorem C47_split (n : Nat) (mask : List Nat) (h : mask.Perm (maskBeforeShuffle n)) (build : Nat → String → Py C)
    (trainOrient testOrient : String) (train test : List C)
    (hrun : splitCochains n mask build trainOrient testOrient = .ok (train, test)) :
    ∃ trainIds testIds : List Nat, (trainIds ++ testIds).Perm (List.range n) ∧
      trainIds.Pairwise (· < ·) ∧ testIds.Pairwise (· < ·) ∧
      (∀ i, i ∈ trainIds ↔ mask[i]? = some 1) ∧ (∀ i, i ∈ testIds ↔ mask[i]? = some 0) ∧
      trainIds.length = mask.count 1 ∧ testIds.length = mask.count 0 ∧
      List.Forall₂ (fun i c => build i trainOrient = .ok c) trainIds train ∧
      List.Forall₂ (fun i c => build i testOrient = .ok c) testIds test := by
  obtain ⟨hlen, hbin, -⟩ := C47_mask n mask h
  rw [splitCochains_eq] at hrun
  obtain ⟨u, -, hrun⟩ := bind_eq_ok.mp hrun
  have hget : ∀ i, i < n → mask[i]? = some 1 ∨ mask[i]? = some 0 := by
    intro i hi
    have hi' : i < mask.length := by omega
    rw [List.getElem?_eq_getElem hi']
    rcases hbin _ (List.getElem_mem hi') with e | e <;> rw [e] <;> simp
  obtain ⟨f1, f2⟩ : List.Forall₂ (fun i c => build i trainOrient = .ok c)
        ((List.range n).filter fun i => mask[i]? == some 1) train ∧
      List.Forall₂ (fun i c => build i testOrient = .ok c)
        ((List.range n).filter fun i => !(mask[i]? == some 1)) test := by
    refine foldE_done (fun pre (acc : List C × List C) =>
      List.Forall₂ (fun i c => build i trainOrient = .ok c) (pre.filter fun i => mask[i]? == some 1) acc.1 ∧
      List.Forall₂ (fun i c => build i testOrient = .ok c) (pre.filter fun i => !(mask[i]? == some 1)) acc.2)
      hrun ⟨.nil, .nil⟩ ?_
    rintro pre i post acc acc' - ⟨i1, i2⟩ hs
    unfold splitStep at hs
    obtain ⟨b, hb, hs⟩ := bind_eq_ok.mp hs
    rw [getAt_eq_ok] at hb
    split at hs
    · next h1 =>
      subst h1
      obtain ⟨c, hc, hs⟩ := bind_eq_ok.mp hs
      obtain rfl := ok_inj.mp hs
      simp only [List.filter_append, List.filter_cons, List.filter_nil, hb, beq_self_eq_true, if_true, Bool.not_true,
        Bool.false_eq_true, if_false, List.append_nil]
      exact ⟨List.rel_append i1 (.cons hc .nil), i2⟩
    · next h1 =>
      obtain ⟨c, hc, hs⟩ := bind_eq_ok.mp hs
      obtain rfl := ok_inj.mp hs
      have : (some b == some 1) = false := by simpa using h1
      simp only [List.filter_append, List.filter_cons, List.filter_nil, hb, this, Bool.not_false, if_true,
        Bool.false_eq_true, if_false, List.append_nil]
      exact ⟨i1, List.rel_append i2 (.cons hc .nil)⟩
  refine ⟨_, _, List.filter_append_perm _ _, List.pairwise_lt_range.filter _, List.pairwise_lt_range.filter _, ?_, ?_,
    ?_, ?_, f1, f2⟩
  · intro i
    rw [List.mem_filter, List.mem_range, beq_iff_eq]
    constructor
    · exact fun h => h.2
    · intro h'
      have := lt_of_get h'
      exact ⟨by omega, h'⟩
  · intro i
    rw [List.mem_filter, List.mem_range, Bool.not_eq_true', beq_eq_false_iff_ne]
    constructor
    · rintro ⟨hi, hne⟩
      exact (hget i hi).resolve_left hne
    · intro h'
      have := lt_of_get h'
      exact ⟨by omega, by rw [h']; simp⟩
  · rw [← List.countP_eq_length_filter]
    exact count_positions hlen 1
  · rw [← List.countP_eq_length_filter, ← count_positions hlen 0]
    apply List.countP_congr
    intro i hi
    rw [List.mem_range] at hi
    rcases hget i hi with e | e <;> rw [e] <;> simp

/-- **C47** The split succeeds if every cochain can be built. -/
theorem C47_split_succeeds (n : Nat) (mask : List Nat) (h : mask.Perm (maskBeforeShuffle n))
    (build : Nat → String → Py C) (trainOrient testOrient : String)
    (hb : ∀ i, i < n → (∃ c, build i trainOrient = .ok c) ∧ ∃ c, build i testOrient = .ok c) :
    ∃ r, splitCochains n mask build trainOrient testOrient = .ok r := by
  obtain ⟨hlen, -⟩ := C47_mask n mask h
  rw [splitCochains_eq, hlen, decide_eq_true rfl]
  obtain ⟨r, hr, -⟩ := foldE_inv (f := splitStep mask build trainOrient testOrient) (l := List.range n)
    (s := ([], [])) (fun _ _ => True) trivial (by
      rintro pre i post acc hl -
      have hi : i < n := List.mem_range.mp (by rw [hl]; simp)
      obtain ⟨⟨c, hc⟩, c', hc'⟩ := hb i hi
      have hg : getAt mask i = .ok mask[i] := getAt_eq_ok.mpr (List.getElem?_eq_getElem (by omega))
      unfold splitStep
      rw [hg, ok_bind]
      split
      · rw [hc]
        exact ⟨_, rfl, trivial⟩
      · rw [hc']
        exact ⟨_, rfl, trivial⟩)
  exact ⟨r, hr⟩

example := C47_split_succeeds 5 [1, 0, 1, 1, 1] (by decide) (fun i o => .ok (i, o)) "default" "random"
  fun _ _ => ⟨⟨_, rfl⟩, _, rfl⟩

/-! ### C61 -/

/-- Which way one turns around `center` from `p` to `q`: positive means counterclockwise. -/
def turn [CommRing K] (center p q : K × K) : K :=
  (p.1 - center.1) * (q.2 - center.2) - (p.2 - center.2) * (q.1 - center.1)

theorem orientation_turn [CommRing K] [LinearOrder K] [IsStrictOrderedRing K] (c p q : K × K) :
    orientation c p q = if turn c p q < 0 then .ok 0 else if 0 < turn c p q then .ok 1 else .error .value := by
  have : (p.2 - c.2) * (q.1 - p.1) - (p.1 - c.1) * (q.2 - p.2) = -turn c p q := by
    unfold turn
    ring
  unfold orientation
  simp only [this, Left.neg_pos_iff, Left.neg_neg_iff]

/-- **C61** The class of a path depends on its two end points only: 0 if the way from the first to the last turns
clockwise around the centre, 1 if counterclockwise, and a `ValueError` if the three points are on a line, in
particular when the path is closed. -/
theorem C61_classes [CommRing K] [LinearOrder K] [IsStrictOrderedRing K] (path : List Nat) (coords : List (K × K))
    (center p q : K × K) (a b : Nat) (ha : path.head? = some a) (hb : path.getLast? = some b)
    (hp : coords[a]? = some p) (hq : coords[b]? = some q) :
    (extractLabel path coords center = .ok 0 ↔ turn center p q < 0) ∧
    (extractLabel path coords center = .ok 1 ↔ 0 < turn center p q) ∧
    (extractLabel path coords center = .error .value ↔ turn center p q = 0) ∧
    (a = b → extractLabel path coords center = .error .value) := by
  have he : extractLabel path coords center = orientation center p q := by
    unfold extractLabel
    rw [ha, hb]
    simp only
    rw [getAt_eq_ok.mpr hp, ok_bind, getAt_eq_ok.mpr hq, ok_bind]
  rw [he, orientation_turn]
  have hcl : a = b → turn center p q = 0 := by
    rintro rfl
    obtain rfl := Option.some.inj (hp.symm.trans hq)
    unfold turn
    ring
  rcases lt_trichotomy (turn center p q) 0 with h | h | h
  · simp only [h, if_true, h.not_gt, h.ne, ok_inj]
    refine ⟨by simp, by simp, by simp, fun e => absurd (hcl e) h.ne⟩
  · simp [h]
  · simp only [h.not_gt, h, if_true, if_false, h.ne', ok_inj]
    refine ⟨by simp, by simp, by simp, fun e => absurd (hcl e) h.ne'⟩

/-- **C61** A path without points, or one that ends at a point without coordinates, has no class: `IndexError`. -/
theorem C61_no_class [CommRing K] [LinearOrder K] [IsStrictOrderedRing K] (path : List Nat) (coords : List (K × K))
    (center : K × K) (h : ∀ b, path.getLast? = some b → coords.length ≤ b) :
    extractLabel path coords center = .error .index := by
  unfold extractLabel
  cases path with
  | nil => rfl
  | cons a l =>
    obtain ⟨b, hb⟩ : ∃ b, (a :: l).getLast? = some b := ⟨_, List.getLast?_eq_getLast_of_ne_nil (by simp)⟩
    have e : ∀ i, coords.length ≤ i → getAt coords i = .error .index := fun i hi => by
      unfold getAt
      rw [List.getElem?_eq_none hi]
    rw [hb]
    simp only [List.head?_cons]
    rw [e b (h b hb)]
    cases h' : getAt coords a with
    | ok p => rfl
    | error x =>
      have : x = .index := by
        unfold getAt at h'
        split at h' <;> cases h'
        rfl
      rw [this]
      rfl

example : extractLabel [] [((1 : ℚ), 0)] (0, 0) = .error .index ∧
    ∀ b, ([0, 7] : List Nat).getLast? = some b → [((1 : ℚ), (0 : ℚ))].length ≤ b := by
  refine ⟨by decide +kernel, fun b h => ?_⟩
  cases h
  decide

/-- From (1, 0) to (0, 1) around the origin. -/
example := C61_classes [0, 2, 1] [((1 : ℚ), 0), (0, 1), (5, 5)] (0, 0) (1, 0) (0, 1) 0 1 rfl rfl rfl rfl

/-- **C61** The reversed path has the other class. -/
theorem C61_reversed [CommRing K] [LinearOrder K] [IsStrictOrderedRing K] (path : List Nat) (coords : List (K × K))
    (center : K × K) (y : Nat) (h : extractLabel path coords center = .ok y) :
    y ≤ 1 ∧ extractLabel path.reverse coords center = .ok (1 - y) := by
  unfold extractLabel at h ⊢
  rw [List.head?_reverse, List.getLast?_reverse]
  cases ha : path.head? with
  | none => rw [ha] at h; cases h
  | some a =>
    cases hb : path.getLast? with
    | none => rw [ha, hb] at h; cases h
    | some b =>
      rw [ha, hb] at h
      simp only at h ⊢
      obtain ⟨p, hp, h⟩ := bind_eq_ok.mp h
      obtain ⟨q, hq, h⟩ := bind_eq_ok.mp h
      rw [hq, ok_bind, hp, ok_bind]
      rw [orientation_turn] at h ⊢
      have hanti : turn center q p = - turn center p q := by unfold turn; ring
      rw [hanti]
      simp only [Left.neg_pos_iff, Left.neg_neg_iff]
      rcases lt_trichotomy (turn center p q) 0 with hl | hl | hl
      · rw [if_pos hl, ok_inj] at h
        subst h
        rw [if_neg hl.not_gt, if_pos hl]
        exact ⟨by omega, rfl⟩
      · rw [hl] at h
        simp at h
      · rw [if_neg hl.not_gt, if_pos hl, ok_inj] at h
        subst h
        rw [if_pos hl]
        exact ⟨le_refl _, rfl⟩

example := C61_reversed [0, 2, 1] [((1 : ℚ), 0), (0, 1), (5, 5)] (0, 0) 1 (by decide +kernel)

theorem mapE_exists {A B : Type} {f : A → Py B} {l : List A} (h : ∀ a ∈ l, ∃ b, f a = .ok b) :
    ∃ r, mapE f l = .ok r := by
  induction l with
  | nil => exact ⟨[], rfl⟩
  | cons a l ih =>
    obtain ⟨b, hb⟩ := h a (by simp)
    obtain ⟨r, hr⟩ := ih (fun c hc => h c (by simp [hc]))
    exact ⟨b :: r, by rw [mapE_cons, hb, ok_bind, hr]; rfl⟩

theorem forall₂_mem_right {A B : Type} {R : A → B → Prop} {l : List A} {l' : List B} (h : List.Forall₂ R l l')
    {b : B} (hb : b ∈ l') : ∃ a ∈ l, R a b := by
  induction h with
  | nil => cases hb
  | @cons x y l l' hr h ih =>
    rcases List.mem_cons.mp hb with rfl | hb
    · exact ⟨x, by simp, hr⟩
    · obtain ⟨a, ha, hR⟩ := ih hb
      exact ⟨a, by simp [ha], hR⟩

/-- **C61** The paths that are used: made from the trajectories along the edges of the graph, they are never rejected,
have at least four vertices, follow edges, do not return at once, and end elsewhere than they start. -/
theorem C61_paths (edgeList : List (Nat × Nat)) (hloop : LoopFree edgeList) (trajectories : List (List Nat))
    (h : ∀ t ∈ trajectories, AlongEdges edgeList t) :
    ∃ paths, oceanPaths trajectories = .ok paths ∧
      paths.length = (trajectories.filter fun t => 5 ≤ (stripPath t).length).length ∧
      ∀ p ∈ paths, 4 ≤ p.length ∧ AlongEdges edgeList p ∧ NoReturn p ∧ p.head? ≠ p.getLast? ∧
        ∃ t ∈ trajectories, p = stripPath t ∨ (t.head? = t.getLast? ∧ ∃ v, stripPath t = p ++ [v]) := by
  have key : ∀ t ∈ trajectories, 5 ≤ (stripPath t).length → ∃ p, openPath (stripPath t) = .ok p ∧
      4 ≤ p.length ∧ AlongEdges edgeList p ∧ NoReturn p ∧ p.head? ≠ p.getLast? ∧
        (p = stripPath t ∨ (t.head? = t.getLast? ∧ ∃ v, stripPath t = p ++ [v])) := by
    intro t ht hlen
    obtain ⟨s1, s2, s3, -, s5, -⟩ := C43_stripping t
    have hfol : AlongEdges edgeList (stripPath t) := fun u v huv => h t ht u v (s3 _ huv)
    rw [← s1, ← s2]
    obtain ⟨l, v, hv⟩ : ∃ l v, stripPath t = l ++ [v] := by
      rcases List.eq_nil_or_concat (stripPath t) with e | ⟨l, v, e⟩
      · rw [e] at hlen
        simp at hlen
      · exact ⟨l, v, by rw [e, List.concat_eq_append]⟩
    rw [hv] at hlen hfol s5 ⊢
    simp only [List.length_append, List.length_singleton] at hlen
    cases l with
    | nil => simp at hlen
    | cons a l =>
      unfold openPath
      have e1 : (a :: l ++ [v]).head? = some a := rfl
      have e2 : (a :: l ++ [v]).getLast? = some v := List.getLast?_concat
      rw [e1, e2]
      simp only
      by_cases hav : v = a
      · subst hav
        refine ⟨v :: l, by rw [if_neg (by simp), List.dropLast_concat], by omega, ?_, ?_, ?_, .inr ⟨rfl, v, rfl⟩⟩
        · intro x y hxy
          apply hfol
          obtain ⟨w, hw⟩ : ∃ w, (v :: l).getLast? = some w := ⟨_, List.getLast?_cons⟩
          rw [moves_push v hw]
          exact List.mem_append_left _ hxy
        · exact fun pre x y z post e => s5 pre x y z (post ++ [v]) (by rw [e]; simp)
        · intro e
          obtain ⟨w, hw⟩ : ∃ w, (v :: l).getLast? = some w := ⟨_, List.getLast?_cons⟩
          rw [hw] at e
          simp only [List.head?_cons, Option.some.injEq] at e
          subst e
          have hmv : (v, v) ∈ moves (v :: l ++ [v]) := by
            rw [moves_push v hw]
            simp
          rcases hfol v v hmv with h' | h' <;> exact hloop _ h' rfl
      · refine ⟨a :: l ++ [v], by simp [hav], by simp at hlen ⊢; omega, hfol, s5, ?_, .inl rfl⟩
        rw [e1, e2]
        simpa using fun e => hav e.symm
  unfold oceanPaths
  rw [List.filter_map]
  have hex := mapE_exists (f := openPath) (l := ((trajectories.filter
      ((fun path => decide (5 ≤ path.length)) ∘ stripPath)).map stripPath)) (by
    intro s hs
    obtain ⟨t, ht, rfl⟩ := List.mem_map.mp hs
    rw [List.mem_filter] at ht
    obtain ⟨p, hp, -⟩ := key t ht.1 (by simpa using ht.2)
    exact ⟨p, hp⟩)
  obtain ⟨paths, hpaths⟩ := hex
  have hfa := mapE_eq_ok_iff.mp hpaths
  refine ⟨paths, hpaths, ?_, ?_⟩
  · rw [mapE_length hpaths, List.length_map]
    rfl
  · intro p hp
    obtain ⟨s, hs, hop⟩ := forall₂_mem_right hfa hp
    obtain ⟨t, ht, rfl⟩ := List.mem_map.mp hs
    rw [List.mem_filter] at ht
    obtain ⟨p', hp', h1, h2, h3, h4, h5⟩ := key t ht.1 (by simpa using ht.2)
    rw [hop, ok_inj] at hp'
    subst hp'
    exact ⟨h1, h2, h3, h4, t, ht.1, h5⟩

/-! ### Examples -/

example : maskBeforeShuffle 7 = [1, 1, 1, 1, 1, 1, 0] ∧ maskBeforeShuffle 8 = [1, 1, 1, 1, 1, 1, 0, 0] := by decide

example : splitCochains 5 [1, 0, 1, 1, 1] (fun i o => .ok (i, o)) "default" "random" =
    .ok ([(0, "default"), (2, "default"), (3, "default"), (4, "default")], [(1, "random")]) := by
  decide +kernel

/-- The label of a path and of the path back, around the origin, and of a path past the centre. -/
example : extractLabel [0, 2, 1] [((1 : Int), 0), (0, 1), (5, 5)] (0, 0) = .ok 1 ∧
    extractLabel [1, 2, 0] [((1 : Int), 0), (0, 1), (5, 5)] (0, 0) = .ok 0 ∧
    extractLabel [0, 1] [((1 : Int), 0), (-1, 0)] (0, 0) = .error .value := by
  decide

/-- A closed trajectory loses its last vertex, a short one is dropped, a third one is stripped. -/
example : oceanPaths [[0, 1, 3, 4, 2, 0], [0, 1, 0, 1, 2, 3], [5, 0, 5, 0, 1, 3, 4, 2]] =
    .ok [[0, 1, 3, 4, 2], [5, 0, 1, 3, 4, 2]] := by
  decide +kernel

end Verif
