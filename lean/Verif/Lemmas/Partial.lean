import Verif.Spec.Partial
import Verif.Lemmas.EmbedBatch
import Verif.Props.Dummies

/-!
# Intermediate results: lemmas
-/

namespace Verif

variable {R L : Type}

/-! ### Dictionaries -/

theorem lookup_append' {A : Type} (l l' : Results A) (key : ResultKey) :
    (l ++ l').lookup key = (l.lookup key).or (l'.lookup key) := by
  induction l with
  | nil => simp
  | cons p l ih =>
    rw [List.cons_append, List.lookup_cons, List.lookup_cons]
    by_cases h : key = p.1
    · simp [h]
    · have : (key == p.1) = false := by simpa using h
      rw [this]
      exact ih

theorem lookup_map_snd {A B : Type} (f : ResultKey × A → B) (l : Results A) (key : ResultKey) :
    (l.map fun q => (q.1, f q)).lookup key = (l.lookup key).map fun a => f (key, a) := by
  induction l with
  | nil => rfl
  | cons p l ih =>
    rw [List.map_cons, List.lookup_cons, List.lookup_cons]
    by_cases h : key = p.1
    · simp [h]
    · have : (key == p.1) = false := by simpa using h
      simp only [this]
      exact ih

theorem lookup_isSome {A : Type} (l : Results A) (key : ResultKey) :
    (l.lookup key).isSome ↔ key ∈ l.map Prod.fst := by
  induction l with
  | nil => simp
  | cons p l ih =>
    rw [List.lookup_cons]
    by_cases h : key = p.1
    · simp [h]
    · have : (key == p.1) = false := by simpa using h
      simp only [this, List.map_cons, List.mem_cons, h, false_or]
      exact ih

theorem lookup_addResult {A : Type} (acc : Results (List A)) (p : ResultKey × A) (key : ResultKey) :
    (addResult acc p).lookup key =
      if key = p.1 then some ((acc.lookup key).getD [] ++ [p.2]) else acc.lookup key := by
  unfold addResult
  cases h : acc.lookup p.1 with
  | none =>
    dsimp only
    rw [lookup_append', List.lookup_cons]
    by_cases hk : key = p.1
    · rw [hk, h]; simp
    · have : (key == p.1) = false := by simpa using hk
      simp [this, hk]
  | some v =>
    dsimp only
    have : (acc.map fun q : ResultKey × List A => if q.1 = p.1 then (q.1, q.2 ++ [p.2]) else q) =
        acc.map fun q => (q.1, if q.1 = p.1 then q.2 ++ [p.2] else q.2) := by
      apply List.map_congr_left
      intro q _
      split_ifs <;> rfl
    rw [this, lookup_map_snd (fun q : ResultKey × List A => if q.1 = p.1 then q.2 ++ [p.2] else q.2)]
    by_cases hk : key = p.1
    · rw [hk, h]; simp
    · simp [hk]

theorem lookup_none_of_notMem {A : Type} {l : Results A} {key : ResultKey} (h : key ∉ l.map Prod.fst) :
    l.lookup key = none := by
  cases e : l.lookup key with
  | none => rfl
  | some a => exact absurd ((lookup_isSome l key).mp (by rw [e]; rfl)) h

theorem lookup_fold {A : Type} (r : Results A) (hr : (r.map Prod.fst).Nodup) (acc : Results (List A)) (key : ResultKey) :
    (r.foldl addResult acc).lookup key =
      match r.lookup key with
      | none => acc.lookup key
      | some v => some ((acc.lookup key).getD [] ++ [v]) := by
  induction r generalizing acc with
  | nil => rfl
  | cons p r ih =>
    rw [List.map_cons, List.nodup_cons] at hr
    rw [List.foldl_cons, ih hr.2, List.lookup_cons]
    by_cases hk : key = p.1
    · subst hk
      rw [lookup_none_of_notMem hr.1]
      simp [lookup_addResult]
    · have : (key == p.1) = false := by simpa using hk
      simp only [this, lookup_addResult, if_neg hk]

theorem lookup_collect_from {A : Type} (rs : List (Results A)) (hr : ∀ r ∈ rs, (r.map Prod.fst).Nodup)
    (acc : Results (List A)) (key : ResultKey) :
    (rs.foldl (fun acc r => r.foldl addResult acc) acc).lookup key =
      match rs.filterMap (List.lookup key) with
      | [] => acc.lookup key
      | v :: vs => some ((acc.lookup key).getD [] ++ v :: vs) := by
  induction rs generalizing acc with
  | nil => rfl
  | cons r rs ih =>
    rw [List.foldl_cons, ih (fun r h => hr r (by simp [h])), lookup_fold r (hr r (by simp))]
    cases h : r.lookup key with
    | none =>
      rw [List.filterMap_cons_none h]
    | some v =>
      rw [List.filterMap_cons_some h]
      cases rs.filterMap (List.lookup key) with
      | nil => rfl
      | cons w ws => simp

theorem lookup_collect {A : Type} (rs : List (Results A)) (hr : ∀ r ∈ rs, (r.map Prod.fst).Nodup) (key : ResultKey) :
    (collectResults rs).lookup key =
      match rs.filterMap (List.lookup key) with
      | [] => none
      | v :: vs => some (v :: vs) := by
  unfold collectResults
  rw [lookup_collect_from rs hr]
  rfl

theorem addResult_ne {A : Type} {acc : Results (List A)} (h : ∀ p ∈ acc, p.2 ≠ []) (p : ResultKey × A) :
    ∀ q ∈ addResult acc p, q.2 ≠ [] := by
  intro q hq
  unfold addResult at hq
  split at hq
  · rw [List.mem_append, List.mem_singleton] at hq
    rcases hq with hq | rfl
    · exact h q hq
    · simp
  · obtain ⟨q', hq', rfl⟩ := List.mem_map.mp hq
    split_ifs
    · simp
    · exact h q' hq'

theorem collect_ne {A : Type} (rs : List (Results A)) : ∀ p ∈ collectResults rs, p.2 ≠ [] := by
  have key : ∀ (r : Results A) (acc : Results (List A)), (∀ p ∈ acc, p.2 ≠ []) →
      ∀ p ∈ r.foldl addResult acc, p.2 ≠ [] := by
    intro r
    induction r with
    | nil => intro acc h; exact h
    | cons p r ih => intro acc h; exact ih _ (addResult_ne h p)
  have all : ∀ (rs : List (Results A)) (acc : Results (List A)), (∀ p ∈ acc, p.2 ≠ []) →
      ∀ p ∈ rs.foldl (fun acc r => r.foldl addResult acc) acc, p.2 ≠ [] := by
    intro rs
    induction rs with
    | nil => intro acc h; exact h
    | cons r rs ih => intro acc h; exact ih _ (key r acc h)
  exact all rs [] (by simp)

/-- What the tests make of the results: for each key the rows one after the other. -/
theorem catResults_collect (rs : List (Results (List R))) (hr : ∀ r ∈ rs, (r.map Prod.fst).Nodup) :
    ∃ res, catResults (collectResults rs) = .ok res ∧ ∀ key, res.lookup key =
      if rs.filterMap (List.lookup key) = [] then none else some (rs.filterMap (List.lookup key)).flatten := by
  refine ⟨(collectResults rs).map fun p => (p.1, p.2.flatten), ?_, fun key => ?_⟩
  · unfold catResults
    rw [mapE_ok]
    intro p hp
    unfold catRows
    rw [if_neg (collect_ne rs p hp)]
    rfl
  · rw [lookup_map_snd (fun p : ResultKey × List (List R) => p.2.flatten), lookup_collect rs hr]
    cases rs.filterMap (List.lookup key) with
    | nil => rfl
    | cons v vs => rfl

theorem compareResults_ok [DecidableEq R] {u v : Results (List R)} (h : ∀ key, u.lookup key = v.lookup key) :
    compareResults u v = .ok () := by
  unfold compareResults
  rw [mapE_ok (g := fun _ => ())]
  · rfl
  · intro key hk
    have hs : (u.lookup key).isSome := by
      rw [List.mem_append] at hk
      rcases hk with hk | hk
      · exact (lookup_isSome u key).mpr hk
      · rw [h]; exact (lookup_isSome v key).mpr hk
    obtain ⟨a, ha⟩ := Option.isSome_iff_exists.mp hs
    unfold getResult
    rw [← h, ha]
    simp [pyAssert, ok_bind]

/-! ### Results of the parts of a list -/

/-- The results of a function of lists, given by those of the members. -/
structure Blocks {C : Type} (f : List C → Py (List R × Results (List R))) (cs : List C) (pred : C → R)
    (has : ResultKey → C → Prop) (rows : ResultKey → C → List R) : Prop where
  empty : ∀ key, ∀ c ∈ cs, ¬ has key c → rows key c = []
  run : ∀ ds : List C, ds ≠ [] → (∀ d ∈ ds, d ∈ cs) → ∃ res, f ds = .ok (ds.map pred, res) ∧ (res.map Prod.fst).Nodup ∧
    ∀ key, ((∃ c ∈ ds, has key c) → res.lookup key = some (ds.flatMap (rows key))) ∧
      ((∀ c ∈ ds, ¬ has key c) → res.lookup key = none)

/-- What the results of the parts of a list have in common. -/
structure PartOf {C : Type} (has : ResultKey → C → Prop) (rows : ResultKey → C → List R) (ds : List C)
    (r : Results (List R)) : Prop where
  nodup : (r.map Prod.fst).Nodup
  some : ∀ key, (∃ c ∈ ds, has key c) → r.lookup key = some (ds.flatMap (rows key))
  none : ∀ key, (∀ c ∈ ds, ¬ has key c) → r.lookup key = none

theorem parts_lookup {C : Type} {has : ResultKey → C → Prop} {rows : ResultKey → C → List R} {parts : List (List C)}
    {rs : List (Results (List R))} (h : List.Forall₂ (PartOf has rows) parts rs) (key : ResultKey)
    (he : ∀ c ∈ parts.flatten, ¬ has key c → rows key c = []) :
    (rs.filterMap (List.lookup key) = [] ↔ ∀ c ∈ parts.flatten, ¬ has key c) ∧
    (rs.filterMap (List.lookup key)).flatten = parts.flatten.flatMap (rows key) := by
  induction h with
  | nil => simp
  | @cons ds r parts rs hd _ ih =>
    obtain ⟨i1, i2⟩ := ih fun c hc => he c (by rw [List.flatten_cons]; exact List.mem_append_right _ hc)
    rw [List.flatten_cons, List.flatMap_append]
    by_cases hex : ∃ c ∈ ds, has key c
    · rw [List.filterMap_cons_some (hd.some key hex), List.flatten_cons, i2]
      refine ⟨⟨fun h => absurd h (by simp), fun h => ?_⟩, rfl⟩
      obtain ⟨c, hc, hk⟩ := hex
      exact absurd hk (h c (List.mem_append_left _ hc))
    · push Not at hex
      rw [List.filterMap_cons_none (hd.none key hex), i1, i2]
      refine ⟨⟨fun h c hc => ?_, fun h c hc => h c (List.mem_append_right _ hc)⟩, ?_⟩
      · rcases List.mem_append.mp hc with hc | hc
        · exact hex c hc
        · exact h c hc
      · have : ds.flatMap (rows key) = [] := by
          rw [List.flatMap_eq_nil_iff]
          intro c hc
          exact he c (by rw [List.flatten_cons]; exact List.mem_append_left _ hc) (hex c hc)
        rw [this, List.nil_append]

theorem mapE_two {A B C : Type} {f : A → Py B} {g : B → Py C} {q : A → C → Prop} {l : List A}
    (h : ∀ a ∈ l, ∃ c, (f a >>= g) = .ok c ∧ q a c) :
    ∃ bs cs, mapE f l = .ok bs ∧ mapE g bs = .ok cs ∧ List.Forall₂ q l cs := by
  induction l with
  | nil => exact ⟨[], [], rfl, rfl, .nil⟩
  | cons a l ih =>
    obtain ⟨bs, cs, h1, h2, h3⟩ := ih fun a ha => h a (by simp [ha])
    obtain ⟨c, hc, hq⟩ := h a (by simp)
    obtain ⟨b, hb, hc⟩ := bind_eq_ok.mp hc
    refine ⟨b :: bs, c :: cs, ?_, ?_, .cons hq h3⟩
    · rw [mapE_cons, hb, ok_bind, h1]; rfl
    · rw [mapE_cons, hc, ok_bind, h2]; rfl

theorem mapE_one {A B : Type} {f : A → Py B} {q : A → B → Prop} {l : List A} (h : ∀ a ∈ l, ∃ b, f a = .ok b ∧ q a b) :
    ∃ bs, mapE f l = .ok bs ∧ List.Forall₂ q l bs := by
  induction l with
  | nil => exact ⟨[], rfl, .nil⟩
  | cons a l ih =>
    obtain ⟨bs, h1, h2⟩ := ih fun a ha => h a (by simp [ha])
    obtain ⟨b, hb, hq⟩ := h a (by simp)
    exact ⟨b :: bs, by rw [mapE_cons, hb, ok_bind, h1]; rfl, .cons hq h2⟩

theorem Blocks.part {C : Type} {f : List C → Py (List R × Results (List R))} {cs : List C} {pred : C → R}
    {has : ResultKey → C → Prop} {rows : ResultKey → C → List R} (h : Blocks f cs pred has rows) {ds : List C} (hne : ds ≠ [])
    (hs : ∀ d ∈ ds, d ∈ cs) : ∃ r, f ds = .ok r ∧ r.1 = ds.map pred ∧ PartOf has rows ds r.2 := by
  obtain ⟨res, h1, h2, h3⟩ := h.run ds hne hs
  exact ⟨_, h1, rfl, h2, fun key => (h3 key).1, fun key => (h3 key).2⟩

/-- The tests pass if the results are given by those of the members. -/
theorem partialTest_ok [DecidableEq R] {forward : Complex R L → Py (List R × Results (List R))}
    {prepare : Complex R L → Complex R L} {m : Nat} {cs : List (Complex R L)} {pred : Complex R L → R}
    {has : ResultKey → Complex R L → Prop} {rows : ResultKey → Complex R L → List R}
    (h : Blocks (fun ds => fromComplexList ds m >>= fun batch => forward (prepare batch)) cs pred has rows) {b : Nat}
    (hb : 0 < b) : partialTest forward prepare b m cs = .ok () := by
  obtain ⟨c1, c2, -, -⟩ := chunks_spec hb cs
  have hsub : ∀ p ∈ chunks b cs, ∀ c ∈ p, c ∈ cs := by
    intro p hp c hc
    rw [← c1]
    exact List.mem_flatten.mpr ⟨p, hp, hc⟩
  obtain ⟨bs, outs, e1, e2, e3⟩ := mapE_two (f := fun part => fromComplexList part m)
    (g := fun batch => forward (prepare batch)) (q := fun ds (r : List R × Results (List R)) => PartOf has rows ds r.2)
    (l := chunks b cs) fun p hp => by
      obtain ⟨r, h1, -, h3⟩ := h.part (c2 p hp).1 (hsub p hp)
      exact ⟨r, h1, h3⟩
  obtain ⟨singles, e4, e5⟩ := mapE_one (f := fun comp => fromComplexList [comp] m >>= fun batch => forward (prepare batch))
    (q := fun c (r : List R × Results (List R)) => PartOf has rows [c] r.2) (l := cs) fun c hc => by
      obtain ⟨r, h1, -, h3⟩ := h.part (ds := [c]) (by simp) (by simpa using hc)
      exact ⟨r, h1, h3⟩
  have p1 : List.Forall₂ (PartOf has rows) (chunks b cs) (outs.map Prod.snd) := List.forall₂_map_right_iff.mpr e3
  have p2 : List.Forall₂ (PartOf has rows) (cs.map fun c => [c]) (singles.map Prod.snd) := by
    rw [List.forall₂_map_left_iff, List.forall₂_map_right_iff]
    exact e5
  have n1 : ∀ r ∈ outs.map Prod.snd, (r.map Prod.fst).Nodup := by
    intro r hr
    obtain ⟨ds, -, h⟩ := forall₂_source p1 hr
    exact h.nodup
  have n2 : ∀ r ∈ singles.map Prod.snd, (r.map Prod.fst).Nodup := by
    intro r hr
    obtain ⟨ds, -, h⟩ := forall₂_source p2 hr
    exact h.nodup
  obtain ⟨r1, q1, l1⟩ := catResults_collect _ n1
  obtain ⟨r2, q2, l2⟩ := catResults_collect _ n2
  have hflat : (cs.map fun c => [c]).flatten = cs := by
    clear * -
    induction cs with
    | nil => rfl
    | cons c cs ih => rw [List.map_cons, List.flatten_cons, ih]; rfl
  unfold partialTest
  rw [if_neg (by omega), e1, ok_bind, e2, ok_bind, q1, ok_bind, e4, ok_bind, q2, ok_bind]
  apply compareResults_ok
  intro key
  obtain ⟨a1, a2⟩ := parts_lookup p1 key (by rw [c1]; exact h.empty key)
  obtain ⟨b1, b2⟩ := parts_lookup p2 key (by rw [hflat]; exact h.empty key)
  rw [c1] at a1 a2
  rw [hflat] at b1 b2
  rw [l1, l2, a2, b2]
  congr 1
  rw [a1, b1]

/-- The results of a list are put together from those of its members. -/
theorem Blocks.putTogether {C : Type} {f : List C → Py (List R × Results (List R))} {cs : List C} {pred : C → R}
    {has : ResultKey → C → Prop} {rows : ResultKey → C → List R} (h : Blocks f cs pred has rows) (hne : cs ≠ []) :
    PutTogether f cs := by
  obtain ⟨r, h1, h2, h3⟩ := h.part hne fun _ h => h
  have : ∃ singles : List (List R × Results (List R)), List.Forall₂ (fun c s => f [c] = .ok s ∧ s.1 = [pred c] ∧
      PartOf has rows [c] s.2) cs singles := by
    obtain ⟨singles, -, e⟩ := mapE_one (f := fun c => f [c])
      (q := fun c s => f [c] = .ok s ∧ s.1 = [pred c] ∧ PartOf has rows [c] s.2) (l := cs) fun c hc => by
        obtain ⟨r, h1, h2, h3⟩ := h.part (ds := [c]) (by simp) (by simpa using hc)
        exact ⟨r, h1, h1, h2, h3⟩
    exact ⟨singles, e⟩
  obtain ⟨singles, e⟩ := this
  refine ⟨r.1, r.2, singles, h1, e.imp fun _ _ h => h.1, ?_, h3.nodup, fun key => ⟨fun hk => ?_, fun hk => ?_⟩⟩
  · rw [h2]
    clear * - e
    induction e with
    | nil => rfl
    | cons h _ ih => rw [List.map_cons, List.flatMap_cons, h.2.1, ih]; rfl
  · refine h3.none key fun c hc hh => ?_
    obtain ⟨s, hs, hcs⟩ := forall₂_mem e hc
    have := hcs.2.2.some key ⟨c, by simp, hh⟩
    rw [hk s hs] at this
    cases this
  · obtain ⟨s, hs, hsk⟩ := hk
    obtain ⟨c, hc, hcs⟩ := forall₂_source e hs
    have hh : has key c := by
      by_contra hh
      exact hsk (hcs.2.2.none key (by simpa using hh))
    rw [h3.some key ⟨c, hc, hh⟩]
    congr 1
    have hemp := h.empty key
    clear * - e hemp
    induction e with
    | nil => rfl
    | @cons c s cs ss h _ ih =>
      rw [List.flatMap_cons, List.flatMap_cons, ih fun c hc => hemp c (by simp [hc])]
      congr 1
      by_cases hh : has key c
      · rw [h.2.2.some key ⟨c, by simp, hh⟩]
        simp
      · rw [h.2.2.none key (by simpa using hh), hemp c (by simp) hh]
        rfl

/-! ### The keys of the results of a network -/

theorem rowsOf_lookup (key : Nat → ResultKey) (hk : Function.Injective key) (xs : List (List R)) (s k : Nat) :
    ((xs.zipIdx s).map fun q => (key q.2, q.1)).lookup (key k) = if s ≤ k then xs[k - s]? else none := by
  induction xs generalizing s with
  | nil => simp
  | cons x xs ih =>
    rw [List.zipIdx_cons, List.map_cons, List.lookup_cons]
    by_cases h : k = s
    · simp [h]
    · have : (key k == key s) = false := by simpa using fun e => h (hk e)
      simp only [this]
      rw [ih]
      by_cases hle : s + 1 ≤ k
      · rw [if_pos hle, if_pos (by omega), show k - s = (k - (s + 1)) + 1 by omega, List.getElem?_cons_succ]
      · rw [if_neg hle, if_neg (by omega)]

theorem lookup_other {A : Type} {l : Results A} {key : ResultKey} (h : ∀ p ∈ l, p.1 ≠ key) : l.lookup key = none :=
  lookup_none_of_notMem fun hk => by
    obtain ⟨p, hp, rfl⟩ := List.mem_map.mp hk
    exact h p hp rfl

theorem layerResults_lookup (outs : List (List (List R))) (s c k : Nat) :
    ((outs.zipIdx s).flatMap fun p => p.1.zipIdx.map fun q => (ResultKey.layer p.2 q.2, q.1)).lookup (.layer c k) =
      if s ≤ c then (outs[c - s]?).bind fun xs => xs[k]? else none := by
  induction outs generalizing s with
  | nil => simp
  | cons xs outs ih =>
    rw [List.zipIdx_cons, List.flatMap_cons, lookup_append', ih]
    by_cases h : c = s
    · subst h
      have := rowsOf_lookup (fun k => ResultKey.layer c k) (fun a b e => by cases e; rfl) xs 0 k
      rw [if_pos (Nat.zero_le _)] at this
      dsimp only
      rw [this, if_neg (by omega), if_pos le_rfl]
      simp
    · rw [lookup_other (key := .layer c k), Option.none_or]
      · by_cases hle : s + 1 ≤ c
        · rw [if_pos hle, if_pos (by omega), show c - s = (c - (s + 1)) + 1 by omega, List.getElem?_cons_succ]
        · rw [if_neg hle, if_neg (by omega)]
      · intro p hp e
        obtain ⟨q, -, rfl⟩ := List.mem_map.mp hp
        cases e
        exact h rfl

theorem layerResults_mem {outs : List (List (List R))} {s : Nat} {p : ResultKey × List R}
    (hp : p ∈ (outs.zipIdx s).flatMap fun p => p.1.zipIdx.map fun q => (ResultKey.layer p.2 q.2, q.1)) :
    ∃ c k, s ≤ c ∧ p.1 = .layer c k := by
  obtain ⟨⟨xs, c⟩, h1, h2⟩ := List.mem_flatMap.mp hp
  obtain ⟨q, -, rfl⟩ := List.mem_map.mp h2
  exact ⟨c, q.2, (List.mk_mem_zipIdx_iff_le_and_getElem?_sub.mp h1).1, rfl⟩

theorem rowsOf_nodup (key : Nat → ResultKey) (hk : Function.Injective key) (xs : List (List R)) (s : Nat) :
    (((xs.zipIdx s).map fun q => (key q.2, q.1)).map Prod.fst).Nodup := by
  rw [List.map_map]
  have : ((xs.zipIdx s).map (Prod.fst ∘ fun q : List R × Nat => (key q.2, q.1))) = (List.range' s xs.length).map key := by
    rw [← List.zipIdx_map_snd s xs, List.map_map]
    rfl
  rw [this]
  exact (List.nodup_range').map hk

theorem layerResults_nodup (outs : List (List (List R))) (s : Nat) :
    (((outs.zipIdx s).flatMap fun p => p.1.zipIdx.map fun q => (ResultKey.layer p.2 q.2, q.1)).map Prod.fst).Nodup := by
  induction outs generalizing s with
  | nil => simp
  | cons xs outs ih =>
    rw [List.zipIdx_cons, List.flatMap_cons, List.map_append, List.nodup_append]
    refine ⟨rowsOf_nodup (fun k => ResultKey.layer s k) (fun a b e => by cases e; rfl) xs 0, ih (s + 1), ?_⟩
    intro a ha b hb e
    subst e
    obtain ⟨p, hp, rfl⟩ := List.mem_map.mp ha
    obtain ⟨q, -, rfl⟩ := List.mem_map.mp hp
    obtain ⟨p, hp', e⟩ := List.mem_map.mp hb
    obtain ⟨c, k, hc, hk⟩ := layerResults_mem hp'
    rw [hk] at e
    simp only [ResultKey.layer.injEq] at e
    omega

theorem poolResults_mem {sel : List (List R)} {p : ResultKey × List R} (hp : p ∈ poolResults sel) : ∃ k, p.1 = .pool k := by
  obtain ⟨q, -, rfl⟩ := List.mem_map.mp hp
  exact ⟨q.2, rfl⟩

/-- All the results of a network. -/
theorem results_lookup (outs : List (List (List R))) (sel : List (List R)) (x : List R) :
    ((layerResults outs ++ poolResults sel ++ [(ResultKey.out, x)]).map Prod.fst).Nodup ∧
    (∀ c k, (layerResults outs ++ poolResults sel ++ [(ResultKey.out, x)]).lookup (ResultKey.layer c k) =
      (outs[c]?).bind fun xs => xs[k]?) ∧
    (∀ k, (layerResults outs ++ poolResults sel ++ [(ResultKey.out, x)]).lookup (ResultKey.pool k) = sel[k]?) ∧
    (layerResults outs ++ poolResults sel ++ [(ResultKey.out, x)]).lookup ResultKey.out = some x := by
  have hl : ∀ p ∈ layerResults outs, ∃ c k, p.1 = .layer c k := by
    intro p hp
    obtain ⟨c, k, -, h⟩ := layerResults_mem (s := 0) hp
    exact ⟨c, k, h⟩
  refine ⟨?_, fun c k => ?_, fun k => ?_, ?_⟩
  · rw [List.map_append, List.map_append, List.nodup_append, List.nodup_append]
    refine ⟨⟨layerResults_nodup outs 0, rowsOf_nodup (fun k => ResultKey.pool k) (fun a b e => by cases e; rfl) sel 0, ?_⟩,
      by simp, ?_⟩
    · intro a ha b hb e
      subst e
      obtain ⟨p, hp, rfl⟩ := List.mem_map.mp ha
      obtain ⟨q, hq, e⟩ := List.mem_map.mp hb
      obtain ⟨c, k, h1⟩ := hl p hp
      obtain ⟨j, h2⟩ := poolResults_mem hq
      rw [h1, h2] at e
      cases e
    · intro a ha b hb e
      subst e
      rw [List.map_singleton, List.mem_singleton] at hb
      subst hb
      rw [List.mem_append] at ha
      rcases ha with ha | ha
      · obtain ⟨p, hp, e⟩ := List.mem_map.mp ha
        obtain ⟨c, k, h1⟩ := hl p hp
        rw [h1] at e
        cases e
      · obtain ⟨p, hp, e⟩ := List.mem_map.mp ha
        obtain ⟨j, h2⟩ := poolResults_mem hp
        rw [h2] at e
        cases e
  · have := layerResults_lookup outs 0 c k
    rw [if_pos (Nat.zero_le _)] at this
    rw [lookup_append', lookup_append']
    unfold layerResults
    rw [this, lookup_other (l := poolResults sel), lookup_other (l := [(ResultKey.out, x)]), Option.or_none, Option.or_none]
    · rfl
    · intro p hp e
      rw [List.mem_singleton] at hp
      subst hp
      cases e
    · intro p hp e
      obtain ⟨j, h2⟩ := poolResults_mem hp
      rw [h2] at e
      cases e
  · have := rowsOf_lookup (fun k => ResultKey.pool k) (fun a b e => by cases e; rfl) sel 0 k
    rw [if_pos (Nat.zero_le _)] at this
    rw [lookup_append', lookup_append', lookup_other (l := layerResults outs), Option.none_or]
    · unfold poolResults
      rw [this, lookup_other (l := [(ResultKey.out, x)]), Option.or_none]
      · rfl
      · intro p hp e
        rw [List.mem_singleton] at hp
        subst hp
        cases e
    · intro p hp e
      obtain ⟨c, k, h1⟩ := hl p hp
      rw [h1] at e
      cases e
  · rw [lookup_append', lookup_append', lookup_other (l := layerResults outs), lookup_other (l := poolResults sel)]
    · rfl
    · intro p hp e
      obtain ⟨j, h2⟩ := poolResults_mem hp
      rw [h2] at e
      cases e
    · intro p hp e
      obtain ⟨c, k, h1⟩ := hl p hp
      rw [h1] at e
      cases e

end Verif
