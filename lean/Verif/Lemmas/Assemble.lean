import Verif.Lemmas.Lists
import Verif.Lemmas.Complex
import Verif.Spec.Lifting

/-!
# Adjacencies and cochains built from tables of cells

The part of the liftings shared by simplices and rings (data/utils.py:103-138, 177-221).
-/

namespace Verif

variable {F L A B : Type}

/-! ### Lists with the number of their origin -/

/-- The items `g` gives for the members of a list, each with the place of the member. -/
def tagged (l : List A) (g : A → List B) : List (B × Nat) :=
  l.zipIdx.flatMap fun ci => (g ci.1).map fun b => (b, ci.2)

theorem mem_tagged {l : List A} {g : A → List B} {b : B} {i : Nat} :
    (b, i) ∈ tagged l g ↔ ∃ c, l[i]? = some c ∧ b ∈ g c := by
  unfold tagged
  rw [List.mem_flatMap]
  constructor
  · rintro ⟨⟨c, j⟩, hc, hb⟩
    obtain ⟨b', hb', e⟩ := List.mem_map.mp hb
    injection e with e1 e2
    subst e1 e2
    exact ⟨c, List.mem_zipIdx_iff_getElem?.mp hc, hb'⟩
  · rintro ⟨c, hc, hb⟩
    exact ⟨(c, i), List.mem_zipIdx_iff_getElem?.mpr hc, List.mem_map.mpr ⟨b, hb, rfl⟩⟩

theorem nodup_tagged {l : List A} {g : A → List B} (h : ∀ c ∈ l, (g c).Nodup) : (tagged l g).Nodup := by
  unfold tagged
  rw [List.nodup_flatMap]
  refine ⟨?_, ?_⟩
  · rintro ⟨c, i⟩ hc
    refine (h c (List.mem_of_getElem? (List.mem_zipIdx_iff_getElem?.mp hc))).map ?_
    intro a b e
    exact (Prod.mk.inj e).1
  · have : (l.zipIdx.map Prod.snd).Nodup := by
      rw [List.zipIdx_map_snd]
      exact List.nodup_range'
    rw [List.Nodup, List.pairwise_map] at this
    refine this.imp ?_
    rintro ⟨c, i⟩ ⟨c', i'⟩ hne ⟨b, j⟩ h1 h2
    obtain ⟨_, _, e⟩ := List.mem_map.mp h1
    obtain ⟨_, _, e'⟩ := List.mem_map.mp h2
    injection e with e1 e2
    injection e' with e3 e4
    exact hne (e2.trans e4.symm)

theorem tagged_nil (g : A → List B) : tagged [] g = [] := rfl

theorem tagged_map {C : Type} (l : List A) (f : A → C) (g : C → List B) :
    tagged (l.map f) g = tagged l fun a => g (f a) := by
  unfold tagged
  rw [List.zipIdx_map, List.flatMap_map]
  rfl

theorem idxOf_iff [DecidableEq A] {l : List A} (h : l.Nodup) {s : A} (hs : s ∈ l) {i : Nat} :
    placeOf l s = i ↔ l[i]? = some s := by
  unfold placeOf
  constructor
  · rintro rfl
    rw [List.getElem?_eq_getElem (List.idxOf_lt_length_of_mem hs), List.getElem_idxOf]
  · intro hi
    obtain ⟨hlt, e⟩ := List.getElem?_eq_some_iff.mp hi
    rw [← e]
    exact h.idxOf_getElem i hlt

theorem idxOf_inj_on [DecidableEq A] {l : List A} {s t : A} (hs : s ∈ l) (h : placeOf l s = placeOf l t) :
    s = t := (List.idxOf_inj hs).mp h

theorem zip_fst_snd (l : List (A × B)) : (l.map Prod.fst).zip (l.map Prod.snd) = l := by
  induction l with
  | nil => rfl
  | cons p l ih => simp [ih]

@[simp] theorem nonempty_getD (l : List A) : (nonempty l).getD [] = l := by
  unfold nonempty
  cases l <;> simp

theorem nonempty_isNone {l : List A} : (nonempty l).isNone = true ↔ l = [] := by
  unfold nonempty
  cases l <;> simp

theorem nonempty_isSome_map (l : List (A × B)) :
    (nonempty (l.map Prod.fst)).isSome = (nonempty (l.map Prod.snd)).isSome := by
  cases l <;> simp [nonempty]

theorem nonempty_nil : nonempty ([] : List A) = none := rfl

/-! ### Pairs of ids -/

/-- The ids in `l` of all pairs of different places of `cells`, both ways round. -/
def pairIds [DecidableEq A] (l cells : List A) : List (Nat × Nat) :=
  (bothWays cells).map fun p => (placeOf l p.1, placeOf l p.2)

theorem nodup_pairIds [DecidableEq A] {l cells : List A} (hc : cells.Nodup) (h : ∀ c ∈ cells, c ∈ l) :
    (pairIds l cells).Nodup := by
  refine List.Nodup.map_on ?_ (nodup_bothWays hc)
  rintro ⟨a, b⟩ hp ⟨a', b'⟩ hq e
  have h1 := (mem_bothWays hc).mp hp
  injection e with e1 e2
  exact Prod.ext (idxOf_inj_on (h _ h1.1) e1) (idxOf_inj_on (h _ h1.2.1) e2)

theorem mem_pairIds [DecidableEq A] {l cells : List A} (hl : l.Nodup) (hc : cells.Nodup)
    (h : ∀ c ∈ cells, c ∈ l) {i j : Nat} :
    (i, j) ∈ pairIds l cells ↔ i ≠ j ∧ ∃ a b, l[i]? = some a ∧ l[j]? = some b ∧ a ∈ cells ∧ b ∈ cells := by
  unfold pairIds
  rw [List.mem_map]
  constructor
  · rintro ⟨⟨a, b⟩, hp, e⟩
    obtain ⟨ha, hb, hne⟩ := (mem_bothWays hc).mp hp
    injection e with e1 e2
    refine ⟨?_, a, b, (idxOf_iff hl (h a ha)).mp e1, (idxOf_iff hl (h b hb)).mp e2, ha, hb⟩
    intro e3
    exact hne (idxOf_inj_on (h a ha) (by rw [e1, e2, e3]))
  · rintro ⟨hne, a, b, h1, h2, ha, hb⟩
    refine ⟨(a, b), (mem_bothWays hc).mpr ⟨ha, hb, ?_⟩, ?_⟩
    · intro e
      simp only at e
      subst e
      exact hne (((idxOf_iff hl (h a ha)).mpr h1).symm.trans ((idxOf_iff hl (h a ha)).mpr h2))
    · rw [(idxOf_iff hl (h a ha)).mpr h1, (idxOf_iff hl (h b hb)).mpr h2]

theorem adjPairs_ok {l : List (List Nat)} {id : Nat} {cells : List (List Nat)} (hc : cells.Nodup)
    (h : ∀ c ∈ cells, c ∈ l) :
    adjPairs l.zipIdx id cells = .ok ((pairIds l cells).map fun p => (p, id)) := by
  unfold adjPairs
  have hmem : ∀ p ∈ pairsOf cells, p.1 ∈ cells ∧ p.2 ∈ cells := by
    intro p hp
    have : p ∈ bothWays cells := List.mem_flatMap.mpr ⟨p, hp, by simp⟩
    have := (mem_bothWays hc).mp this
    exact ⟨this.1, this.2.1⟩
  rw [mapE_ok (g := fun p : List Nat × List Nat =>
    [((placeOf l p.1, placeOf l p.2), id), ((placeOf l p.2, placeOf l p.1), id)])]
  · simp only [ok_bind, pure_eq_ok, ok_inj]
    unfold pairIds bothWays
    rw [List.map_map, List.map_flatMap, List.flatMap_def]
    rfl
  · intro p hp
    rw [Dict.get_zipIdx (h _ (hmem p hp).1), Dict.get_zipIdx (h _ (hmem p hp).2)]
    rfl

/-! ### build_adj -/

/-- The adjacency lists holding the given columns with their shared cells. -/
def adjOf (dims : Nat) (up low : Nat → List ((Nat × Nat) × Nat)) : Adjacency where
  sharedBoundaries := tab dims fun d => (low d).map Prod.snd
  sharedCoboundaries := tab dims fun d => (up d).map Prod.snd
  lower := tab dims fun d => (low d).map Prod.fst
  upper := tab dims fun d => (up d).map Prod.fst

theorem adjOf_congr {dims : Nat} {up up' low low' : Nat → List ((Nat × Nat) × Nat)}
    (h1 : ∀ d, d < dims → up d = up' d) (h2 : ∀ d, d < dims → low d = low' d) :
    adjOf dims up low = adjOf dims up' low' := by
  unfold adjOf
  rw [tab_congr fun d hd => congrArg _ (h2 d hd), tab_congr fun d hd => congrArg _ (h1 d hd),
    tab_congr fun d hd => congrArg (List.map Prod.fst) (h2 d hd),
    tab_congr fun d hd => congrArg (List.map Prod.fst) (h1 d hd)]

/-- Tables of cells `K` below dimension `dims` with the relation `face`, and the lists of faces (`fs`
for the incidence table, `bd` in the dictionary) and cofaces of every cell. -/
structure CellData (K : Nat → List (List Nat)) (dims : Nat) (face : List Nat → List Nat → Prop)
    (fs bd cob : Nat → List Nat → List (List Nat)) : Prop where
  pos : 0 < dims
  nodup : ∀ d, d < dims → (K d).Nodup
  fsNodup : ∀ d c, d + 1 < dims → c ∈ K (d + 1) → (fs (d + 1) c).Nodup
  fs : ∀ d c, d + 1 < dims → c ∈ K (d + 1) → ∀ f, f ∈ fs (d + 1) c ↔ f ∈ K d ∧ face f c
  bdNodup : ∀ d c, d + 1 < dims → c ∈ K (d + 1) → (bd (d + 1) c).Nodup
  two : ∀ d c, d + 1 < dims → c ∈ K (d + 1) → 2 ≤ (bd (d + 1) c).length
  bd : ∀ d c, d + 1 < dims → c ∈ K (d + 1) → ∀ f, f ∈ bd (d + 1) c ↔ f ∈ K d ∧ face f c
  cobNodup : ∀ d s, d + 1 < dims → s ∈ K d → (cob d s).Nodup
  cob : ∀ d s, d + 1 < dims → s ∈ K d → ∀ t, t ∈ cob d s ↔ t ∈ K (d + 1) ∧ face s t


/-- The upper columns of dimension `d`. -/
def upCols (K : Nat → List (List Nat)) (dims : Nat) (bd : Nat → List Nat → List (List Nat)) (d : Nat) :
    List ((Nat × Nat) × Nat) :=
  if d + 1 < dims then tagged (K (d + 1)) fun c => pairIds (K d) (bd (d + 1) c) else []

/-- The lower columns of dimension `d`. -/
def lowCols (K : Nat → List (List Nat)) (cob : Nat → List Nat → List (List Nat)) (down : Bool) (d : Nat) :
    List ((Nat × Nat) × Nat) :=
  if down && decide (0 < d) then tagged (K (d - 1)) fun s => pairIds (K d) (cob (d - 1) s) else []

section Build

variable {K : Nat → List (List Nat)} {dims : Nat} {face : List Nat → List Nat → Prop}
  {fs bd cob : Nat → List Nat → List (List Nat)}

theorem buildUpper_ok (cd : CellData K dims face fs bd cob)
    {boundaries : List (Dict (List Nat) (List (List Nat)))}
    (hb : ∀ d, d + 1 < dims → ∃ level, boundaries[d + 1]? = some level ∧
      ∀ c ∈ K (d + 1), Dict.get? level c = some (bd (d + 1) c))
    {dim : Nat} (hdim : dim < dims) {cell : List Nat × Nat} (hc : cell.1 ∈ K dim)
    (up low : Nat → List ((Nat × Nat) × Nat)) :
    buildUpper boundaries (tab dims fun d => (K d).zipIdx) dim (adjOf dims up low) cell =
      .ok (adjOf dims (fun d => if d + 1 = dim then
        up d ++ (pairIds (K d) (bd dim cell.1)).map fun p => (p, cell.2) else up d) low) := by
  unfold buildUpper
  cases dim with
  | zero =>
    rw [if_pos rfl, ok_inj]
    exact adjOf_congr (fun d _ => by rw [if_neg (by omega)]) fun _ _ => rfl
  | succ e =>
    rw [if_neg (by omega)]
    obtain ⟨level, h1, h2⟩ := hb e hdim
    have hsub : ∀ c ∈ bd (e + 1) cell.1, c ∈ K e := fun c h => ((cd.bd e _ hdim hc c).mp h).1
    rw [getAt_eq_ok.mpr h1, ok_bind, Dict.get_eq_ok.mpr (h2 _ hc), ok_bind, Nat.add_sub_cancel,
      getAt_tab _ (by omega : e < dims), ok_bind, adjPairs_ok (cd.bdNodup e _ hdim hc) hsub, ok_bind]
    simp only [adjOf]
    rw [modifyAt_tab _ _ (by omega : e < dims), ok_bind, modifyAt_tab _ _ (by omega : e < dims), ok_bind,
      pure_eq_ok, ok_inj]
    congr 1 <;>
    · apply tab_congr
      intro d _
      by_cases hd : d = e
      · subst hd; simp
      · rw [if_neg hd, if_neg (by omega)]

theorem buildLower_ok (cd : CellData K dims face fs bd cob)
    {coboundaries : List (Dict (List Nat) (List (List Nat)))}
    (hb : ∀ d, d + 1 < dims → ∃ level, coboundaries[d]? = some level ∧
      ∀ s ∈ K d, (Dict.get? level s).getD [] = cob d s) (down : Bool)
    {dim : Nat} {cell : List Nat × Nat} (hc : cell.1 ∈ K dim)
    (up low : Nat → List ((Nat × Nat) × Nat)) :
    buildLower coboundaries (tab dims fun d => (K d).zipIdx) dims down dim (adjOf dims up low) cell =
      .ok (adjOf dims up (fun d => if down = true ∧ d = dim + 1 then
        low d ++ (pairIds (K d) (cob dim cell.1)).map fun p => (p, cell.2) else low d)) := by
  unfold buildLower
  by_cases hcond : (down && decide (dim + 1 < dims)) = true
  · rw [if_pos hcond]
    simp only [Bool.and_eq_true, decide_eq_true_eq] at hcond
    obtain ⟨hdown, hdim⟩ := hcond
    obtain ⟨level, h1, h2⟩ := hb dim hdim
    have hsub : ∀ c ∈ cob dim cell.1, c ∈ K (dim + 1) := fun c h => ((cd.cob dim _ hdim hc c).mp h).1
    rw [getAt_eq_ok.mpr h1, ok_bind]
    have h3 := h2 _ hc
    cases hg : Dict.get? level cell.1 with
    | none =>
      rw [hg] at h3
      simp only [ok_inj]
      refine adjOf_congr (fun _ _ => rfl) fun d _ => ?_
      rw [← h3]
      split
      · simp [pairIds, bothWays, pairsOf]
      · rfl
    | some cs =>
      rw [hg] at h3
      simp only [Option.getD_some] at h3
      subst h3
      dsimp only
      rw [getAt_tab _ hdim, ok_bind, adjPairs_ok (cd.cobNodup dim _ hdim hc) hsub, ok_bind]
      simp only [adjOf]
      rw [modifyAt_tab _ _ hdim, ok_bind, modifyAt_tab _ _ hdim, ok_bind, pure_eq_ok, ok_inj]
      congr 1 <;>
      · apply tab_congr
        intro d _
        by_cases hd : d = dim + 1
        · subst hd; simp [hdown]
        · rw [if_neg hd, if_neg (fun h => hd h.2)]
  · rw [if_neg hcond, ok_inj]
    refine adjOf_congr (fun _ _ => rfl) fun d hd => ?_
    rw [if_neg]
    rintro ⟨h1, h2⟩
    apply hcond
    simp only [h1, Bool.true_and, decide_eq_true_eq]
    omega

theorem buildAdj_ok (cd : CellData K dims face fs bd cob)
    {boundaries coboundaries : List (Dict (List Nat) (List (List Nat)))}
    (hb : ∀ d, d + 1 < dims → ∃ level, boundaries[d + 1]? = some level ∧
      ∀ c ∈ K (d + 1), Dict.get? level c = some (bd (d + 1) c))
    (hcb : ∀ d, d + 1 < dims → ∃ level, coboundaries[d]? = some level ∧
      ∀ s ∈ K d, (Dict.get? level s).getD [] = cob d s) (down : Bool) :
    buildAdj boundaries coboundaries (tab dims fun d => (K d).zipIdx) dims down =
      .ok (adjOf dims (upCols K dims bd) (lowCols K cob down)) := by
  unfold buildAdj
  have inner : ∀ dim, dim < dims → ∀ up low : Nat → List ((Nat × Nat) × Nat),
      foldE (fun a cell => do
        let a ← buildUpper boundaries (tab dims fun d => (K d).zipIdx) dim a cell
        buildLower coboundaries (tab dims fun d => (K d).zipIdx) dims down dim a cell)
        (adjOf dims up low) (K dim).zipIdx =
      .ok (adjOf dims (fun d => if d + 1 = dim then
            up d ++ tagged (K dim) (fun c => pairIds (K d) (bd dim c)) else up d)
          (fun d => if down = true ∧ d = dim + 1 then
            low d ++ tagged (K dim) (fun s => pairIds (K d) (cob dim s)) else low d)) := by
    intro dim hdim up low
    obtain ⟨s', h1, h2⟩ := foldE_inv (f := fun a cell => do
        let a ← buildUpper boundaries (tab dims fun d => (K d).zipIdx) dim a cell
        buildLower coboundaries (tab dims fun d => (K d).zipIdx) dims down dim a cell)
      (s := adjOf dims up low) (l := (K dim).zipIdx)
      (fun pre s => s = adjOf dims
        (fun d => if d + 1 = dim then
          up d ++ pre.flatMap (fun ci => (pairIds (K d) (bd dim ci.1)).map fun p => (p, ci.2)) else up d)
        (fun d => if down = true ∧ d = dim + 1 then
          low d ++ pre.flatMap (fun ci => (pairIds (K d) (cob dim ci.1)).map fun p => (p, ci.2)) else low d))
      (adjOf_congr (fun d _ => by simp) (fun d _ => by simp)) (by
        rintro pre ⟨c, i⟩ post s hl rfl
        have hc : c ∈ K dim := by
          have : (c, i) ∈ (K dim).zipIdx := by rw [hl]; simp
          exact List.mem_of_getElem? (List.mem_zipIdx_iff_getElem?.mp this)
        refine ⟨_, by
          rw [buildUpper_ok cd hb hdim hc, ok_bind, buildLower_ok cd hcb down hc], ?_⟩
        refine adjOf_congr (fun d _ => ?_) (fun d _ => ?_)
        · by_cases hd : d + 1 = dim
          · simp only [hd, if_true, List.flatMap_append, List.flatMap_cons, List.flatMap_nil,
              List.append_nil, List.append_assoc]
          · simp only [hd, if_false]
        · by_cases hd : down = true ∧ d = dim + 1
          · rw [if_pos hd, if_pos hd, if_pos hd]
            simp only [List.flatMap_append, List.flatMap_cons, List.flatMap_nil,
              List.append_nil, List.append_assoc]
          · rw [if_neg hd, if_neg hd, if_neg hd])
    rw [h1, h2]
    rfl
  obtain ⟨s', h1, h2⟩ := foldE_inv (f := fun a dim => do
      let level ← getAt (tab dims fun d => (K d).zipIdx) dim
      foldE (fun a cell => do
        let a ← buildUpper boundaries (tab dims fun d => (K d).zipIdx) dim a cell
        buildLower coboundaries (tab dims fun d => (K d).zipIdx) dims down dim a cell) a level)
    (s := { sharedBoundaries := List.replicate dims [], sharedCoboundaries := List.replicate dims [],
            lower := List.replicate dims [], upper := List.replicate dims [] }) (l := List.range dims)
    (fun pre s => s = adjOf dims
      (fun d => if d + 1 ∈ pre then tagged (K (d + 1)) (fun c => pairIds (K d) (bd (d + 1) c)) else [])
      (fun d => if down = true ∧ 0 < d ∧ d - 1 ∈ pre then
        tagged (K (d - 1)) (fun s => pairIds (K d) (cob (d - 1) s)) else []))
    (by
      unfold adjOf
      simp [replicate_tab]) (by
      rintro pre a post s hl rfl
      have ha : a < dims := List.mem_range.mp (by rw [hl]; simp)
      have hn : a ∉ pre := by
        have := List.nodup_range (n := dims)
        rw [hl] at this
        intro h
        exact (List.disjoint_of_nodup_append this) h (by simp)
      refine ⟨_, by rw [getAt_tab _ ha, ok_bind, inner a ha], ?_⟩
      refine adjOf_congr (fun d _ => ?_) (fun d _ => ?_)
      · by_cases hd : d + 1 = a
        · subst hd
          rw [if_pos rfl, if_neg hn, if_pos (by simp)]
          rfl
        · rw [if_neg hd]
          simp only [List.mem_append, List.mem_singleton, hd, or_false]
      · by_cases hd : down = true ∧ d = a + 1
        · obtain ⟨h1, rfl⟩ := hd
          rw [if_pos ⟨h1, rfl⟩, if_neg (fun h => hn (by simpa using h.2.2)),
            if_pos ⟨h1, by omega, by simp⟩]
          rfl
        · rw [if_neg hd]
          have : (down = true ∧ 0 < d ∧ d - 1 ∈ pre ++ [a]) ↔ (down = true ∧ 0 < d ∧ d - 1 ∈ pre) := by
            simp only [List.mem_append, List.mem_singleton]
            constructor
            · rintro ⟨h1, h2, h3 | h3⟩
              · exact ⟨h1, h2, h3⟩
              · exact absurd ⟨h1, by omega⟩ hd
            · rintro ⟨h1, h2, h3⟩
              exact ⟨h1, h2, .inl h3⟩
          simp only [this])
  rw [h1, h2, ok_inj]
  refine adjOf_congr (fun d _ => ?_) (fun d hd => ?_)
  · unfold upCols
    simp only [List.mem_range]
  · unfold lowCols
    by_cases h : down = true ∧ 0 < d
    · rw [if_pos ⟨h.1, h.2, List.mem_range.mpr (by omega)⟩, if_pos (by simp [h.1, h.2])]
    · rw [if_neg (fun e => h ⟨e.1, e.2.1⟩), if_neg (by simpa using h)]

end Build

end Verif
