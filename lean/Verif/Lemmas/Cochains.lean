import Verif.Lemmas.Assemble
import Verif.Lemmas.ComplexBatch

/-!
# The complex assembled from tables of cells
-/

namespace Verif

variable {F L : Type}

theorem maxPlusOne_eq {l : List Nat} {n : Nat} (hn : 0 < n) (h1 : ∀ s ∈ l, s < n) (h2 : n - 1 ∈ l) :
    Cochain.maxPlusOne l = .ok n := by
  unfold Cochain.maxPlusOne
  have : l.max? = some (n - 1) := by
    rw [List.max?_eq_some_iff]
    exact ⟨h2, fun b hb => by have := h1 b hb; omega⟩
  rw [this]
  simp only [ok_inj]
  omega

theorem maxPlusOne_le {l : List Nat} {n : Nat} (hl : l ≠ []) (h1 : ∀ s ∈ l, s < n) :
    ∃ m, Cochain.maxPlusOne l = .ok m ∧ m ≤ n := by
  unfold Cochain.maxPlusOne
  cases h : l.max? with
  | none => exact absurd (List.max?_eq_none_iff.mp h) hl
  | some m =>
    have := List.max?_eq_some_iff.mp h
    exact ⟨m + 1, rfl, h1 m this.1⟩

section

variable {K : Nat → List (List Nat)} {dims : Nat} {face : List Nat → List Nat → Prop}
  {fs bd cob : Nat → List Nat → List (List Nat)}

/-- The row of the incidence table of every cell of dimension `d`. -/
def tableRow (K : Nat → List (List Nat)) (fs : Nat → List Nat → List (List Nat)) (d : Nat) :
    List (List Nat) :=
  if d = 0 then [] else (K d).map fun c => (fs d c).map (placeOf (K (d - 1)))

/-- The columns of the boundary index of dimension `d`. -/
def bndCols (K : Nat → List (List Nat)) (fs : Nat → List Nat → List (List Nat)) (d : Nat) :
    List (Nat × Nat) :=
  tagged (tableRow K fs d) id

/-- The cochain built for dimension `d`. -/
def cochainOf (K : Nat → List (List Nat)) (dims : Nat) (fs bd cob : Nat → List Nat → List (List Nat))
    (down : Bool) (xs : Nat → Option (List F)) (vy : Option (List L)) (d : Nat) : Cochain F L :=
  { dim := d, x := xs d,
    upperIndex := nonempty ((upCols K dims bd d).map Prod.fst),
    lowerIndex := nonempty ((lowCols K cob down d).map Prod.fst),
    sharedCoboundaries := nonempty ((upCols K dims bd d).map Prod.snd),
    sharedBoundaries := nonempty ((lowCols K cob down d).map Prod.snd),
    y := if d = 0 then vy else none,
    numCellsDownAttr := some (if 0 < d then some (K (d - 1)).length else none),
    numCellsUpAttr := some (some (if d + 1 < dims then (K (d + 1)).length else 0)),
    boundaryIndex := boundaryIndexOf (tableRow K fs d) }

theorem boundaryIndexOf_getD (t : List (List Nat)) : (boundaryIndexOf t).getD [] = tagged t id := by
  unfold boundaryIndexOf
  cases t with
  | nil => rfl
  | cons a t => rw [if_pos (by simp)]; rfl

theorem mem_bndCols (cd : CellData K dims face fs bd cob) {d f c : Nat} (hd : d + 1 < dims) :
    (f, c) ∈ bndCols K fs (d + 1) ↔
      ∃ s t, (K d)[f]? = some s ∧ (K (d + 1))[c]? = some t ∧ face s t := by
  unfold bndCols tableRow
  rw [if_neg (by omega), tagged_map, mem_tagged]
  simp only [id, List.mem_map, Nat.add_sub_cancel]
  constructor
  · rintro ⟨t, ht, s, hs, e⟩
    have := (cd.fs d t hd (List.mem_of_getElem? ht) s).mp hs
    exact ⟨s, t, (idxOf_iff (cd.nodup d (by omega)) this.1).mp e, ht, this.2⟩
  · rintro ⟨s, t, hs, ht, hf⟩
    have hsm := List.mem_of_getElem? hs
    exact ⟨t, ht, s, (cd.fs d t hd (List.mem_of_getElem? ht) s).mpr ⟨hsm, hf⟩,
      (idxOf_iff (cd.nodup d (by omega)) hsm).mpr hs⟩

theorem nodup_bndCols (cd : CellData K dims face fs bd cob) {d : Nat} (hd : d < dims) :
    (bndCols K fs d).Nodup := by
  unfold bndCols tableRow
  cases d with
  | zero => simp [tagged]
  | succ d =>
    rw [if_neg (by omega), tagged_map]
    apply nodup_tagged
    intro c hc
    refine List.Nodup.map_on ?_ (cd.fsNodup d c hd hc)
    intro s hs t _ e
    exact idxOf_inj_on ((cd.fs d c hd hc s).mp hs).1 e

theorem mem_upCols (cd : CellData K dims face fs bd cob) {d a b c : Nat} :
    ((a, b), c) ∈ upCols K dims bd d ↔ d + 1 < dims ∧ a ≠ b ∧
      ∃ s t u, (K d)[a]? = some s ∧ (K d)[b]? = some t ∧ (K (d + 1))[c]? = some u ∧
        face s u ∧ face t u := by
  unfold upCols
  by_cases hd : d + 1 < dims
  · rw [if_pos hd, mem_tagged]
    have hsub : ∀ u ∈ K (d + 1), ∀ s ∈ bd (d + 1) u, s ∈ K d := fun u hu s hs =>
      ((cd.bd d u hd hu s).mp hs).1
    constructor
    · rintro ⟨u, hu, hp⟩
      have hum := List.mem_of_getElem? hu
      obtain ⟨hne, s, t, hs, ht, hsb, htb⟩ :=
        (mem_pairIds (cd.nodup d (by omega)) (cd.bdNodup d u hd hum) (hsub u hum)).mp hp
      exact ⟨hd, hne, s, t, u, hs, ht, hu, ((cd.bd d u hd hum s).mp hsb).2,
        ((cd.bd d u hd hum t).mp htb).2⟩
    · rintro ⟨-, hne, s, t, u, hs, ht, hu, h1, h2⟩
      have hum := List.mem_of_getElem? hu
      refine ⟨u, hu, (mem_pairIds (cd.nodup d (by omega)) (cd.bdNodup d u hd hum) (hsub u hum)).mpr
        ⟨hne, s, t, hs, ht, ?_, ?_⟩⟩
      · exact (cd.bd d u hd hum s).mpr ⟨List.mem_of_getElem? hs, h1⟩
      · exact (cd.bd d u hd hum t).mpr ⟨List.mem_of_getElem? ht, h2⟩
  · rw [if_neg hd]
    simp [hd]

theorem nodup_upCols (cd : CellData K dims face fs bd cob) (d : Nat) : (upCols K dims bd d).Nodup := by
  unfold upCols
  split
  · next hd =>
    apply nodup_tagged
    intro c hc
    exact nodup_pairIds (cd.bdNodup d c hd hc) fun s hs => ((cd.bd d c hd hc s).mp hs).1
  · simp

theorem mem_lowCols (cd : CellData K dims face fs bd cob) {down : Bool} {d a b c : Nat}
    (hd : d + 1 < dims) :
    ((a, b), c) ∈ lowCols K cob down (d + 1) ↔ down = true ∧ a ≠ b ∧
      ∃ s t u, (K (d + 1))[a]? = some s ∧ (K (d + 1))[b]? = some t ∧ (K d)[c]? = some u ∧
        face u s ∧ face u t := by
  unfold lowCols
  cases down with
  | false => simp
  | true =>
    rw [if_pos (by simp), mem_tagged]
    simp only [Nat.add_sub_cancel, true_and]
    have hsub : ∀ u ∈ K d, ∀ s ∈ cob d u, s ∈ K (d + 1) := fun u hu s hs =>
      ((cd.cob d u hd hu s).mp hs).1
    constructor
    · rintro ⟨u, hu, hp⟩
      have hum := List.mem_of_getElem? hu
      obtain ⟨hne, s, t, hs, ht, hsb, htb⟩ :=
        (mem_pairIds (cd.nodup (d + 1) hd) (cd.cobNodup d u hd hum) (hsub u hum)).mp hp
      exact ⟨hne, s, t, u, hs, ht, hu, ((cd.cob d u hd hum s).mp hsb).2,
        ((cd.cob d u hd hum t).mp htb).2⟩
    · rintro ⟨hne, s, t, u, hs, ht, hu, h1, h2⟩
      have hum := List.mem_of_getElem? hu
      refine ⟨u, hu, (mem_pairIds (cd.nodup (d + 1) hd) (cd.cobNodup d u hd hum) (hsub u hum)).mpr
        ⟨hne, s, t, hs, ht, ?_, ?_⟩⟩
      · exact (cd.cob d u hd hum s).mpr ⟨List.mem_of_getElem? hs, h1⟩
      · exact (cd.cob d u hd hum t).mpr ⟨List.mem_of_getElem? ht, h2⟩

theorem nodup_lowCols (cd : CellData K dims face fs bd cob) (down : Bool) {d : Nat} (hd : d < dims) :
    (lowCols K cob down d).Nodup := by
  unfold lowCols
  split
  · next h =>
    simp only [Bool.and_eq_true, decide_eq_true_eq] at h
    obtain ⟨e, rfl⟩ : ∃ e, d = e + 1 := ⟨d - 1, by omega⟩
    apply nodup_tagged
    intro s hs
    exact nodup_pairIds (cd.cobNodup e s hd hs) fun t ht => ((cd.cob e s hd hs t).mp ht).1
  · simp

theorem lowCols_zero (down : Bool) : lowCols K cob down 0 = [] := by
  unfold lowCols; simp

/-- The largest shared id of upper adjacencies is that of the last cell above. -/
theorem upCols_last (cd : CellData K dims face fs bd cob) {d : Nat} (hd : d + 1 < dims)
    (hne : K (d + 1) ≠ []) : (K (d + 1)).length - 1 ∈ (upCols K dims bd d).map Prod.snd := by
  have hlen : (K (d + 1)).length - 1 < (K (d + 1)).length := by
    have := List.length_pos_iff.mpr hne; omega
  set u := (K (d + 1))[(K (d + 1)).length - 1] with hu
  have hu' : (K (d + 1))[(K (d + 1)).length - 1]? = some u := List.getElem?_eq_getElem hlen
  have hum := List.mem_of_getElem? hu'
  have h2 := cd.two d u hd hum
  have hnd := cd.bdNodup d u hd hum
  match hb : bd (d + 1) u, h2 with
  | a :: b :: rest, _ =>
    have ha : a ∈ bd (d + 1) u := by rw [hb]; simp
    have hb' : b ∈ bd (d + 1) u := by rw [hb]; simp
    have hab : a ≠ b := by
      rw [hb] at hnd
      intro e
      subst e
      simp at hnd
    have hA := (cd.bd d u hd hum a).mp ha
    have hB := (cd.bd d u hd hum b).mp hb'
    refine List.mem_map.mpr ⟨((placeOf (K d) a, placeOf (K d) b), (K (d + 1)).length - 1), ?_, rfl⟩
    refine (mem_upCols cd).mpr ⟨hd, fun e => hab (idxOf_inj_on hA.1 e), a, b, u,
      (idxOf_iff (cd.nodup d (by omega)) hA.1).mp rfl, (idxOf_iff (cd.nodup d (by omega)) hB.1).mp rfl,
      hu', hA.2, hB.2⟩

theorem lt_of_get {A : Type} {l : List A} {i : Nat} {a : A} (h : l[i]? = some a) : i < l.length :=
  (List.getElem?_eq_some_iff.mp h).1

variable {down : Bool} {xs : Nat → Option (List F)} {vy : Option (List L)}

theorem checkShared_map {l : List ((Nat × Nat) × Nat)} {cond : Nat → Bool}
    (h : l ≠ [] → ∃ m, Cochain.maxPlusOne (l.map Prod.snd) = .ok m ∧ cond m = true) :
    checkShared (nonempty (l.map Prod.fst)) (nonempty (l.map Prod.snd)) cond = .ok () := by
  unfold checkShared
  cases l with
  | nil => rfl
  | cons p l =>
    obtain ⟨m, h1, h2⟩ := h (by simp)
    simp only [nonempty, List.map_cons, List.length_cons, List.length_map, Nat.zero_lt_succ, if_true]
    simp only [List.map_cons] at h1
    simp [h1, h2]

theorem generateCochain_ok (cd : CellData K dims face fs bd cob) {d : Nat} (hd : d < dims) :
    generateCochain d (xs d) (adjOf dims (upCols K dims bd) (lowCols K cob down)) (tab dims K)
      (tab dims (tableRow K fs)) dims (if d = 0 then vy else none) =
    .ok (cochainOf K dims fs bd cob down xs vy d) := by
  unfold generateCochain
  simp only [adjOf]
  rw [getAt_tab _ hd, ok_bind, getAt_tab _ hd, ok_bind, getAt_tab _ hd, ok_bind, getAt_tab _ hd, ok_bind]
  have hlow0 : d = 0 → lowCols K cob down d = [] := by rintro rfl; exact lowCols_zero down
  have h0 : checkVertices d (List.map Prod.fst (lowCols K cob down d))
      (List.map Prod.snd (lowCols K cob down d)) = .ok () := by
    unfold checkVertices
    split
    · next h => rw [hlow0 h]; rfl
    · rfl
  rw [h0, ok_bind]
  have h1 : numDownOf (tab dims K) d = .ok (if 0 < d then some (K (d - 1)).length else none) := by
    unfold numDownOf
    split
    · rw [getAt_tab _ (by omega : d - 1 < dims)]; rfl
    · rfl
  rw [h1, ok_bind]
  have h2 : numUpOf (tab dims K) dims d = .ok (if d + 1 < dims then (K (d + 1)).length else 0) := by
    unfold numUpOf
    split
    · next h => rw [getAt_tab _ h]; rfl
    · rfl
  rw [h2, ok_bind, getAt_tab _ hd, ok_bind]
  have h3 : checkNone (if 0 < d then some (K (d - 1)).length else none : Option Nat).isNone
      (nonempty (List.map Prod.snd (lowCols K cob down d))) = .ok () := by
    unfold checkNone
    by_cases h : 0 < d
    · simp [h]
    · simp only [h, if_false, Option.isNone_none, if_true]
      rw [hlow0 (by omega)]
      rfl
  rw [h3, ok_bind]
  have hup0 : (if d + 1 < dims then (K (d + 1)).length else 0) = 0 → upCols K dims bd d = [] := by
    intro h
    unfold upCols
    split at h
    · next hlt =>
      rw [if_pos hlt, List.length_eq_zero_iff.mp h]
      rfl
    · next hlt => rw [if_neg hlt]
  have h4 : checkNone ((if d + 1 < dims then (K (d + 1)).length else 0) == 0)
      (nonempty (List.map Prod.snd (upCols K dims bd d))) = .ok () := by
    unfold checkNone
    by_cases h : (if d + 1 < dims then (K (d + 1)).length else 0) = 0
    · rw [hup0 h, h]; rfl
    · rw [if_neg (by simpa using h)]
  rw [h4, ok_bind, checkShared_map, ok_bind, checkShared_map, ok_bind]
  · unfold Cochain.mk?
    by_cases h : d = 0
    · subst h
      simp only [lowCols_zero, List.map_nil, nonempty_nil, if_true, Option.isNone_none, pyAssert_true,
        ok_bind, tableRow]
      simp only [boundaryIndexOf, List.length_nil, Nat.lt_irrefl, if_false, Option.isNone_none,
        pyAssert_true, ok_bind, pure_eq_ok, ok_inj]
      unfold cochainOf
      simp [lowCols_zero, nonempty_nil, tableRow, boundaryIndexOf]
    · simp only [h, if_false]
      rw [pure_eq_ok, ok_inj]
      unfold cochainOf
      simp [h]
  · intro hne
    have hd0 : 0 < d := by
      by_contra h
      exact hne (hlow0 (by omega))
    obtain ⟨e, rfl⟩ : ∃ e, d = e + 1 := ⟨d - 1, by omega⟩
    obtain ⟨m, hm1, hm2⟩ := maxPlusOne_le (l := (lowCols K cob down (e + 1)).map Prod.snd)
      (n := (K e).length) (by simpa using hne) (by
        intro s hs
        obtain ⟨⟨⟨a, b⟩, c⟩, hp, rfl⟩ := List.mem_map.mp hs
        obtain ⟨-, -, _, _, u, -, -, hu, -⟩ := (mem_lowCols cd hd).mp hp
        exact lt_of_get hu)
    exact ⟨m, hm1, by simpa using hm2⟩
  · intro hne
    have hlt : d + 1 < dims := by
      by_contra h
      exact hne (by unfold upCols; rw [if_neg h])
    have hK : K (d + 1) ≠ [] := by
      intro h
      exact hne (by unfold upCols; rw [if_pos hlt, h]; rfl)
    refine ⟨(K (d + 1)).length, maxPlusOne_eq (List.length_pos_iff.mpr hK) ?_ (upCols_last cd hlt hK), ?_⟩
    · intro s hs
      obtain ⟨⟨⟨a, b⟩, c⟩, hp, rfl⟩ := List.mem_map.mp hs
      obtain ⟨-, -, _, _, u, -, -, hu, -⟩ := (mem_upCols cd).mp hp
      exact lt_of_get hu
    · simp [hlt]

theorem generateCochains_ok (cd : CellData K dims face fs bd cob) :
    generateCochains (tab dims xs) (adjOf dims (upCols K dims bd) (lowCols K cob down)) (tab dims K)
      (tab dims (tableRow K fs)) dims vy = .ok (tab dims (cochainOf K dims fs bd cob down xs vy)) := by
  unfold generateCochains
  rw [mapE_ok (g := cochainOf K dims fs bd cob down xs vy)]
  · rfl
  · intro d hd
    have hd := List.mem_range.mp hd
    rw [getAt_tab _ hd, ok_bind, generateCochain_ok cd hd]

/-- The features of every dimension: one row per cell; they may be missing above the vertices where
there are cells. -/
structure RowsFit (K : Nat → List (List Nat)) (dims : Nat) (xs : Nat → Option (List F)) : Prop where
  rows : ∀ d x, d < dims → xs d = some x → x.length = (K d).length
  missing : ∀ d, d < dims → xs d = none → 0 < d ∧ K d ≠ []

theorem cochainOf_numCells (cd : CellData K dims face fs bd cob) (hx : RowsFit K dims xs) {d : Nat}
    (hd : d < dims) :
    (cochainOf K dims fs bd cob down xs vy d).numCells = .ok (some (K d).length) := by
  unfold Cochain.numCells
  simp only [cochainOf]
  cases h : xs d with
  | some x => simp only; rw [hx.rows d x hd h]
  | none =>
    obtain ⟨h0, hne⟩ := hx.missing d hd h
    obtain ⟨e, rfl⟩ : ∃ e, d = e + 1 := ⟨d - 1, by omega⟩
    have hpos := List.length_pos_iff.mpr hne
    have hr : boundaryIndexOf (tableRow K fs (e + 1)) = some (bndCols K fs (e + 1)) := by
      unfold boundaryIndexOf
      rw [if_pos]
      · rfl
      · unfold tableRow; rw [if_neg (by omega)]; simpa using hpos
    simp only [hr]
    rw [maxPlusOne_eq hpos]
    · rfl
    · intro s hs
      obtain ⟨⟨f, c⟩, hp, rfl⟩ := List.mem_map.mp hs
      obtain ⟨_, t, -, ht, -⟩ := (mem_bndCols cd hd).mp hp
      exact lt_of_get ht
    · have hlen : (K (e + 1)).length - 1 < (K (e + 1)).length := by omega
      have hu' : (K (e + 1))[(K (e + 1)).length - 1]? = some _ := List.getElem?_eq_getElem hlen
      have hum := List.mem_of_getElem? hu'
      have h2 := cd.two e _ hd hum
      obtain ⟨s, hs⟩ := List.exists_mem_of_length_pos (Nat.lt_of_lt_of_le Nat.zero_lt_two h2)
      have hs' := (cd.bd e _ hd hum s).mp hs
      refine List.mem_map.mpr ⟨(placeOf (K e) s, (K (e + 1)).length - 1), (mem_bndCols cd hd).mpr
        ⟨s, _, (idxOf_iff (cd.nodup e (by omega)) hs'.1).mp rfl, hu', hs'.2⟩, rfl⟩

/-- The assembled complex. -/
def complexOf (K : Nat → List (List Nat)) (dims : Nat) (fs bd cob : Nat → List Nat → List (List Nat))
    (down : Bool) (xs : Nat → Option (List F)) (vy y : Option (List L)) : Complex F L :=
  { dimension := dims - 1, cochains := tab dims (cochainOf K dims fs bd cob down xs vy), y := y }

theorem complexNew_ok (cd : CellData K dims face fs bd cob) (hx : RowsFit K dims xs) (y : Option (List L)) :
    Complex.new (tab dims (cochainOf K dims fs bd cob down xs vy)) y (some (dims - 1)) =
      .ok (complexOf K dims fs bd cob down xs vy y) := by
  rw [complexNew_eq_ok]
  have hpos := cd.pos
  have hd1 : dims - 1 + 1 = dims := by omega
  have hget : ∀ (i : Nat) (c : Cochain F L), (tab dims (cochainOf K dims fs bd cob down xs vy))[i]? = some c →
      i < dims ∧ c = cochainOf K dims fs bd cob down xs vy i := by
    intro i c h
    have hi : i < dims := by simpa using lt_of_get h
    rw [tab_get _ hi] at h
    exact ⟨hi, (Option.some.inj h).symm⟩
  refine ⟨?_, ?_, ?_, ?_, ?_⟩
  · intro h
    have := congrArg List.length h
    simp at this; omega
  · simp [hd1]
  · intro i c _ h
    obtain ⟨_, rfl⟩ := hget i c h
    rfl
  · intro _ i c _ h
    obtain ⟨hi, rfl⟩ := hget i c h
    exact ⟨_, cochainOf_numCells cd hx hi⟩
  · unfold complexOf
    simp only [Option.getD_some, hd1]
    congr 1
    rw [List.take_of_length_le (by simp)]
    apply List.ext_getElem?
    intro i
    rw [consolidated_get]
    by_cases hi : i < dims
    · rw [tab_get _ hi]
      simp only [Option.map_some, Option.some.injEq]
      have hu : recorded (tab dims (cochainOf K dims fs bd cob down xs vy))[i + 1]?
          (cochainOf K dims fs bd cob down xs vy i).numCellsUpAttr =
          (cochainOf K dims fs bd cob down xs vy i).numCellsUpAttr := by
        by_cases h : i + 1 < dims
        · rw [tab_get _ h]
          simp only [recorded, count_of (cochainOf_numCells cd hx h)]
          simp only [cochainOf, h, if_true]
        · rw [tab_get_none _ (by omega)]
          rfl
      have hl : recorded (if i = 0 then none else (tab dims (cochainOf K dims fs bd cob down xs vy))[i - 1]?)
          (cochainOf K dims fs bd cob down xs vy i).numCellsDownAttr =
          (cochainOf K dims fs bd cob down xs vy i).numCellsDownAttr := by
        by_cases h : i = 0
        · simp [h, recorded]
        · rw [if_neg h, tab_get _ (by omega : i - 1 < dims)]
          simp only [recorded, count_of (cochainOf_numCells cd hx (by omega : i - 1 < dims))]
          simp only [cochainOf, show 0 < i by omega, if_true]
      rw [hu, hl]
    · rw [tab_get_none _ (by omega)]
      rfl

theorem complexOf_attr {A : Type} {y : Option (List L)} (d : Nat) (get : Cochain F L → Option A) :
    (complexOf K dims fs bd cob down xs vy y).attr d get =
      if d < dims then get (cochainOf K dims fs bd cob down xs vy d) else none := by
  unfold Complex.attr complexOf
  by_cases h : d < dims
  · simp only [tab_get _ h, if_pos h]; rfl
  · simp only [tab_get_none _ (by omega : dims ≤ d), if_neg h]; rfl

theorem complexOf_cellsIn (cd : CellData K dims face fs bd cob) (hx : RowsFit K dims xs)
    {y : Option (List L)} (d : Nat) :
    (complexOf K dims fs bd cob down xs vy y).cellsIn d = if d < dims then (K d).length else 0 := by
  unfold Complex.cellsIn complexOf
  by_cases h : d < dims
  · simp only [tab_get _ h, if_pos h, Option.map_some, Option.getD_some,
      count_of (cochainOf_numCells cd hx h)]
  · simp only [tab_get_none _ (by omega : dims ≤ d), if_neg h]; rfl

/-- The assembled complex carries exactly the incidences and adjacencies of the cells. -/
theorem complexOf_lifts (cd : CellData K dims face fs bd cob) (hx : RowsFit K dims xs)
    (y : Option (List L)) : LiftsTo (complexOf K dims fs bd cob down xs vy y) K dims face down where
  size := by have := cd.pos; simp only [complexOf]; omega
  count := fun d hd => by rw [complexOf_cellsIn cd hx, if_pos hd]
  bndNodup := fun d => by
    rw [complexOf_attr]
    split
    · next hd => simp only [cochainOf]; rw [boundaryIndexOf_getD]; exact nodup_bndCols cd hd
    · simp
  bnd := fun d f c => by
    rw [complexOf_attr]
    by_cases hd : d + 1 < dims
    · simp only [if_pos hd, cochainOf]
      rw [boundaryIndexOf_getD]
      exact (mem_bndCols cd hd).trans (by simp [hd])
    · simp [hd]
  upBoth := fun d => by
    rw [complexOf_attr, complexOf_attr]
    split <;> simp [cochainOf]
  upNodup := fun d => by
    rw [complexOf_attr, complexOf_attr]
    split
    · simp only [cochainOf, nonempty_getD, zip_fst_snd]
      exact nodup_upCols cd d
    · simp
  up := fun d a b c => by
    rw [complexOf_attr, complexOf_attr]
    by_cases hd : d < dims
    · simp only [if_pos hd, cochainOf, nonempty_getD, zip_fst_snd]
      exact mem_upCols cd
    · simp only [if_neg hd, Option.getD_none, List.zip_nil_left, List.not_mem_nil, false_iff]
      rintro ⟨h, -⟩
      omega
  downBoth := fun d => by
    rw [complexOf_attr, complexOf_attr]
    split <;> simp [cochainOf]
  downNodup := fun d => by
    rw [complexOf_attr, complexOf_attr]
    split
    · next hd =>
      simp only [cochainOf, nonempty_getD, zip_fst_snd]
      exact nodup_lowCols cd down hd
    · simp
  down := fun d a b c => by
    rw [complexOf_attr, complexOf_attr]
    by_cases hd : d + 1 < dims
    · simp only [if_pos hd, cochainOf, nonempty_getD, zip_fst_snd]
      exact (mem_lowCols cd hd).trans (by simp [hd])
    · simp [hd]
  vertices := by
    have := cd.pos
    rw [complexOf_attr, complexOf_attr, complexOf_attr]
    simp [cochainOf, lowCols_zero, nonempty_nil, tableRow, boundaryIndexOf, this]

/-- The assembled complex is valid. -/
theorem complexOf_valid (cd : CellData K dims face fs bd cob) (hx : RowsFit K dims xs)
    (y : Option (List L)) : (complexOf K dims fs bd cob down xs vy y).Valid := by
  have hpos := cd.pos
  have hget : ∀ (i : Nat) (c : Cochain F L),
      (complexOf K dims fs bd cob down xs vy y).cochains[i]? = some c →
      i < dims ∧ c = cochainOf K dims fs bd cob down xs vy i := by
    intro i c h
    have hi : i < dims := by
      have := lt_of_get h
      simpa [complexOf] using this
    unfold complexOf at h
    rw [tab_get _ hi] at h
    exact ⟨hi, (Option.some.inj h).symm⟩
  refine { len := ?_, dim := ?_, up := ?_, down := ?_, known := ?_, top := ?_, valid := ?_ }
  · simp only [complexOf, tab_length]; omega
  · intro d c h
    obtain ⟨_, rfl⟩ := hget d c h
    rfl
  · intro d c c' h h'
    obtain ⟨hd, rfl⟩ := hget d c h
    obtain ⟨hd', rfl⟩ := hget (d + 1) c' h'
    rw [cochainOf_numCells cd hx hd']
    simp [Cochain.numCellsUp, cochainOf, hd']
  · intro d c c' h h'
    obtain ⟨hd, rfl⟩ := hget d c h
    obtain ⟨hd', rfl⟩ := hget (d + 1) c' h'
    rw [cochainOf_numCells cd hx hd]
    simp [Cochain.numCellsDown, cochainOf]
  · intro c hc
    obtain ⟨i, hi⟩ := List.mem_iff_getElem?.mp hc
    obtain ⟨hd, rfl⟩ := hget i c hi
    exact ⟨_, cochainOf_numCells cd hx hd⟩
  · intro c h
    obtain ⟨hd, rfl⟩ := hget _ c h
    refine ⟨_, rfl, ?_⟩
    simp only [complexOf, show ¬ dims - 1 + 1 < dims by omega, if_false, Option.getD_some]
  · intro d c h
    obtain ⟨hd, rfl⟩ := hget d c h
    have hcell : (complexOf K dims fs bd cob down xs vy y).cellsIn d = (K d).length := by
      rw [complexOf_cellsIn cd hx, if_pos hd]
    have hlo : ∀ p ∈ lowCols K cob down d, p.1.1 < (K d).length ∧ p.1.2 < (K d).length ∧
        p.2 < (complexOf K dims fs bd cob down xs vy y).cellsBelow d := by
      rintro ⟨⟨a, b⟩, e⟩ hp
      cases d with
      | zero => rw [lowCols_zero] at hp; simp at hp
      | succ d =>
        obtain ⟨-, -, _, _, _, h1, h2, h3, -⟩ := (mem_lowCols cd hd).mp hp
        refine ⟨lt_of_get h1, lt_of_get h2, ?_⟩
        simp only [Complex.cellsBelow]
        rw [complexOf_cellsIn cd hx, if_pos (by omega)]
        exact lt_of_get h3
    have hup : ∀ p ∈ upCols K dims bd d, p.1.1 < (K d).length ∧ p.1.2 < (K d).length ∧
        p.2 < (complexOf K dims fs bd cob down xs vy y).cellsIn (d + 1) := by
      rintro ⟨⟨a, b⟩, e⟩ hp
      obtain ⟨h0, -, _, _, _, h1, h2, h3, -⟩ := (mem_upCols cd).mp hp
      refine ⟨lt_of_get h1, lt_of_get h2, ?_⟩
      rw [complexOf_cellsIn cd hx, if_pos h0]
      exact lt_of_get h3
    rw [hcell]
    refine { plain := ⟨rfl, rfl⟩, rows := ?_, upper := ?_, upperShared := ?_, upperBoth := ?_,
             shared := ?_, lower := ?_, lowerShared := ?_, lowerBoth := ?_, sharedDown := ?_,
             boundary := ?_ }
    · intro x hxx; exact hx.rows d x hd hxx
    · intro p hp
      simp only [cochainOf, nonempty_getD, List.mem_map] at hp
      obtain ⟨q, hq, rfl⟩ := hp
      exact ⟨(hup q hq).1, (hup q hq).2.1⟩
    · simp [cochainOf]
    · exact nonempty_isSome_map _
    · intro s hs
      simp only [cochainOf, nonempty_getD, List.mem_map] at hs
      obtain ⟨q, hq, rfl⟩ := hs
      exact (hup q hq).2.2
    · intro p hp
      simp only [cochainOf, nonempty_getD, List.mem_map] at hp
      obtain ⟨q, hq, rfl⟩ := hp
      exact ⟨(hlo q hq).1, (hlo q hq).2.1⟩
    · simp [cochainOf]
    · exact nonempty_isSome_map _
    · intro s hs
      simp only [cochainOf, nonempty_getD, List.mem_map] at hs
      obtain ⟨q, hq, rfl⟩ := hs
      exact (hlo q hq).2.2
    · rintro ⟨f, e⟩ hp
      simp only [cochainOf] at hp
      rw [boundaryIndexOf_getD] at hp
      cases d with
      | zero => simp [tableRow, tagged] at hp
      | succ d =>
        obtain ⟨_, _, h1, h2, -⟩ := (mem_bndCols cd hd).mp hp
        simp only [Complex.cellsBelow]
        rw [complexOf_cellsIn cd hx, if_pos (by omega)]
        exact ⟨lt_of_get h1, lt_of_get h2⟩

end

end Verif
