import Verif.Spec.Oriented
import Verif.Lemmas.Layers
import Verif.Lemmas.Models
import Mathlib.Algebra.Module.NatInt
import Mathlib.Tactic.Ring

/-!
# Lemmas on oriented convolutions
-/

namespace Verif

variable {R L : Type} [AddCommGroup R]

/-- A cochain on which the oriented convolution runs. -/
structure OrientedData (c : Cochain R L) (x : List R) (ui li : List (Nat × Nat)) (uo lo : List Int) :
    Prop where
  hx : c.x = some x
  hui : c.upperIndex = some ui
  hli : c.lowerIndex = some li
  huo : c.upperOrient = some uo
  hlo : c.lowerOrient = some lo
  ulen : uo.length = ui.length
  llen : lo.length = li.length
  une : ui ≠ []
  lne : li ≠ []
  urange : ∀ p ∈ ui, p.1 < x.length ∧ p.2 < x.length
  lrange : ∀ p ∈ li, p.1 < x.length ∧ p.2 < x.length

/-- The sum of the oriented messages to a cell. -/
def orientedSum (orient : Bool) (x : List R) (index : List (Nat × Nat)) (os : List Int) (c : Nat) : R :=
  (((index.zip os).filter (fun p => p.1.2 == c)).map fun p =>
    if orient then p.2 • rowOf x p.1.1 else rowOf x p.1.1).sum

/-- The row computed by the oriented convolution. -/
def orientedRow (l : OrientedLevel R) (x : List R) (ui li : List (Nat × Nat)) (uo lo : List Int)
    (c : Nat) : R :=
  l.act (l.update (rowOf x c) + l.updateUp (orientedSum l.orient x ui uo c) +
    l.updateDown (orientedSum l.orient x li lo c))

theorem indexSelect_rows {x : List R} {idx : List Nat} (h : ∀ i ∈ idx, i < x.length) :
    indexSelect x idx = .ok (idx.map (rowOf x)) := by
  unfold indexSelect
  apply mapE_ok
  intro i hi
  have := List.getElem?_eq_getElem (h i hi)
  rw [this]
  simp [rowOf, this]

theorem zipWith_map_left' {A B C D : Type} (f : C → B → D) (g : A → C) (a : List A) (b : List B) :
    List.zipWith f (a.map g) b = (a.zip b).map fun p => f (g p.1) p.2 := by
  induction a generalizing b with
  | nil => simp
  | cons a as ih =>
    cases b with
    | nil => simp
    | cons b bs => simp [ih]

theorem zip_map_zip {A B C D : Type} (f : A → C) (g : A × B → D) (a : List A) (b : List B)
    (h : b.length = a.length) :
    (a.map f).zip ((a.zip b).map g) = (a.zip b).map fun p => (f p.1, g p) := by
  induction a generalizing b with
  | nil => simp
  | cons a as ih =>
    cases b with
    | nil => simp at h
    | cons b bs =>
      simp only [List.length_cons, Nat.add_right_cancel_iff] at h
      simp [ih bs h]

theorem messageAndAggregate_oriented (orient : Bool) {x : List R} {index : List (Nat × Nat)}
    {os : List Int} (hl : os.length = index.length)
    (hr : ∀ p ∈ index, p.1 < x.length ∧ p.2 < x.length) :
    messageAndAggregate (if orient then .withAttr (fun x (o : Int) => o • x) else .plain id) aggAdd
        .sourceToTarget x.length x index (some (some os)) =
      .ok ((List.range x.length).map (orientedSum orient x index os)) := by
  unfold messageAndAggregate
  rw [indexSelect_rows (x := x) (idx := index.map Flow.sourceToTarget.j) (by
    intro i hi
    obtain ⟨p, hp, rfl⟩ := List.mem_map.mp hi
    exact (hr p hp).1), ok_bind]
  dsimp only
  have happ : (if orient then .withAttr (fun (x : R) (o : Int) => o • x) else .plain id : Msg R Int R).apply
      ((index.map Flow.sourceToTarget.j).map (rowOf x)) (some os) =
      .ok ((index.zip os).map fun p => if orient then p.2 • rowOf x p.1.1 else rowOf x p.1.1) := by
    cases orient with
    | true =>
      simp only [if_true, Msg.apply, Msg.zipAttr]
      rw [if_pos (by simp [hl]), List.map_map, zipWith_map_left']
      rfl
    | false =>
      simp only [Bool.false_eq_true, if_false, Msg.apply, ok_inj, List.map_map]
      have : index = (index.zip os).map Prod.fst := by rw [List.map_fst_zip (by omega)]
      conv_lhs => rw [this, List.map_map]
      rfl
  rw [happ, ok_bind, scatter_ok (by simp [hl]) (by
    intro i hi
    obtain ⟨p, hp, rfl⟩ := List.mem_map.mp hi
    exact (hr p hp).2), ok_inj]
  apply List.map_congr_left
  intro c _
  rw [zip_map_zip _ _ _ _ hl, List.filter_map, List.map_map]
  rfl

theorem checkRange_ok {index : List (Nat × Nat)} {n : Nat} :
    checkRange index n = .ok () ↔ index ≠ [] ∧ ∀ p ∈ index, p.1 < n ∧ p.2 < n := by
  unfold checkRange
  cases hm : (index.flatMap fun p => [p.1, p.2]).max? with
  | none =>
    have : (index.flatMap fun p => [p.1, p.2]) = [] := by simpa using hm
    cases index with
    | nil => simp
    | cons p ps => simp at this
  | some m =>
    have hne : index ≠ [] := by rintro rfl; simp at hm
    obtain ⟨hmem, hmax⟩ := List.max?_eq_some_iff.mp hm
    simp only [pyAssert]
    constructor
    · intro h
      have hlt : m < n := by
        by_contra hh
        simp [hh] at h
      refine ⟨hne, fun p hp => ?_⟩
      have h1 := hmax p.1 (List.mem_flatMap.mpr ⟨p, hp, by simp⟩)
      have h2 := hmax p.2 (List.mem_flatMap.mpr ⟨p, hp, by simp⟩)
      omega
    · rintro ⟨-, h⟩
      obtain ⟨p, hp, hpm⟩ := List.mem_flatMap.mp hmem
      have := h p hp
      have : m < n := by
        simp only [List.mem_cons, List.not_mem_nil, or_false] at hpm
        rcases hpm with rfl | rfl
        · exact this.1
        · exact this.2
      simp [this]

theorem checkOrient_ok {orient : Option (List Int)} {index : Option (List (Nat × Nat))}
    {o : List Int} {i : List (Nat × Nat)} :
    checkOrient orient index = .ok (o, i) ↔ orient = some o ∧ index = some i ∧ o.length = i.length := by
  unfold checkOrient
  cases orient <;> cases index
  · simp
  · simp
  · simp
  · rename_i o' i'
    dsimp only
    split
    · rename_i h
      simp only [ok_inj, Prod.mk.injEq, Option.some.injEq]
      constructor
      · rintro ⟨rfl, rfl⟩; exact ⟨rfl, rfl, h⟩
      · rintro ⟨rfl, rfl, _⟩; exact ⟨rfl, rfl⟩
    · rename_i h
      simp only [reduceCtorEq, false_iff, Option.some.injEq, not_and]
      rintro rfl rfl
      exact h

theorem OrientedLevel.forward_ok (l : OrientedLevel R) {c : Cochain R L} {x : List R}
    {ui li : List (Nat × Nat)} {uo lo : List Int} (h : OrientedData c x ui li uo lo) :
    l.forward c = .ok ((List.range x.length).map (orientedRow l x ui li uo lo)) := by
  unfold OrientedLevel.forward
  rw [checkOrient_ok.mpr ⟨h.huo, h.hui, h.ulen⟩, ok_bind, checkOrient_ok.mpr ⟨h.hlo, h.hli, h.llen⟩,
    ok_bind, h.hx]
  dsimp only
  rw [checkRange_ok.mpr ⟨h.une, h.urange⟩, ok_bind, checkRange_ok.mpr ⟨h.lne, h.lrange⟩, ok_bind]
  have h1 : aggregateOrZero l.cfg.msgUp l.cfg.aggUp l.cfg.flow x.length x (some ui) (some (some uo)) =
      .ok ((List.range x.length).map (orientedSum l.orient x ui uo)) :=
    messageAndAggregate_oriented l.orient h.ulen h.urange
  have h2 : aggregateOrZero l.cfg.msgDown l.cfg.aggDown l.cfg.flow x.length x
      (if l.cfg.useDown then some li else none) (some (some lo)) =
      .ok ((List.range x.length).map (orientedSum l.orient x li lo)) :=
    messageAndAggregate_oriented l.orient h.llen h.lrange
  have h3 : aggregateBoundary l.cfg.msgBoundary l.cfg.aggBoundary l.cfg.flow x.length
      (if l.cfg.useBoundary then none else none) none = .ok (zeroRows x.length) := rfl
  unfold propagate
  dsimp only
  rw [h1, ok_bind, h2, ok_bind, h3, ok_bind]
  simp only [ok_bind, pure_eq_ok]
  conv_lhs => enter [1]; rw [rows_range x]
  simp only [List.map_map, List.length_map, List.length_range]
  rw [zipRows_range, ok_bind, zipRows_range, ok_bind]
  simp only [List.map_map, ok_inj]
  rw [← rows_range x]
  rfl

theorem OrientedLevel.forward_inv {l : OrientedLevel R} {c : Cochain R L} {out : List R}
    (h : l.forward c = .ok out) :
    ∃ x ui li uo lo, OrientedData c x ui li uo lo ∧
      out = (List.range x.length).map (orientedRow l x ui li uo lo) := by
  have h' := h
  unfold OrientedLevel.forward at h
  obtain ⟨⟨uo, ui⟩, h1, h⟩ := bind_eq_ok.mp h
  obtain ⟨⟨lo, li⟩, h2, h⟩ := bind_eq_ok.mp h
  cases hx : c.x with
  | none => rw [hx] at h; simp at h
  | some x =>
    rw [hx] at h
    obtain ⟨_, h3, h⟩ := bind_eq_ok.mp h
    obtain ⟨_, h4, h⟩ := bind_eq_ok.mp h
    obtain ⟨a1, a2, a3⟩ := checkOrient_ok.mp h1
    obtain ⟨b1, b2, b3⟩ := checkOrient_ok.mp h2
    obtain ⟨c1, c2⟩ := checkRange_ok.mp h3
    obtain ⟨d1, d2⟩ := checkRange_ok.mp h4
    have hd : OrientedData c x ui li uo lo := ⟨hx, a2, b2, a1, b1, a3, b3, c1, d1, c2, d2⟩
    refine ⟨x, ui, li, uo, lo, hd, ?_⟩
    rw [l.forward_ok hd] at h'
    simpa using h'.symm

/-! ### Flips -/

theorem flipRows_length (s : Nat → Int) (x : List R) : (flipRows s x).length = x.length := by
  simp [flipRows]

theorem flipCols_length (s : Nat → Int) {index : List (Nat × Nat)} {os : List Int}
    (h : os.length = index.length) : (flipCols s index os).length = index.length := by
  simp [flipCols, h]

theorem rowOf_flipRows (s : Nat → Int) (x : List R) (c : Nat) :
    rowOf (flipRows s x) c = s c • rowOf x c := by
  unfold rowOf flipRows
  rw [List.getElem?_mapIdx]
  cases x[c]? <;> simp

theorem OrientedData.flip {c : Cochain R L} {x : List R} {ui li : List (Nat × Nat)}
    {uo lo : List Int} (h : OrientedData c x ui li uo lo) (s : Nat → Int) :
    OrientedData (c.flip s) (flipRows s x) ui li (flipCols s ui uo) (flipCols s li lo) where
  hx := by simp [Cochain.flip, h.hx]
  hui := h.hui
  hli := h.hli
  huo := by simp [Cochain.flip, h.huo, h.hui]
  hlo := by simp [Cochain.flip, h.hlo, h.hli]
  ulen := flipCols_length s h.ulen
  llen := flipCols_length s h.llen
  une := h.une
  lne := h.lne
  urange := by simpa [flipRows_length] using h.urange
  lrange := by simpa [flipRows_length] using h.lrange

theorem zip_flipCols (s : Nat → Int) {index : List (Nat × Nat)} {os : List Int}
    (h : os.length = index.length) :
    index.zip (flipCols s index os) =
      (index.zip os).map fun p => (p.1, s p.1.1 * s p.1.2 * p.2) := by
  have := zip_map_zip (fun p : Nat × Nat => p) (fun p : (Nat × Nat) × Int => s p.1.1 * s p.1.2 * p.2)
    index os h
  simpa [flipCols] using this

theorem sign_sq {s : Nat → Int} (hs : Signs s) (c : Nat) : s c * s c = 1 := by
  rcases hs c with h | h <;> rw [h] <;> decide

theorem smul_sum_list (k : Int) (l : List R) : k • l.sum = (l.map fun r => k • r).sum := by
  induction l with
  | nil => simp
  | cons a l ih => simp [smul_add, ih]

theorem orientedSum_flip {s : Nat → Int} (hs : Signs s) (x : List R) {index : List (Nat × Nat)}
    {os : List Int} (h : os.length = index.length) (c : Nat) :
    orientedSum true (flipRows s x) index (flipCols s index os) c =
      s c • orientedSum true x index os c := by
  unfold orientedSum
  rw [zip_flipCols s h, List.filter_map, List.map_map, smul_sum_list, List.map_map]
  congr 1
  apply List.map_congr_left
  intro p hp
  have hp2 := (List.mem_filter.mp hp).2
  simp only [Function.comp, beq_iff_eq] at hp2
  simp only [Function.comp, if_true, rowOf_flipRows, smul_smul]
  congr 1
  rw [hp2]
  have := sign_sq hs p.1.1
  have h2 : s p.1.1 * s c * p.2 * s p.1.1 = (s p.1.1 * s p.1.1) * (s c * p.2) := by ring
  rw [h2, this, Int.one_mul]

theorem odd_smul {f : R → R} (hf : Odd' f) {k : Int} (hk : k = 1 ∨ k = -1) (r : R) :
    f (k • r) = k • f r := by
  rcases hk with rfl | rfl
  · simp
  · simp [hf r]

theorem orientedRow_flip {s : Nat → Int} (hs : Signs s) {l : OrientedLevel R} (hl : l.Equivariant)
    (x : List R) {ui li : List (Nat × Nat)} {uo lo : List Int} (hu : uo.length = ui.length)
    (hlo : lo.length = li.length) (c : Nat) :
    orientedRow l (flipRows s x) ui li (flipCols s ui uo) (flipCols s li lo) c =
      s c • orientedRow l x ui li uo lo c := by
  unfold orientedRow
  rw [hl.orient, orientedSum_flip hs x hu, orientedSum_flip hs x hlo, rowOf_flipRows,
    odd_smul hl.update (hs c), odd_smul hl.up (hs c), odd_smul hl.down (hs c), ← smul_add, ← smul_add,
    odd_smul hl.act (hs c)]

theorem flipRows_range (s : Nat → Int) (n : Nat) (f : Nat → R) :
    flipRows s ((List.range n).map f) = (List.range n).map fun c => s c • f c := by
  apply List.ext_getElem?
  intro c
  simp only [flipRows, List.getElem?_mapIdx, List.getElem?_map]
  by_cases hc : c < n
  · rw [List.getElem?_range hc]; rfl
  · rw [List.getElem?_eq_none (by simpa using hc)]; rfl

theorem flip_setX (s : Nat → Int) {c c' : Cochain R L} {x : List R}
    (h : c.setX (some x) = .ok c') (hx : c.x.isSome) :
    (c.flip s).setX (some (flipRows s x)) = .ok (c'.flip s) := by
  obtain ⟨cx, hcx⟩ := Option.isSome_iff_exists.mp hx
  unfold Cochain.setX at h ⊢
  dsimp only at h ⊢
  obtain ⟨n, hn, h⟩ := bind_eq_ok.mp h
  obtain ⟨_, ha, h⟩ := bind_eq_ok.mp h
  have hn' : (c.flip s).numCells = .ok n := by
    rw [← hn]
    unfold Cochain.numCells Cochain.flip
    dsimp only
    rw [hcx]
    cases c.numCellsAttr with
    | some _ => rfl
    | none => simp [flipRows_length]
  rw [hn', ok_bind]
  simp only [flipRows_length, ha, ok_bind, pure_eq_ok, ok_inj] at h ⊢
  rw [← h]
  simp [Cochain.flip]

theorem setX_x {c c' : Cochain R L} {x : List R} (h : c.setX (some x) = .ok c') :
    c' = { c with x := some x } := by
  unfold Cochain.setX at h
  dsimp only at h
  obtain ⟨n, hn, h⟩ := bind_eq_ok.mp h
  obtain ⟨_, ha, h⟩ := bind_eq_ok.mp h
  simpa using h.symm

theorem runOriented_flip {s : Nat → Int} (hs : Signs s) {ls : List (OrientedLevel R)}
    (hl : ∀ l ∈ ls, l.Equivariant) {c c' : Cochain R L} {o : Option (List R)}
    (h : runOriented c ls = .ok (c', o)) :
    runOriented (c.flip s) ls = .ok (c'.flip s, o.map (flipRows s)) ∧ c'.batch = c.batch := by
  induction ls generalizing c c' o with
  | nil =>
    simp only [runOriented, ok_inj, Prod.mk.injEq] at h
    obtain ⟨rfl, rfl⟩ := h
    exact ⟨rfl, rfl⟩
  | cons l ls ih =>
    simp only [runOriented] at h ⊢
    obtain ⟨x, hx, h⟩ := bind_eq_ok.mp h
    obtain ⟨c1, hc1, h⟩ := bind_eq_ok.mp h
    obtain ⟨⟨c2, o2⟩, h2, h⟩ := bind_eq_ok.mp h
    simp only [pure_eq_ok, ok_inj, Prod.mk.injEq] at h
    obtain ⟨rfl, rfl⟩ := h
    obtain ⟨x0, ui, li, uo, lo, hd, hout⟩ := OrientedLevel.forward_inv hx
    have hf : l.forward (c.flip s) = .ok (flipRows s x) := by
      rw [l.forward_ok (hd.flip s), hout, flipRows_range, flipRows_length, ok_inj]
      apply List.map_congr_left
      intro k _
      exact orientedRow_flip hs (hl l (by simp)) x0 hd.ulen hd.llen k
    obtain ⟨h3, h4⟩ := ih (fun l hl' => hl l (by simp [hl'])) h2
    rw [hf, ok_bind, flip_setX s hc1 (by simp [hd.hx]), ok_bind, h3]
    refine ⟨?_, ?_⟩
    · simp only [ok_bind, pure_eq_ok]
      cases o2 <;> rfl
    · rw [h4, setX_x hc1]

theorem even_flip {f : R → R} (hf : ∀ r, f (-r) = f r) {s : Nat → Int} (hs : Signs s) (x : List R) :
    (flipRows s x).map f = x.map f := by
  unfold flipRows
  apply List.ext_getElem?
  intro k
  simp only [List.getElem?_map, List.getElem?_mapIdx, Option.map_map]
  cases x[k]? with
  | none => rfl
  | some r =>
    simp only [Option.map_some, Function.comp]
    rcases hs k with h | h <;> simp [h, hf]

end Verif
