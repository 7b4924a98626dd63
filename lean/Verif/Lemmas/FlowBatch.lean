import Verif.Lemmas.Oriented
import Verif.Spec.FlowData
import Verif.Lemmas.Models

/-!
# Batches of oriented cochains
-/

namespace Verif

variable {𝕜 R L : Type}

/-- The data that an oriented convolution reads. -/
structure EdgeRows (R : Type) where
  x : List R
  ui : List (Nat × Nat)
  li : List (Nat × Nat)
  uo : List Int
  lo : List Int

namespace EdgeRows

/-- The data fit together. -/
structure Ok (d : EdgeRows R) : Prop where
  ulen : d.uo.length = d.ui.length
  llen : d.lo.length = d.li.length
  urange : ∀ p ∈ d.ui, p.1 < d.x.length ∧ p.2 < d.x.length
  lrange : ∀ p ∈ d.li, p.1 < d.x.length ∧ p.2 < d.x.length

/-- The disjoint union. -/
def join (d e : EdgeRows R) : EdgeRows R where
  x := d.x ++ e.x
  ui := d.ui ++ e.ui.map (shiftPair d.x.length)
  li := d.li ++ e.li.map (shiftPair d.x.length)
  uo := d.uo ++ e.uo
  lo := d.lo ++ e.lo

/-- Nothing. -/
def nil : EdgeRows R := ⟨[], [], [], [], []⟩

/-- The disjoint union of all. -/
def joinAll (ds : List (EdgeRows R)) : EdgeRows R := ds.foldr join nil

theorem Ok.nil : Ok (EdgeRows.nil : EdgeRows R) := ⟨rfl, rfl, by simp [EdgeRows.nil], by simp [EdgeRows.nil]⟩

theorem Ok.join {d e : EdgeRows R} (hd : d.Ok) (he : e.Ok) : (d.join e).Ok where
  ulen := by simp [EdgeRows.join, hd.ulen, he.ulen]
  llen := by simp [EdgeRows.join, hd.llen, he.llen]
  urange := by
    intro p hp
    simp only [EdgeRows.join, List.mem_append, List.mem_map, List.length_append] at hp ⊢
    rcases hp with hp | ⟨q, hq, rfl⟩
    · have := hd.urange p hp
      omega
    · have := he.urange q hq
      simp only [shiftPair]
      omega
  lrange := by
    intro p hp
    simp only [EdgeRows.join, List.mem_append, List.mem_map, List.length_append] at hp ⊢
    rcases hp with hp | ⟨q, hq, rfl⟩
    · have := hd.lrange p hp
      omega
    · have := he.lrange q hq
      simp only [shiftPair]
      omega

theorem Ok.joinAll {ds : List (EdgeRows R)} (h : ∀ d ∈ ds, d.Ok) : (EdgeRows.joinAll ds).Ok := by
  induction ds with
  | nil => exact Ok.nil
  | cons d ds ih => exact (h d (by simp)).join (ih fun e he => h e (by simp [he]))

variable [AddCommGroup R]

theorem rowOf_append_left {x y : List R} {k : Nat} (h : k < x.length) : rowOf (x ++ y) k = rowOf x k := by
  unfold rowOf
  rw [List.getElem?_append_left h]

theorem rowOf_append_right {x y : List R} {k : Nat} : rowOf (x ++ y) (k + x.length) = rowOf y k := by
  unfold rowOf
  rw [List.getElem?_append_right (by omega), Nat.add_sub_cancel]

theorem orientedSum_left (orient : Bool) {x y : List R} {i j : List (Nat × Nat)} {o q : List Int}
    (ho : o.length = i.length) (hi : ∀ p ∈ i, p.1 < x.length ∧ p.2 < x.length) {k : Nat} (hk : k < x.length) :
    orientedSum orient (x ++ y) (i ++ j.map (shiftPair x.length)) (o ++ q) k = orientedSum orient x i o k := by
  unfold orientedSum
  rw [List.zip_append ho.symm, List.filter_append, List.map_append, List.sum_append]
  have h2 : ((j.map (shiftPair x.length)).zip q).filter (fun p => p.1.2 == k) = [] := by
    rw [List.filter_eq_nil_iff]
    intro p hp
    obtain ⟨r, -, hr⟩ := List.mem_map.mp (List.of_mem_zip hp).1
    rw [← hr]
    simp only [shiftPair, beq_iff_eq]
    omega
  rw [h2, List.map_nil, List.sum_nil, add_zero]
  congr 1
  apply List.map_congr_left
  intro p hp
  have hp1 := (List.of_mem_zip (List.mem_filter.mp hp).1).1
  rw [rowOf_append_left (hi p.1 hp1).1]

theorem orientedSum_right (orient : Bool) {x y : List R} {i j : List (Nat × Nat)} {o q : List Int}
    (ho : o.length = i.length) (hi : ∀ p ∈ i, p.1 < x.length ∧ p.2 < x.length) (k : Nat) :
    orientedSum orient (x ++ y) (i ++ j.map (shiftPair x.length)) (o ++ q) (k + x.length) =
      orientedSum orient y j q k := by
  unfold orientedSum
  rw [List.zip_append ho.symm, List.filter_append, List.map_append, List.sum_append]
  have h2 : (i.zip o).filter (fun p => p.1.2 == k + x.length) = [] := by
    rw [List.filter_eq_nil_iff]
    intro p hp
    have := hi p.1 (List.of_mem_zip hp).1
    simp only [beq_iff_eq]
    omega
  rw [h2, List.map_nil, List.sum_nil, zero_add, List.zip_map_left, List.filter_map, List.map_map]
  congr 1
  have hf : ((fun p : (Nat × Nat) × Int => p.1.2 == k + x.length) ∘ Prod.map (shiftPair x.length) id) =
      fun p => p.1.2 == k := by
    funext p
    simp only [Function.comp, Prod.map, shiftPair, id]
    rw [Bool.eq_iff_iff, beq_iff_eq, beq_iff_eq]
    omega
  rw [hf]
  apply List.map_congr_left
  intro p _
  simp only [Function.comp, Prod.map, shiftPair, id]
  rw [rowOf_append_right]

/-- What one layer makes of the data. -/
def layer (d : EdgeRows R) (l : OrientedLevel R) : EdgeRows R :=
  { d with x := (List.range d.x.length).map (orientedRow l d.x d.ui d.li d.uo d.lo) }

theorem layer_length (d : EdgeRows R) (l : OrientedLevel R) : (d.layer l).x.length = d.x.length := by
  simp [layer]

theorem Ok.layer {d : EdgeRows R} (h : d.Ok) (l : OrientedLevel R) : (d.layer l).Ok where
  ulen := h.ulen
  llen := h.llen
  urange := by rw [layer_length]; exact h.urange
  lrange := by rw [layer_length]; exact h.lrange

theorem layer_join {d e : EdgeRows R} (hd : d.Ok) (l : OrientedLevel R) :
    (d.join e).layer l = (d.layer l).join (e.layer l) := by
  have hx : ((d.join e).layer l).x = (d.layer l).x ++ (e.layer l).x := by
    simp only [layer, EdgeRows.join, List.length_append, List.range_add, List.map_append, List.map_map]
    congr 1
    · apply List.map_congr_left
      intro k hk
      rw [List.mem_range] at hk
      unfold orientedRow
      rw [rowOf_append_left hk, orientedSum_left _ hd.ulen hd.urange hk, orientedSum_left _ hd.llen hd.lrange hk]
    · apply List.map_congr_left
      intro k _
      simp only [Function.comp]
      rw [Nat.add_comm]
      unfold orientedRow
      rw [rowOf_append_right, orientedSum_right _ hd.ulen hd.urange, orientedSum_right _ hd.llen hd.lrange]
  have h2 : (d.layer l).x.length = d.x.length := layer_length d l
  unfold EdgeRows.join at hx ⊢
  simp only [layer] at hx h2 ⊢
  rw [hx, h2]

/-- What all layers make of the data. -/
def run (d : EdgeRows R) (ls : List (OrientedLevel R)) : EdgeRows R := ls.foldl layer d

theorem run_length (d : EdgeRows R) (ls : List (OrientedLevel R)) : (d.run ls).x.length = d.x.length := by
  induction ls generalizing d with
  | nil => rfl
  | cons l ls ih => exact (ih (d.layer l)).trans (layer_length d l)

theorem run_join {d e : EdgeRows R} (hd : d.Ok) (ls : List (OrientedLevel R)) :
    (d.join e).run ls = (d.run ls).join (e.run ls) := by
  induction ls generalizing d e with
  | nil => rfl
  | cons l ls ih =>
    show ((d.join e).layer l).run ls = _
    rw [layer_join hd, ih (hd.layer l)]
    rfl

theorem run_nil (ls : List (OrientedLevel R)) : (EdgeRows.nil : EdgeRows R).run ls = EdgeRows.nil := by
  induction ls with
  | nil => rfl
  | cons l ls ih => exact ih

theorem run_joinAll {ds : List (EdgeRows R)} (h : ∀ d ∈ ds, d.Ok) (ls : List (OrientedLevel R)) :
    ((joinAll ds).run ls).x = ds.flatMap fun d => (d.run ls).x := by
  induction ds with
  | nil => rw [joinAll, List.foldr_nil, run_nil]; rfl
  | cons d ds ih =>
    show ((d.join (joinAll ds)).run ls).x = _
    rw [run_join (h d (by simp)), List.flatMap_cons, ← ih fun e he => h e (by simp [he])]
    rfl

end EdgeRows

open EdgeRows

/-- The cochain has these data. -/
structure Holds (c : Cochain R L) (d : EdgeRows R) : Prop where
  hx : c.x = some d.x
  hui : c.upperIndex = some d.ui
  hli : c.lowerIndex = some d.li
  huo : c.upperOrient = some d.uo
  hlo : c.lowerOrient = some d.lo

section run
variable [AddCommGroup R]

theorem Holds.oriented {c : Cochain R L} {d : EdgeRows R} (h : Holds c d) (hd : d.Ok) (hu : d.ui ≠ [])
    (hl : d.li ≠ []) : OrientedData c d.x d.ui d.li d.uo d.lo :=
  ⟨h.hx, h.hui, h.hli, h.huo, h.hlo, hd.ulen, hd.llen, hu, hl, hd.urange, hd.lrange⟩

theorem runOriented_ok {c : Cochain R L} {d : EdgeRows R} (h : Holds c d) (hd : d.Ok) (hu : d.ui ≠ [])
    (hl : d.li ≠ []) (hn : c.numCellsAttr = none) (ls : List (OrientedLevel R)) (hls : ls ≠ []) :
    runOriented c ls = .ok ({ c with x := some (d.run ls).x }, some (d.run ls).x) := by
  induction ls generalizing c d with
  | nil => exact absurd rfl hls
  | cons l ls ih =>
    unfold runOriented
    rw [l.forward_ok (h.oriented hd hu hl), ok_bind]
    have hset : c.setX (some (d.layer l).x) = .ok { c with x := some (d.layer l).x } := by
      unfold Cochain.setX Cochain.numCells
      dsimp only
      rw [hn, h.hx]
      dsimp only
      rw [ok_bind, layer_length]
      simp
    show (c.setX (some (d.layer l).x) >>= _) = _
    rw [hset, ok_bind]
    cases ls with
    | nil => rfl
    | cons l' ls =>
      rw [ih (c := { c with x := some (d.layer l).x }) (d := d.layer l) ⟨rfl, h.hui, h.hli, h.huo, h.hlo⟩
        (hd.layer l) hu hl hn (by simp)]
      rfl

/-- The data after `prepare`. -/
def OrientNet.start (net : OrientNet R) (d : EdgeRows R) : EdgeRows R :=
  if net.fullyInvar then { d with x := d.x.map net.abs } else d

theorem OrientNet.start_length (net : OrientNet R) (d : EdgeRows R) : (net.start d).x.length = d.x.length := by
  unfold OrientNet.start
  split <;> simp

theorem OrientNet.start_join (net : OrientNet R) (d e : EdgeRows R) :
    net.start (d.join e) = (net.start d).join (net.start e) := by
  unfold OrientNet.start
  split
  · simp [EdgeRows.join]
  · rfl

theorem OrientNet.start_joinAll (net : OrientNet R) (ds : List (EdgeRows R)) :
    net.start (joinAll ds) = joinAll (ds.map net.start) := by
  induction ds with
  | nil =>
    show net.start EdgeRows.nil = EdgeRows.nil
    unfold OrientNet.start
    split <;> rfl
  | cons d ds ih =>
    show net.start (d.join (joinAll ds)) = (net.start d).join (joinAll (ds.map net.start))
    rw [net.start_join, ih]

theorem OrientNet.start_parts (net : OrientNet R) (d : EdgeRows R) : (net.start d).ui = d.ui ∧
    (net.start d).li = d.li ∧ (net.start d).uo = d.uo ∧ (net.start d).lo = d.lo := by
  unfold OrientNet.start
  split <;> exact ⟨rfl, rfl, rfl, rfl⟩

theorem OrientNet.start_ok {net : OrientNet R} {d : EdgeRows R} (h : d.Ok) : (net.start d).Ok := by
  obtain ⟨h1, h2, h3, h4⟩ := net.start_parts d
  constructor
  · rw [h1, h3]; exact h.ulen
  · rw [h2, h4]; exact h.llen
  · rw [h1, net.start_length]; exact h.urange
  · rw [h2, net.start_length]; exact h.lrange

/-- The rows that are pooled. -/
def OrientNet.cellRows (net : OrientNet R) (d : EdgeRows R) : List R :=
  let x := ((net.start d).run net.convs).x
  if net.fullyInvar then x else x.map net.abs

theorem OrientNet.cellRows_length (net : OrientNet R) (d : EdgeRows R) : (net.cellRows d).length = d.x.length := by
  have h : ((net.start d).run net.convs).x.length = d.x.length := by
    rw [EdgeRows.run_length, net.start_length]
  unfold OrientNet.cellRows
  dsimp only
  split
  · exact h
  · rw [List.length_map]; exact h

theorem OrientNet.cellRows_joinAll (net : OrientNet R) {ds : List (EdgeRows R)} (h : ∀ d ∈ ds, d.Ok) :
    net.cellRows (joinAll ds) = ds.flatMap net.cellRows := by
  unfold OrientNet.cellRows
  dsimp only
  rw [net.start_joinAll, run_joinAll (by
    intro d hd
    obtain ⟨e, he, rfl⟩ := List.mem_map.mp hd
    exact OrientNet.start_ok (h e he)), List.flatMap_map]
  cases net.fullyInvar with
  | true => rfl
  | false =>
    simp only [Bool.false_eq_true, if_false, List.map_flatMap]

variable [Field 𝕜] [Module 𝕜 R]

/-- The networks on a batch whose data are known. -/
theorem OrientNet.forward_eq (net : OrientNet R) {b : Cochain R L} {d : EdgeRows R} (h : Holds b d) (hd : d.Ok)
    (hu : d.ui ≠ []) (hl : d.li ≠ []) (hn : b.numCellsAttr = none) (hne : net.convs ≠ []) {v : List Nat}
    (hv : b.batch = some v) {n : Nat} (hmax : Cochain.maxPlusOne v = .ok n) {pool : Pooling}
    (hpool : getPoolingFn net.readout = .ok pool) :
    net.forward 𝕜 b = (scatter (pool.agg 𝕜) n v (net.cellRows d)).map
      (List.map fun r => net.lin2 (net.relu (net.lin1 r))) := by
  obtain ⟨s1, s2, s3, s4⟩ := net.start_parts d
  have hprep : net.prepare b = .ok { b with x := some (net.start d).x } := by
    unfold OrientNet.prepare
    unfold OrientNet.start
    cases net.fullyInvar with
    | true =>
      simp only [if_true]
      rw [h.hx]
      dsimp only
      unfold Cochain.setX Cochain.numCells
      dsimp only
      rw [hn, h.hx]
      dsimp only
      rw [ok_bind]
      simp
    | false =>
      simp only [Bool.false_eq_true, if_false]
      rw [← h.hx]
  have hh : Holds { b with x := some (net.start d).x } (net.start d) :=
    ⟨rfl, by rw [s1]; exact h.hui, by rw [s2]; exact h.hli, by rw [s3]; exact h.huo, by rw [s4]; exact h.hlo⟩
  unfold OrientNet.forward
  rw [hprep, ok_bind, runOriented_ok hh (OrientNet.start_ok hd) (by rw [s1]; exact hu) (by rw [s2]; exact hl) hn
    _ hne, ok_bind]
  dsimp only
  rw [hv]
  dsimp only
  rw [hmax, ok_bind, hpool, ok_bind]
  unfold OrientNet.cellRows
  dsimp only
  generalize scatter (M := R) _ _ _ _ = r
  cases r <;> rfl

theorem OrientNet.forward_inv {net : OrientNet R} {b : Cochain R L} {out : List R}
    (h : net.forward 𝕜 b = .ok out) :
    ∃ (d : EdgeRows R) (v : List Nat) (n : Nat) (pool : Pooling), Holds b d ∧ d.Ok ∧ d.ui ≠ [] ∧ d.li ≠ [] ∧
      net.convs ≠ [] ∧ b.batch = some v ∧ Cochain.maxPlusOne v = .ok n ∧ getPoolingFn net.readout = .ok pool := by
  unfold OrientNet.forward at h
  obtain ⟨b0, h0, h⟩ := bind_eq_ok.mp h
  have hb0 : ∃ x0, b0 = { b with x := x0 } ∧ (∀ y, x0 = some y → ∃ y', b.x = some y' ∧ y'.length = y.length) := by
    unfold OrientNet.prepare at h0
    split at h0
    · cases hx : b.x with
      | none => rw [hx] at h0; cases h0
      | some x =>
        rw [hx] at h0
        dsimp only at h0
        refine ⟨_, setX_x h0, ?_⟩
        rintro y hy
        rw [Option.some.injEq] at hy
        subst hy
        exact ⟨x, rfl, by simp⟩
    · rw [ok_inj] at h0
      subst h0
      exact ⟨b.x, rfl, fun y hy => ⟨y, hy, rfl⟩⟩
  obtain ⟨x0, rfl, hx0⟩ := hb0
  obtain ⟨⟨b1, o⟩, h1, h⟩ := bind_eq_ok.mp h
  cases hc : net.convs with
  | nil =>
    rw [hc] at h1
    unfold runOriented at h1
    rw [ok_inj, Prod.mk.injEq] at h1
    obtain ⟨-, rfl⟩ := h1
    cases h
  | cons l ls =>
    rw [hc] at h1
    have hbatch : b1.batch = b.batch := by
      have key : ∀ (ls : List (OrientedLevel R)) (c c' : Cochain R L) o, runOriented c ls = .ok (c', o) →
          c'.batch = c.batch := by
        intro ls
        induction ls with
        | nil =>
          intro c c' o hr
          unfold runOriented at hr
          rw [ok_inj, Prod.mk.injEq] at hr
          rw [hr.1]
        | cons l ls ih =>
          intro c c' o hr
          unfold runOriented at hr
          obtain ⟨x, -, hr⟩ := bind_eq_ok.mp hr
          obtain ⟨c1, hc1, hr⟩ := bind_eq_ok.mp hr
          obtain ⟨⟨c2, o2⟩, h2, hr⟩ := bind_eq_ok.mp hr
          simp only [pure_eq_ok, ok_inj, Prod.mk.injEq] at hr
          rw [← hr.1, ih _ _ _ h2, setX_x hc1]
      exact (key _ _ _ _ h1).trans rfl
    unfold runOriented at h1
    obtain ⟨x1, hx1, -⟩ := bind_eq_ok.mp h1
    obtain ⟨x, ui, li, uo, lo, hd, -⟩ := OrientedLevel.forward_inv hx1
    obtain ⟨y, hy, hlen⟩ := hx0 x hd.hx
    cases o with
    | none => cases h
    | some xo =>
      dsimp only at h
      cases hv : b1.batch with
      | none => rw [hv] at h; cases h
      | some v =>
        rw [hv] at h
        dsimp only at h
        obtain ⟨n, hn, h⟩ := bind_eq_ok.mp h
        obtain ⟨pool, hpool, h⟩ := bind_eq_ok.mp h
        refine ⟨⟨y, ui, li, uo, lo⟩, v, n, pool, ⟨hy, hd.hui, hd.hli, hd.huo, hd.hlo⟩, ⟨hd.ulen, hd.llen, ?_, ?_⟩,
          hd.une, hd.lne, by simp, hbatch ▸ hv, hn, hpool⟩
        · rw [hlen]; exact hd.urange
        · rw [hlen]; exact hd.lrange

end run


/-! ### Batches -/

/-- What is known of an item for which the network works alone. -/
structure Single (c : Cochain R L) (d : EdgeRows R) : Prop where
  holds : Holds c d
  ok : d.Ok
  une : d.ui ≠ []
  lne : d.li ≠ []
  cells : c.numCells = .ok (some d.x.length)
  noBatch : c.batch = none
  noPtr : c.ptr = none
  edge : EdgeOnly c

theorem batchKey_absent {A K : Type} [Add K] {key : String} {get : Cochain R L → Option (List A)}
    {shift : K → A → A} {inc : Cochain R L → Py K} {zero : K} {cs : List (Cochain R L)}
    (hkey : ∀ c : Cochain R L, key ∈ c.keys ↔ (get c).isSome) (h : ∀ c ∈ cs, get c = none) :
    batchKey key get shift inc zero cs = .ok none := by
  unfold batchKey
  rw [if_neg]
  unfold unionKeys
  rw [List.mem_flatMap]
  rintro ⟨c, hc, hk⟩
  rw [hkey, h c hc] at hk
  cases hk

theorem batchKey_placed {A K : Type} [Add K] {key : String} {get : Cochain R L → Option (List A)}
    {shift : K → A → A} {inc : Cochain R L → Py K} {zero : K} {cs : List (Cochain R L)} (hne : cs ≠ [])
    (hkey : ∀ c : Cochain R L, key ∈ c.keys ↔ (get c).isSome) (h : ∀ c ∈ cs, (get c).isSome)
    (incf : Cochain R L → K) (hall : ∀ c ∈ cs, inc c = .ok (incf c)) :
    batchKey key get shift inc zero cs = .ok (some (placedFrom get shift incf zero cs)) := by
  unfold batchKey
  rw [if_pos, shiftLoop_ok hall]
  · rfl
  · unfold unionKeys
    rw [List.mem_flatMap]
    obtain ⟨c, hc⟩ := List.exists_mem_of_ne_nil cs hne
    exact ⟨c, hc, (hkey c).mpr (h c hc)⟩

theorem map_shiftPair_add (k n : Nat) (l : List (Nat × Nat)) :
    (l.map (shiftPair n)).map (shiftPair k) = l.map (shiftPair (n + k)) := by
  rw [List.map_map]
  apply List.map_congr_left
  intro p _
  simp only [Function.comp, shiftPair, Nat.add_assoc]

theorem placed_pairs {cs : List (Cochain R L)} {ds : List (EdgeRows R)} (h : List.Forall₂ Single cs ds) (cum : Nat) :
    placedFrom Cochain.upperIndex shiftPair Cochain.count cum cs = (joinAll ds).ui.map (shiftPair cum) ∧
    placedFrom Cochain.lowerIndex shiftPair Cochain.count cum cs = (joinAll ds).li.map (shiftPair cum) := by
  induction h generalizing cum with
  | nil => exact ⟨rfl, rfl⟩
  | @cons c d cs ds hcd _ ih =>
    obtain ⟨i1, i2⟩ := ih (c.count + cum)
    have hc : c.count = d.x.length := count_of hcd.cells
    unfold placedFrom
    rw [i1, i2, hcd.holds.hui, hcd.holds.hli, hc]
    show _ = ((d.join (joinAll ds)).ui).map _ ∧ _ = ((d.join (joinAll ds)).li).map _
    simp only [EdgeRows.join, List.map_append, map_shiftPair_add, Option.getD_some]
    exact ⟨trivial, trivial⟩

theorem placed_same {A : Type} {get : Cochain R L → Option (List A)} {g : EdgeRows R → List A}
    (hg : ∀ d e : EdgeRows R, g (d.join e) = g d ++ g e) (hnil : g EdgeRows.nil = [])
    {cs : List (Cochain R L)} {ds : List (EdgeRows R)} (h : List.Forall₂ Single cs ds)
    (hget : ∀ c d, Single c d → get c = some (g d)) (cum : Nat) :
    placedFrom get noShift (fun _ => 0) cum cs = g (joinAll ds) := by
  induction h generalizing cum with
  | nil => exact hnil.symm
  | @cons c d cs ds hcd _ ih =>
    unfold placedFrom
    rw [ih, hget c d hcd]
    show _ = g (d.join (joinAll ds))
    rw [hg, Option.getD_some]
    congr 1
    exact List.map_id _

theorem singles_left {A B : Type} {P : A → B → Prop} {as : List A} {bs : List B} (h : List.Forall₂ P as bs) :
    ∀ a ∈ as, ∃ b ∈ bs, P a b := by
  induction h with
  | nil => simp
  | @cons a b as bs hab _ ih =>
    intro x hx
    rcases List.mem_cons.mp hx with rfl | hx
    · exact ⟨b, by simp, hab⟩
    · obtain ⟨y, hy, hxy⟩ := ih x hx
      exact ⟨y, by simp [hy], hxy⟩

theorem forall₂_replicates {cs : List (Cochain R L)} {ds : List (EdgeRows R)} (h : List.Forall₂ Single cs ds)
    (i : Nat) : ((cs.zipIdx i).map fun ci => List.replicate ci.1.count ci.2).flatten =
      (ds.zipIdx i).flatMap fun di => List.replicate di.1.x.length di.2 := by
  induction h generalizing i with
  | nil => rfl
  | @cons c d cs ds hcd _ ih =>
    rw [List.zipIdx_cons, List.zipIdx_cons, List.map_cons, List.flatten_cons, List.flatMap_cons, ih,
      count_of hcd.cells]

/-- The batch of items that work alone. -/
theorem fromCochainList_joinAll {cs : List (Cochain R L)} {ds : List (EdgeRows R)} (hne : cs ≠ [])
    (h : List.Forall₂ Single cs ds) :
    ∃ b, fromCochainList cs = .ok b ∧ Holds b (joinAll ds) ∧ b.numCellsAttr = none ∧
      b.batch = some (ds.zipIdx.flatMap fun di => List.replicate di.1.x.length di.2) := by
  have hS : ∀ c ∈ cs, ∃ d, Single c d := fun c hc => by
    obtain ⟨d, -, hd⟩ := singles_left h c hc
    exact ⟨d, hd⟩
  have hidx : ∀ c ∈ cs, c.incIndex = .ok c.count := by
    intro c hc
    obtain ⟨d, hd⟩ := hS c hc
    have : c.incIndex = .ok d.x.length := by unfold Cochain.incIndex; rw [hd.cells]; rfl
    rw [this, incIndex_eq this]
  have hcount : ∀ c ∈ cs, c.numCells = .ok (some c.count) := by
    intro c hc
    obtain ⟨d, hd⟩ := hS c hc
    rw [hd.cells, count_of hd.cells]
  have hnb : pyAssert (!decide ("batch" ∈ unionKeys cs) && !decide ("ptr" ∈ unionKeys cs)) =
      .ok () := by
    rw [pyAssert_eq_ok, Bool.and_eq_true]
    simp only [Bool.not_eq_true', decide_eq_false_iff_not, unionKeys, List.mem_flatMap, not_exists, not_and]
    constructor
    · intro c hc
      obtain ⟨d, hd⟩ := hS c hc
      rw [mem_keys_batch, hd.noBatch]; simp
    · intro c hc
      obtain ⟨d, hd⟩ := hS c hc
      rw [mem_keys_ptr, hd.noPtr]; simp
  have hzero : ∀ l : List (Nat × Nat), l.map (shiftPair 0) = l := fun l => List.map_id l
  cases hcs : cs with
  | nil => exact absurd hcs hne
  | cons c0 rest =>
    unfold fromCochainList
    dsimp only
    rw [← hcs, hnb, ok_bind, batchKey_placed (inc := incZero) hne mem_keys_x (fun c hc => by
        obtain ⟨d, hd⟩ := hS c hc
        rw [hd.holds.hx]; rfl) (fun _ => 0) (fun _ _ => rfl), ok_bind,
      batchKey_placed hne mem_keys_upper (fun c hc => by
        obtain ⟨d, hd⟩ := hS c hc
        rw [hd.holds.hui]; rfl) Cochain.count hidx, ok_bind,
      batchKey_placed hne mem_keys_lower (fun c hc => by
        obtain ⟨d, hd⟩ := hS c hc
        rw [hd.holds.hli]; rfl) Cochain.count hidx, ok_bind,
      batchKey_absent mem_keys_boundary (fun c hc => by
        obtain ⟨d, hd⟩ := hS c hc
        exact hd.edge.1), ok_bind,
      batchKey_absent mem_keys_sb (fun c hc => by
        obtain ⟨d, hd⟩ := hS c hc
        exact hd.edge.2.1), ok_bind,
      batchKey_absent mem_keys_sc (fun c hc => by
        obtain ⟨d, hd⟩ := hS c hc
        exact hd.edge.2.2), ok_bind,
      batchKey_ok (inc := incZero) mem_keys_y (fun _ => 0) (fun _ _ => rfl), ok_bind,
      batchKey_placed (inc := incZero) hne mem_keys_uo (fun c hc => by
        obtain ⟨d, hd⟩ := hS c hc
        rw [hd.holds.huo]; rfl) (fun _ => 0) (fun _ _ => rfl), ok_bind,
      batchKey_placed (inc := incZero) hne mem_keys_lo (fun c hc => by
        obtain ⟨d, hd⟩ := hS c hc
        rw [hd.holds.hlo]; rfl) (fun _ => 0) (fun _ _ => rfl), ok_bind,
      batchKey_ok (inc := incZero) mem_keys_mask (fun _ => 0) (fun _ _ => rfl), ok_bind,
      batchLoop_known hcount, ok_bind]
    refine ⟨_, rfl, ⟨?_, ?_, ?_, ?_, ?_⟩, rfl, ?_⟩
    · show some _ = some _
      rw [placed_same (g := EdgeRows.x) (fun _ _ => rfl) rfl h fun c d hd => hd.holds.hx]
    · show some _ = some _
      rw [(placed_pairs h 0).1, hzero]
    · show some _ = some _
      rw [(placed_pairs h 0).2, hzero]
    · show some _ = some _
      rw [placed_same (g := EdgeRows.uo) (fun _ _ => rfl) rfl h fun c d hd => hd.holds.huo]
    · show some _ = some _
      rw [placed_same (g := EdgeRows.lo) (fun _ _ => rfl) rfl h fun c d hd => hd.holds.hlo]
    · show (if _ then none else some _) = some _
      rw [if_neg, forall₂_replicates h 0]
      rw [hcs, List.zipIdx_cons]
      simp

section nets
variable [AddCommGroup R] [Field 𝕜] [Module 𝕜 R]

/-- The prediction for an item alone. -/
def OrientNet.single (𝕜 : Type) [Field 𝕜] [Module 𝕜 R] (net : OrientNet R) (pool : Pooling) (d : EdgeRows R) : R :=
  net.lin2 (net.relu (net.lin1 (pool.agg 𝕜 (net.cellRows d))))

/-- The networks on a batch of items that work alone. -/
theorem OrientNet.forward_batch (net : OrientNet R) {cs : List (Cochain R L)} {ds : List (EdgeRows R)}
    (hne : cs ≠ []) (h : List.Forall₂ Single cs ds) (hconvs : net.convs ≠ []) {pool : Pooling}
    (hpool : getPoolingFn net.readout = .ok pool) :
    ∃ b, fromCochainList cs = .ok b ∧ net.forward 𝕜 b = .ok (ds.map (net.single 𝕜 pool)) := by
  obtain ⟨b, hb, hh, hn, hv⟩ := fromCochainList_joinAll hne h
  refine ⟨b, hb, ?_⟩
  have hlen : cs.length = ds.length := h.length_eq
  have hR : ∀ d ∈ ds, ∃ c : Cochain R L, Single c d := by
    intro d hd
    obtain ⟨c, -, hc⟩ := singles_left h.flip d hd
    exact ⟨c, hc⟩
  have hOk : ∀ d ∈ ds, d.Ok := fun d hd => by
    obtain ⟨c, hc⟩ := hR d hd
    exact hc.ok
  have hpos : ∀ d ∈ ds, 0 < d.x.length := by
    intro d hd
    obtain ⟨c, hc⟩ := hR d hd
    obtain ⟨p, hp⟩ := List.exists_mem_of_ne_nil _ hc.une
    have := hc.ok.urange p hp
    omega
  cases hds : ds with
  | nil =>
    rw [hds] at hlen
    exact absurd (List.length_eq_zero_iff.mp hlen) hne
  | cons d0 rest =>
    obtain ⟨c0, hc0⟩ := hR d0 (by rw [hds]; simp)
    have hui : (joinAll ds).ui ≠ [] := by
      rw [hds]
      show (d0.join _).ui ≠ []
      simp [EdgeRows.join, hc0.une]
    have hli : (joinAll ds).li ≠ [] := by
      rw [hds]
      show (d0.join _).li ≠ []
      simp [EdgeRows.join, hc0.lne]
    have hmax : Cochain.maxPlusOne (ds.zipIdx.flatMap fun di => List.replicate di.1.x.length di.2) =
        .ok ds.length := by
      rw [maxPlusOne_eq_ok]
      have hlt : ds.length - 1 < ds.length := by rw [hds]; simp
      refine ⟨ds.length - 1, ?_, by omega, ?_⟩
      · rw [mem_batch_vec (n := fun d : EdgeRows R => d.x.length)]
        exact ⟨ds[ds.length - 1], List.getElem?_eq_getElem hlt, hpos _ (List.getElem_mem hlt)⟩
      · intro a ha
        rw [mem_batch_vec (n := fun d : EdgeRows R => d.x.length)] at ha
        obtain ⟨c, hc, -⟩ := ha
        have := (List.getElem?_eq_some_iff.mp hc).1
        omega
    rw [net.forward_eq hh (Ok.joinAll hOk) hui hli hn hconvs hv hmax hpool, net.cellRows_joinAll hOk,
      scatter_ok, ← hds]
    · show Except.ok _ = _
      rw [List.map_map, ok_inj]
      apply List.ext_getElem?
      intro i
      rw [List.getElem?_map, List.getElem?_map]
      by_cases hi : i < ds.length
      · rw [List.getElem?_range hi, List.getElem?_eq_getElem hi]
        show some _ = some _
        simp only [Function.comp, OrientNet.single]
        rw [rows_of_complex (n := fun d : EdgeRows R => d.x.length) (fun d _ => net.cellRows_length d)
          (List.getElem?_eq_getElem hi)]
      · rw [List.getElem?_eq_none (by simpa using hi), List.getElem?_eq_none (by simpa using hi)]
        rfl
    · rw [List.length_flatMap, List.length_flatMap]
      conv_rhs => rw [← List.zipIdx_map_fst 0 ds, List.map_map]
      congr 1
      apply List.map_congr_left
      intro di _
      simp [net.cellRows_length]
    · intro i hi
      rw [mem_batch_vec (n := fun d : EdgeRows R => d.x.length)] at hi
      obtain ⟨c, hc, -⟩ := hi
      exact (List.getElem?_eq_some_iff.mp hc).1

/-- An item for which the network works alone. -/
theorem OrientNet.single_inv {net : OrientNet R} {c b : Cochain R L} (he : EdgeOnly c)
    (hb : fromCochainList [c] = .ok b) {out : List R} (h : net.forward 𝕜 b = .ok out) :
    ∃ d pool, Single c d ∧ net.convs ≠ [] ∧ getPoolingFn net.readout = .ok pool ∧
      out = [net.single 𝕜 pool d] := by
  have f := fromCochainList_inv hb
  have hun : ∀ {A : Type} (get : Cochain R L → Option (List A)) (place : Nat → A → A) (l : List A),
      (∀ a, place 0 a = a) → unionOf get place [c] = some l → get c = some l := by
    intro A get place l hp hl
    unfold unionOf at hl
    split at hl
    · rename_i hs
      obtain ⟨c', hc', hs⟩ := hs
      rw [List.mem_singleton] at hc'
      subst hc'
      obtain ⟨l', hl'⟩ := Option.isSome_iff_exists.mp hs
      simp only [List.zipIdx_singleton, List.flatMap_cons, List.flatMap_nil, List.append_nil, hl',
        Option.getD_some, Option.some.injEq] at hl
      rw [hl', ← hl, Option.some.injEq]
      conv_lhs => rw [← List.map_id l']
      apply List.map_congr_left
      intro a _
      exact (hp a).symm
    · cases hl
  obtain ⟨d, v, n, pool, hh, hd, hu, hl, hne, hv, hmax, hpool⟩ := OrientNet.forward_inv h
  have hc : Holds c d := by
    refine ⟨hun _ _ _ (fun _ => rfl) (f.x ▸ hh.hx), hun _ _ _ ?_ (f.upper ▸ hh.hui), hun _ _ _ ?_ (f.lower ▸ hh.hli),
      hun _ _ _ (fun _ => rfl) (f.upperOrient ▸ hh.huo), hun _ _ _ (fun _ => rfl) (f.lowerOrient ▸ hh.hlo)⟩
    · intro a; simp [before_zero, shiftPair]
    · intro a; simp [before_zero, shiftPair]
  have hf := net.forward_eq (𝕜 := 𝕜) hh hd hu hl f.explicit.1 hne hv hmax hpool
  rw [h] at hf
  have hs : ∃ o, scatter (pool.agg 𝕜) n v (net.cellRows d) = .ok o := by
    cases hs : scatter (pool.agg 𝕜) n v (net.cellRows d) with
    | ok o => exact ⟨o, rfl⟩
    | error e => rw [hs] at hf; cases hf
  obtain ⟨o, ho⟩ := hs
  obtain ⟨r, hr, hbv, -⟩ := f.segs
  rw [hv] at hbv
  have hcells : c.numCells = .ok (some d.x.length) := by
    unfold batchLoop at hr
    obtain ⟨m, hm, hr⟩ := bind_eq_ok.mp hr
    cases m with
    | none =>
      unfold batchLoop at hr
      cases hr
      cases hbv
    | some m =>
      unfold batchLoop at hr
      cases hr
      have hvv : v = List.replicate m 0 := by simpa using hbv
      have := (scatter_inv ho).1
      rw [hvv, List.length_replicate, net.cellRows_length] at this
      rw [hm, this]
  have hS : Single c d := ⟨hc, hd, hu, hl, hcells, (f.noBatch c (by simp)).1, (f.noBatch c (by simp)).2, he⟩
  refine ⟨d, pool, hS, hne, hpool, ?_⟩
  obtain ⟨b', hb', hp'⟩ := net.forward_batch (𝕜 := 𝕜) (cs := [c]) (ds := [d]) (by simp) (.cons hS .nil) hne hpool
  rw [hb, ok_inj] at hb'
  subst hb'
  rw [h, ok_inj] at hp'
  exact hp'

end nets


section blind
variable [AddCommGroup R]

/-- The data with the orientation of the cells with sign -1 reversed. -/
def EdgeRows.flip (s : Nat → Int) (d : EdgeRows R) : EdgeRows R where
  x := flipRows s d.x
  ui := d.ui
  li := d.li
  uo := flipCols s d.ui d.uo
  lo := flipCols s d.li d.lo

theorem EdgeRows.Ok.flip {d : EdgeRows R} (h : d.Ok) (s : Nat → Int) : (d.flip s).Ok where
  ulen := flipCols_length s h.ulen
  llen := flipCols_length s h.llen
  urange := by
    show ∀ p ∈ d.ui, p.1 < (flipRows s d.x).length ∧ p.2 < (flipRows s d.x).length
    rw [flipRows_length]
    exact h.urange
  lrange := by
    show ∀ p ∈ d.li, p.1 < (flipRows s d.x).length ∧ p.2 < (flipRows s d.x).length
    rw [flipRows_length]
    exact h.lrange

theorem Holds.flip {c : Cochain R L} {d : EdgeRows R} (h : Holds c d) (s : Nat → Int) :
    Holds (c.flip s) (d.flip s) where
  hx := by simp [Cochain.flip, h.hx, EdgeRows.flip]
  hui := h.hui
  hli := h.hli
  huo := by simp [Cochain.flip, h.huo, h.hui, EdgeRows.flip]
  hlo := by simp [Cochain.flip, h.hlo, h.hli, EdgeRows.flip]

theorem Single.flip {c : Cochain R L} {d : EdgeRows R} (h : Single c d) (s : Nat → Int) :
    Single (c.flip s) (d.flip s) where
  holds := h.holds.flip s
  ok := h.ok.flip s
  une := h.une
  lne := h.lne
  cells := by
    have hc := h.cells
    unfold Cochain.numCells at hc ⊢
    simp only [Cochain.flip, h.holds.hx, Option.map_some, EdgeRows.flip, flipRows_length] at hc ⊢
    exact hc
  noBatch := h.noBatch
  noPtr := h.noPtr
  edge := h.edge

theorem scatter_replicate {agg : List R → R} {rows : List R} {k : Nat} (h : rows.length = k) :
    scatter agg 1 (List.replicate k 0) rows = .ok [agg rows] := by
  rw [scatter_ok (by simp [h]) (by
    intro i hi
    rw [List.mem_replicate] at hi
    omega)]
  have : ((List.replicate k 0).zip rows).filter (fun p => p.1 == 0) = (List.replicate k 0).zip rows := by
    rw [List.filter_eq_self]
    intro p hp
    have := (List.of_mem_zip hp).1
    rw [List.mem_replicate] at this
    simp [this.2]
  show Except.ok [agg ((((List.replicate k 0).zip rows).filter (fun p => p.1 == 0)).map Prod.snd)] = _
  rw [this, List.map_snd_zip (by simp [h])]

variable [Field 𝕜] [Module 𝕜 R]

/-- Predictions for single items do not change when the network takes no notice of orientations. -/
theorem OrientNet.single_flip {net : OrientNet R} {pool : Pooling} (hconvs : net.convs ≠ [])
    (hpool : getPoolingFn net.readout = .ok pool) {s : Nat → Int}
    (hblind : ∀ (data : Cochain R Nat) (pred : List R), net.forward 𝕜 data = .ok pred →
      net.forward 𝕜 (data.flip s) = .ok pred)
    {d : EdgeRows R} (hd : d.Ok) (hu : d.ui ≠ []) (hl : d.li ≠ []) :
    net.single 𝕜 pool (d.flip s) = net.single 𝕜 pool d := by
  let b : Cochain R Nat :=
    { dim := 1, x := some d.x, upperIndex := some d.ui, lowerIndex := some d.li, upperOrient := some d.uo,
      lowerOrient := some d.lo, batch := some (List.replicate d.x.length 0) }
  have hb : Holds b d := ⟨rfl, rfl, rfl, rfl, rfl⟩
  have hpos : 0 < d.x.length := by
    obtain ⟨p, hp⟩ := List.exists_mem_of_ne_nil _ hu
    have := hd.urange p hp
    omega
  have hmax : Cochain.maxPlusOne (List.replicate d.x.length 0) = .ok 1 := by
    rw [maxPlusOne_eq_ok]
    exact ⟨0, List.mem_replicate.mpr ⟨by omega, rfl⟩, rfl, by simp⟩
  have h1 := net.forward_eq (𝕜 := 𝕜) hb hd hu hl rfl hconvs (v := List.replicate d.x.length 0) rfl hmax hpool
  have h2 := net.forward_eq (𝕜 := 𝕜) (hb.flip s) (hd.flip s) hu hl rfl hconvs (v := List.replicate d.x.length 0) rfl
    hmax hpool
  rw [scatter_replicate (net.cellRows_length d)] at h1
  rw [scatter_replicate (by
    rw [net.cellRows_length]
    exact flipRows_length s d.x)] at h2
  have h3 := hblind b _ h1
  rw [h2] at h3
  have h4 := ok_inj.mp h3
  exact List.head_eq_of_cons_eq h4

end blind

end Verif
