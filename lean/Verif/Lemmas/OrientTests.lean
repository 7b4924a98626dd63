import Verif.Spec.OrientTests
import Verif.Lemmas.FlowBatch
import Verif.Props.Adjacency
import Verif.Props.FlowDatasets

/-!
# Lemmas on the tests of the oriented networks
-/

namespace Verif

variable {𝕜 R L : Type} [AddCommGroup R]

/-! ### Layers -/

theorem EdgeRows.layer_flip {s : Nat → Int} (hs : Signs s) {l : OrientedLevel R} (hl : l.Equivariant) {d : EdgeRows R}
    (hd : d.Ok) : (d.flip s).layer l = (d.layer l).flip s := by
  unfold EdgeRows.layer EdgeRows.flip
  simp only [EdgeRows.mk.injEq, and_self, and_true]
  rw [flipRows_range, flipRows_length]
  apply List.map_congr_left
  intro k _
  exact orientedRow_flip hs hl d.x hd.ulen hd.llen k

theorem EdgeRows.run_flip {s : Nat → Int} (hs : Signs s) {ls : List (OrientedLevel R)} (hl : ∀ l ∈ ls, l.Equivariant)
    {d : EdgeRows R} (hd : d.Ok) : (d.flip s).run ls = (d.run ls).flip s := by
  induction ls generalizing d with
  | nil => rfl
  | cons l ls ih =>
    show ((d.flip s).layer l).run ls = ((d.layer l).run ls).flip s
    rw [EdgeRows.layer_flip hs (hl l (by simp)) hd]
    exact ih (fun l hl' => hl l (by simp [hl'])) (hd.layer l)

theorem EdgeRows.run_blind {ls : List (OrientedLevel R)} (hl : ∀ l ∈ ls, l.orient = false) (x : List R)
    (ui li : List (Nat × Nat)) {uo lo uo' lo' : List Int} (hu : uo'.length = uo.length) (hlo : lo'.length = lo.length) :
    ((⟨x, ui, li, uo', lo'⟩ : EdgeRows R).run ls).x = ((⟨x, ui, li, uo, lo⟩ : EdgeRows R).run ls).x := by
  have hsum : ∀ (x : List R) (index : List (Nat × Nat)) (os os' : List Int) (k : Nat), os'.length = os.length →
      orientedSum false x index os' k = orientedSum false x index os k := by
    intro x index os os' k hlen
    unfold orientedSum
    induction index generalizing os os' with
    | nil => rfl
    | cons p index ih =>
      cases os with
      | nil =>
        have : os' = [] := by simpa using hlen
        rw [this]
      | cons o os =>
        cases os' with
        | nil => simp at hlen
        | cons o' os' =>
          have := ih os os' (by simpa using hlen)
          simp only [List.zip_cons_cons, List.filter_cons]
          cases hb : (p.2 == k)
          · simpa [hb] using this
          · simpa [hb] using this
  induction ls generalizing x with
  | nil => rfl
  | cons l ls ih =>
    have hlay : (List.range x.length).map (orientedRow l x ui li uo' lo') =
        (List.range x.length).map (orientedRow l x ui li uo lo) := by
      apply List.map_congr_left
      intro k _
      unfold orientedRow
      rw [hl l (by simp), hsum _ _ _ _ _ hu, hsum _ _ _ _ _ hlo]
    show ((⟨(List.range x.length).map (orientedRow l x ui li uo' lo'), ui, li, uo', lo'⟩ : EdgeRows R).run ls).x = _
    rw [hlay]
    exact ih (fun l hl' => hl l (by simp [hl'])) _

section nets
variable [Field 𝕜] [Module 𝕜 R]

theorem OrientNet.forwardPartial_eq (net : OrientNet R) {b : Cochain R L} {d : EdgeRows R} (h : Holds b d) (hd : d.Ok)
    (hu : d.ui ≠ []) (hl : d.li ≠ []) (hn : b.numCellsAttr = none) (hne : net.convs ≠ []) {v : List Nat}
    (hv : b.batch = some v) {n : Nat} (hmax : Cochain.maxPlusOne v = .ok n) {pool : Pooling}
    (hpool : getPoolingFn net.readout = .ok pool) :
    net.forwardPartial 𝕜 b = (scatter (pool.agg 𝕜) n v (net.cellRows d)).map
      (fun p => (p.map fun r => net.lin2 (net.relu (net.lin1 r)), ((net.start d).run net.convs).x)) := by
  obtain ⟨s1, s2, s3, s4⟩ := net.start_parts d
  have hprep : net.prepare b = .ok { b with x := some (net.start d).x } := by
    unfold OrientNet.prepare
    unfold OrientNet.start
    cases net.fullyInvar with
    | true =>
      simp only [if_true]
      rw [h.hx]
      dsimp only
      unfold Cochain.setX Cochain.numCells
      dsimp only
      rw [hn, h.hx]
      dsimp only
      rw [ok_bind]
      simp
    | false =>
      simp only [Bool.false_eq_true, if_false]
      rw [← h.hx]
  have hh : Holds { b with x := some (net.start d).x } (net.start d) :=
    ⟨rfl, by rw [s1]; exact h.hui, by rw [s2]; exact h.hli, by rw [s3]; exact h.huo, by rw [s4]; exact h.hlo⟩
  unfold OrientNet.forwardPartial
  rw [hprep, ok_bind, runOriented_ok hh (OrientNet.start_ok hd) (by rw [s1]; exact hu) (by rw [s2]; exact hl) hn
    _ hne, ok_bind]
  dsimp only
  rw [hv]
  dsimp only
  rw [hmax, ok_bind, hpool, ok_bind]
  unfold OrientNet.cellRows
  dsimp only
  generalize scatter (M := R) _ _ _ _ = r
  cases r <;> rfl

/-- A network on a batch of one cochain. -/
theorem OrientNet.partial_single (net : OrientNet R) {c : Cochain R L} {d : EdgeRows R} (h : Single c d)
    (hne : net.convs ≠ []) {pool : Pooling} (hpool : getPoolingFn net.readout = .ok pool) :
    (fromCochainList [c] >>= net.forwardPartial 𝕜) =
      .ok ([net.single 𝕜 pool d], ((net.start d).run net.convs).x) := by
  obtain ⟨b, hb, hh, hn, hv⟩ := fromCochainList_joinAll (cs := [c]) (ds := [d]) (by simp) (.cons h .nil)
  have hj : EdgeRows.joinAll [d] = d := by
    show d.join EdgeRows.nil = d
    simp [EdgeRows.join, EdgeRows.nil]
  rw [hj] at hh
  have hv' : b.batch = some (List.replicate d.x.length 0) := by
    rw [hv]
    simp
  have hpos : 0 < d.x.length := by
    obtain ⟨p, hp⟩ := List.exists_mem_of_ne_nil _ h.une
    have := h.ok.urange p hp
    omega
  have hmax : Cochain.maxPlusOne (List.replicate d.x.length 0) = .ok 1 := by
    rw [maxPlusOne_eq_ok]
    exact ⟨0, List.mem_replicate.mpr ⟨by omega, rfl⟩, rfl, by simp⟩
  rw [hb, ok_bind, net.forwardPartial_eq hh h.ok h.une h.lne hn hne hv' hmax hpool,
    scatter_replicate (net.cellRows_length d)]
  rfl

end nets

/-! ### The pair of cochains -/

theorem signOf_signs {diag : List Int} {n : Nat} (h : IsSigns diag n) : Signs (signOf diag) := by
  intro i
  unfold signOf
  cases hi : diag[i]? with
  | none => exact .inl rfl
  | some v => exact h.2 v (List.mem_of_getElem? hi)

theorem diag_eq {diag : List Int} {n : Nat} (h : IsSigns diag n) : diag = (List.range n).map (signOf diag) := by
  apply List.ext_getElem?
  intro i
  rw [List.getElem?_map]
  by_cases hi : i < n
  · rw [List.getElem?_range hi]
    have e : diag[i]? = some (diag[i]'(by rw [h.1]; exact hi)) := List.getElem?_eq_getElem _
    simp [signOf, e]
  · rw [List.getElem?_eq_none (by rw [h.1]; omega), List.getElem?_eq_none (by simpa using hi)]
    rfl

theorem dotRows_diag {diag : List Int} {n : Nat} (h : IsSigns diag n) {x : List R} (hx : x.length = n) :
    dotRows (Mat.diag diag) x = .ok (flipRows (signOf diag) x) := by
  have sh := signMatrix_shape (n := n) (s := signOf diag)
  have e : Mat.diag diag = signMatrix n (signOf diag) := by
    unfold signMatrix
    rw [← diag_eq h]
  rw [e, dotRows_diagonal sh.1 sh.2 (fun i j hi => signMatrix_entry hi)]
  unfold fitRows
  rw [if_pos hx]

/-- What is built from matrices that fit. -/
theorem built {lib : SparseLib} (hlib : lib.Correct) {B1 B2 : Mat} {x : List R} (hB : FitEdges B1 B2 x.length)
    (label : L) :
    ∃ (c : Cochain R L) (d : EdgeRows R), buildCochain lib B1 B2 (Mat.identity x.length) x label none = .ok c ∧
      Holds c d ∧ d.Ok ∧ d.x = x ∧ c.numCells = .ok (some d.x.length) ∧ c.batch = none ∧ c.ptr = none ∧ EdgeOnly c ∧
      (SomeMeet B1 → d.li ≠ []) ∧ (SomeMeet B2.transpose → d.ui ≠ []) := by
  obtain ⟨C1, C2, k1, k2, e⟩ := buildCochain_diagonal lib B1 B2 (Mat.identity x.length) x.length (fun _ => 1) x label none
    rfl rfl (fun i j hi => rfl) hB.cols hB.rows
  have hone : Signs fun _ => 1 := fun _ => .inl rfl
  obtain ⟨li, lo, a1, -, a3, a4, -, -⟩ := C46_adjacency lib hlib C1 none (by simp) ((k1.signed hone).mpr hB.lower)
  obtain ⟨ui, uo, b1, -, b3, b4, -, -⟩ := C46_adjacency lib hlib C2 none (by simp) ((k2.signed hone).mpr hB.upper)
  rw [a1, ok_bind, b1, ok_bind] at e
  unfold fitRows at e
  rw [if_pos rfl, ok_bind, flipRows_one] at e
  have hmeet : ∀ {B C : Mat} {index : List (Nat × Nat)}, ColSigned (fun _ => 1) B C →
      (∀ i j, (i, j) ∈ index ↔ i < C.cols ∧ j < C.cols ∧ i ≠ j ∧ common C i j ≠ 0) → SomeMeet B → index ≠ [] := by
    rintro B C index k hm ⟨i, j, hi, hj, hij, hc⟩ rfl
    have := (hm i j).mpr ⟨by rw [k.cols]; exact hi, by rw [k.cols]; exact hj, hij, by
      rw [k.common hi hj]
      simpa using hc⟩
    cases this
  refine ⟨_, ⟨x, ui, li, uo, lo⟩, e, ⟨rfl, rfl, rfl, rfl, rfl⟩, ⟨b3, a3, ?_, ?_⟩, rfl, rfl, rfl, rfl, ⟨rfl, rfl, rfl⟩,
    hmeet k1 a4, hmeet k2 b4⟩
  · rintro ⟨i, j⟩ hp
    have := (b4 i j).mp hp
    rw [k2.cols, show B2.transpose.cols = B2.rows from rfl, hB.rows] at this
    exact ⟨this.1, this.2.1⟩
  · rintro ⟨i, j⟩ hp
    have := (a4 i j).mp hp
    rw [k1.cols, hB.cols] at this
    exact ⟨this.1, this.2.1⟩

/-- The pair: the second is the first with edges reversed. -/
theorem orientedPair_ok {lib : SparseLib} (hlib : lib.Correct) {B1 B2 : Mat} {x : List R} {diag : List Int}
    (hdiag : IsSigns diag x.length) {label : L} {c : Cochain R L}
    (h : buildCochain lib B1 B2 (Mat.identity x.length) x label none = .ok c) :
    orientedPair lib B1 B2 diag x label = .ok (c, c.flip (signOf diag)) := by
  have h2 := C46_change_of_orientation lib hlib B1 B2 x.length (signOf diag) (signOf_signs hdiag) x label none
  rw [← diag_eq hdiag, h] at h2
  unfold orientedPair
  rw [h, ok_bind, h2]
  rfl

theorem sameIndices_flip (c : Cochain R L) (s : Nat → Int) : sameIndices (c, c.flip s) = .ok () := by
  unfold sameIndices
  have h1 : c.lowerIndex = (c.flip s).lowerIndex := rfl
  have h2 : c.upperIndex = (c.flip s).upperIndex := rfl
  rw [← h1, ← h2, decide_eq_true rfl, decide_eq_true rfl]
  rfl

theorem orientPropagate_ok (l : OrientedLevel R) {c : Cochain R L} {d : EdgeRows R} (h : Holds c d) (hd : d.Ok) :
    orientPropagate l c = .ok ((List.range d.x.length).map (orientedSum l.orient d.x d.ui d.uo),
      (List.range d.x.length).map (orientedSum l.orient d.x d.li d.lo), zeroRows d.x.length) := by
  have h1 : aggregateOrZero l.cfg.msgUp l.cfg.aggUp l.cfg.flow d.x.length d.x (some d.ui) (some (some d.uo)) =
      .ok ((List.range d.x.length).map (orientedSum l.orient d.x d.ui d.uo)) :=
    messageAndAggregate_oriented l.orient hd.ulen hd.urange
  have h2 : aggregateOrZero l.cfg.msgDown l.cfg.aggDown l.cfg.flow d.x.length d.x
      (if l.cfg.useDown then some d.li else none) (some (some d.lo)) =
      .ok ((List.range d.x.length).map (orientedSum l.orient d.x d.li d.lo)) :=
    messageAndAggregate_oriented l.orient hd.llen hd.lrange
  have h3 : aggregateBoundary l.cfg.msgBoundary l.cfg.aggBoundary l.cfg.flow d.x.length
      (if l.cfg.useBoundary then none else none) none = .ok (zeroRows d.x.length) := rfl
  unfold orientPropagate propagate
  rw [h.hx, h.hui, h.hli, h.huo, h.hlo]
  dsimp only
  rw [h1, ok_bind, h2, ok_bind, h3, ok_bind]
  rfl

end Verif
