import Verif.Model.LayerTests
import Verif.Spec.LayerTests
import Verif.Props.MPTests
import Verif.Props.EmbedBatch
import Verif.Lemmas.BatchTests
import Verif.Lemmas.Checks

/-! # The tests of the initial layers (C124) -/

namespace Verif

variable {R L : Type} [AddCommMonoid R]

theorem initReduce_max {agg : List R → R} {bi : List (Nat × Nat)} {rows : List R} {m : Nat}
    (hr : ∀ p ∈ bi, p.1 < rows.length) (hm : (bi.map Prod.snd).max? = some m) :
    initReduce agg rows (some bi) = .ok ((List.range (m + 1)).map fun c =>
      agg ((bi.filter fun p => p.2 == c).map fun p => rowOf rows p.1)) := by
  unfold initReduce
  dsimp only
  rw [indexSelect_rowOf (by
    intro i hi
    obtain ⟨p, hp, rfl⟩ := List.mem_map.mp hi
    exact hr p hp), ok_bind]
  unfold Cochain.maxPlusOne
  rw [hm]
  dsimp only
  rw [ok_bind, scatter_ok (by simp) (by
    intro i hi
    have := (List.max?_eq_some_iff.mp hm).2 i hi
    omega)]
  congr 1
  apply List.map_congr_left
  intro c _
  rw [zip_filter_fst, List.map_map]
  rfl

/-- **C124** What the reduction along a boundary returns, for every reduction: it succeeds exactly if the columns are there,
name rows that are there, and are not empty; then it has one row for every cell up to the last one that has a column, the
reduction of the rows of its columns. -/
theorem C124_reduction (agg : List R → R) (rows : List R) (bi : List (Nat × Nat)) (out : List R) :
    initReduce agg rows (some bi) = .ok out ↔
      (∀ p ∈ bi, p.1 < rows.length) ∧ (∃ p ∈ bi, p.2 + 1 = out.length) ∧ (∀ p ∈ bi, p.2 < out.length) ∧
      ∀ c < out.length, out[c]? = some (agg ((bi.filter fun p => p.2 == c).map fun p => rowOf rows p.1)) := by
  constructor
  · intro h
    have h' := h
    unfold initReduce at h
    obtain ⟨fs, h1, h⟩ := bind_eq_ok.mp h
    obtain ⟨n, h2, -⟩ := bind_eq_ok.mp h
    have hr : ∀ p ∈ bi, p.1 < rows.length := by
      intro p hp
      obtain ⟨k, hk⟩ := List.mem_iff_getElem?.mp (List.mem_map.mpr ⟨p, hp, rfl⟩ : p.1 ∈ bi.map Prod.fst)
      rw [indexSelect_eq_ok_iff] at h1
      have := congrArg (·[k]?) h1
      simp only [List.getElem?_map] at this hk
      rw [hk] at this
      by_contra hcon
      rw [Option.map_some, List.getElem?_eq_none (by omega)] at this
      cases hf : fs[k]? <;> simp_all
    unfold Cochain.maxPlusOne at h2
    split at h2
    · rename_i m hm
      rw [initReduce_max hr hm] at h'
      cases ok_inj.mp h'
      obtain ⟨hm1, hm2⟩ := List.max?_eq_some_iff.mp hm
      refine ⟨hr, ?_, ?_, ?_⟩
      · obtain ⟨p, hp, e⟩ := List.mem_map.mp hm1
        exact ⟨p, hp, by simp [e]⟩
      · intro p hp
        have := hm2 p.2 (List.mem_map.mpr ⟨p, hp, rfl⟩)
        simp
        omega
      · intro c hc
        rw [List.length_map, List.length_range] at hc
        rw [List.getElem?_map, List.getElem?_range hc]
        rfl
    · cases h2
  · rintro ⟨hr, ⟨p, hp, e⟩, hlt, hrow⟩
    have hm : (bi.map Prod.snd).max? = some (out.length - 1) := by
      rw [List.max?_eq_some_iff]
      refine ⟨List.mem_map.mpr ⟨p, hp, by omega⟩, ?_⟩
      intro k hk
      obtain ⟨q, hq, rfl⟩ := List.mem_map.mp hk
      have := hlt q hq
      omega
    rw [initReduce_max hr hm, ok_inj]
    apply List.ext_getElem?
    intro c
    rw [List.getElem?_map]
    by_cases hc : c < out.length
    · rw [hrow c hc, List.getElem?_range (by omega)]
      rfl
    · rw [List.getElem?_eq_none (l := out) (by omega), List.getElem?_eq_none (by rw [List.length_range]; omega)]
      rfl

theorem initReduce_opt (agg : List R → R) (rows : List R) (b : Option (List (Nat × Nat))) (out : List R) :
    initReduce agg rows b = .ok out ↔
      (∀ p ∈ b.getD [], p.1 < rows.length) ∧ (∃ p ∈ b.getD [], p.2 + 1 = out.length) ∧
      (∀ p ∈ b.getD [], p.2 < out.length) ∧
      ∀ c < out.length, out[c]? = some (agg (((b.getD []).filter fun p => p.2 == c).map fun p => rowOf rows p.1)) := by
  cases b with
  | none =>
    constructor
    · intro h
      cases h
    · rintro ⟨-, ⟨p, hp, -⟩, -⟩
      cases hp
  | some bi => exact C124_reduction agg rows bi out

/-- The rows that are reduced to. -/
def reducedRows (agg : List R → R) (rows : List R) (bi : List (Nat × Nat)) (n : Nat) : List R :=
  (List.range n).map fun c => agg ((bi.filter fun p => p.2 == c).map fun p => rowOf rows p.1)

theorem initReduce_all {agg : List R → R} {rows : List R} {b : Option (List (Nat × Nat))} {n : Nat}
    (hr : ∀ p ∈ b.getD [], p.1 < rows.length ∧ p.2 < n) :
    (∃ out, initReduce agg rows b = .ok out ∧ out.length = n) ↔ LastCovered (b.getD []) n := by
  constructor
  · rintro ⟨out, h, rfl⟩
    obtain ⟨-, ⟨⟨f, c⟩, hp, e⟩, -⟩ := (initReduce_opt ..).mp h
    dsimp only at e
    refine ⟨f, by omega, ?_⟩
    have : out.length - 1 = c := by omega
    rw [this]
    exact hp
  · rintro ⟨f, h0, hf⟩
    refine ⟨reducedRows agg rows (b.getD []) n, (initReduce_opt ..).mpr ⟨fun p hp => (hr p hp).1, ⟨_, hf, ?_⟩, ?_, ?_⟩, ?_⟩
    · simp only [reducedRows, List.length_map, List.length_range]
      omega
    · intro p hp
      simpa [reducedRows] using (hr p hp).2
    · intro c hc
      simp only [reducedRows, List.length_map, List.length_range] at hc
      unfold reducedRows
      rw [List.getElem?_map, List.getElem?_range hc]
      rfl
    · simp [reducedRows]

theorem faces_inRange {comp : Complex R L} (hr : comp.Ready) (d : Nat) :
    ∀ p ∈ comp.faces (d + 1), p.1 < comp.cellsIn d ∧ p.2 < comp.cellsIn (d + 1) := by
  intro p hp
  cases hc : comp.cochains[d + 1]? with
  | none =>
    unfold Complex.faces Complex.attr at hp
    rw [hc] at hp
    cases hp
  | some c =>
    unfold Complex.faces at hp
    rw [attr_of hc] at hp
    exact (hr.valid.valid (d + 1) c hc).boundary p hp

/-- **C124** On a complex, the rows of one dimension reduced along the boundary of the next one: never more rows than cells,
as many as cells exactly if the last cell has a face, and then each row is the reduction over the faces of its cell. Without
any face the call raises. -/
theorem C124_reduction_on_complexes (agg : List R → R) (comp : Complex R L) (hr : comp.Ready) (d : Nat)
    (hd : d + 1 ≤ comp.dimension) :
    (comp.faces (d + 1) ≠ [] ↔ ∃ out, reduceFrom agg comp d = .ok out) ∧
    ∀ out, reduceFrom agg comp d = .ok out → out.length ≤ comp.cellsIn (d + 1) ∧
      (out.length = comp.cellsIn (d + 1) ↔ ∃ f, (f, comp.cellsIn (d + 1) - 1) ∈ comp.faces (d + 1)) ∧
      ∀ c < out.length, out[c]? =
        some (agg (((comp.faces (d + 1)).filter fun p => p.2 == c).map fun p => rowOf (comp.view.X d) p.1)) := by
  obtain ⟨p, e, hp⟩ := hr.runs.params (d := d) (by omega) 2 true true
  obtain ⟨q, e', hq⟩ := hr.runs.params (d := d + 1) hd 2 true true
  have hb := (C11_boundary_params comp _ _ _ _ _ q e').1 rfl
  have hrange := faces_inRange hr d
  have key : reduceFrom agg comp d = initReduce agg (comp.view.X d) (comp.attr (d + 1) Cochain.boundaryIndex) := by
    unfold reduceFrom
    rw [e, ok_bind, e', ok_bind, hp.x, hb]
  rw [← ready_X_length hr] at hrange
  simp only [key]
  constructor
  · constructor
    · intro hne
      obtain ⟨m, hm⟩ : ∃ m, ((comp.faces (d + 1)).map Prod.snd).max? = some m := by
        cases h : ((comp.faces (d + 1)).map Prod.snd).max? with
        | none =>
          rw [List.max?_eq_none_iff] at h
          exact absurd (List.map_eq_nil_iff.mp h) hne
        | some m => exact ⟨m, rfl⟩
      cases hbi : comp.attr (d + 1) Cochain.boundaryIndex with
      | none => exact absurd (by unfold Complex.faces; rw [hbi]; rfl) hne
      | some bi =>
        have hbf : comp.faces (d + 1) = bi := by unfold Complex.faces; rw [hbi]; rfl
        rw [hbf] at hrange hm
        exact ⟨_, initReduce_max (fun p hp => (hrange p hp).1) hm⟩
    · rintro ⟨out, h⟩ hnil
      obtain ⟨-, ⟨p, hp, -⟩, -⟩ := (initReduce_opt ..).mp h
      have hp : p ∈ comp.faces (d + 1) := hp
      rw [hnil] at hp
      cases hp
  · intro out h
    obtain ⟨-, ⟨⟨f, c⟩, hm, hlen⟩, hlt, hrow⟩ := (initReduce_opt ..).mp h
    dsimp only at hlen
    have hin := (hrange _ hm).2
    dsimp only at hin
    refine ⟨by omega, ⟨fun h => ⟨f, ?_⟩, ?_⟩, hrow⟩
    · have : comp.cellsIn (d + 1) - 1 = c := by omega
      rw [this]
      exact hm
    · rintro ⟨f', hf⟩
      have := hlt _ hf
      dsimp only at this
      omega

omit [AddCommMonoid R] in
/-- **C124** What the checks of the test of the embedding layer detect, for every program in place of the layer: it passes
exactly if the program, given the parameters without the features of edges and 2-cells, returns three matrices with as many
rows as the complex has cells. -/
theorem C124_what_the_test_detects (forward : List (MPParams R) → Py (List (List R))) (comp : Complex R L) :
    embedReduceTest forward comp = .ok () ↔ ∃ v e t rest x0 x1 x2 c0 c1 c2,
      comp.getAllCochainParams = .ok (v :: e :: t :: rest) ∧
      forward (v :: { e with x := none } :: { t with x := none } :: rest) = .ok [x0, x1, x2] ∧
      comp.cochains[0]? = some c0 ∧ c0.numCells = .ok (some x0.length) ∧
      comp.cochains[1]? = some c1 ∧ c1.numCells = .ok (some x1.length) ∧
      comp.cochains[2]? = some c2 ∧ c2.numCells = .ok (some x2.length) := by
  have rows : ∀ (xs : List (List R)) (x : List R) (d : Nat), xs[d]? = some x → (checkRows comp xs d = .ok () ↔
      ∃ c, comp.cochains[d]? = some c ∧ c.numCells = .ok (some x.length)) := by
    intro xs x d hx
    unfold checkRows cellsAt getAt
    rw [hx]
    cases hc : comp.cochains[d]? with
    | none => simp [ok_bind, error_bind]
    | some c =>
      cases hn : c.numCells with
      | error err => simp [ok_bind, error_bind, hn]
      | ok n =>
        simp only [ok_bind, hn, pyAssert_eq_ok, decide_eq_true_eq, Option.some.injEq, exists_eq_left', ok_inj]
        exact eq_comm
  constructor
  · intro h
    unfold embedReduceTest at h
    obtain ⟨ps, h1, h⟩ := bind_eq_ok.mp h
    obtain ⟨qs, h2, h⟩ := bind_eq_ok.mp h
    obtain ⟨xs, h3, h⟩ := bind_eq_ok.mp h
    obtain ⟨u, h4, h⟩ := bind_eq_ok.mp h
    obtain ⟨u0, h5, h⟩ := bind_eq_ok.mp h
    obtain ⟨u1, h6, h7⟩ := bind_eq_ok.mp h
    rw [pyAssert_eq_ok, beq_iff_eq] at h4
    match xs, h4 with
    | [x0, x1, x2], _ =>
      obtain ⟨c0, a0, b0⟩ := (rows _ x0 0 rfl).mp h5
      obtain ⟨c1, a1, b1⟩ := (rows _ x1 1 rfl).mp h6
      obtain ⟨c2, a2, b2⟩ := (rows _ x2 2 rfl).mp h7
      match ps, h2 with
      | v :: e :: t :: rest, h2 =>
        rw [hideFeatures, ok_inj] at h2
        subst h2
        exact ⟨v, e, t, rest, x0, x1, x2, c0, c1, c2, h1, h3, a0, b0, a1, b1, a2, b2⟩
  · rintro ⟨v, e, t, rest, x0, x1, x2, c0, c1, c2, h1, h3, a0, b0, a1, b1, a2, b2⟩
    unfold embedReduceTest
    rw [h1, ok_bind, hideFeatures, ok_bind, h3, ok_bind, (rows _ x0 0 rfl).mpr ⟨c0, a0, b0⟩,
      (rows _ x1 1 rfl).mpr ⟨c1, a1, b1⟩, (rows _ x2 2 rfl).mpr ⟨c2, a2, b2⟩]
    rfl

/-- **C124** Reducing from a dimension without features raises a TypeError. -/
theorem C124_no_features (agg : List R → R) (comp : Complex R L) (d : Nat) (p q : MPParams R)
    (h1 : comp.getCochainParams d = .ok p) (h2 : comp.getCochainParams (d + 1) = .ok q) (hx : p.x = none) :
    reduceFrom agg comp d = .error .type := by
  unfold reduceFrom
  rw [h1, ok_bind, h2, ok_bind, hx]

/-- **C124** The test of the embedding layer passes on a complex exactly if it has cells up to dimension 2 and the last edge
and the last 2-cell have a face; on smaller complexes it raises an IndexError. -/
theorem C124_embed_test (l : EmbedInit R) (comp : Complex R L) (hr : comp.Ready) :
    (2 ≤ comp.dimension → (embedReduceTest l.forward comp = .ok () ↔
      LastCovered (comp.faces 1) (comp.cellsIn 1) ∧ LastCovered (comp.faces 2) (comp.cellsIn 2))) ∧
    (comp.dimension < 2 → embedReduceTest l.forward comp = .error .index) := by
  obtain ⟨ps, e, hlen, hps⟩ := hr.runs.allParams
  constructor
  · intro hd
    match ps, hlen with
    | [p0, p1, p2], _ =>
      obtain ⟨-, e0, h0⟩ := hps 0 p0 rfl
      obtain ⟨-, e1, h1⟩ := hps 1 p1 rfl
      obtain ⟨-, e2, h2⟩ := hps 2 p2 rfl
      have b1 := (C11_boundary_params comp _ _ _ _ _ p1 e1).1 rfl
      have b2 := (C11_boundary_params comp _ _ _ _ _ p2 e2).1 rfl
      have hcell : ∀ d ≤ comp.dimension, cellsAt comp d = .ok (some (comp.cellsIn d)) := by
        intro d hd
        have hlt : d < comp.cochains.length := by rw [hr.valid.len]; omega
        have hc := List.getElem?_eq_getElem hlt
        unfold cellsAt
        rw [hc]
        exact numCells_of_valid hr.valid hc
      have hv : ((comp.view.X 0).map l.vEmbed).length = comp.cellsIn 0 := by
        rw [List.length_map, ready_X_length hr]
      have key : embedReduceTest l.forward comp = .ok () ↔ ∃ red cx,
          initReduce l.reduce ((comp.view.X 0).map l.vEmbed) (comp.attr 1 Cochain.boundaryIndex) = .ok red ∧
          initReduce l.reduce red (comp.attr 2 Cochain.boundaryIndex) = .ok cx ∧
          red.length = comp.cellsIn 1 ∧ cx.length = comp.cellsIn 2 := by
        unfold embedReduceTest
        rw [e, ok_bind]
        simp only [hideFeatures, ok_bind, EmbedInit.forward, h0.x, b1, b2, EmbedInit.edges]
        cases hred : initReduce l.reduce ((comp.view.X 0).map l.vEmbed) (comp.attr 1 Cochain.boundaryIndex) with
        | error err => simp [error_bind]
        | ok red =>
          cases hcx : initReduce l.reduce red (comp.attr 2 Cochain.boundaryIndex) with
          | error err => simp [ok_bind, error_bind, hcx]
          | ok cx =>
            simp [ok_bind, hcx, checkRows, getAt, hcell 0 (by omega), hcell 1 (by omega), hcell 2 (by omega),
              bind_eq_ok, pyAssert_eq_ok, ready_X_length hr]
      rw [key]
      have r1 := faces_inRange hr 0
      have r2 := faces_inRange hr 1
      constructor
      · rintro ⟨red, cx, i1, i2, l1, l2⟩
        exact ⟨(initReduce_all (by rw [hv]; exact r1)).mp ⟨red, i1, l1⟩,
          (initReduce_all (rows := red) (by rw [l1]; exact r2)).mp ⟨cx, i2, l2⟩⟩
      · rintro ⟨c1, c2⟩
        obtain ⟨red, i1, l1⟩ := (initReduce_all (agg := l.reduce) (rows := (comp.view.X 0).map l.vEmbed)
          (b := comp.attr 1 Cochain.boundaryIndex) (n := comp.cellsIn 1) (by rw [hv]; exact r1)).mpr c1
        obtain ⟨cx, i2, l2⟩ := (initReduce_all (agg := l.reduce) (rows := red)
          (b := comp.attr 2 Cochain.boundaryIndex) (n := comp.cellsIn 2) (by rw [l1]; exact r2)).mpr c2
        exact ⟨red, cx, i1, i2, l1, l2⟩
    | [], h => simp at h
    | [_], h => simp at h; omega
    | [_, _], h => simp at h; omega
    | _ :: _ :: _ :: _ :: _, h => simp at h; omega
  · intro hd
    unfold embedReduceTest
    rw [e, ok_bind]
    match ps, hlen with
    | [], _ => rfl
    | [_], _ => rfl
    | [_, _], _ => rfl
    | _ :: _ :: _ :: _, h => simp at h; omega

/-- **C124** The test of the embedding layer passes for every layer on every cell complex that has cells of dimension 2, in
particular on the house. -/
theorem C124_embed_test_passes (l : EmbedInit R) (comp : Complex R L) (h : comp.Sound) (hd : 2 ≤ comp.dimension) :
    embedReduceTest l.forward comp = .ok () := by
  have last : ∀ d, d + 1 ≤ comp.dimension → LastCovered (comp.faces (d + 1)) (comp.cellsIn (d + 1)) := by
    intro d hd
    have h0 := h.full (d + 1) hd
    obtain ⟨b, hb⟩ := h.covered d (comp.cellsIn (d + 1) - 1) (by omega)
    exact ⟨b, h0, hb⟩
  exact ((C124_embed_test l comp h.ready).1 hd).mpr ⟨last 0 (by omega), last 1 hd⟩

/-- **C124** The test on the house passes for every layer and all features. -/
theorem C124_house_test (l : EmbedInit R) (num : Nat → R) : (houseComplex num >>= embedReduceTest l.forward) = .ok () := by
  obtain ⟨c, e, hd, hm, -⟩ := house_built num
  rw [e, ok_bind]
  exact C124_embed_test_passes l c hm.sound (by omega)

/-- The expected tensors of the test of the reduction (mp/test_layers.py:143-149). -/
example : (houseComplex (id : Nat → Nat) >>= fun c => reduceFrom List.sum c 0) = .ok [3, 5, 7, 5, 9, 8] ∧
    (houseComplex (id : Nat → Nat) >>= fun c => reduceFrom List.sum c 1) = .ok [14] := by decide +kernel

open Fixtures in
/-- The house without the columns of its last edge. -/
def openHouseQ : Complex ℚ Nat :=
  { houseQ with cochains := houseQ.cochains.map fun c => if c.dim = 1 then
      { c with boundaryIndex := c.boundaryIndex.map (·.filter fun p => p.2 + 1 != houseQ.cellsIn 1) } else c }

theorem openHouseQ_ready : openHouseQ.Ready := ⟨validB_sound (by decide), by unfold Complex.Featured; decide, rfl⟩

/-- A complex whose last edge has no face: one row fewer than edges, and the test fails. -/
example : 2 ≤ openHouseQ.dimension ∧ openHouseQ.cellsIn 1 = 6 ∧
    (reduceFrom List.sum openHouseQ 0).toOption.map List.length = some 5 ∧
    embedReduceTest initQ.forward openHouseQ ≠ .ok () := by decide +kernel

/-- A program that returns one matrix more, and one that returns one row more, do not pass on the house. -/
example : embedReduceTest (fun ps => (initQ.forward ps).map (· ++ [[]])) Fixtures.houseQ ≠ .ok () ∧
    embedReduceTest (fun ps => (initQ.forward ps).map (·.map (0 :: ·))) Fixtures.houseQ ≠ .ok () ∧
    embedReduceTest initQ.forward Fixtures.houseQ = .ok () := by decide +kernel

/-- A complex without features on its vertices. -/
example : ∃ p q, (Complex.mk 1 [({ dim := 0, numCellsAttr := some (some 2) } : Cochain ℚ Nat),
      { dim := 1, x := some [5], boundaryIndex := some [(0, 0), (1, 0)] }] none none).getCochainParams 0 = .ok p ∧
    (Complex.mk 1 [({ dim := 0, numCellsAttr := some (some 2) } : Cochain ℚ Nat),
      { dim := 1, x := some [5], boundaryIndex := some [(0, 0), (1, 0)] }] none none).getCochainParams 1 = .ok q ∧
    p.x = none := ⟨_, _, rfl, rfl, rfl⟩

end Verif
