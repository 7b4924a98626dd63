import Verif.Lemmas.BatchRun
import Verif.FixturesQ

/-!
# C14, C15: convolutions commute with renumbering cells and with batching

Learned maps are arbitrary functions on rows. `top` is `include_top_features`; a SparseCIN or CIN++
upper message network that concatenates the features of the shared cell cannot run when they are not
passed, which is what the hypotheses `hn` say (by default `top` is true and they are void).
-/

namespace Verif

variable {R L 𝕜 : Type} [Field 𝕜] [AddCommMonoid R] [Module 𝕜 R]

/-- **C14** CIN: the convolution of the renumbered complex is the renumbered convolution. -/
theorem C14_cin_equivariant (comp : Complex R L) (h : comp.Ready) (σ : Nat → Equiv.Perm Nat)
    (hσ : comp.Permutes σ) (m : Nat) (top : Bool) (levels : List (CINLevel 𝕜 R))
    (hl : levels.length = m + 1) :
    ∃ out, (comp.getAllCochainParams m top >>= convForward CINLevel.forward levels) = .ok out ∧
      ((comp.relabel σ).getAllCochainParams m top >>= convForward CINLevel.forward levels) =
        .ok (out.mapIdx fun d => moveRows (σ d)) :=
  conv_relabel realises_cin ⟨hl, fun _ _ _ h => h.elim⟩ h hσ

/-- **C14** SparseCIN: the convolution of the renumbered complex is the renumbered convolution. -/
theorem C14_sparse_cin_equivariant (comp : Complex R L) (h : comp.Ready) (σ : Nat → Equiv.Perm Nat)
    (hσ : comp.Permutes σ) (m : Nat) (top down : Bool) (levels : List (SparseLevel 𝕜 R))
    (hl : levels.length = m + 1)
    (hn : ∀ d l, levels[d]? = some l → l.msgUp.NeedsAttr → (decide (d < m) || top) = true) :
    ∃ out, (comp.getAllCochainParams m top down >>= convForward SparseLevel.forward levels) = .ok out ∧
      ((comp.relabel σ).getAllCochainParams m top down >>= convForward SparseLevel.forward levels) =
        .ok (out.mapIdx fun d => moveRows (σ d)) :=
  conv_relabel (realises_sparse down) ⟨hl, hn⟩ h hσ

/-- **C14** CIN++: the convolution of the renumbered complex is the renumbered convolution. -/
theorem C14_cinpp_equivariant (comp : Complex R L) (h : comp.Ready) (σ : Nat → Equiv.Perm Nat)
    (hσ : comp.Permutes σ) (m : Nat) (top down : Bool) (levels : List (PPLevel 𝕜 R))
    (hl : levels.length = m + 1)
    (hn : ∀ d l, levels[d]? = some l → l.msgUp.NeedsAttr → (decide (d < m) || top) = true) :
    ∃ out, (comp.getAllCochainParams m top down >>= convForward PPLevel.forward levels) = .ok out ∧
      ((comp.relabel σ).getAllCochainParams m top down >>= convForward PPLevel.forward levels) =
        .ok (out.mapIdx fun d => moveRows (σ d)) :=
  conv_relabel (realises_pp down) ⟨hl, hn⟩ h hσ

/-- **C14** The same for complexes given in any way whose views are renumberings of each other
(the columns may come in any order), for the three convolutions. -/
theorem C14_equivariant_up_to_order (comp comp' : Complex R L) (h : comp.Ready) (h' : comp'.Ready)
    (hdim : comp'.dimension = comp.dimension) (φ : Nat → Nat → Nat)
    (hφ : Relabels comp.view comp'.view φ) (m : Nat) (cin : List (CINLevel 𝕜 R))
    (sparse : List (SparseLevel 𝕜 R)) (pp : List (PPLevel 𝕜 R)) (hc : cin.length = m + 1)
    (hs : sparse.length = m + 1) (hp : pp.length = m + 1) :
    ∀ conv ∈ [fun c : Complex R L => c.getAllCochainParams m >>= convForward CINLevel.forward cin,
      fun c => c.getAllCochainParams m >>= convForward SparseLevel.forward sparse,
      fun c => c.getAllCochainParams m >>= convForward PPLevel.forward pp],
    ∃ out out', conv comp = .ok out ∧ conv comp' = .ok out' ∧ out'.length = out.length ∧
      ∀ (d : Nat) (rows : List R), out[d]? = some rows → ∃ rows', out'[d]? = some rows' ∧
        rows'.length = rows.length ∧ ∀ c < rows.length, rows'[φ d c]? = rows[c]? := by
  have key : ∀ (rules : Nat → Rule R) (conv : Complex R L → Py (List (List R))),
      conv comp = .ok ((List.range (min m comp.dimension + 1)).map (comp.view.layer rules m true).X) →
      conv comp' = .ok ((List.range (min m comp'.dimension + 1)).map
        (comp'.view.layer rules m true).X) →
      ∃ out out', conv comp = .ok out ∧ conv comp' = .ok out' ∧ out'.length = out.length ∧
      ∀ (d : Nat) (rows : List R), out[d]? = some rows → ∃ rows', out'[d]? = some rows' ∧
        rows'.length = rows.length ∧ ∀ c < rows.length, rows'[φ d c]? = rows[c]? := by
    intro rules conv h1 h2
    refine ⟨_, _, h1, h2, by simp [hdim], ?_⟩
    intro d rows hrows
    have hv := ready_inRange h
    rw [List.getElem?_map] at hrows ⊢
    by_cases hd : d < min m comp.dimension + 1
    · rw [List.getElem?_range hd] at hrows
      rw [hdim, List.getElem?_range hd]
      have hrows : (comp.view.layer rules m true).X d = rows := by simpa using hrows
      refine ⟨_, rfl, ?_, ?_⟩
      · rw [← hrows, layer_X_length, layer_X_length, hφ.size]
      · intro c hc
        rw [← hrows] at hc ⊢
        exact ((hφ.localIso hv).layer hv rules m true).feat d c hc
    · rw [List.getElem?_eq_none (by rw [List.length_range]; omega)] at hrows
      simp at hrows
  intro conv hconv
  simp only [List.mem_cons, List.not_mem_nil, or_false] at hconv
  rcases hconv with rfl | rfl | rfl
  · apply key (rulesOf CINLevel.rule cin)
    · exact h.runs.conv (top := true) realises_cin ⟨hc, fun _ _ _ h => h.elim⟩
    · exact h'.runs.conv (top := true) realises_cin ⟨hc, fun _ _ _ h => h.elim⟩
  · apply key (rulesOf SparseLevel.rule sparse)
    · exact h.runs.conv (top := true) (realises_sparse true) ⟨hs, fun _ _ _ _ => by simp⟩
    · exact h'.runs.conv (top := true) (realises_sparse true) ⟨hs, fun _ _ _ _ => by simp⟩
  · apply key (rulesOf PPLevel.rule pp)
    · exact h.runs.conv (top := true) (realises_pp true) ⟨hp, fun _ _ _ _ => by simp⟩
    · exact h'.runs.conv (top := true) (realises_pp true) ⟨hp, fun _ _ _ _ => by simp⟩

/-- **C14** Renumbering gives a valid complex again and is what it should be: the cell called `σ d c`
has the features of the cell `c`, and the columns are the renamed columns. -/
theorem C14_relabel_is_renaming (comp : Complex R L) (h : comp.Ready) (σ : Nat → Equiv.Perm Nat)
    (hσ : comp.Permutes σ) :
    (comp.relabel σ).Ready ∧ Relabels comp.view (comp.relabel σ).view (fun d c => σ d c) :=
  ⟨h.relabel hσ, h.relabels hσ⟩

/-- **C15** CIN: the convolution of a batch is, in every dimension, the concatenation of the
convolutions of the complexes; complexes that lack the dimension contribute no rows. -/
theorem C15_cin_commutes_with_batching (cs : List (Complex R L)) (h : ∀ comp ∈ cs, comp.Ready)
    (mB : Nat) (hm : ∀ comp ∈ cs, comp.dimension ≤ mB) (B : Complex R L)
    (hB : fromComplexList cs mB = .ok B) (m : Nat) (top : Bool) (levels : List (CINLevel 𝕜 R))
    (hl : levels.length = m + 1) :
    ∃ out outs, (B.getAllCochainParams m top >>= convForward CINLevel.forward levels) = .ok out ∧
      mapE (fun comp => comp.getAllCochainParams m top >>= convForward CINLevel.forward levels) cs =
        .ok outs ∧ out.length = min m B.dimension + 1 ∧ (∀ o ∈ outs, o.length ≤ out.length) ∧
      ∀ (d : Nat) (rows : List R), out[d]? = some rows → rows = outs.flatMap fun o => (o[d]?).getD [] :=
  conv_batch realises_cin ⟨hl, fun _ _ _ h => h.elim⟩ h hm hB

/-- **C15** SparseCIN: likewise. -/
theorem C15_sparse_cin_commutes_with_batching (cs : List (Complex R L))
    (h : ∀ comp ∈ cs, comp.Ready) (mB : Nat) (hm : ∀ comp ∈ cs, comp.dimension ≤ mB)
    (B : Complex R L) (hB : fromComplexList cs mB = .ok B) (m : Nat) (top down : Bool)
    (levels : List (SparseLevel 𝕜 R)) (hl : levels.length = m + 1)
    (hn : ∀ d l, levels[d]? = some l → l.msgUp.NeedsAttr → (decide (d < m) || top) = true) :
    ∃ out outs,
      (B.getAllCochainParams m top down >>= convForward SparseLevel.forward levels) = .ok out ∧
      mapE (fun comp => comp.getAllCochainParams m top down >>=
        convForward SparseLevel.forward levels) cs = .ok outs ∧
      out.length = min m B.dimension + 1 ∧ (∀ o ∈ outs, o.length ≤ out.length) ∧
      ∀ (d : Nat) (rows : List R), out[d]? = some rows → rows = outs.flatMap fun o => (o[d]?).getD [] :=
  conv_batch (realises_sparse down) ⟨hl, hn⟩ h hm hB

/-- **C15** CIN++: likewise. -/
theorem C15_cinpp_commutes_with_batching (cs : List (Complex R L))
    (h : ∀ comp ∈ cs, comp.Ready) (mB : Nat) (hm : ∀ comp ∈ cs, comp.dimension ≤ mB)
    (B : Complex R L) (hB : fromComplexList cs mB = .ok B) (m : Nat) (top down : Bool)
    (levels : List (PPLevel 𝕜 R)) (hl : levels.length = m + 1)
    (hn : ∀ d l, levels[d]? = some l → l.msgUp.NeedsAttr → (decide (d < m) || top) = true) :
    ∃ out outs, (B.getAllCochainParams m top down >>= convForward PPLevel.forward levels) = .ok out ∧
      mapE (fun comp => comp.getAllCochainParams m top down >>=
        convForward PPLevel.forward levels) cs = .ok outs ∧
      out.length = min m B.dimension + 1 ∧ (∀ o ∈ outs, o.length ≤ out.length) ∧
      ∀ (d : Nat) (rows : List R), out[d]? = some rows → rows = outs.flatMap fun o => (o[d]?).getD [] :=
  conv_batch (realises_pp down) ⟨hl, hn⟩ h hm hB

section Examples
open Fixtures

/-- A SparseCIN level with concrete maps; the upper messages use the features of the shared cell. -/
def sparseQ : SparseLevel ℚ ℚ where
  msgUp := .withAttr (fun x a => x + 2 * a)
  msgBoundary x := 3 * x
  updateUp x := x + 1
  updateBoundary x := x * x
  combine u b := u - b
  eps1 := 0
  eps2 := 1 / 2

/-- A CIN level with concrete maps. -/
def cinQ : CINLevel ℚ ℚ := ⟨id, fun x a => x * a, fun x a => x - a, fun x => x * x, 1⟩

/-- The segment and the isolated vertices. -/
example : (segQ.getAllCochainParams 2 true false >>= convForward SparseLevel.forward [sparseQ, sparseQ, sparseQ]) =
    .ok [[46 - 441 / 4, 46 - 144, 10 - 729 / 4], [16 - 18225 / 4]] := by decide +kernel
/-- The segment with its first two vertices swapped: rows swapped, the edge as before. -/
example : ((segQ.relabel (swap01 segQ)).getAllCochainParams 2 true false >>=
      convForward SparseLevel.forward [sparseQ, sparseQ, sparseQ]) =
    .ok [[46 - 144, 46 - 441 / 4, 10 - 729 / 4], [16 - 18225 / 4]] := by decide +kernel
example : segQ.Ready ∧ segQ.Permutes (swap01 segQ) ∧ swap01 segQ 0 0 = 1 :=
  ⟨segQ_ready, swap01_permutes _, by decide⟩
example : houseQ.Ready ∧ houseQ.Permutes (swap01 houseQ) ∧ swap01 houseQ 1 0 = 1 :=
  ⟨houseQ_ready, swap01_permutes _, by decide⟩
/-- Three complexes of different dimensions in a batch. -/
example : ∃ B, fromComplexList [segQ, dotsQ, houseQ] 2 = .ok B ∧ B.dimension = 2 ∧
    (∃ out, (B.getAllCochainParams 2 true >>= convForward CINLevel.forward [cinQ, cinQ, cinQ]) =
      .ok out ∧ out.map List.length = [10, 7, 1]) := by
  refine ⟨_, rfl, rfl, _, rfl, ?_⟩
  decide +kernel
example : ∀ comp ∈ [segQ, dotsQ, houseQ], comp.Ready ∧ comp.dimension ≤ 2 := by
  intro comp h
  simp only [List.mem_cons, List.not_mem_nil, or_false] at h
  rcases h with rfl | rfl | rfl
  · exact ⟨segQ_ready, by decide⟩
  · exact ⟨dotsQ_ready, by decide⟩
  · exact ⟨houseQ_ready, by decide⟩

end Examples

/-! ### The theorems on concrete cases -/

section Cases
open Fixtures
example := C14_cin_equivariant houseQ houseQ_ready (swap01 houseQ) (swap01_permutes _) 2 true [cinQ, cinQ, cinQ] rfl
example := C14_sparse_cin_equivariant houseQ houseQ_ready (swap01 houseQ) (swap01_permutes _) 2 true false
  [sparseQ, sparseQ, sparseQ] rfl (fun _ _ _ _ => by simp)
/-- A CIN++ level with concrete maps. -/
def ppCaseQ : PPLevel ℚ ℚ where
  msgUp := .withAttr (fun x a => x + 2 * a)
  msgDown := .plain id
  msgBoundary x := 3 * x
  updateUp x := x + 1
  updateDown x := x - 4
  updateBoundary x := x * x
  combine u d b := u - d * b
  eps1 := 0
  eps2 := 1 / 2
  eps3 := 2
example := C14_cinpp_equivariant houseQ houseQ_ready (swap01 houseQ) (swap01_permutes _) 2 true true
  [ppCaseQ, ppCaseQ, ppCaseQ] rfl (fun _ _ _ _ => by simp)
example := C14_equivariant_up_to_order houseQ (houseQ.relabel (swap01 houseQ)) houseQ_ready
  (C14_relabel_is_renaming houseQ houseQ_ready (swap01 houseQ) (swap01_permutes _)).1 rfl _
  (C14_relabel_is_renaming houseQ houseQ_ready (swap01 houseQ) (swap01_permutes _)).2 2 [cinQ, cinQ, cinQ]
  [sparseQ, sparseQ, sparseQ] [ppCaseQ, ppCaseQ, ppCaseQ] rfl rfl rfl
lemma threeQ_ready : ∀ comp ∈ [segQ, dotsQ, houseQ], comp.Ready ∧ comp.dimension ≤ 2 := by
  intro comp h
  simp only [List.mem_cons, List.not_mem_nil, or_false] at h
  rcases h with rfl | rfl | rfl
  · exact ⟨segQ_ready, by decide⟩
  · exact ⟨dotsQ_ready, by decide⟩
  · exact ⟨houseQ_ready, by decide⟩
example := C15_cin_commutes_with_batching [segQ, dotsQ, houseQ] (fun c h => (threeQ_ready c h).1) 2
  (fun c h => (threeQ_ready c h).2) _ rfl 2 true [cinQ, cinQ, cinQ] rfl
example := C15_sparse_cin_commutes_with_batching [segQ, dotsQ, houseQ] (fun c h => (threeQ_ready c h).1) 2
  (fun c h => (threeQ_ready c h).2) _ rfl 2 true false [sparseQ, sparseQ, sparseQ] rfl (fun _ _ _ _ => by simp)
example := C15_cinpp_commutes_with_batching [segQ, dotsQ, houseQ] (fun c h => (threeQ_ready c h).1) 2
  (fun c h => (threeQ_ready c h).2) _ rfl 2 true true [ppCaseQ, ppCaseQ, ppCaseQ] rfl (fun _ _ _ _ => by simp)
end Cases

end Verif
