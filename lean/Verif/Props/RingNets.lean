import Verif.Lemmas.RingNets
import Verif.Props.Layers

/-!
# C69: the networks of the ring experiments on batches
-/

namespace Verif

variable {𝕜 R L : Type} [Field 𝕜] [AddCommMonoid R] [Module 𝕜 R]

/-- Every complex of a list carries a mask with one entry per vertex. -/
def Marked (cs : List (Complex R L)) : Prop :=
  ∀ c ∈ cs, ∃ mask, c.attr 0 Cochain.mask = some mask ∧ mask.length = c.cellsIn 0

/-- **C69** RingSparseCIN: the predictions for a batch are those for the marked nodes of its complexes, one complex
after the other, and they meet the specification. -/
theorem C69_ring_sparse_cin_predictions_do_not_depend_on_the_batch (net : RingNet R (SparseLevel 𝕜 R)) (hn : net.Fits)
    (cs : List (Complex R L)) (hne : cs ≠ []) (hr : ∀ c ∈ cs, c.Ready) (hm : Marked cs) (mB : Nat) :
    ∃ preds : Complex R L → List R,
      (fromComplexList cs mB >>= net.forward SparseLevel.forward) = .ok (cs.flatMap preds) ∧
      ∀ c ∈ cs, (fromComplexList [c] mB >>= net.forward SparseLevel.forward) = .ok (preds c) ∧
        ∀ mask, c.attr 0 Cochain.mask = some mask → (preds c).length = mask.count true ∧
          preds c = net.predict SparseLevel.rule (c.view.upTo mB) mask := by
  have all : ∀ ds : List (Complex R L), ds ≠ [] → (∀ d ∈ ds, d ∈ cs) →
      (fromComplexList ds mB >>= net.forward SparseLevel.forward) =
        .ok (ds.flatMap fun c => net.predict SparseLevel.rule (c.view.upTo mB) c.maskOf) := by
    intro ds hds hsub
    obtain ⟨B, hB⟩ := fromComplexList_ok hds (fun c hc => (hr c (hsub c hc)).valid)
      (fun c hc => (hr c (hsub c hc)).featured) mB
    rw [hB, ok_bind]
    exact RingNet.forward_batch (realises_sparse false) hn hds hB (fun c hc => hr c (hsub c hc))
      fun c hc => hm c (hsub c hc)
  refine ⟨_, all cs hne fun _ h => h, ?_⟩
  intro c hc
  refine ⟨by simpa using all [c] (by simp) (by simpa using hc), ?_⟩
  intro mask hmask
  have e : c.maskOf = mask := by rw [Complex.maskOf, hmask]; rfl
  refine ⟨?_, by rw [e]⟩
  obtain ⟨mk, h1, h2⟩ := hm c hc
  rw [hmask, Option.some.injEq] at h1
  subst h1
  rw [e, RingNet.predict, List.length_map]
  refine picked_length ?_
  rw [RingNet.rows, final_length, upTo_X_length (hr c hc) (Nat.zero_le _), h2]

/-- **C69** RingGIN: likewise, on batches of graphs. -/
theorem C69_ring_gin_predictions_do_not_depend_on_the_batch (net : RingGIN 𝕜 R) (gs : List (GData R))
    (h : ∀ g ∈ gs, g.Ok) (hm : ∀ g ∈ gs, g.mask.length = g.x.length) :
    ∃ preds : GData R → List R, net.forward (gBatch gs) = .ok (gs.flatMap preds) ∧
      ∀ g ∈ gs, net.forward g = .ok (preds g) ∧ (preds g).length = g.mask.count true ∧ preds g = net.predict g := by
  refine ⟨net.predict, ?_, ?_⟩
  · rw [net.forward_ok (gBatch_edges h) (by
      simp only [gBatch, List.length_flatMap]
      congr 1
      exact List.map_congr_left hm), net.predict_batch h hm]
  · intro g hg
    refine ⟨net.forward_ok (h g hg).edges (hm g hg), ?_, rfl⟩
    rw [RingGIN.predict_rows, List.length_map]
    exact picked_length (by simp [RingGIN.rows, hm g hg])

/-! ### A concrete case -/

section Examples
open Fixtures

/-- Marks on the vertices. -/
def markWith (mask : List Bool) (comp : Complex ℚ Nat) : Complex ℚ Nat :=
  { comp with cochains := comp.cochains.modifyHead fun c => { c with mask := some mask } }

def segM : Complex ℚ Nat := markWith [true, false, false] segQ
def houseM : Complex ℚ Nat := markWith [false, true, false, true, false] houseQ

/-- A network with two layers. -/
def ringNetQ : RingNet ℚ (SparseLevel ℚ ℚ) where
  initLayer x := x + 1
  convs := [[sparseQ, sparseQ, sparseQ], [sparseQ, sparseQ, sparseQ]]
  lin1 x := 3 * x

def ringGinQ : RingGIN ℚ ℚ where
  initLinear x := 2 * x
  conv1 := ⟨fun x => x - 8, 0⟩
  convs := [⟨fun x => x + 1, 1 / 2⟩]
  act x := max x 0
  lin1 x := x + 3

def triD : GData ℚ :=
  { x := [1, 2, 3], edges := [(0, 1), (1, 0), (1, 2), (2, 1), (2, 0), (0, 2)], mask := [false, true, true] }
def legD : GData ℚ := { x := [5, 1], edges := [(0, 1), (1, 0)], mask := [true, false] }

/-- The hypotheses are met. -/
example : ringNetQ.Fits ∧ (∀ c ∈ [houseM, segM], c.Ready) ∧ Marked [houseM, segM] := by
  refine ⟨⟨by simp [ringNetQ], by simp [ringNetQ]⟩, ?_, ?_⟩
  · intro c hc
    simp only [List.mem_cons, List.not_mem_nil, or_false] at hc
    rcases hc with rfl | rfl
    · refine ⟨validB_sound (by decide), ?_, rfl⟩
      unfold Complex.Featured
      decide
    · refine ⟨validB_sound (by decide), ?_, rfl⟩
      unfold Complex.Featured
      decide
  · intro c hc
    simp only [List.mem_cons, List.not_mem_nil, or_false] at hc
    rcases hc with rfl | rfl
    · exact ⟨_, rfl, rfl⟩
    · exact ⟨_, rfl, rfl⟩

/-- Two predictions for the house and one for the segment, in that order. -/
example : (fromComplexList [houseM, segM] 2 >>= ringNetQ.forward SparseLevel.forward) =
      (do let a ← fromComplexList [houseM] 2 >>= ringNetQ.forward SparseLevel.forward
          let b ← fromComplexList [segM] 2 >>= ringNetQ.forward SparseLevel.forward
          return a ++ b) ∧
    ((fromComplexList [houseM, segM] 2 >>= ringNetQ.forward SparseLevel.forward).toOption.map List.length) = some 3 := by
  decide +kernel

example : (∀ g ∈ [triD, legD], g.Ok ∧ g.mask.length = g.x.length) ∧
    ringGinQ.forward (gBatch [triD, legD]) = .ok (ringGinQ.predict triD ++ ringGinQ.predict legD) ∧
    (ringGinQ.predict triD).length = 2 := by
  refine ⟨?_, by decide +kernel, by decide +kernel⟩
  intro g hg
  simp only [List.mem_cons, List.not_mem_nil, or_false] at hg
  rcases hg with rfl | rfl
  · exact ⟨⟨by decide, by decide⟩, rfl⟩
  · exact ⟨⟨by decide, by decide⟩, rfl⟩

end Examples

end Verif
