import Verif.Lemmas.Embed
import Verif.Props.Models

/-!
# C20, C21: embedding networks
-/

namespace Verif

variable {𝕜 R L : Type} [Field 𝕜] [AddCommMonoid R] [Module 𝕜 R]

/-! ### C20 -/

/-- What the theorems ask of the 2-cells so that extracting the parameters of the edges does not fail:
either every complex is valid and carries features in all dimensions, or no 2-cell has features. -/
def RingsReadable (cs : List (Complex R L)) : Prop :=
  (∀ c ∈ cs, c.Ready) ∨ ∀ c ∈ cs, c.attr 2 Cochain.x = none

theorem RingsReadable.upperOk {cs : List (Complex R L)} (h : RingsReadable cs) {m : Nat}
    {B : Complex R L} (hB : fromComplexList cs m = .ok B) : UpperOk B :=
  h.elim (upperOk_of_ready hB) (upperOk_of_bare hB)

/-- C20: the prediction of the no-rings variant of `EmbedSparseCIN` on a batch does not change when
2-cells are removed, added or altered in any of its complexes. -/
theorem C20_no_rings_ignores_2cells (net : EmbedNet R (SparseLevel 𝕜 R)) {cs cs' : List (Complex R L)}
    (h : List.Forall₂ SameGraph cs cs') {m m' : Nat} (hm : 1 ≤ m) (hm' : 1 ≤ m') {B B' : Complex R L}
    (hB : fromComplexList cs m = .ok B) (hB' : fromComplexList cs' m' = .ok B')
    (hr : RingsReadable cs') {p : List R}
    (hp : net.forwardNoRings 𝕜 SparseLevel.forward B = .ok p) :
    net.forwardNoRings 𝕜 SparseLevel.forward B' = .ok p :=
  (sameBelow_batch h hm hm' hB hB').forwardNoRings sparse_ignoresAttr (hr.upperOk hB') net hp

/-- C20: the GIN baseline `EmbedGIN` does not see 2-cells either. -/
theorem C20_gin_ignores_2cells (net : EmbedGIN 𝕜 R) {cs cs' : List (Complex R L)}
    (h : List.Forall₂ SameGraph cs cs') {m m' : Nat} (hm : 1 ≤ m) (hm' : 1 ≤ m') {B B' : Complex R L}
    (hB : fromComplexList cs m = .ok B) (hB' : fromComplexList cs' m' = .ok B')
    (hr : RingsReadable cs') {p : List R} (hp : net.forward B = .ok p) : net.forward B' = .ok p :=
  (sameBelow_batch h hm hm' hB hB').forwardGIN (hr.upperOk hB') net hp

/-! ### C21 -/

/-- C21: with sum reduction the initial layer succeeds on every 2-complex whose incidences are in
range; without edge features an edge gets the sum of its two end points, and a 2-cell bounded by a
cycle gets the sum of the vertices of the cycle, each counted as often as the cycle visits it. -/
theorem C21_initial_features_are_vertex_sums (h2 : (2 : 𝕜) ≠ 0) (l : EmbedInit R)
    (hred : l.reduce = List.sum) (hhalf : ∀ r, l.half r = (2 : 𝕜)⁻¹ • r) {v e c : MPParams R}
    {x : List R} (hx : v.x = some x) {b1 b2 : List (Nat × Nat)} (hb1 : e.boundaryIndex = some b1)
    (hb2 : c.boundaryIndex = some b2) (he : e.x = none ∨ l.eEmbed.isSome)
    (hne1 : b1 ≠ []) (hne2 : b2 ≠ []) (hr1 : ∀ p ∈ b1, p.1 < x.length)
    (hr2 : ∀ p ∈ b2, ∃ q ∈ b1, q.2 = p.1) :
    ∃ ex cx, l.forward [v, e, c] = .ok [x.map l.vEmbed, ex, cx] ∧
      (e.x = none → ∀ k u w, HasEnds b1 k (u, w) →
        ex[k]? = some (rowOf (x.map l.vEmbed) u + rowOf (x.map l.vEmbed) w)) ∧
      ∀ r cyc, cyc ≠ [] → IsCycle b1 b2 r cyc →
        cx[r]? = some ((cyc.map (rowOf (x.map l.vEmbed))).sum) := by
  have hagg : l.reduce = aggAdd := by rw [hred]; rfl
  obtain ⟨n, hn, hlt⟩ := initReduce_ok (rows := x.map l.vEmbed) hne1 (by simpa using hr1)
  obtain ⟨k, hk, hlt2⟩ := initReduce_ok (bi := b2)
    (rows := (List.range n).map (bndTotal b1 (x.map l.vEmbed))) hne2 (by
      intro p hp
      obtain ⟨q, hq, e⟩ := hr2 p hp
      rw [List.length_map, List.length_range, ← e]
      exact hlt q hq)
  have hbn : ∀ p ∈ b2, p.1 < n := by
    intro p hp
    obtain ⟨q, hq, e⟩ := hr2 p hp
    rw [← e]
    exact hlt q hq
  have hedges : ∃ ex, l.edges ((List.range n).map (bndTotal b1 (x.map l.vEmbed))) e.x = .ok ex ∧
      (e.x = none → ex = (List.range n).map (bndTotal b1 (x.map l.vEmbed))) := by
    unfold EmbedInit.edges
    cases hex : e.x with
    | none => exact ⟨_, rfl, fun _ => rfl⟩
    | some y =>
      rw [hex] at he
      obtain ⟨f, hf⟩ := Option.isSome_iff_exists.mp (he.resolve_left (by simp))
      rw [hf]
      exact ⟨_, rfl, fun h => by simp at h⟩
  obtain ⟨ex, hex, hex'⟩ := hedges
  refine ⟨ex, ((List.range k).map (bndTotal b2
    ((List.range n).map (bndTotal b1 (x.map l.vEmbed))))).map l.half, ?_, ?_, ?_⟩
  · unfold EmbedInit.forward
    simp only [List.length_cons, List.length_nil, Nat.lt_irrefl, if_false, Nat.zero_add,
      Nat.reduceAdd, hx, hagg, hb1, hn, ok_bind, hex, hb2, hk, pure_eq_ok]
  · intro hnone k u w hends
    rw [hex' hnone]
    have hmem : u ∈ (b1.filter fun p => p.2 == k).map Prod.fst := hends.mem_iff.mpr (by simp)
    obtain ⟨p, hp, -⟩ := List.mem_map.mp hmem
    have hp := List.mem_filter.mp hp
    have hkn : k < n := by
      have := hlt p hp.1
      have : p.2 = k := by simpa using hp.2
      omega
    rw [List.getElem?_map, List.getElem?_range hkn, Option.map_some, bndTotal_ends hends]
  · intro r cyc hcyc hc
    have hrk : r < k := by
      obtain ⟨es, hperm, hf⟩ := hc
      have hes : es ≠ [] := by
        rintro rfl
        have := hf.length_eq
        cases cyc with
        | nil => exact hcyc rfl
        | cons a cyc => simp at this
      obtain ⟨a, ha⟩ := List.exists_mem_of_ne_nil es hes
      obtain ⟨p, hp, -⟩ := List.mem_map.mp (hperm.mem_iff.mpr ha)
      have hp := List.mem_filter.mp hp
      have := hlt2 p hp.1
      have : p.2 = r := by simpa using hp.2
      omega
    rw [List.getElem?_map, List.getElem?_map, List.getElem?_range hrk, Option.map_some,
      Option.map_some, cycle_total hc hbn, hhalf, ← two_smul 𝕜, smul_smul, inv_mul_cancel₀ h2, one_smul]

/-! ### Examples -/

section Examples
open Fixtures

/-- The house without its triangle. -/
def hollowQ : Complex ℚ Nat where
  dimension := 1
  cochains := houseQ.cochains.take 2 |>.map fun c => if c.dim = 1 then c.noUpper else c
  y := houseQ.y

/-- The house whose triangle has no features. -/
def bareQ : Complex ℚ Nat :=
  { houseQ with cochains := houseQ.cochains.map fun c => if c.dim = 2 then { c with x := none } else c }

/-- An initial layer with concrete maps. -/
def initQ : EmbedInit ℚ where
  vEmbed x := x + 1
  eEmbed := some (fun x => 2 * x)
  reduce := List.sum
  half x := (2 : ℚ)⁻¹ • x

/-- A no-rings network. -/
def noRingsQ : EmbedNet ℚ (SparseLevel ℚ ℚ) where
  init := initQ
  net := sparseNetQ

/-- A GIN network. -/
def ginQ : EmbedGIN ℚ ℚ where
  init := initQ
  convs := [{ msg := fun x e => max (x + e) 0, nn := fun x => x + 1, eps := 0 }]
  act x := max x 0
  lin1 x := 2 * x
  lin2 x := x + 5

example : List.Forall₂ SameGraph [segQ, houseQ] [segQ, hollowQ] ∧ RingsReadable [segQ, hollowQ] ∧
    RingsReadable [segQ, bareQ] ∧ List.Forall₂ SameGraph [segQ, houseQ] [segQ, bareQ] := by
  refine ⟨.cons ⟨rfl, rfl, rfl⟩ (.cons ⟨rfl, rfl, rfl⟩ .nil), .inr ?_, .inr ?_,
    .cons ⟨rfl, rfl, rfl⟩ (.cons ⟨rfl, rfl, rfl⟩ .nil)⟩ <;> decide

example : ((fromComplexList [segQ, houseQ] 2 >>= noRingsQ.forwardNoRings ℚ SparseLevel.forward).toOption.map
      List.length) = some 2 ∧
    (fromComplexList [segQ, hollowQ] 2 >>= noRingsQ.forwardNoRings ℚ SparseLevel.forward) =
      (fromComplexList [segQ, houseQ] 2 >>= noRingsQ.forwardNoRings ℚ SparseLevel.forward) ∧
    (fromComplexList [segQ, hollowQ] 2 >>= ginQ.forward) = (fromComplexList [segQ, houseQ] 2 >>= ginQ.forward) ∧
    ((fromComplexList [segQ, houseQ] 2 >>= ginQ.forward).toOption.map List.length) = some 2 := by
  refine ⟨?_, ?_, ?_, ?_⟩ <;> decide +kernel

/-- The full network does see the triangle. -/
example : (fromComplexList [segQ, hollowQ] 2 >>= noRingsQ.forward ℚ SparseLevel.forward) ≠
    (fromComplexList [segQ, houseQ] 2 >>= noRingsQ.forward ℚ SparseLevel.forward) := by decide +kernel

/-- The triangle of the house is bounded by the cycle through the vertices 2, 3, 4. -/
example : IsCycle [(0, 0), (1, 0), (1, 1), (2, 1), (2, 2), (3, 2), (0, 3), (3, 3), (3, 4), (4, 4),
    (2, 5), (4, 5)] [(2, 0), (4, 0), (5, 0)] 0 [2, 3, 4] := by
  refine ⟨[2, 4, 5], List.Perm.refl _, ?_⟩
  have h : [2, 3, 4].zip ([2, 3, 4].rotate 1) = [(2, 3), (3, 4), (4, 2)] := rfl
  rw [h]
  unfold HasEnds
  refine .cons ?_ (.cons ?_ (.cons ?_ .nil)) <;> decide

example : initQ.forward (R := ℚ)
    [{ x := some [1, 2, 3, 4, 5] }, { x := none, boundaryIndex := some [(0, 0), (1, 0), (1, 1), (2, 1),
      (2, 2), (3, 2), (0, 3), (3, 3), (3, 4), (4, 4), (2, 5), (4, 5)] },
     { x := none, boundaryIndex := some [(2, 0), (4, 0), (5, 0)] }] =
    .ok [[2, 3, 4, 5, 6], [5, 7, 9, 7, 11, 10], [15]] := by decide +kernel

end Examples

end Verif
