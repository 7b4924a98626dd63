import Verif.Spec.SRDims
import Mathlib.Algebra.BigOperators.Ring.Finset
import Mathlib.Algebra.Order.Chebyshev
import Mathlib.Tactic.Linarith
import Mathlib.Tactic.Ring

/-!
# Counting the edges between a clique and the other nodes
-/

namespace Verif

section
variable {edges : List (Nat × Nat)} {size : Nat}

/-- How many nodes of `s` a node is joined to. -/
def edgesInto (edges : List (Nat × Nat)) (s : Finset Nat) (x : Nat) : ℤ :=
  ∑ u ∈ s, if Joined edges u x then 1 else 0

theorem edgesInto_inside {s : Finset Nat} (h : CliqueIn edges size s) {x : Nat} (hx : x ∈ s) :
    edgesInto edges s x = (s.card : ℤ) - 1 := by
  have e : ∀ u ∈ s, (if Joined edges u x then (1 : ℤ) else 0) = 1 - if u = x then 1 else 0 := by
    intro u hu
    by_cases hux : u = x
    · have : ¬ Joined edges x x := fun hj => hj.1 rfl
      simp [this, hux]
    · simp [h.2 u hu x hx hux, hux]
  unfold edgesInto
  rw [Finset.sum_congr rfl e, Finset.sum_sub_distrib, Finset.sum_const, Finset.sum_ite_eq']
  simp [hx]

theorem sum_edgesInto {k l m : Nat} (hr : StronglyRegular edges size k l m) {s : Finset Nat}
    (h : CliqueIn edges size s) : ∑ x ∈ Finset.range size, edgesInto edges s x = s.card * k := by
  unfold edgesInto
  rw [Finset.sum_comm]
  have e : ∀ u ∈ s, (∑ x ∈ Finset.range size, if Joined edges u x then (1 : ℤ) else 0) = k := by
    intro u hu
    rw [← hr.degree u (Finset.mem_range.mp (h.1 hu)), Finset.sum_boole]
    congr 2
    unfold commonNeighbours
    ext x
    simp
  rw [Finset.sum_congr rfl e]
  simp

theorem sum_edgesInto_sq {k l m : Nat} (hr : StronglyRegular edges size k l m) {s : Finset Nat}
    (h : CliqueIn edges size s) :
    ∑ x ∈ Finset.range size, edgesInto edges s x ^ 2 = s.card * k + s.card * (s.card - 1) * l := by
  have e0 : ∀ x, edgesInto edges s x ^ 2 =
      ∑ u ∈ s, ∑ v ∈ s, if Joined edges u x ∧ Joined edges v x then (1 : ℤ) else 0 := by
    intro x
    unfold edgesInto
    rw [sq, Finset.sum_mul_sum]
    refine Finset.sum_congr rfl fun u _ => Finset.sum_congr rfl fun v _ => ?_
    by_cases h1 : Joined edges u x <;> by_cases h2 : Joined edges v x <;> simp [h1, h2]
  have e1 : ∀ u ∈ s, ∀ v ∈ s, (∑ x ∈ Finset.range size, if Joined edges u x ∧ Joined edges v x then (1 : ℤ) else 0) =
      l + if v = u then (k : ℤ) - l else 0 := by
    intro u hu v hv
    have hu' := Finset.mem_range.mp (h.1 hu)
    have hv' := Finset.mem_range.mp (h.1 hv)
    rw [Finset.sum_boole]
    by_cases hvu : v = u
    · subst hvu
      rw [if_pos rfl, ← hr.degree v hv']
      have : (Finset.range size).filter (fun x => Joined edges v x ∧ Joined edges v x) = commonNeighbours edges size {v} := by
        unfold commonNeighbours
        ext x
        simp
      rw [this]
      ring
    · rw [if_neg hvu, ← hr.joined u hu' v hv' (h.2 u hu v hv (Ne.symm hvu))]
      have : (Finset.range size).filter (fun x => Joined edges u x ∧ Joined edges v x) = commonNeighbours edges size {u, v} := by
        unfold commonNeighbours
        ext x
        simp
      rw [this]
      ring
  rw [Finset.sum_congr rfl fun x _ => e0 x, Finset.sum_comm]
  have e2 : ∀ u ∈ s, (∑ x ∈ Finset.range size, ∑ v ∈ s, if Joined edges u x ∧ Joined edges v x then (1 : ℤ) else 0) =
      s.card * l + (k - l) := by
    intro u hu
    rw [Finset.sum_comm, Finset.sum_congr rfl fun v hv => e1 u hu v hv, Finset.sum_add_distrib, Finset.sum_ite_eq']
    simp [hu]
  rw [Finset.sum_congr rfl e2, Finset.sum_const, nsmul_eq_mul]
  ring

theorem cliqueSets_full {d : Nat} (hd : 1 ≤ d) (hall : ∀ s, CliqueIn edges size s → s.card ≤ d + 1) {k mB : Nat} (hk : d ≤ k)
    (hm : d ≤ mB) : (cliqueSets edges size k).upTo mB = cliqueSets edges size d := by
  funext e
  unfold Cells.upTo cliqueSets
  by_cases he : e ≤ d
  · simp only [if_pos (he.trans hm), if_pos (show e ≤ max k 1 by omega), if_pos (show e ≤ max d 1 by omega)]
  · have hempty : ∀ s, s ∈ ((Finset.range size).powersetCard (e + 1)) → ¬ ∀ u ∈ s, ∀ v ∈ s, u ≠ v → Joined edges u v := by
      intro s hs h
      obtain ⟨h1, h2⟩ := Finset.mem_powersetCard.mp hs
      have := hall s ⟨h1, h⟩
      omega
    simp only [if_neg (show ¬ e ≤ max d 1 by omega)]
    split_ifs with h1 h2
    · exact Finset.filter_eq_empty_iff.mpr fun s hs => hempty s hs
    · rfl
    · rfl

end

end Verif
