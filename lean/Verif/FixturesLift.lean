import Verif.Lemmas.GraphIso
import Mathlib.Data.List.Sublists

/-!
# A gudhi that meets its contract, used by the examples beside the theorems
-/

namespace Verif.Fixtures

open Verif

/-- The increasing lists of vertices up to the largest inserted one. -/
def candidates (ins : List (List Nat)) : List (List Nat) :=
  (List.range ((ins.flatten.max?).getD 0 + 1)).sublists'

/-- A tree with the given simplices. -/
def treeOf (simplices : List (List Nat)) : SimplexTree where
  simplices := simplices
  cofaces := fun s => simplices.filter fun c => decide (IsFacet s c)

/-- Some vertex list of `ins` has all vertices of `s`. -/
def within (ins : List (List Nat)) (s : List Nat) : Bool := ins.any fun t => s.all fun v => t.contains v

/-- Any two vertices of `s` are together in a list of `ins`. -/
def pairwiseIn (ins : List (List Nat)) (s : List Nat) : Bool :=
  s.all fun u => s.all fun v => ins.any fun t => t.contains u && t.contains v

/-- A straightforward simplex tree library. -/
def plainGudhi : Gudhi where
  inserted := fun ins => treeOf ((candidates ins).filter fun s => !s.isEmpty && within ins s)
  expanded := fun ins k => treeOf ((candidates ins).filter fun s => !s.isEmpty &&
    (within ins s || (decide (s.length ≤ k + 1) && pairwiseIn ins s)))

theorem mem_candidates {ins : List (List Nat)} {s : List Nat}
    (h : ∀ v ∈ s, ∃ t ∈ ins, v ∈ t) : s ∈ candidates ins ↔ s.Pairwise (· < ·) := by
  unfold candidates
  rw [List.mem_sublists']
  constructor
  · intro hs
    exact (List.pairwise_lt_range).sublist hs
  · intro hs
    refine List.sublist_of_subperm_of_pairwise (r := (· ≤ ·)) ?_ (sortedLE_of_simplex hs)
      (sortedLE_of_simplex List.pairwise_lt_range)
    refine (nodup_of_simplex hs).subperm fun v hv => ?_
    obtain ⟨t, ht, hvt⟩ := h v hv
    have hvf : v ∈ ins.flatten := List.mem_flatten.mpr ⟨t, ht, hvt⟩
    cases hm : ins.flatten.max? with
    | none => rw [List.max?_eq_none_iff.mp hm] at hvf; simp at hvf
    | some m =>
      have := (List.max?_eq_some_iff.mp hm).2 v hvf
      simp only [Option.getD_some, List.mem_range]
      omega

theorem within_iff {ins : List (List Nat)} {s : List Nat} : within ins s = true ↔ ∃ t ∈ ins, s ⊆ t := by
  simp [within, List.subset_def]

theorem pairwiseIn_iff {ins : List (List Nat)} {s : List Nat} :
    pairwiseIn ins s = true ↔ ∀ u ∈ s, ∀ v ∈ s, ∃ t ∈ ins, u ∈ t ∧ v ∈ t := by
  simp [pairwiseIn]

theorem sorted_of_candidate {ins : List (List Nat)} {s : List Nat} (h : s ∈ candidates ins) :
    s.Pairwise (· < ·) :=
  (List.pairwise_lt_range).sublist (List.mem_sublists'.mp h)

theorem nodup_candidates (ins : List (List Nat)) : (candidates ins).Nodup :=
  List.nodup_sublists'.mpr List.nodup_range

theorem mem_treeOf_cofaces {l : List (List Nat)} {s c : List Nat} :
    c ∈ (treeOf l).cofaces s ↔ c ∈ (treeOf l).simplices ∧ IsFacet s c := by
  simp [treeOf]

/-- The contract of gudhi can be met. -/
theorem plainGudhi_ok : plainGudhi.Ok where
  nodup := fun ins => (nodup_candidates ins).filter _
  mem := fun ins s => by
    simp only [plainGudhi, treeOf, List.mem_filter, Bool.and_eq_true, within_iff]
    constructor
    · rintro ⟨h1, h2, h3⟩
      exact ⟨⟨by simpa using h2, sorted_of_candidate h1⟩, h3⟩
    · rintro ⟨⟨h1, h2⟩, t, ht, hst⟩
      exact ⟨(mem_candidates fun v hv => ⟨t, ht, hst hv⟩).mpr h2, by simpa using h1, t, ht, hst⟩
  cofacesNodup := fun ins s _ => ((nodup_candidates ins).filter _).filter _
  cofaces := fun ins s _ c => mem_treeOf_cofaces
  nodup' := fun ins k => (nodup_candidates ins).filter _
  mem' := fun ins k s => by
    simp only [plainGudhi, treeOf, List.mem_filter, Bool.and_eq_true, Bool.or_eq_true, within_iff,
      pairwiseIn_iff, decide_eq_true_eq]
    constructor
    · rintro ⟨h1, h2, h3⟩
      exact ⟨⟨by simpa using h2, sorted_of_candidate h1⟩, h3⟩
    · rintro ⟨⟨h1, h2⟩, h3⟩
      refine ⟨(mem_candidates fun v hv => ?_).mpr h2, by simpa using h1, h3⟩
      rcases h3 with ⟨t, ht, hst⟩ | ⟨-, h⟩
      · exact ⟨t, ht, hst hv⟩
      · obtain ⟨t, ht, h', -⟩ := h v hv v hv
        exact ⟨t, ht, h'⟩
  cofacesNodup' := fun ins k s _ => ((nodup_candidates ins).filter _).filter _
  cofaces' := fun ins k s _ c => mem_treeOf_cofaces

/-- A triangle with a pendant edge and an isolated vertex; one edge is given in both directions, one
twice. -/
def kite : List (Nat × Nat) := [(0, 1), (1, 0), (1, 2), (2, 0), (2, 0), (3, 2)]

theorem kite_in : EdgesIn kite 5 := by unfold EdgesIn kite; decide

/-- The clique complex of the kite. -/
def kiteTree : SimplexTree := plainGudhi.expanded (insertions kite 5) 2

theorem kiteTree_holds : kiteTree.Holds 5 := holds_expanded plainGudhi_ok kite_in 2

end Verif.Fixtures
