import Verif.Lemmas.SRDims
import Verif.Props.Regular
import Verif.Props.SRPlot

/-!
# C100: the dimensions of the experiments on strongly regular graphs
-/

namespace Verif

section
variable {edges : List (Nat × Nat)}

/-- **C100** The number of nodes of a clique in a strongly regular graph is bounded by counting. -/
theorem C100_cliques_fit {p : SRParams} (hr : StronglyRegular edges p.nodes p.degree p.joined p.apart) (s : Finset Nat)
    (h : CliqueIn edges p.nodes s) (hne : s.Nonempty) : CliqueFits p s.card := by
  have hc : (s.card : ℤ) ≤ p.nodes := by
    have := Finset.card_le_card h.1
    rw [Finset.card_range] at this
    exact_mod_cast this
  set O := Finset.range p.nodes \ s with hO
  have hcard : (O.card : ℤ) = p.nodes - s.card := by
    rw [hO, Finset.card_sdiff_of_subset h.1, Finset.card_range]
    have := Finset.card_le_card h.1
    rw [Finset.card_range] at this
    omega
  have split : ∀ f : Nat → ℤ, ∑ x ∈ O, f x = ∑ x ∈ Finset.range p.nodes, f x - ∑ x ∈ s, f x := fun f => by
    rw [hO, ← Finset.sum_sdiff h.1]
    ring
  have s1 : ∑ x ∈ O, edgesInto edges s x = s.card * (p.degree - s.card + 1) := by
    rw [split, sum_edgesInto hr h, Finset.sum_congr rfl fun x hx => edgesInto_inside h hx]
    simp
    ring
  have s2 : ∑ x ∈ O, edgesInto edges s x ^ 2 = s.card * (p.degree + (s.card - 1) * (p.joined - s.card + 1)) := by
    rw [split, sum_edgesInto_sq hr h, Finset.sum_congr rfl fun x hx => by rw [edgesInto_inside h hx]]
    simp
    ring
  have key := sq_sum_le_card_mul_sum_sq (s := O) (f := edgesInto edges s)
  rw [s1, s2, hcard] at key
  unfold CliqueFits
  have hp : (0 : ℤ) < s.card := by exact_mod_cast hne.card_pos
  nlinarith

theorem srDims_fit : ∀ f < 9, ∀ p d, srParams[f]? = some p → srMaxDims[f]? = some d →
    CliqueFits p (d + 1) ∧ ¬ CliqueFits p (d + 2) := by
  intro f hf
  have key : ∀ q ∈ srParams.zip srMaxDims, CliqueFits q.1 (q.2 + 1) ∧ ¬ CliqueFits q.1 (q.2 + 2) := by decide
  intro p d h1 h2
  exact key (p, d) (List.mem_of_getElem? (i := f) (by rw [List.getElem?_zip_eq_some]; exact ⟨h1, h2⟩))

/-- **C100** The dimensions of the script are those of the counting bound: in every graph with the parameters of a
family, whatever the graph is, no clique has more nodes than a cell of the largest dimension; and counting does not
allow a smaller dimension. -/
theorem C100_no_clique_is_cut_off (f : Nat) (p : SRParams) (d : Nat) (hp : srParams[f]? = some p)
    (hd : srMaxDims[f]? = some d) :
    CliqueFits p (d + 1) ∧
    ∀ edges, StronglyRegular edges p.nodes p.degree p.joined p.apart → ∀ s, CliqueIn edges p.nodes s → s.card ≤ d + 1 := by
  have hf : f < 9 := (List.getElem?_eq_some_iff.mp hd).1
  obtain ⟨h1, h2⟩ := srDims_fit f hf p d hp hd
  refine ⟨h1, fun edges hr s hs => ?_⟩
  by_contra hlt
  obtain ⟨t, ht, hcard⟩ := Finset.exists_subset_card_eq (s := s) (n := d + 2) (by omega)
  refine h2 (hcard ▸ C100_cliques_fit hr t ⟨ht.trans hs.1, fun u hu v hv => hs.2 u (ht hu) v (ht hv)⟩ ?_)
  rw [← Finset.card_pos]
  omega

/-- **C100** The names of the parameters. -/
theorem C100_names : srParams.map SRParams.name = plotNames ∧ srParams.length = srMaxDims.length := by
  constructor
  · decide +kernel
  · rfl

end

section
variable {𝕜 R L : Type} [Field 𝕜] [AddCommGroup R] [Module 𝕜 R]

/-- **C100** So the runs lose nothing: with the dimension that the script sets for a family, SparseCIN, CIN++ and CIN
predict the same for all graphs with the parameters of the family as with any larger dimension for lifting and for
batches. -/
theorem C100_higher_dimensions_change_nothing (g : Gudhi) (hg : g.Ok) (agg : List R → R)
    (hagg : ∀ l l' : List R, l.Perm l' → agg l = agg l') (down : Bool)
    (sparse : SparseNet R (SparseLevel 𝕜 R)) (hs : sparse.Fits)
    (pp : SparseNet R (PPLevel 𝕜 R)) (hp : pp.Fits) (cin : CINNet R (CINLevel 𝕜 R)) (hc : cin.Fits)
    (family seed : Nat) (r : SRRun) (hrun : srRun none none family seed = .ok r) (p : SRParams)
    (hparams : srParams[family]? = some p) (Gs : List (FGraph R L)) (hne : Gs ≠ [])
    (hG : ∀ G ∈ Gs, G.Ok ∧ G.size = p.nodes ∧ StronglyRegular G.edges p.nodes p.degree p.joined p.apart)
    (k mB : Nat) (hk : r.maxDim ≤ k) (hm : r.maxDim ≤ mB) :
    ∃ cs ds ps qs rs, mapE (FGraph.lift g agg r.maxDim down) Gs = .ok cs ∧ mapE (FGraph.lift g agg k down) Gs = .ok ds ∧
      (fromComplexList cs r.maxDim >>= sparse.forward 𝕜 SparseLevel.forward) = .ok ps ∧
      (fromComplexList ds mB >>= sparse.forward 𝕜 SparseLevel.forward) = .ok ps ∧
      (fromComplexList cs r.maxDim >>= pp.forward 𝕜 PPLevel.forward) = .ok qs ∧
      (fromComplexList ds mB >>= pp.forward 𝕜 PPLevel.forward) = .ok qs ∧
      (fromComplexList cs r.maxDim >>= cin.forward 𝕜 CINLevel.forward) = .ok rs ∧
      (fromComplexList ds mB >>= cin.forward 𝕜 CINLevel.forward) = .ok rs := by
  have hdim : srMaxDims[family]? = some r.maxDim := by
    obtain ⟨d, h1, h2⟩ := bind_eq_ok.mp hrun
    cases h2
    exact getAt_eq_ok.mp h1
  have h1 : 1 ≤ r.maxDim := by
    have key : ∀ d ∈ srMaxDims, 1 ≤ d := by decide
    exact key _ (List.mem_of_getElem? hdim)
  obtain ⟨cs, e1, e2, e3, e4⟩ := C85_clique_predictions g hg agg hagg r.maxDim down sparse hs pp hp cin hc Gs hne
    (fun G h => (hG G h).1) r.maxDim
  obtain ⟨ds, f1, f2, f3, f4⟩ := C85_clique_predictions g hg agg hagg k down sparse hs pp hp cin hc Gs hne
    (fun G h => (hG G h).1) mB
  have same : ∀ G ∈ Gs, (cliqueSets G.edges G.size k).upTo mB = (cliqueSets G.edges G.size r.maxDim).upTo r.maxDim := by
    intro G h
    obtain ⟨-, h2, h3⟩ := hG G h
    have hall := (C100_no_clique_is_cut_off family p r.maxDim hparams hdim).2 _ h3
    rw [h2, cliqueSets_full h1 hall hk hm, cliqueSets_full h1 hall (Nat.le_refl _) (Nat.le_refl _)]
  refine ⟨cs, ds, _, _, _, e1, f1, e2, ?_, e3, ?_, e4, ?_⟩
  · rw [f2]
    exact congrArg Except.ok (List.map_congr_left fun G h => by rw [same G h])
  · rw [f3]
    exact congrArg Except.ok (List.map_congr_left fun G h => by rw [same G h])
  · rw [f4]
    exact congrArg Except.ok (List.map_congr_left fun G h => by rw [same G h])

end

namespace Fixtures

/-- Nodes are given by sets (as bits), and joined if their sets meet (or, with `apart`, if they do not). -/
def meetAdj (apart : Bool) (sets : List Nat) (u v : Nat) : Bool :=
  u != v && ((sets.getD u 0 &&& sets.getD v 0 != 0) != apart)

/-- The squares of a board of four by four: row and column. -/
def boardSets : List Nat :=
  [17, 33, 65, 129, 18, 34, 66, 130, 20, 36, 68, 132, 24, 40, 72, 136]

/-- The entries of a Latin square of order five: row, column and symbol. -/
def latinSets : List Nat :=
  [1057, 2113, 4225, 8449, 16897, 2082, 4162, 8322, 16642, 1538, 4132, 8260, 16516, 1284, 2564, 8232, 16456,
   1160, 2312, 4616, 16432, 1104, 2192, 4368, 8720]

/-- The pairs of eight points. -/
def pairSets : List Nat :=
  [3, 5, 6, 9, 10, 12, 17, 18, 20, 24, 33, 34, 36, 40, 48, 65, 66, 68, 72, 80, 96, 129, 130, 132, 136, 144,
   160, 192]

/-- The lines of the projective space of dimension three over the field with two elements. -/
def lineSets : List Nat :=
  [7, 25, 97, 385, 1537, 6145, 24577, 42, 82, 642, 1282, 10242, 20482, 76, 52, 1156, 772, 18436, 12292, 2184,
   4360, 8712, 17416, 4240, 2320, 16912, 9232, 8352, 16672, 2592, 5152, 16576, 8512, 4672, 3136]

/-- The points of the symplectic quadrangle over the field with three elements: the four lines through each. -/
def quadSets : List Nat :=
  [15, 240, 3840, 61440, 4369, 458753, 3670017, 29360144, 234881280, 1879052288, 15032385552, 120259088384,
   962072674560, 8738, 306184194, 156766306306, 275415302176, 34369176064, 4364181504, 68853760032,
   549772730368, 9663939072, 17476, 1224736772, 313532612612, 550025297984, 68725769216, 8624029696,
   17247240256, 137447424000, 2684486656, 34952, 612368392, 627065225224, 138514792576, 17197172736,
   2282782720, 34393424000, 274882396160, 4563470336]

theorem meets_regular {p : SRParams} {apart : Bool} {sets : List Nat} (s : Finset Nat) (c : Nat)
    (h0 : (List.range p.nodes).all (fun u => !meetAdj apart sets u u) = true)
    (h1 : (List.range p.nodes).all (fun v => ((List.range p.nodes).filter fun w => meetAdj apart sets v w).length == p.degree) = true)
    (h2 : (List.range p.nodes).all (fun u => (List.range p.nodes).all fun v => u == v ||
      ((List.range p.nodes).filter fun w => meetAdj apart sets u w && meetAdj apart sets v w).length ==
        (if meetAdj apart sets u v then p.joined else p.apart)) = true)
    (h3 : ∀ u ∈ s, ∀ v ∈ s, u ≠ v → u < p.nodes ∧ v < p.nodes ∧ meetAdj apart sets u v = true)
    (h4 : ∀ u ∈ s, u < p.nodes) (h5 : s.card = c) :
    ∃ edges s, StronglyRegular edges p.nodes p.degree p.joined p.apart ∧ CliqueIn edges p.nodes s ∧ s.card = c := by
  simp only [List.all_eq_true, List.mem_range, Bool.not_eq_true', beq_iff_eq, Bool.or_eq_true] at h0 h1 h2
  have hok : AdjOk p.nodes (meetAdj apart sets) := by
    refine ⟨h0, fun u _ v _ => ?_⟩
    unfold meetAdj
    rw [bne_comm, Nat.and_comm]
  refine ⟨adjEdges p.nodes (meetAdj apart sets), s, adj_regular hok h1 ?_ ?_, ⟨?_, ?_⟩, h5⟩
  · intro u hu v hv hj
    rcases h2 u hu v hv with rfl | h
    · rw [h0 u hu] at hj
      cases hj
    · rwa [if_pos hj] at h
  · intro u hu v hv hne hj
    rcases h2 u hu v hv with rfl | h
    · exact absurd rfl hne
    · rwa [if_neg (by simp [hj])] at h
  · intro u hu
    exact Finset.mem_range.mpr (h4 u hu)
  · exact fun u hu v hv hne => (joined_adj hok).mpr (h3 u hu v hv hne)

end Fixtures

open Fixtures in
/-- **C100** For six of the nine families no smaller dimension would do: there is a graph with the parameters of the
family that has a clique with as many nodes as a cell of the largest dimension. -/
theorem C100_dimensions_are_needed (f : Nat) (hf : f ∈ [0, 1, 3, 5, 6, 8]) (p : SRParams) (d : Nat)
    (hp : srParams[f]? = some p) (hd : srMaxDims[f]? = some d) :
    ∃ edges s, StronglyRegular edges p.nodes p.degree p.joined p.apart ∧ CliqueIn edges p.nodes s ∧ s.card = d + 1 := by
  simp only [List.mem_cons, List.not_mem_nil, or_false] at hf
  rcases hf with rfl | rfl | rfl | rfl | rfl | rfl <;> cases hp <;> cases hd
  · exact meets_regular (apart := false) (sets := boardSets) {0, 1, 2, 3} _ (by decide +kernel) (by decide +kernel)
      (by decide +kernel) (by decide +kernel) (by decide) rfl
  · exact meets_regular (apart := false) (sets := latinSets) {0, 1, 2, 3, 4} _ (by decide +kernel) (by decide +kernel)
      (by decide +kernel) (by decide +kernel) (by decide) rfl
  · exact meets_regular (apart := false) (sets := pairSets) {0, 1, 3, 6, 10, 15, 21} _ (by decide +kernel)
      (by decide +kernel) (by decide +kernel) (by decide +kernel) (by decide) rfl
  · exact meets_regular (apart := true) (sets := lineSets) {0, 19, 25, 30, 32} _ (by decide +kernel)
      (by decide +kernel) (by decide +kernel) (by decide +kernel) (by decide) rfl
  · exact meets_regular (apart := false) (sets := lineSets) {0, 1, 2, 3, 4, 5, 6} _ (by decide +kernel)
      (by decide +kernel) (by decide +kernel) (by decide +kernel) (by decide) rfl
  · exact meets_regular (apart := false) (sets := quadSets) {0, 4, 5, 6} _ (by decide +kernel) (by decide +kernel)
      (by decide +kernel) (by decide +kernel) (by decide) rfl

/-! ### Examples -/

section Examples
open Fixtures

/-- Both graphs of the first family, lifted to cliques of up to four nodes and of up to ten nodes. -/
example := C100_higher_dimensions_change_nothing (L := Nat) plainGudhi plainGudhi_ok List.sum (fun _ _ h => h.sum_eq)
  true sparseNetQ sparseNetQ_fits ppNetQ ppNetQ_fits cinNetQ cinNetQ_fits 0 7 ⟨0, 7, 3, [0, 1, 2, 3]⟩ rfl
  ⟨16, 6, 2, 2⟩ rfl [rookG.bare, shrikG.bare] (by simp)
  (by simpa using ⟨⟨(bare_usual rookG_ok).1, rfl, rookG_regular⟩, (bare_usual shrikG_ok).1, rfl, shrikG_regular⟩)
  9 9 (by decide) (by decide)

/-- Four nodes of the first graph that are joined. -/
example : CliqueFits ⟨16, 6, 2, 2⟩ 4 := by
  obtain ⟨edges, s, h1, h2, h3⟩ := C100_dimensions_are_needed 0 (by simp) ⟨16, 6, 2, 2⟩ 3 rfl rfl
  have := C100_cliques_fit h1 s h2 (Finset.card_pos.mp (by omega))
  rwa [h3] at this

example : ∀ edges, StronglyRegular edges 28 12 6 4 → ∀ s, CliqueIn edges 28 s → s.card ≤ 7 :=
  (C100_no_clique_is_cut_off 3 ⟨28, 12, 6, 4⟩ 6 rfl rfl).2

end Examples

end Verif
