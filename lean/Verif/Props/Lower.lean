import Verif.Lemmas.Lower
import Verif.Props.GraphNets

/-!
# C103: what lower neighbours add
-/

namespace Verif

section
variable {𝕜 R L : Type} [Field 𝕜] [AddCommGroup R] [Module 𝕜 R]

/-- **C103** For lifted graphs (clique complexes, lower adjacencies included): what colour refinement with
lower neighbours sees in `n` rounds, it sees in `2 * n` rounds without them. -/
theorem C103_cliques_without_lower_neighbours (g g' : Gudhi) (hg : g.Ok) (hg' : g'.Ok) (agg : List R → R)
    (hagg : ∀ l l' : List R, l.Perm l' → agg l = agg l') (k n : Nat) (G H : FGraph R L) (hG : G.Ok) (hH : H.Ok) :
    ∃ c d, G.lift g agg k true = .ok c ∧ H.lift g' agg k true = .ok d ∧
      (SameColours false c.view d.view (2 * n) → SameColours true c.view d.view n) ∧
      (SameColours true c.view d.view n → SameColours false c.view d.view n) := by
  obtain ⟨c, e, -, -, f, s, -⟩ := clique_fromFaces hg hagg k hG
  obtain ⟨d, e', -, -, f', s', -⟩ := clique_fromFaces hg' hagg k hH
  exact ⟨c, d, e, e', fun h => h.raise_cliques f f' s s', fun h => h.drop⟩

/-- **C103** The same for complexes with rings, with one more round: it shows how long the rings are. -/
theorem C103_rings_without_lower_neighbours [DecidableEq R] (g g' : Gudhi) (hg : g.Ok) (hg' : g'.Ok)
    (lib lib' : RingLib) (hl : lib.Ok) (hl' : lib'.Ok) (agg : List R → R)
    (hagg : ∀ l l' : List R, l.Perm l' → agg l = agg l') (maxK n : Nat) (G H : RGraph R L) (hG : G.Ok) (hH : H.Ok) :
    ∃ c d, G.lift g lib agg maxK true true true = .ok c ∧ H.lift g' lib' agg maxK true true true = .ok d ∧
      (SameColours false c.view d.view (2 * n + 1) → SameColours true c.view d.view n) ∧
      (SameColours true c.view d.view n → SameColours false c.view d.view n) := by
  obtain ⟨c, e, -, -, f, -⟩ := ring_fromFaces hg hl hagg maxK hG
  obtain ⟨d, e', -, -, f', -⟩ := ring_fromFaces hg' hl' hagg maxK hH
  exact ⟨c, d, e, e', fun h => h.raise f f', fun h => h.drop⟩

/-- **C103** CIN networks, which also pass messages between lower neighbours: batches of clique complexes of
graphs that refinement without lower neighbours does not tell apart in `2 * n` rounds get the same
predictions from every CIN of at most `n` layers. -/
theorem C103_cin_on_cliques (g g' : Gudhi) (hg : g.Ok) (hg' : g'.Ok) (agg : List R → R)
    (hagg : ∀ l l' : List R, l.Perm l' → agg l = agg l') (k n : Nat) (Gs Hs : List (FGraph R L)) (hne : Gs ≠ [])
    (hG : ∀ G ∈ Gs, G.Ok) (hH : ∀ H ∈ Hs, H.Ok) :
    ∃ cs ds, mapE (FGraph.lift g agg k true) Gs = .ok cs ∧ mapE (FGraph.lift g' agg k true) Hs = .ok ds ∧
      (AlikeBatch false (2 * n) cs ds → ∀ cin : CINNet R (CINLevel 𝕜 R), cin.Fits → cin.convs.length ≤ n → ∀ mB,
        ∃ preds, (fromComplexList cs mB >>= cin.forward 𝕜 CINLevel.forward) = .ok preds ∧
          (fromComplexList ds mB >>= cin.forward 𝕜 CINLevel.forward) = .ok preds) := by
  obtain ⟨cs, h1, h2⟩ := mapE_forall₂ (f := FGraph.lift g agg k true) (P := fun _ comp => comp.Ready ∧
      0 < comp.cellsIn 0 ∧ comp.view.FromFaces ∧
      (∀ d p, p < (comp.view.X (d + 1)).length → (comp.view.facesAt (d + 1) p).length = d + 2)) (l := Gs)
    (fun G h => by
      obtain ⟨c, e, r, z, f, s, -⟩ := clique_fromFaces hg hagg k (hG G h)
      exact ⟨c, e, r, z, f, s⟩)
  obtain ⟨ds, h3, h4⟩ := mapE_forall₂ (f := FGraph.lift g' agg k true) (P := fun _ comp => comp.Ready ∧
      0 < comp.cellsIn 0 ∧ comp.view.FromFaces ∧
      (∀ d p, p < (comp.view.X (d + 1)).length → (comp.view.facesAt (d + 1) p).length = d + 2)) (l := Hs)
    (fun G h => by
      obtain ⟨c, e, r, z, f, s, -⟩ := clique_fromFaces hg' hagg k (hH G h)
      exact ⟨c, e, r, z, f, s⟩)
  have a1 := fun c (hc : c ∈ cs) => (forall₂_source h2 hc).choose_spec.2
  have a2 := fun c (hc : c ∈ ds) => (forall₂_source h4 hc).choose_spec.2
  refine ⟨cs, ds, h1, h3, fun h cin hc hcn mB => ?_⟩
  refine C65_cin_same_colours_same_prediction cin hc n hcn cs ds ?_ ?_ (fun c hc => (a1 c hc).1)
    (fun c hc => (a2 c hc).1) (fun c hc => (a1 c hc).2.1) mB
  · rintro rfl
    cases h2
    exact hne rfl
  · refine forall₂_mono_mem h fun c hc d hd hcd => ?_
    exact hcd.raise_cliques (a1 c hc).2.2.1 (a2 d hd).2.2.1 (a1 c hc).2.2.2 (a2 d hd).2.2.2

/-- **C103** The same for complexes with rings, for `2 * n + 1` rounds. -/
theorem C103_cin_on_rings [DecidableEq R] (g g' : Gudhi) (hg : g.Ok) (hg' : g'.Ok)
    (lib lib' : RingLib) (hl : lib.Ok) (hl' : lib'.Ok) (agg : List R → R)
    (hagg : ∀ l l' : List R, l.Perm l' → agg l = agg l') (maxK n : Nat) (Gs Hs : List (RGraph R L)) (hne : Gs ≠ [])
    (hG : ∀ G ∈ Gs, G.Ok) (hH : ∀ H ∈ Hs, H.Ok) :
    ∃ cs ds, mapE (RGraph.lift g lib agg maxK true true true) Gs = .ok cs ∧
      mapE (RGraph.lift g' lib' agg maxK true true true) Hs = .ok ds ∧
      (AlikeBatch false (2 * n + 1) cs ds → ∀ cin : CINNet R (CINLevel 𝕜 R), cin.Fits → cin.convs.length ≤ n →
        ∀ mB, ∃ preds, (fromComplexList cs mB >>= cin.forward 𝕜 CINLevel.forward) = .ok preds ∧
          (fromComplexList ds mB >>= cin.forward 𝕜 CINLevel.forward) = .ok preds) := by
  obtain ⟨cs, h1, h2⟩ := mapE_forall₂ (f := RGraph.lift g lib agg maxK true true true) (P := fun _ comp =>
      comp.Ready ∧ 0 < comp.cellsIn 0 ∧ comp.view.FromFaces) (l := Gs)
    (fun G h => by
      obtain ⟨c, e, r, z, f, -⟩ := ring_fromFaces hg hl hagg maxK (hG G h)
      exact ⟨c, e, r, z, f⟩)
  obtain ⟨ds, h3, h4⟩ := mapE_forall₂ (f := RGraph.lift g' lib' agg maxK true true true) (P := fun _ comp =>
      comp.Ready ∧ 0 < comp.cellsIn 0 ∧ comp.view.FromFaces) (l := Hs)
    (fun G h => by
      obtain ⟨c, e, r, z, f, -⟩ := ring_fromFaces hg' hl' hagg maxK (hH G h)
      exact ⟨c, e, r, z, f⟩)
  have a1 := fun c (hc : c ∈ cs) => (forall₂_source h2 hc).choose_spec.2
  have a2 := fun c (hc : c ∈ ds) => (forall₂_source h4 hc).choose_spec.2
  refine ⟨cs, ds, h1, h3, fun h cin hc hcn mB => ?_⟩
  refine C65_cin_same_colours_same_prediction cin hc n hcn cs ds ?_ ?_ (fun c hc => (a1 c hc).1)
    (fun c hc => (a2 c hc).1) (fun c hc => (a1 c hc).2.1) mB
  · rintro rfl
    cases h2
    exact hne rfl
  · refine forall₂_mono_mem h fun c hc d hd hcd => ?_
    exact hcd.raise (a1 c hc).2.2 (a2 d hd).2.2

/-- **C103** One SparseCIN, which has no lower messages, of `2 * n + 1` layers does for graphs with one-hot
features what all CINs of at most `n` layers do: whatever complexes it gives the same prediction, clique
complexes or complexes with rings, they give the same prediction too. -/
theorem C103_one_sparse_network_for_all_cin (n m : Nat) :
    ∃ net : SparseNet Vec (SparseLevel ℚ Vec), net.Fits ∧ net.convs.length = 2 * n + 1 ∧ net.maxDim = m ∧
      (∀ (g g' : Gudhi) (agg : List Vec → Vec), g.Ok → g'.Ok →
        (∀ l l' : List Vec, l.Perm l' → agg l = agg l') → ∀ (k : Nat) (G H : FGraph Vec L), G.Ok → H.Ok → max k 1 ≤ m →
        ∃ c d, G.lift g agg k true = .ok c ∧ H.lift g' agg k true = .ok d ∧ (c.OneHot → d.OneHot → ∀ mB, m ≤ mB →
          (fromComplexList [c] mB >>= net.forward ℚ SparseLevel.forward) =
            (fromComplexList [d] mB >>= net.forward ℚ SparseLevel.forward) →
          ∀ cin : CINNet Vec (CINLevel ℚ Vec), cin.Fits → cin.convs.length ≤ n →
            (fromComplexList [c] mB >>= cin.forward ℚ CINLevel.forward) =
              (fromComplexList [d] mB >>= cin.forward ℚ CINLevel.forward))) ∧
      (∀ (g g' : Gudhi) (lib lib' : RingLib) (agg : List Vec → Vec), g.Ok → g'.Ok → lib.Ok → lib'.Ok →
        (∀ l l' : List Vec, l.Perm l' → agg l = agg l') → ∀ (maxK : Nat) (G H : RGraph Vec L), G.Ok → H.Ok → 2 ≤ m →
        ∃ c d, G.lift g lib agg maxK true true true = .ok c ∧ H.lift g' lib' agg maxK true true true = .ok d ∧
          (c.OneHot → d.OneHot → ∀ mB, m ≤ mB →
          (fromComplexList [c] mB >>= net.forward ℚ SparseLevel.forward) =
            (fromComplexList [d] mB >>= net.forward ℚ SparseLevel.forward) →
          ∀ cin : CINNet Vec (CINLevel ℚ Vec), cin.Fits → cin.convs.length ≤ n →
            (fromComplexList [c] mB >>= cin.forward ℚ CINLevel.forward) =
              (fromComplexList [d] mB >>= cin.forward ℚ CINLevel.forward))) := by
  obtain ⟨net, h1, h2, h3, h4⟩ := C66_some_network_sees_the_colours (L := L) (2 * n + 1) m (by omega)
  have key : ∀ c d : Complex Vec L, c.Ready → d.Ready → 0 < c.cellsIn 0 → 0 < d.cellsIn 0 → c.view.FromFaces →
      d.view.FromFaces → (∀ j, m < j → c.cellsIn j = 0) → (∀ j, m < j → d.cellsIn j = 0) →
      c.OneHot → d.OneHot → ∀ mB, m ≤ mB →
          (fromComplexList [c] mB >>= net.forward ℚ SparseLevel.forward) =
            (fromComplexList [d] mB >>= net.forward ℚ SparseLevel.forward) →
          ∀ cin : CINNet Vec (CINLevel ℚ Vec), cin.Fits → cin.convs.length ≤ n →
            (fromComplexList [c] mB >>= cin.forward ℚ CINLevel.forward) =
              (fromComplexList [d] mB >>= cin.forward ℚ CINLevel.forward) := by
    intro c d rc rd zc zd fc fd mc md oc od mB hmB heq cin hcin hn
    obtain ⟨p, p', e, e', hiff⟩ := h4 c d rc rd oc od zc zd mc md mB hmB
    rw [e, e', ok_inj] at heq
    have hcol := (hiff.mp (by simpa using heq)).raise fc fd
    obtain ⟨preds, q1, q2⟩ := C65_cin_same_colours_same_prediction cin hcin n hn [c] [d] (by simp)
      (.cons hcol .nil) (by simpa using rc) (by simpa using rd) (by simpa using zc) mB
    rw [q1, q2]
  refine ⟨net, h1, h2, h3, ?_, ?_⟩
  · intro g g' agg hg hg' hagg k G H hG hH hk
    obtain ⟨c, e, r, z, f, -, s⟩ := clique_fromFaces hg hagg k hG
    obtain ⟨d, e', r', z', f', -, s'⟩ := clique_fromFaces hg' hagg k hH
    exact ⟨c, d, e, e', key c d r r' z z' f f' (fun j hj => s j (by omega)) (fun j hj => s' j (by omega))⟩
  · intro g g' lib lib' agg hg hg' hl hl' hagg maxK G H hG hH hk
    obtain ⟨c, e, r, z, f, s⟩ := ring_fromFaces hg hl hagg maxK hG
    obtain ⟨d, e', r', z', f', s'⟩ := ring_fromFaces hg' hl' hagg maxK hH
    exact ⟨c, d, e, e', key c d r r' z z' f f' (fun j hj => s j (by omega)) (fun j hj => s' j (by omega))⟩

end

namespace Spiders
open Fixtures

/-- A tree: legs of two, two and one edges on vertex 0. -/
def legs221 : FGraph ℚ Nat where
  size := 6
  x := List.replicate 6 1
  edges := [(0, 1), (1, 0), (1, 2), (2, 1), (0, 3), (3, 0), (3, 4), (4, 3), (0, 5), (5, 0)]
  y := none

/-- A tree: legs of one, one and three edges on vertex 0. -/
def legs113 : FGraph ℚ Nat where
  size := 6
  x := List.replicate 6 1
  edges := [(0, 1), (1, 0), (0, 2), (2, 0), (0, 3), (3, 0), (3, 4), (4, 3), (4, 5), (5, 4)]
  y := none

/-- The complex of a graph, lifted with the simplex tree of the fixtures. -/
def lifted (G : FGraph ℚ Nat) : Complex ℚ Nat :=
  match G.lift plainGudhi List.sum 2 true with
  | .ok c => c
  | .error _ => ⟨0, [], none, none⟩


/-- Counts lower neighbours and squares. -/
def netLevel : CINLevel ℚ ℚ where
  msgUpAlone _ := 0
  msgUp _ _ := 0
  msgDown _ _ := 1
  update x := x * x
  eps := -1

/-- A CIN of one layer: the sum of the squares of the numbers of lower neighbours. -/
def net : CINNet ℚ (CINLevel ℚ ℚ) where
  convs := [[netLevel, netLevel, netLevel]]
  act := id
  lin1 := id
  lin2 := id
theorem net_fits : net.Fits := ⟨by simp [net], by simp [net], .inl rfl⟩

end Spiders

namespace Spiders
open Fixtures

theorem legs221_ok : legs221.Ok := ⟨by decide, rfl, by unfold EdgesIn; decide, by simp [legs221]⟩
theorem legs113_ok : legs113.Ok := ⟨by decide, rfl, by unfold EdgesIn; decide, by simp [legs113]⟩

theorem sum_perm (l l' : List ℚ) (h : l.Perm l') : l.sum = l'.sum := h.sum_eq

theorem lifted_eq {G : FGraph ℚ Nat} (hG : G.Ok) : G.lift plainGudhi List.sum 2 true = .ok (lifted G) := by
  obtain ⟨c, e, -⟩ := clique_fromFaces plainGudhi_ok sum_perm 2 hG
  unfold lifted
  rw [e]

/-- The graphs lifted with any gudhi. -/
theorem lifted_any {g : Gudhi} (hg : g.Ok) {G : FGraph ℚ Nat} (hG : G.Ok) (lower : Bool) (n : Nat) :
    ∃ c, G.lift g List.sum 2 true = .ok c ∧ c.Ready ∧ 0 < c.cellsIn 0 ∧ (lifted G).Ready ∧
      SameColours lower c.view (lifted G).view n := by
  obtain ⟨c, c', e, e', r, r', z, φ, h⟩ := clique_relabels (L := Nat) hg plainGudhi_ok sum_perm (π := id) (x := G.x)
    (x' := G.x) (edges := G.edges) (edges' := G.edges)
    ⟨fun v h => h, fun u v _ _ h => h, fun u v _ _ => Iff.rfl, fun v _ => rfl⟩ hG.edges hG.edges hG.pos hG.rows hG.rows
    2 hG.labels hG.labels true
  have := lifted_eq hG
  change cliqueComplex _ _ _ _ _ _ _ _ = _ at this
  rw [e', ok_inj] at this
  subst this
  exact ⟨c, e, r, z, r', C65_renumbered_same_colours c _ r φ h lower n⟩

theorem alike : SameColours false (lifted legs221).view (lifted legs113).view 1 := by
  obtain ⟨-, -, -, -, rA, -⟩ := lifted_any plainGudhi_ok legs221_ok false 1
  obtain ⟨-, -, -, -, rB, -⟩ := lifted_any plainGudhi_ok legs113_ok false 1
  have hA := ready_inRange rA
  have hB := ready_inRange rB
  obtain ⟨c, eA, -, -, -, -, sA⟩ := clique_fromFaces plainGudhi_ok sum_perm 2 legs221_ok
  obtain ⟨d, eB, -, -, -, -, sB⟩ := clique_fromFaces plainGudhi_ok sum_perm 2 legs113_ok
  rw [lifted_eq legs221_ok, ok_inj] at eA
  rw [lifted_eq legs113_ok, ok_inj] at eB
  subst eA eB
  have nA : ∀ d, 2 ≤ d → (lifted legs221).view.X d = [] := by
    intro d hd
    rcases Nat.eq_or_lt_of_le hd with rfl | h
    · decide +kernel
    · rw [List.eq_nil_iff_length_eq_zero, ready_X_length rA]
      exact sA d (by omega)
  have nB : ∀ d, 2 ≤ d → (lifted legs113).view.X d = [] := by
    intro d hd
    rcases Nat.eq_or_lt_of_le hd with rfl | h
    · decide +kernel
    · rw [List.eq_nil_iff_length_eq_zero, ready_X_length rB]
      exact sB d (by omega)
  have xA : ∀ d, ∀ r ∈ (lifted legs221).view.X d, r = (if d = 0 then 1 else 2) := by
    intro d r hr
    match d with
    | 0 => revert r; decide +kernel
    | 1 => revert r; decide +kernel
    | d + 2 => rw [nA (d + 2) (by omega)] at hr; simp at hr
  have xB : ∀ d, ∀ r ∈ (lifted legs113).view.X d, r = (if d = 0 then 1 else 2) := by
    intro d r hr
    match d with
    | 0 => revert r; decide +kernel
    | 1 => revert r; decide +kernel
    | d + 2 => rw [nB (d + 2) (by omega)] at hr; simp at hr
  have key := @sameColour_counts ℚ (lifted legs221).view (lifted legs113).view hA hB _ xA xB
  have lA0 : ((lifted legs221).view.X 0).length = 6 := by decide +kernel
  have lB0 : ((lifted legs113).view.X 0).length = 6 := by decide +kernel
  have lA1 : ((lifted legs221).view.X 1).length = 5 := by decide +kernel
  have lB1 : ((lifted legs113).view.X 1).length = 5 := by decide +kernel
  intro d
  match d with
  | 0 =>
    rw [lA0, lB0]
    refine ⟨[0, 3, 1, 4, 2, 5], by decide, ?_⟩
    show List.Forall₂ _ [0, 1, 2, 3, 4, 5] _
    have go : ∀ c e, c < 6 → e < 6 → ((((lifted legs221).view.up 0).filter fun p => p.1.2 == c).length =
        (((lifted legs113).view.up 0).filter fun p => p.1.2 == e).length ∧
        (((lifted legs221).view.bnd 0).filter fun p => p.2 == c).length =
        (((lifted legs113).view.bnd 0).filter fun p => p.2 == e).length) →
        SameColour false (lifted legs221).view (lifted legs113).view 1 0 c e := fun c e hc he h =>
      key (by rwa [lA0]) (by rwa [lB0]) h.1 h.2
    exact .cons (go _ _ (by decide) (by decide) (by decide +kernel)) <|
      .cons (go _ _ (by decide) (by decide) (by decide +kernel)) <|
      .cons (go _ _ (by decide) (by decide) (by decide +kernel)) <|
      .cons (go _ _ (by decide) (by decide) (by decide +kernel)) <|
      .cons (go _ _ (by decide) (by decide) (by decide +kernel)) <|
      .cons (go _ _ (by decide) (by decide) (by decide +kernel)) .nil
  | 1 =>
    rw [lA1, lB1]
    refine ⟨List.range 5, .refl _, ?_⟩
    rw [List.forall₂_same]
    intro c hc
    have h2 : ∀ c ∈ List.range 5, (((lifted legs221).view.up 1).filter fun p => p.1.2 == c).length =
        (((lifted legs113).view.up 1).filter fun p => p.1.2 == c).length ∧
        (((lifted legs221).view.bnd 1).filter fun p => p.2 == c).length =
        (((lifted legs113).view.bnd 1).filter fun p => p.2 == c).length := by decide +kernel
    have := List.mem_range.mp hc
    exact key (by rwa [lA1]) (by rwa [lB1]) (h2 c hc).1 (h2 c hc).2
  | d + 2 =>
    rw [nA (d + 2) (by omega), nB (d + 2) (by omega)]
    exact ⟨[], .refl _, .nil⟩

end Spiders

open Spiders in
/-- **C103** Layer for layer lower neighbours do help: two trees whose clique complexes get the same
prediction from every SparseCIN and CIN++ network of one layer, while a CIN network of one layer tells
them apart. -/
theorem C103_one_layer_is_not_enough (g g' : Gudhi) (hg : g.Ok) (hg' : g'.Ok) :
    ∃ G H : FGraph ℚ Nat, G.Ok ∧ H.Ok ∧ ∃ c d, G.lift g List.sum 2 true = .ok c ∧ H.lift g' List.sum 2 true = .ok d ∧
      (∀ (sparse : SparseNet ℚ (SparseLevel ℚ ℚ)) (pp : SparseNet ℚ (PPLevel ℚ ℚ)), sparse.Fits → pp.Fits →
        sparse.convs.length = 1 → pp.convs.length = 1 → ∀ mB,
        (∃ preds, (fromComplexList [c] mB >>= sparse.forward ℚ SparseLevel.forward) = .ok preds ∧
          (fromComplexList [d] mB >>= sparse.forward ℚ SparseLevel.forward) = .ok preds) ∧
        (∃ preds, (fromComplexList [c] mB >>= pp.forward ℚ PPLevel.forward) = .ok preds ∧
          (fromComplexList [d] mB >>= pp.forward ℚ PPLevel.forward) = .ok preds)) ∧
      ∃ cin : CINNet ℚ (CINLevel ℚ ℚ), cin.Fits ∧ cin.convs.length = 1 ∧
        ∃ p p', p ≠ p' ∧ (fromComplexList [c] 2 >>= cin.forward ℚ CINLevel.forward) = .ok [p] ∧
          (fromComplexList [d] 2 >>= cin.forward ℚ CINLevel.forward) = .ok [p'] := by
  obtain ⟨c, e, r, z, rl, h⟩ := lifted_any hg legs221_ok true 1
  obtain ⟨d, e', r', z', rl', h'⟩ := lifted_any hg' legs113_ok true 1
  refine ⟨legs221, legs113, legs221_ok, legs113_ok, c, d, e, e', ?_, net, net_fits, rfl, 24, 22, by decide, ?_, ?_⟩
  · intro sparse pp hs hp hs1 hp1 mB
    exact C65_same_colours_same_prediction sparse hs pp hp 1 hs1.le hp1.le [c] [d] (by simp)
      (.cons ((h.drop.trans alike).trans h'.drop.symm) .nil) (by simpa using r) (by simpa using r') (by simpa using z) mB
  · obtain ⟨preds, h1, h2⟩ := C65_cin_same_colours_same_prediction net net_fits 1 (Nat.le_refl 1) [c] [lifted legs221]
      (by simp) (.cons h .nil) (by simpa using r) (by simpa using rl) (by simpa using z) 2
    rw [h1, ← h2]
    decide +kernel
  · obtain ⟨preds, h1, h2⟩ := C65_cin_same_colours_same_prediction net net_fits 1 (Nat.le_refl 1) [d] [lifted legs113]
      (by simp) (.cons h' .nil) (by simpa using r') (by simpa using rl') (by simpa using z') 2
    rw [h1, ← h2]
    decide +kernel

/-! ### The theorems on concrete cases -/

section Cases
open Fixtures Spiders

/-- A hexagon. -/
def hexF : FGraph ℚ Nat := ⟨6, List.replicate 6 1, hexG.edges, none⟩
/-- Two triangles. -/
def triF : FGraph ℚ Nat := ⟨6, List.replicate 6 1, triG.edges, none⟩

theorem hexF_ok : hexF.Ok := ⟨by decide, rfl, by unfold EdgesIn; decide, by simp [hexF]⟩
theorem triF_ok : triF.Ok := ⟨by decide, rfl, by unfold EdgesIn; decide, by simp [triF]⟩

/-- The complexes of vertices and edges of the two. -/
def hexC : Complex ℚ Nat := match hexF.lift plainGudhi List.sum 1 true with
  | .ok c => c
  | .error _ => ⟨0, [], none, none⟩
@[inherit_doc hexC]
def triC : Complex ℚ Nat := match triF.lift plainGudhi List.sum 1 true with
  | .ok c => c
  | .error _ => ⟨0, [], none, none⟩

theorem hexC_alike (lower : Bool) (n : Nat) : hexF.lift plainGudhi List.sum 1 true = .ok hexC ∧
    triF.lift plainGudhi List.sum 1 true = .ok triC ∧ SameColours lower hexC.view triC.view n := by
  obtain ⟨c, e, r, -, f, -, s⟩ := clique_fromFaces plainGudhi_ok sum_perm 1 hexF_ok
  obtain ⟨d, e', r', -, f', -, s'⟩ := clique_fromFaces plainGudhi_ok sum_perm 1 triF_ok
  have h1 : hexC = c := by unfold hexC; rw [e]
  have h2 : triC = d := by unfold triC; rw [e']
  subst h1 h2
  have n1 : ∀ d, 1 < d → hexC.view.X d = [] := fun d hd => by
    rw [List.eq_nil_iff_length_eq_zero, ready_X_length r, s d (by omega)]
  have n2 : ∀ d, 1 < d → triC.view.X d = [] := fun d hd => by
    rw [List.eq_nil_iff_length_eq_zero, ready_X_length r', s' d (by omega)]
  have l0 : (hexC.view.X 0).length = 6 ∧ (triC.view.X 0).length = 6 ∧ (hexC.view.X 1).length = 6 ∧
      (triC.view.X 1).length = 6 := by decide +kernel
  have cnt : ∀ d < 2, ∀ c < 6, ∀ e < 6,
      ((hexC.view.up d).filter fun p => p.1.2 == c).length = ((triC.view.up d).filter fun p => p.1.2 == e).length ∧
      ((hexC.view.down d).filter fun p => p.1.2 == c).length =
        ((triC.view.down d).filter fun p => p.1.2 == e).length ∧
      ((hexC.view.bnd d).filter fun p => p.2 == c).length = ((triC.view.bnd d).filter fun p => p.2 == e).length := by
    decide +kernel
  have low : ∀ d c e, c < (hexC.view.X d).length → e < (triC.view.X d).length → d < 2 ∧ c < 6 ∧ e < 6 := by
    intro d c e hc he
    match d with
    | 0 => exact ⟨by omega, by omega, by omega⟩
    | 1 => exact ⟨by omega, by omega, by omega⟩
    | d + 2 => rw [n1 (d + 2) (by omega)] at hc; simp at hc
  refine ⟨e, e', alike_of_counts (x := fun d => if d = 0 then 1 else 2) f.inRange f'.inRange ?_ ?_ ?_ ?_ ?_ ?_ lower n⟩
  · intro d
    match d with
    | 0 => omega
    | 1 => omega
    | d + 2 => rw [n1 (d + 2) (by omega), n2 (d + 2) (by omega)]
  · intro d r hr
    match d with
    | 0 => revert r; decide +kernel
    | 1 => revert r; decide +kernel
    | d + 2 => rw [n1 (d + 2) (by omega)] at hr; simp at hr
  · intro d r hr
    match d with
    | 0 => revert r; decide +kernel
    | 1 => revert r; decide +kernel
    | d + 2 => rw [n2 (d + 2) (by omega)] at hr; simp at hr
  · intro d c e hc he
    obtain ⟨a, b, c'⟩ := low d c e hc he
    exact (cnt d a c b e c').1
  · intro d c e hc he
    obtain ⟨a, b, c'⟩ := low d c e hc he
    exact (cnt d a c b e c').2.1
  · intro d c e hc he
    obtain ⟨a, b, c'⟩ := low d c e hc he
    exact (cnt d a c b e c').2.2

/-- The trees: not told apart in one round without lower neighbours, told apart with them. -/
example : SameColours false (lifted legs221).view (lifted legs113).view 1 ∧
    ¬ SameColours true (lifted legs221).view (lifted legs113).view 1 := by
  refine ⟨alike, fun h => ?_⟩
  obtain ⟨-, -, -, -, r, -⟩ := lifted_any plainGudhi_ok legs221_ok false 1
  obtain ⟨-, -, -, -, r', -⟩ := lifted_any plainGudhi_ok legs113_ok false 1
  obtain ⟨p, h1, h2⟩ := C65_cin_same_colours_same_prediction net net_fits 1 (Nat.le_refl 1) [lifted legs221]
    [lifted legs113] (by simp) (.cons h .nil) (by simpa using r) (by simpa using r') (by decide +kernel) 2
  exact absurd (h1.trans h2.symm) (by decide +kernel)

/-- So two rounds without lower neighbours tell them apart. -/
example : ¬ SameColours false (lifted legs221).view (lifted legs113).view 2 := by
  intro h
  obtain ⟨c, d, e, e', h1, -⟩ := C103_cliques_without_lower_neighbours plainGudhi plainGudhi plainGudhi_ok plainGudhi_ok
    List.sum sum_perm 2 1 legs221 legs113 legs221_ok legs113_ok
  rw [lifted_eq legs221_ok, ok_inj] at e
  rw [lifted_eq legs113_ok, ok_inj] at e'
  subst e e'
  have h2 := h1 h
  obtain ⟨-, -, -, -, r, -⟩ := lifted_any plainGudhi_ok legs221_ok false 1
  obtain ⟨-, -, -, -, r', -⟩ := lifted_any plainGudhi_ok legs113_ok false 1
  obtain ⟨p, q1, q2⟩ := C65_cin_same_colours_same_prediction net net_fits 1 (Nat.le_refl 1) [lifted legs221]
    [lifted legs113] (by simp) (.cons h2 .nil) (by simpa using r) (by simpa using r') (by decide +kernel) 2
  exact absurd (q1.trans q2.symm) (by decide +kernel)

example := C103_rings_without_lower_neighbours plainGudhi plainGudhi plainGudhi_ok plainGudhi_ok plainRings plainRings
  plainRings_ok plainRings_ok List.sum sum_perm 6 2 hexG triG hexG_ok.1 triG_ok.1

/-- The hexagon and the triangles without rings are alike forever, so no CIN tells them apart. -/
example (n : Nat) (cin : CINNet ℚ (CINLevel ℚ ℚ)) (hc : cin.Fits) (hn : cin.convs.length ≤ n) (mB : Nat) :
    ∃ preds, (fromComplexList [hexC] mB >>= cin.forward ℚ CINLevel.forward) = .ok preds ∧
      (fromComplexList [triC] mB >>= cin.forward ℚ CINLevel.forward) = .ok preds := by
  obtain ⟨e, e', h⟩ := hexC_alike false (2 * n)
  obtain ⟨cs, ds, h1, h2, h3⟩ := C103_cin_on_cliques (𝕜 := ℚ) plainGudhi plainGudhi plainGudhi_ok plainGudhi_ok List.sum
    sum_perm 1 n [hexF] [triF] (by simp) (by simpa using hexF_ok) (by simpa using triF_ok)
  have h1 : cs = [hexC] := by simpa [mapE, e, ok_bind] using h1.symm
  have h2 : ds = [triC] := by simpa [mapE, e', ok_bind] using h2.symm
  subst h1 h2
  exact h3 (.cons h .nil) cin hc hn mB

example := C103_cin_on_rings (𝕜 := ℚ) plainGudhi plainGudhi plainGudhi_ok plainGudhi_ok plainRings plainRings
  plainRings_ok plainRings_ok List.sum sum_perm 6 2 [hexG, shedG] [triG] (by simp)
  (by simpa using ⟨hexG_ok.1, shedG_ok⟩) (by simpa using triG_ok.1)

/-- A hexagon with one-hot features; lifted with a constant aggregation they stay one-hot. -/
example : ∃ c : Complex Vec Nat, (⟨6, List.replicate 6 (Finsupp.single 3 1), hexG.edges, none⟩ : FGraph Vec Nat).lift
    plainGudhi (fun _ => Finsupp.single 0 1) 1 true = .ok c ∧ c.OneHot := by
  have hok : (⟨6, List.replicate 6 (Finsupp.single 3 1), hexG.edges, none⟩ : FGraph Vec Nat).Ok :=
    ⟨by decide, rfl, by unfold EdgesIn; decide, by simp⟩
  obtain ⟨c, e, -, -, -⟩ := clique_shows (L := Nat) plainGudhi_ok (agg := fun _ => (Finsupp.single 0 1 : Vec))
    (fun _ _ _ => rfl) hok.edges hok.pos hok.rows 1 hok.labels true 0
  refine ⟨c, e, ?_⟩
  intro d rows hd x hx
  obtain ⟨c', e', -, -, cells, h, hK⟩ := clique_shows (L := Nat) plainGudhi_ok
    (agg := fun _ => (Finsupp.single 0 1 : Vec)) (fun _ _ _ => rfl) hok.edges hok.pos hok.rows 1 hok.labels true d
  rw [e, ok_inj] at e'
  subst e'
  have hX := h.X d
  have hv : (c.view.upTo d).X d = rows := (if_pos (Nat.le_refl d)).trans (by
    show (c.attr d Cochain.x).getD [] = _
    rw [hd]
    rfl)
  rw [← hv, hX] at hx
  obtain ⟨s, hs, rfl⟩ := List.mem_map.mp hx
  cases d with
  | zero =>
    have hm : s ∈ setsOf cells 0 := List.mem_toFinset.mpr hs
    rw [hK] at hm
    unfold Cells.upTo cliqueSets at hm
    rw [if_pos (Nat.le_refl 0), if_pos (by omega), Finset.mem_filter, Finset.mem_powersetCard] at hm
    obtain ⟨v, rfl⟩ := Finset.card_eq_one.mp hm.1.2
    have hv6 : v < 6 := Finset.mem_range.mp (hm.1.1 (Finset.mem_singleton_self v))
    refine ⟨3, ?_⟩
    show ∑ u ∈ {v}, rowOf _ u = _
    rw [Finset.sum_singleton]
    unfold rowOf
    rw [List.getElem?_replicate, if_pos hv6]
    rfl
  | succ d => exact ⟨0, rfl⟩

example := C103_one_sparse_network_for_all_cin (L := Nat) 2 2

example := C103_one_layer_is_not_enough plainGudhi plainGudhi plainGudhi_ok plainGudhi_ok

end Cases

end Verif
