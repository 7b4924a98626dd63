import Verif.Lemmas.TUDataset
import Verif.Spec.Molecules

/-!
# Complexes for the embedding networks, stored and read
-/

namespace Verif

section
variable {R L : Type}

theorem SameComplex.xs {c c' : Complex R L} (h : SameComplex c c') (hv : c.Valid)
    (hfull : ∀ d ≤ c.dimension, 0 < c.cellsIn d) (d : Nat) : c'.attr d Cochain.x = c.attr d Cochain.x := by
  rw [h.attr d _ fun k k' s => s.x]
  cases hx : c.attr d Cochain.x with
  | none => rfl
  | some l =>
    cases l with
    | cons a l => rfl
    | nil =>
      exfalso
      unfold Complex.attr at hx
      cases hk : c.cochains[d]? with
      | none => rw [hk] at hx; cases hx
      | some k =>
        rw [hk] at hx
        have hd : d ≤ c.dimension := by
          have := lt_of_get hk
          rw [hv.len] at this
          omega
        have := (hv.valid d k hk).rows [] hx
        have := hfull d hd
        simp at *
        omega

theorem SameComplex.relabels {c c' : Complex R L} (h : SameComplex c c') (hv : c.Valid)
    (hfull : ∀ d ≤ c.dimension, 0 < c.cellsIn d) : RelabelsCells c c' fun _ k => k where
  size := h.cellsIn
  inj := fun _ _ _ _ _ e => e
  some := fun d => by rw [h.xs hv hfull]
  feat := fun d k _ => by rw [h.view]
  up := fun d => by rw [h.view]; simp
  down := fun d => by rw [h.view]; simp
  bnd := fun d => by rw [h.view]; simp

theorem SameComplex.takes {c c' : Complex R L} (h : SameComplex c c') {l : EmbedInit R} (ht : l.Takes c) :
    l.Takes c' where
  valid := h.valid ht.valid ht.cells
  small := by rw [h.dimension]; exact ht.small
  cells := fun d hd => by rw [h.cellsIn]; exact ht.cells d (h.dimension ▸ hd)
  nodes := by rw [h.xs ht.valid ht.cells]; exact ht.nodes
  vertices := by
    rw [h.attr 0 _ fun k k' s => s.lowerIndex, ht.vertices]
    rfl
  faces := fun d k hd hk => by
    unfold Complex.faces
    rw [h.attr d _ fun k k' s => s.boundaryIndex, nonEmpty_getD]
    rw [h.cellsIn] at hk
    exact ht.faces d k hd hk
  edges := by rw [h.xs ht.valid ht.cells]; exact ht.edges

theorem RingFacts.counted {e r : Bool} {c : Complex R L} (h : RingFacts c e r) : c.Counted := by
  intro k hk
  obtain ⟨d, hd⟩ := List.mem_iff_getElem?.mp hk
  left
  have hlt := lt_of_get hd
  rw [h.valid.len] at hlt
  have := h.cells d (by omega)
  rw [count_of (count_of_valid h.valid hd)]
  omega

theorem RingFacts.hasAttribute {e r : Bool} {c : Complex R L} (h : RingFacts c e r) {cs : List (Complex R L)}
    (hc : c ∈ cs) (maxDim : Nat) : HasAttribute cs maxDim := by
  have hn := h.nodes
  unfold Complex.attr at hn
  cases hk : c.cochains[0]? with
  | none => rw [hk] at hn; simp at hn
  | some k =>
    rw [hk] at hn
    refine ⟨c, hc, 0, k, Nat.zero_le _, hk, ?_⟩
    unfold Cochain.keys
    have : k.x.isSome := hn
    rw [if_pos this]
    simp

end

section
variable {F L : Type} [DecidableEq F]

theorem Molecule.lifts {width : F → Nat} {w w' : Nat} {G : GraphData F L} (h : Molecule width w w' G) {g : Gudhi}
    (hg : g.Ok) {lib : RingLib} (hlib : lib.Ok) (agg : List F → F) (maxK : Nat) (down : Bool) :
    ∃ comp, G.ringLift g lib agg maxK down = .ok comp ∧ RingFacts comp true false ∧ comp.y = G.y := by
  obtain ⟨x, hG, -⟩ := h.nodes
  obtain ⟨l, hl⟩ := h.label
  have hS := h.simple
  have hR : (⟨G.numNodes, x, G.edgeIndex, G.edgeAttr, G.y⟩ : RGraph F L).Ok :=
    ⟨hG.pos, hG.rows, hG.edges, hS.noLoops, hS.attr, hG.labels⟩
  obtain ⟨x1, l1, r1, d1⟩ := RGraph.lift_ok (agg := agg) (maxK := maxK) (down := down) (initEdges := true)
    (initRings := false) hg hlib hR rfl rfl
  have rd := ringData_of hg hlib hR.edges hR.pos maxK
  have f := ring_facts (down := down) (vy := vertexLabels G.y) (y := complexLabel G.y) rd r1 d1.some
  unfold GraphData.ringLift
  rw [hG.features]
  exact ⟨_, l1, f, complexLabel_single hl⟩

omit [DecidableEq F] in
theorem forall₂_left {A B : Type} {P : A → B → Prop} {l : List A} {l' : List B} (h : List.Forall₂ P l l') :
    List.Forall₂ (fun a _ => a ∈ l) l l' := by
  induction h with
  | nil => exact .nil
  | cons _ _ ih => exact .cons (by simp) (ih.imp fun a _ ha => by simp [ha])

/-- Converting molecules gives the liftings one by one. -/
theorem molecules_convert [DecidableEq L] {g : Gudhi} (hg : g.Ok) {lib : RingLib} (hlib : lib.Ok) {agg : List F → F}
    {width : F → Nat} {w w' : Nat} (hagg : ∀ l : List F, l ≠ [] → (∀ r ∈ l, width r = w) → width (agg l) = w)
    {graphs : List (GraphData F L)} (h : ∀ G ∈ graphs, Molecule width w w' G) (maxK : Nat) (down : Bool) :
    ∃ r, convertWithRings g lib agg width graphs maxK down true false = .ok r ∧
      List.Forall₂ (fun (G : GraphData F L) c => G.ringLift g lib agg maxK down = .ok c ∧ c.y = G.y) graphs r.complexes ∧
      ∀ c ∈ r.complexes, RingFacts c true false := by
  obtain ⟨r, h1, -, -⟩ := C35_ring_datasets_convert g hg lib hlib agg width w w' hagg maxK down false graphs (by
    intro G hG
    obtain ⟨x, hx, hw⟩ := (h G hG).nodes
    exact ⟨x, hx, (h G hG).simple, hw, .inr (h G hG).bonds⟩)
  obtain ⟨h2, -, -, -⟩ := (C35_ring_conversion ..).mp h1
  have h3 : List.Forall₂ (fun (G : GraphData F L) c => G ∈ graphs ∧ G.ringLift g lib agg maxK down = .ok c) graphs
      r.complexes := by
    have := forall₂_both (forall₂_left h2) h2
    exact this
  refine ⟨r, h1, h3.imp ?_, ?_⟩
  · rintro G c ⟨hG, hc⟩
    obtain ⟨comp, e1, -, e3⟩ := (h G hG).lifts hg hlib agg maxK down
    rw [hc] at e1
    cases e1
    exact ⟨hc, e3⟩
  · intro c hc
    obtain ⟨G, -, hG, h4⟩ := forall₂_mem h3.flip hc
    obtain ⟨comp, e1, e2, -⟩ := (h G hG).lifts hg hlib agg maxK down
    rw [h4] at e1
    cases e1
    exact e2

end

end Verif
