import Verif.Spec.TUDataset
import Verif.Props.Convert
import Verif.Props.RingIso
import Verif.Props.Loader

/-!
# Processing of the TU datasets
-/

namespace Verif

variable {F L : Type}

/-- What storing needs of the complex of one graph. -/
structure StoredAs (G : GraphData F L) (maxDim : Nat) (comp : Complex F L) : Prop where
  ready : comp.Ready
  full : ∀ d ≤ comp.dimension, 0 < comp.cellsIn d
  small : comp.dimension ≤ maxDim
  label : comp.y = G.y

theorem complexLabel_single {y : Option (List L)} {l : L} (h : y = some [l]) : complexLabel y = y := by
  subst h; rfl

theorem clique_stored {g : Gudhi} (hg : g.Ok) (agg : List F → F) {k : Nat} (hk : 1 ≤ k) (down : Bool)
    {G : GraphData F L} {x : List F} (hG : G.Ok x) {l : L} (hl : G.y = some [l]) :
    ∃ comp, cliqueComplex g agg G.x G.edgeIndex G.numNodes k G.y down = .ok comp ∧ StoredAs G k comp := by
  obtain ⟨⟨comp, h1, h2, -, h4⟩, -⟩ := C28_lifting_succeeds g hg agg x _ _ k G.y down hG.edges hG.pos hG.rows hG.labels
  have H := holds_expanded hg hG.edges k
  obtain ⟨t, comp', e1, e2, e3, -⟩ := lifted_of_holds agg x G.y down H hG.pos hG.rows hG.labels
  obtain ⟨e4, -⟩ := liftTree_ok (agg := agg) (y := G.y) (down := down) H hG.pos hG.rows hG.labels
  have e5 : cliqueComplex g agg (some x) G.edgeIndex G.numNodes k G.y down = .ok comp' := e2
  rw [h1] at e5
  cases ok_inj.mp e5
  rw [hG.features]
  refine ⟨comp, h1, h2, ?_, by omega, ?_⟩
  · intro d hd
    have hlt : d < (g.expanded (insertions G.edgeIndex G.numNodes) k).dims := by have := e3.size; omega
    rw [e3.count d hlt]
    have hb := buildTables_ok H hG.pos
    rw [e1] at hb
    cases ok_inj.mp hb
    unfold Tables.level
    rw [tab_get _ hlt]
    exact List.length_pos_iff.mpr (cellsOf_ne_nil H hlt)
  · rw [e2] at e4
    cases ok_inj.mp e4
    exact complexLabel_single hl

theorem ring_stored [DecidableEq F] {g : Gudhi} (hg : g.Ok) {lib : RingLib} (hlib : lib.Ok) (agg : List F → F)
    (maxK : Nat) (down : Bool) {G : GraphData F L} {x : List F} (hG : G.Ok x) (hS : G.Simple) {l : L}
    (hl : G.y = some [l]) :
    ∃ comp, ringComplex g lib agg G.x G.edgeIndex G.edgeAttr G.numNodes G.y maxK down true true = .ok comp ∧
      StoredAs G 2 comp := by
  have hR : (⟨G.numNodes, x, G.edgeIndex, G.edgeAttr, G.y⟩ : RGraph F L).Ok :=
    ⟨hG.pos, hG.rows, hG.edges, hS.noLoops, hS.attr, hG.labels⟩
  obtain ⟨x1, l1, r1, d1⟩ := RGraph.lift_ok (agg := agg) (maxK := maxK) (down := down) (initEdges := true)
    (initRings := true) hg hlib hR rfl rfl
  have rd := ringData_of hg hlib hR.edges hR.pos maxK
  have f := ring_facts (down := down) (vy := vertexLabels G.y) (y := complexLabel G.y) rd r1 d1.some
  rw [hG.features]
  refine ⟨_, l1, f.ready, f.cells, f.small, complexLabel_single hl⟩

end Verif
