import Verif.Lemmas.MPTests
import Verif.Props.Lower
import Verif.Props.Dummies
import Verif.Fixtures

/-! # Messages come along the boundaries (C116) -/

namespace Verif

variable {R L : Type} [AddCommMonoid R]

/-- **C116** In a complex whose neighbours are the cells with a common face or coface, the messages of the class itself are
sums along the boundaries. From above a cell gets, for each of its cofaces, the rows of the other faces of it; from below,
for each of its faces, the rows of the other cells with that face; and the rows of its faces. -/
theorem C116_messages_along_boundaries (comp : Complex R L) (hr : comp.Ready) (hf : comp.view.FromFaces) (d : Nat)
    (hd : d ≤ comp.dimension) :
    ∃ p up down bnd, comp.getCochainParams d = .ok p ∧ baseMessages p = .ok (up, down, bnd) ∧
      up.length = comp.cellsIn d ∧ down.length = comp.cellsIn d ∧ bnd.length = comp.cellsIn d ∧
      ∀ c < comp.cellsIn d,
        up[c]? = some (comp.view.overCofaces (d + 1) c fun t => comp.view.overOtherFaces (d + 1) t c fun f =>
          rowOf (comp.view.X d) f) ∧
        down[c]? = some (comp.view.overFaces d c fun f => comp.view.overOtherCofaces d f c fun t =>
          rowOf (comp.view.X d) t) ∧
        bnd[c]? = some (comp.view.overFaces d c fun f => rowOf (comp.view.below d) f) := by
  obtain ⟨p, e, hp⟩ := hr.runs.params hd 2 true true
  rw [Bool.or_true] at hp
  refine ⟨p, _, _, _, e, base_ok hf.inRange hp, ?_, ?_, ?_, ?_⟩
  · rw [List.length_map, List.length_range, ready_X_length hr]
  · rw [List.length_map, List.length_range, ready_X_length hr]
  · rw [List.length_map, List.length_range, ready_X_length hr]
  · intro c hc
    rw [← ready_X_length hr] at hc
    have key : ∀ g : Nat → R, ((List.range (comp.view.X d).length).map g)[c]? = some (g c) := by
      intro g
      rw [List.getElem?_map, List.getElem?_range hc]
      rfl
    rw [key, key, key]
    refine ⟨?_, ?_, rfl⟩
    · rw [hf.upSum_eq]
      rfl
    · match d with
      | 0 =>
        simp [View.downSum, View.overFaces, Complex.view]
      | d + 1 =>
        rw [hf.downSum_eq]
        rfl

/-- **C116** Neighbours count as often as they share a coface or a face: the message from above is the sum over all other
cells, each taken as many times as there are common cofaces, and the message from below likewise with common faces. -/
theorem C116_shared_cells_count (comp : Complex R L) (hr : comp.Ready) (hf : comp.view.FromFaces) (d : Nat)
    (hd : d ≤ comp.dimension) :
    ∃ p up down bnd, comp.getCochainParams d = .ok p ∧ baseMessages p = .ok (up, down, bnd) ∧
      ∀ c < comp.cellsIn d,
        up[c]? = some ((List.range (comp.cellsIn d)).map fun b =>
          if b = c then 0 else comp.view.commonCofaces (d + 1) b c • rowOf (comp.view.X d) b).sum ∧
        down[c]? = some ((List.range (comp.cellsIn d)).map fun b =>
          if b = c then 0 else comp.view.commonFaces d b c • rowOf (comp.view.X d) b).sum := by
  obtain ⟨p, e, hp⟩ := hr.runs.params hd 2 true true
  rw [Bool.or_true] at hp
  refine ⟨p, _, _, _, e, base_ok hf.inRange hp, fun c hc => ?_⟩
  rw [← ready_X_length hr] at hc ⊢
  have key : ∀ g : Nat → R, ((List.range (comp.view.X d).length).map g)[c]? = some (g c) := by
    intro g
    rw [List.getElem?_map, List.getElem?_range hc]
    rfl
  rw [key, key, hf.upSum_counts, hf.downSum_counts]
  exact ⟨rfl, rfl⟩

/-- **C116** Messages from above and messages from the faces belong together: what a cell gets from above, and its own row
once per coface, is what its cofaces get from their faces. What it gets from below, and its own row once per face, is the
sum of the rows of all cells at its faces. -/
theorem C116_up_and_boundary_messages (comp : Complex R L) (hr : comp.Ready) (hf : comp.view.FromFaces) (d : Nat)
    (hd : d + 1 ≤ comp.dimension) :
    ∃ p q up down bnd up' down' bnd', comp.getCochainParams d = .ok p ∧ comp.getCochainParams (d + 1) = .ok q ∧
      baseMessages p = .ok (up, down, bnd) ∧ baseMessages q = .ok (up', down', bnd') ∧
      (∀ c < comp.cellsIn d,
        rowOf up c + comp.view.cofaceCount (d + 1) c • rowOf (comp.view.X d) c =
          comp.view.overCofaces (d + 1) c fun t => rowOf bnd' t) ∧
      (∀ c < comp.cellsIn (d + 1),
        rowOf down' c + comp.view.faceCount (d + 1) c • rowOf (comp.view.X (d + 1)) c =
          comp.view.overFaces (d + 1) c fun f => comp.view.overCofaces (d + 1) f fun t => rowOf (comp.view.X (d + 1)) t) ∧
      up.sum + ((List.range (comp.cellsIn d)).map fun c =>
          comp.view.cofaceCount (d + 1) c • rowOf (comp.view.X d) c).sum =
        ((List.range (comp.cellsIn (d + 1))).map fun t => comp.view.faceCount (d + 1) t • rowOf bnd' t).sum := by
  obtain ⟨p, e, hp⟩ := hr.runs.params (d := d) (by omega) 2 true true
  obtain ⟨q, e', hq⟩ := hr.runs.params hd 2 true true
  rw [Bool.or_true] at hp hq
  refine ⟨p, q, _, _, _, _, _, _, e, e', base_ok hf.inRange hp, base_ok hf.inRange hq, ?_⟩
  simp only [← ready_X_length hr]
  have key : ∀ (n c : Nat) (g : Nat → R), c < n → rowOf ((List.range n).map g) c = g c := by
    intro n c g hc
    unfold rowOf
    rw [List.getElem?_map, List.getElem?_range hc]
    rfl
  have hup : ∀ c, c < (comp.view.X d).length →
      comp.view.upSum baseRule true d c + comp.view.cofaceCount (d + 1) c • rowOf (comp.view.X d) c =
        comp.view.overCofaces (d + 1) c fun t =>
          rowOf ((List.range (comp.view.X (d + 1)).length).map (comp.view.bndSum baseRule (d + 1))) t := by
    intro c hc
    rw [hf.upSum_eq, overCofaces_eq, cofaceCount_eq, sum_map_add_const, overCofaces_eq]
    congr 1
    refine List.map_congr_left fun t ht => ?_
    have hm := mem_cofacesAt.mp ht
    rw [key _ _ _ (hf.inRange.bnd _ _ hm).2]
    exact hf.other_faces_add hm _
  refine ⟨fun c hc => ?_, fun c hc => ?_, ?_⟩
  · rw [key _ _ _ hc]
    exact hup c hc
  · rw [key _ _ _ hc, hf.downSum_eq, overFaces_eq, faceCount_eq, sum_map_add_const, overFaces_eq]
    congr 1
    refine List.map_congr_left fun f hf' => ?_
    exact hf.other_cofaces_add (mem_facesAt.mp hf') _
  · rw [← List.sum_map_add, List.map_congr_left fun c hc => hup c (List.mem_range.mp hc)]
    generalize rowOf ((List.range (comp.view.X (d + 1)).length).map (comp.view.bndSum baseRule (d + 1))) = b
    have h1 : ((comp.view.bnd (d + 1)).map fun p => b p.2).sum =
        ((List.range (comp.view.X (d + 1)).length).map fun t => comp.view.faceCount (d + 1) t • b t).sum :=
      sum_by_number (fun p : Nat × Nat => p.2) b _ _ fun p hp => (hf.inRange.bnd _ _ hp).2
    rw [← h1, ← sum_by_target Prod.fst (fun p => b p.2) (comp.view.X d).length _ fun p hp => (hf.inRange.bnd (d + 1) p hp).1]
    rfl

/-- **C116** The dummy layer: every cell gets its own row; for each coface, the other faces of it with the row of the
coface; for each face, the other cells with that face and the row of the face (if lower messages are used); and the rows of
its faces (if boundary messages are used). -/
theorem C116_dummy_layer (comp : Complex R L) (hr : comp.Ready) (hf : comp.view.FromFaces) (l : DummyLevel) (d : Nat)
    (hd : d ≤ comp.dimension) :
    ∃ p out, comp.getCochainParams d = .ok p ∧ l.forward p = .ok out ∧ out.length = comp.cellsIn d ∧
      ∀ c < comp.cellsIn d, out[c]? = some (rowOf (comp.view.X d) c +
        (comp.view.overCofaces (d + 1) c fun t => comp.view.overOtherFaces (d + 1) t c fun f =>
          rowOf (comp.view.X d) f + rowOf (comp.view.X (d + 1)) t) +
        (if l.useDown then comp.view.overFaces d c fun f => comp.view.overOtherCofaces d f c fun t =>
          rowOf (comp.view.X d) t + rowOf (comp.view.below d) f else 0) +
        (if l.useBoundary then comp.view.overFaces d c fun f => rowOf (comp.view.below d) f else 0)) := by
  obtain ⟨p, e, hp⟩ := hr.runs.params hd 2 true true
  rw [Bool.or_true] at hp
  refine ⟨p, _, e, realises_dummy l _ d true p hf.inRange hp fun _ => rfl, ?_, fun c hc => ?_⟩
  · rw [List.length_map, List.length_range, ready_X_length hr]
  · rw [← ready_X_length hr] at hc
    rw [List.getElem?_map, List.getElem?_range hc]
    simp only [Option.map_some]
    congr 1
    unfold View.newRow
    rw [hf.upSum_eq]
    have h2 : comp.view.downSum l.rule d c = comp.view.overFaces d c fun f => comp.view.overOtherCofaces d f c fun t =>
        rowOf (comp.view.X d) t + rowOf (comp.view.below d) f := by
      match d with
      | 0 => simp [View.downSum, View.overFaces, Complex.view]
      | d + 1 =>
        rw [hf.downSum_eq]
        rfl
    rw [h2]
    rfl

/-- **C116** A cell without cofaces gets nothing from above; a cell without faces gets nothing from below and nothing from
its boundary. -/
theorem C116_isolated_cells (comp : Complex R L) (hr : comp.Ready) (hf : comp.view.FromFaces) (d : Nat)
    (hd : d ≤ comp.dimension) :
    ∃ p up down bnd, comp.getCochainParams d = .ok p ∧ baseMessages p = .ok (up, down, bnd) ∧
      ∀ c < comp.cellsIn d, ((∀ t, (c, t) ∉ comp.view.bnd (d + 1)) → up[c]? = some 0) ∧
        ((∀ f, (f, c) ∉ comp.view.bnd d) → down[c]? = some 0 ∧ bnd[c]? = some 0) := by
  obtain ⟨p, up, down, bnd, h1, h2, -, -, -, h3⟩ := C116_messages_along_boundaries comp hr hf d hd
  refine ⟨p, up, down, bnd, h1, h2, fun c hc => ⟨fun h => ?_, fun h => ?_⟩⟩
  · rw [(h3 c hc).1, View.overCofaces, List.filter_eq_nil_iff.mpr]
    · rfl
    · rintro ⟨a, b⟩ hm
      simp only [beq_iff_eq]
      rintro rfl
      exact h b hm
  · rw [(h3 c hc).2.1, (h3 c hc).2.2, View.overFaces, View.overFaces, List.filter_eq_nil_iff.mpr]
    · exact ⟨rfl, rfl⟩
    · rintro ⟨a, b⟩ hm
      simp only [beq_iff_eq]
      rintro rfl
      exact h a hm

/-- **C116** On the vertices the messages from above are those of plain message passing on the graph: the tests that compare
the two pass on every complex with features and, for those that take the graph to have no edges, without edges. -/
theorem C116_vertices_as_in_graphs [DecidableEq R] (comp : Complex R L) (hr : comp.Ready) :
    (∀ edges, (comp.cochains[1]?).isSome → comp.attr 0 Cochain.upperIndex = some edges →
      isolatedTest comp = .ok () ∧
      ∃ p x down bnd, comp.getCochainParams 0 = .ok p ∧ comp.attr 0 Cochain.x = some x ∧
        baseMessages p = .ok (pygPropagate edges x, down, bnd)) ∧
    ((comp.cochains[1]? = none ∨ comp.attr 0 Cochain.upperIndex = none) → isolatedOnlyTest comp = .ok ()) := by
  obtain ⟨p, e, hp⟩ := hr.runs.params (d := 0) (by omega) 2 true true
  rw [Bool.or_true] at hp
  have hu := params_upIndex e
  have hin := ready_inRange hr
  have hup := up_only_ok hin hp
  refine ⟨fun edges h1 h2 => ⟨?_, ?_⟩, fun h => ?_⟩
  · rw [if_pos h1, h2] at hu
    rw [hu] at hup
    unfold isolatedTest
    rw [e, ok_bind, hup, ok_bind, hu, hp.x]
    simp [pyAssert, zeroRows]
  · have hx : comp.attr 0 Cochain.x = some (comp.view.X 0) := by
      obtain ⟨c, hc⟩ : ∃ c, comp.cochains[0]? = some c := by
        refine ⟨_, List.getElem?_eq_getElem (l := comp.cochains) (i := 0) ?_⟩
        rw [hr.runs.len]
        omega
      obtain ⟨x, hx, -⟩ := hr.runs.feat 0 c hc
      show _ = some ((comp.attr 0 Cochain.x).getD [])
      rw [attr_of hc, hx]
      rfl
    rw [if_pos h1, h2] at hu
    obtain ⟨h3, -⟩ := hp.up edges hu
    have : (List.range (comp.view.X 0).length).map (comp.view.upSum baseRule true 0) =
        pygPropagate edges (comp.view.X 0) := by
      refine List.map_congr_left fun c _ => ?_
      rw [h3, List.filter_map, List.map_map]
      rfl
    have hb := base_ok hin hp
    rw [this] at hb
    exact ⟨p, _, _, _, e, hx, hb⟩
  · have h3 : p.upIndex = none := by
      rw [hu]
      rcases h with h | h
      · simp [h]
      · simp [h]
    rw [h3] at hup
    unfold isolatedOnlyTest
    rw [e, ok_bind, hp.x]
    dsimp only
    rw [hup, ok_bind]
    simp [pyAssert, zeroRows, pygPropagate]

/-- **C116** All of this holds on the hand-made complexes, on clique complexes with lower adjacencies, and on ring complexes
with features for all cells and lower adjacencies. -/
theorem C116_which_complexes [DecidableEq R] :
    (∀ num : Nat → R, ∃ cs, testingComplexes num = .ok cs ∧ cs.length = 23 ∧
      ∀ c ∈ cs, c.Ready ∧ c.view.FromFaces) ∧
    (∀ (g : Gudhi), g.Ok → ∀ agg : List R → R, (∀ l l' : List R, l.Perm l' → agg l = agg l') → ∀ (k : Nat)
      (G : FGraph R L), G.Ok → ∃ c, G.lift g agg k true = .ok c ∧ c.Ready ∧ c.view.FromFaces) ∧
    ∀ (g : Gudhi), g.Ok → ∀ lib : RingLib, lib.Ok → ∀ agg : List R → R,
      (∀ l l' : List R, l.Perm l' → agg l = agg l') → ∀ (maxK : Nat) (G : RGraph R L), G.Ok →
        ∃ c, G.lift g lib agg maxK true true true = .ok c ∧ c.Ready ∧ c.view.FromFaces := by
  refine ⟨fun num => ?_, fun g hg agg hagg k G hG => ?_, fun g hg lib hl agg hagg maxK G hG => ?_⟩
  · obtain ⟨cs, h1, h2, h3, -⟩ := testing_built num
    exact ⟨cs, h1, h2, fun c hc => ⟨(h3 c hc).1.sound.ready, (h3 c hc).1.sound.faces⟩⟩
  · obtain ⟨c, e, r, -, f, -⟩ := clique_fromFaces hg hagg k hG
    exact ⟨c, e, r, f⟩
  · obtain ⟨c, e, r, -, f, -⟩ := ring_fromFaces hg hl hagg maxK hG
    exact ⟨c, e, r, f⟩

/-! ### Examples -/

/-- The messages in one dimension of a complex. -/
def messagesAt (comp : Py (Complex Nat Int)) (d : Nat) : Py (List Nat × List Nat × List Nat) := do
  let comp ← comp
  let p ← comp.getCochainParams d
  baseMessages p

/-- What the tests expect of the edges, vertices and the triangle of the house (mp/test_cell_mp.py:29-36, 54-61, 83-90). -/
example : messagesAt (houseComplex id) 1 = .ok ([0, 0, 11, 0, 9, 8], [6, 10, 17, 9, 13, 10], [3, 5, 7, 5, 9, 8]) ∧
    messagesAt (houseComplex id) 0 = .ok ([6, 4, 11, 9, 7], [0, 0, 0, 0, 0], [0, 0, 0, 0, 0]) ∧
    messagesAt (houseComplex id) 2 = .ok ([0], [0], [14]) := by decide +kernel

/-- What the test with replicated adjacencies expects (mp/test_cell_mp.py:208-215, 245-255). -/
example : (messagesAt (bridgedComplex id) 1 >>= fun m => .ok m.1) =
      .ok [4 + 5 + 6 + 2 + 3 + 4, 3 + 5 + 6 + 1 + 3 + 4, 2 + 5 + 6 + 1 + 2 + 4, 1 + 5 + 6 + 1 + 2 + 3,
        1 + 4 + 6 + 2 + 3 + 6, 1 + 4 + 5 + 2 + 3 + 5] ∧
    (messagesAt (bridgedComplex id) 2 >>= fun m => .ok m.2) =
      .ok ([2 + 2 + 3 + 3, 1 + 1 + 3 + 3, 1 + 1 + 2 + 2], [1 + 6 + 5 + 4, 2 + 3 + 5 + 6, 1 + 2 + 3 + 4]) := by decide +kernel

/-- The other tests: a square with an isolated vertex, one vertex, two vertices; without edges there is no graph to compare
with. -/
example : (squareDotComplex (id : Nat → Nat) >>= isolatedTest) = .ok () ∧
    (fullstopComplex (id : Nat → Nat) >>= isolatedOnlyTest) = .ok () ∧
    (colonComplex (id : Nat → Nat) >>= isolatedOnlyTest) = .ok () ∧
    (houseComplex (id : Nat → Nat) >>= isolatedOnlyTest) = .error .assertion := by decide +kernel

/-- What the tests of the dummy layer expect (mp/test_layers.py:19-28, 38-47, 57-70). -/
def dummyAt (comp : Py (Complex Nat Int)) (l : DummyLevel) (d : Nat) : Py (List Nat) := do
  let comp ← comp
  let p ← comp.getCochainParams d
  l.forward p

example : (List.range 3).map (dummyAt (houseComplex id) {}) =
      [.ok [12, 9, 25, 25, 23], .ok [10, 20, 47, 22, 42, 37], .ok [1]] ∧
    (List.range 3).map (dummyAt (houseComplex id) { useDown := false, useBoundary := true }) =
      [.ok [12, 9, 25, 25, 23], .ok [4, 7, 23, 9, 25, 24], .ok [15]] ∧
    (List.range 3).map (dummyAt (molecularComplex id) { useBoundary := true }) =
      [.ok [12, 24, 24, 15, 25, 31, 47, 24], .ok [35, 79, 41, 27, 66, 70, 92, 82, 53], .ok [15, 33]] := by decide +kernel

/-- The theorems apply to the bridged complex, where the edges 0 and 3 have two common cofaces. -/
example : ∃ c, bridgedComplex (id : Nat → Nat) = .ok c ∧ c.Ready ∧ c.view.FromFaces ∧ 1 ≤ c.dimension ∧
    c.view.commonCofaces 2 0 3 = 2 ∧ c.view.commonFaces 2 0 1 = 2 ∧ c.view.cofaceCount 2 0 = 2 ∧ c.view.faceCount 2 0 = 4 :=
  ⟨_, rfl, (soundB_sound rfl).ready, (soundB_sound rfl).faces, by decide, by decide +kernel, by decide +kernel,
    by decide +kernel, by decide +kernel⟩

end Verif
