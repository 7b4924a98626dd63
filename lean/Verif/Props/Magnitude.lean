import Verif.Spec.Magnitude
import Verif.Lemmas.Magnitude

/-!
# C104: the magnitudes of the embeddings of strongly regular graphs
-/

namespace Verif

section
variable {𝕜 R L : Type} [Field 𝕜] [AddCommGroup R] [Module 𝕜 R]

/-- The networks of the script and of the test: a network on complexes, or the baseline. -/
inductive SRModel (𝕜 R L : Type) [Field 𝕜] [AddCommGroup R] [Module 𝕜 R] : (Complex R L → Py (List R)) → Prop
  | cell (forward : Complex R L → Py (List R)) (h : Network 𝕜 R L forward) : SRModel 𝕜 R L forward
  | baseline (net : AgnosticNet R) (h : net.Fits) : SRModel 𝕜 R L (net.forward 𝕜)

theorem SRModel.byView {forward : Complex R L → Py (List R)} (h : SRModel 𝕜 R L forward) (mB : Nat) :
    ∃ p : View R → R, (∀ cs : List (Complex R L), cs ≠ [] → (∀ c ∈ cs, c.Ready) → (∀ c ∈ cs, 0 < c.cellsIn 0) →
        (fromComplexList cs mB >>= forward) = .ok (cs.map fun c => p c.view)) ∧
      ∀ (c c' : Complex R L) (φ : Nat → Nat → Nat), Relabels c.view c'.view φ → c.Ready → c'.Ready → 0 < c.cellsIn 0 →
        p c.view = p c'.view := by
  have key : ∀ {fwd : Complex R L → Py (List R)}, Network 𝕜 R L fwd → ∃ p : View R → R,
      (∀ cs : List (Complex R L), cs ≠ [] → (∀ c ∈ cs, c.Ready) → (∀ c ∈ cs, 0 < c.cellsIn 0) →
        (fromComplexList cs mB >>= fwd) = .ok (cs.map fun c => p c.view)) ∧
      ∀ (c c' : Complex R L) (φ : Nat → Nat → Nat), Relabels c.view c'.view φ → c.Ready → c'.Ready → 0 < c.cellsIn 0 →
        p c.view = p c'.view := by
    intro fwd hnet
    obtain ⟨p, hp⟩ := hnet.byView mB
    refine ⟨p, hp, fun c c' φ hφ hr hr' h0 => ?_⟩
    obtain ⟨q, h1, h2⟩ := hnet.invariant mB hφ hr hr' h0
    have h0' : 0 < c'.cellsIn 0 := by
      rw [← ready_X_length hr', hφ.size, ready_X_length hr]
      exact h0
    have e1 := hp [c] (by simp) (by simpa using hr) (by simpa using h0)
    have e2 := hp [c'] (by simp) (by simpa using hr') (by simpa using h0')
    rw [h1] at e1
    rw [h2] at e2
    simp only [ok_inj, List.map_cons, List.map_nil, List.cons.injEq, and_true] at e1 e2
    rw [← e1, ← e2]
  cases h with
  | cell _ h => exact key h
  | baseline net h =>
    obtain ⟨sparse, hs, -, hsame⟩ := C92_sparse_can_be_agnostic (𝕜 := 𝕜) (L := L) net h
    obtain ⟨p, h1, h2⟩ := key (.sparse sparse hs)
    refine ⟨p, fun cs hne hr h0 => ?_, h2⟩
    obtain ⟨ps, e1, e2⟩ := hsame cs hne hr h0 mB
    rw [e1, ← e2]
    exact h1 cs hne hr h0

variable [DecidableEq R] [DecidableEq L]

/-- The complex of a graph has dimension 2 exactly if the graph has a ring. -/
theorem lifted_ring {agg : List R → R} (hperm : ∀ l l' : List R, l.Perm l' → agg l = agg l') {g : Gudhi} (hg : g.Ok)
    {lib : RingLib} (hl : lib.Ok) (one : R) {G : RawGraph} (hG : G.Plain) {k size : Nat} {down : Bool} {c : Complex R L}
    (h : (srGraph one G : GraphData R L).lifted g lib agg k (some size) down = .ok c) :
    c.view.X 2 ≠ [] ↔ G.HasRing size := by
  have x1 := hG.ok (F := R) (L := L) one
  have s1 := hG.simple (F := R) (L := L) one
  have hok : (⟨G.2, List.replicate G.2 one, G.1, none, none⟩ : RGraph R L).Ok :=
    ⟨x1.pos, x1.rows, x1.edges, s1.noLoops, s1.attr, x1.labels⟩
  obtain ⟨c1, e1, f1, -⟩ := ring_shows (agg := agg) (maxK := size) (down := down) (initEdges := true) (initRings := true)
    hg hl hperm hok 2
  obtain ⟨⟨c2, e2, -, -, -, hdim, -⟩, -⟩ := C28_ring_lifting_succeeds (L := L) g hg lib hl agg (List.replicate G.2 one) G.1
    none G.2 none size down true true x1.edges s1.noLoops x1.pos x1.rows x1.labels s1.attr
  have h' : ringComplex g lib agg (some (List.replicate G.2 one)) G.1 none G.2 (none : Option (List L)) size down true true =
    .ok c := h
  have e1' : ringComplex g lib agg (some (List.replicate G.2 one)) G.1 none G.2 (none : Option (List L)) size down true true =
    .ok c1 := e1
  rw [h'] at e1' e2
  cases e1'
  cases e2
  rw [show G.HasRing size ↔ _ from hdim.symm]
  have hlen := ready_X_length f1.ready 2
  constructor
  · intro hx
    by_contra hne
    have : c.dimension < 2 := by have := f1.small; omega
    rw [view_X_none (absent_of_gt f1.valid this)] at hx
    exact hx rfl
  · intro h2 h0
    have := f1.cells 2 (by omega)
    rw [h0] at hlen
    simp at hlen
    omega

/-- Two constructions, then all batches. -/
theorem embed_core {forward : Complex R L → Py (List R)} (hnet : SRModel 𝕜 R L forward) {agg : List R → R}
    (hperm : ∀ l l' : List R, l.Perm l' → agg l = agg l') {width : R → Nat} {w : Nat}
    (hagg : ∀ l : List R, l ≠ [] → (∀ r ∈ l, width r = w) → width (agg l) = w) {one : R} (hone : width one = w)
    {data : List RawGraph} (hd : ∀ G ∈ data, G.Plain) (hne : data ≠ []) {libs : SRLibs} (hlibs : libs.Ok)
    {disk : Nat → Option (Storage R L)} (hdisk : FilesHold agg one data (some 6) false disk) :
    ∃ b1 b preds,
      srDataset libs.gudhi libs.rings agg width libs.order one (.ok data) (some 6) false disk 2 = .ok b1 ∧
      srDataset libs.gudhi' libs.rings' agg width libs.order one (.ok data) (some 6) false b1.disk 2 = .ok b ∧
      FilesHold agg one data (some 6) false b.disk ∧
      (∀ (g : Gudhi) (lib : RingLib), g.Ok → lib.Ok → List.Forall₂ (fun G p => ∃ c,
        (srGraph one G : GraphData R L).lifted g lib agg 2 (some 6) false = .ok c ∧
        (fromComplexList [c] 2 >>= forward) = .ok [p]) data preds) ∧
      ∃ batches, wholeLoader libs.order b.dataset = .ok batches ∧
        ((∀ part ∈ chunks 8 data, ∃ G ∈ part, G.HasRing 6) → infer (embedBatch forward) batches = .ok preds) ∧
        ((∃ part ∈ chunks 8 data, ∀ G ∈ part, ¬ G.HasRing 6) →
          infer (embedBatch forward) batches = .error .attribute) := by
  have q1 : (⟨libs.gudhi, libs.rings, libs.order, 2⟩ : Request).Ok (some 6) :=
    ⟨hlibs.gudhi, hlibs.rings, hlibs.order, show 1 ≤ 2 by omega, fun size h => by cases h; exact ⟨by omega, rfl⟩⟩
  have q2 : (⟨libs.gudhi', libs.rings', libs.order, 2⟩ : Request).Ok (some 6) :=
    ⟨hlibs.gudhi', hlibs.rings', hlibs.order, show 1 ≤ 2 by omega, fun size h => by cases h; exact ⟨by omega, rfl⟩⟩
  obtain ⟨b1, -, -, a1, a2, -⟩ := build_ok hperm hagg hone hd hne hdisk q1
  obtain ⟨b, comps, st, h1, h2, h3, -, h4, h5, h6, -, h7⟩ := build_ok hperm hagg hone hd hne a2 q2
  obtain ⟨p, p1, p2⟩ := hnet.byView 2
  have hcomps : comps ≠ [] := by
    rintro rfl
    exact hne (List.forall₂_nil_right_iff.mp (h7 _ _ hlibs.gudhi hlibs.rings))
  obtain ⟨cs', r1, r2⟩ := wholeLoader_eq hlibs.order hcomps h5 h6
  have hready : ∀ c ∈ cs', c.Ready ∧ 0 < c.cellsIn 0 := by
    intro c hc
    obtain ⟨c0, -, h⟩ := forall₂_mem r1.flip hc
    exact ⟨h.2.1, h.2.2.1⟩
  -- what becomes of each graph
  have hring : List.Forall₂ (fun (G : RawGraph) (c' : Complex R L) => 2 ≤ c'.dimension ↔ G.HasRing 6) data cs' := by
    have t1 := h7 _ _ hlibs.gudhi hlibs.rings
    rw [List.forall₂_iff_get] at t1 r1 ⊢
    refine ⟨t1.1.trans r1.1, fun i hi hi' => ?_⟩
    obtain ⟨c, φ, k1, k2, k3, k4, k5⟩ := t1.2 i hi (by rw [← t1.1]; exact hi)
    obtain ⟨u1, u2, u3, u4⟩ := r1.2 i (by rw [← t1.1]; exact hi) hi'
    have hm : comps.get ⟨i, by rw [← t1.1]; exact hi⟩ ∈ comps := List.get_mem _ _
    rw [← lifted_ring hperm hlibs.gudhi hlibs.rings one (hd _ (List.get_mem data ⟨i, hi⟩)) k1, u4]
    have hlen := ready_X_length k4 2
    have hsz := k2.size 2
    constructor
    · intro h2 h0
      have := h5.full _ hm 2 h2
      rw [h0] at hsz
      simp only [List.length_nil, List.length_eq_zero_iff] at hsz
      rw [hsz, List.length_nil] at hlen
      omega
    · intro hx
      by_contra hlt
      rw [view_X_none (absent_of_gt k4.valid (by omega))] at hsz
      exact hx (List.length_eq_zero_iff.mp (by simpa using hsz.symm))
  have hparts := chunks_forall₂ hring 8
  obtain ⟨z1, z2, -, -⟩ := chunks_spec (by omega : 0 < 8) cs'
  have hall : ∀ ds ∈ chunks 8 cs', ∀ c ∈ ds, c ∈ cs' := fun ds hds c hc => by
    rw [← z1]
    exact List.mem_flatten.mpr ⟨ds, hds, hc⟩
  have hcs' : cs' ≠ [] := by
    rintro rfl
    exact hcomps (List.forall₂_nil_right_iff.mp r1)
  obtain ⟨i1, i2⟩ := infer_double (forward := forward) (p := fun c => p c.view) (parts := chunks 8 cs') (fun ds hds =>
    ⟨(z2 ds hds).1, fun c hc => (hready c (hall ds hds c hc)).1, p1 ds (z2 ds hds).1
      (fun c hc => (hready c (hall ds hds c hc)).1) fun c hc => (hready c (hall ds hds c hc)).2⟩) (by
    intro h0
    rw [h0] at z1
    exact hcs' z1.symm)
  rw [z1] at i1
  obtain ⟨batches, hbatches⟩ : ∃ batches, mapE (fun ds => fromComplexList ds 2) (chunks 8 cs') = .ok batches := by
    obtain ⟨l, hl, -⟩ := mapE_forall₂ (f := fun ds : List (Complex R L) => fromComplexList ds 2) (P := fun _ _ => True)
      (l := chunks 8 cs') (fun ds hds => by
        obtain ⟨B, hB, -⟩ := bind_eq_ok.mp (p1 ds (z2 ds hds).1 (fun c hc => (hready c (hall ds hds c hc)).1) fun c hc =>
          (hready c (hall ds hds c hc)).2)
        exact ⟨B, hB, trivial⟩)
    exact ⟨l, hl⟩
  rw [hbatches, ok_bind] at i1 i2
  refine ⟨b1, b, cs'.map fun c => p c.view, a1, h1, h2, fun g lib hg hlib => ?_, batches, ?_, fun hyes => i1 ?_,
    fun hno => i2 ?_⟩
  · have t1 := h7 g lib hg hlib
    rw [List.forall₂_map_right_iff]
    rw [List.forall₂_iff_get] at t1 r1 ⊢
    refine ⟨t1.1.trans r1.1, fun i hi hi' => ?_⟩
    obtain ⟨c, φ, k1, k2, k3, k4, k5⟩ := t1.2 i hi (by rw [← t1.1]; exact hi)
    obtain ⟨u1, u2, u3, u4⟩ := r1.2 i (by rw [← t1.1]; exact hi) hi'
    refine ⟨c, k1, ?_⟩
    rw [p1 [c] (by simp) (by simpa using k3) (by simpa using k5), u1, ← p2 _ _ φ k2 k3 k4 k5]
    rfl
  · rw [h4, r2]
    exact hbatches
  · intro ds hds
    obtain ⟨part, hpart, hpd⟩ := forall₂_mem hparts.flip hds
    obtain ⟨G, hG, hGr⟩ := hyes part hpart
    obtain ⟨c, hc, hiff⟩ := forall₂_mem hpd hG
    exact ⟨c, hc, hiff.mpr hGr⟩
  · obtain ⟨part, hpart, hlow⟩ := hno
    obtain ⟨ds, hds, hpd⟩ := forall₂_mem hparts hpart
    refine ⟨ds, hds, fun c hc => ?_⟩
    obtain ⟨G, hG, hiff⟩ := forall₂_mem hpd.flip hc
    by_contra hlt
    exact hlow G hG (hiff.mp (by omega))

/-- The division into parts of eight is `chunks 8`. -/
theorem parts_eq {A : Type} {data : List A} {parts : List (List A)} (h : Division 8 data parts) : parts = chunks 8 data :=
  (C75_division 8 (by omega) data).2.2 parts h

theorem head_width {entries : R → List ℚ} {classes : Nat} {rows : List R} (h : ∀ r ∈ rows, (entries r).length = classes) :
    pyAssert (rows.head?.all fun r => (entries r).length == classes) = .ok () := by
  cases rows with
  | nil => rfl
  | cons r rows => simp [pyAssert, h r (by simp)]

/-- The rows that come out of the forward pass, in single batches. -/
theorem width_of_preds {forward : Complex R L → Py (List R)} {entries : R → List ℚ} {classes : Nat}
    (hwidth : ∀ B rows, forward B = .ok rows → ∀ r ∈ rows, (entries r).length = classes) {data : List RawGraph}
    {preds : List R} {one : R} {g : Gudhi} {lib : RingLib} {agg : List R → R}
    (h : List.Forall₂ (fun G p => ∃ c, (srGraph one G : GraphData R L).lifted g lib agg 2 (some 6) false = .ok c ∧
        (fromComplexList [c] 2 >>= forward) = .ok [p]) data preds) : ∀ r ∈ preds, (entries r).length = classes := by
  intro r hr
  obtain ⟨G, -, c, -, h2⟩ := forall₂_mem h.flip hr
  obtain ⟨B, -, h3⟩ := bind_eq_ok.mp h2
  exact hwidth B _ h3 r (by simp)

theorem compute_core {forward : Complex R L → Py (List R)} (hnet : SRModel 𝕜 R L forward) {agg : List R → R}
    (hperm : ∀ l l' : List R, l.Perm l' → agg l = agg l') {width : R → Nat} {w : Nat}
    (hagg : ∀ l : List R, l ≠ [] → (∀ r ∈ l, width r = w) → width (agg l) = w) {one : R} (hone : width one = w)
    {entries : R → List ℚ} {classes : Nat}
    (hwidth : ∀ B rows, forward B = .ok rows → ∀ r ∈ rows, (entries r).length = classes)
    {data : List RawGraph} (hd : ∀ G ∈ data, G.Plain) (hne : data ≠ []) {libs : SRLibs} (hlibs : libs.Ok)
    {disk : Nat → Option (Storage R L)} (hdisk : FilesHold agg one data (some 6) false disk) :
    ∃ preds b1 b,
      srDataset libs.gudhi libs.rings agg width libs.order one (.ok data) (some 6) false disk 2 = .ok b1 ∧
      srDataset libs.gudhi' libs.rings' agg width libs.order one (.ok data) (some 6) false b1.disk 2 = .ok b ∧
      FilesHold agg one data (some 6) false b.disk ∧
      (∀ (g : Gudhi) (lib : RingLib), g.Ok → lib.Ok → List.Forall₂ (fun G p => ∃ c,
        (srGraph one G : GraphData R L).lifted g lib agg 2 (some 6) false = .ok c ∧
        (fromComplexList [c] 2 >>= forward) = .ok [p]) data preds) ∧
      ((∀ part ∈ chunks 8 data, ∃ G ∈ part, G.HasRing 6) →
        computeEmbeddings libs agg width one forward entries classes (.ok data) disk = .ok (preds, b.disk)) ∧
      ((∃ part ∈ chunks 8 data, ∀ G ∈ part, ¬ G.HasRing 6) →
        computeEmbeddings libs agg width one forward entries classes (.ok data) disk = .error .attribute) := by
  obtain ⟨b1, b, preds, h1, h2, h3, h4, batches, h5, h6, h7⟩ := embed_core hnet hperm hagg hone hd hne hlibs hdisk
  refine ⟨preds, b1, b, h1, h2, h3, h4, fun hyes => ?_, fun hno => ?_⟩
  · unfold computeEmbeddings srTwice
    rw [h1, ok_bind, h2, ok_bind]
    unfold embedAll
    rw [h5, ok_bind, h6 hyes, ok_bind, head_width (width_of_preds hwidth (h4 _ _ hlibs.gudhi hlibs.rings))]
    rfl
  · unfold computeEmbeddings srTwice
    rw [h1, ok_bind, h2, ok_bind]
    unfold embedAll
    rw [h5, ok_bind, h7 hno]
    rfl

/-- **C104** The embeddings of a family. Whatever was requested of the dataset before: if each part of eight consecutive
graphs (the last part may have fewer) has a graph with an induced cycle of at most six nodes, then the embeddings are in
order those of the complexes lifted from the graphs one by one, and the processed files are again such as requests leave
them; if some part has no such graph, the result is an `AttributeError`, as the batch of the part has no two-cells. -/
theorem C104_embeddings (forward : Complex R L → Py (List R)) (hnet : SRModel 𝕜 R L forward) (agg : List R → R)
    (hperm : ∀ l l' : List R, l.Perm l' → agg l = agg l') (width : R → Nat) (w : Nat)
    (hagg : ∀ l : List R, l ≠ [] → (∀ r ∈ l, width r = w) → width (agg l) = w) (one : R) (hone : width one = w)
    (entries : R → List ℚ) (classes : Nat)
    (hwidth : ∀ B rows, forward B = .ok rows → ∀ r ∈ rows, (entries r).length = classes)
    (data : List RawGraph) (hd : ∀ G ∈ data, G.Plain) (hne : data ≠ []) (libs : SRLibs) (hlibs : libs.Ok)
    (qs : List Request) (hqs : ∀ q ∈ qs, q.Ok (some 6)) (disk : Nat → Option (Storage R L))
    (h : After agg width one (.ok data) (some 6) false qs disk) (parts : List (List RawGraph))
    (hparts : Division 8 data parts) :
    ((∀ part ∈ parts, ∃ G ∈ part, G.HasRing 6) → ∃ preds disk' qs',
      computeEmbeddings libs agg width one forward entries classes (.ok data) disk = .ok (preds, disk') ∧
      After agg width one (.ok data) (some 6) false qs' disk' ∧ (∀ q ∈ qs', q.Ok (some 6)) ∧
      ∀ (g : Gudhi) (lib : RingLib), g.Ok → lib.Ok → List.Forall₂ (fun G p => ∃ c,
        (srGraph one G : GraphData R L).lifted g lib agg 2 (some 6) false = .ok c ∧
        (fromComplexList [c] 2 >>= forward) = .ok [p]) data preds) ∧
    ((∃ part ∈ parts, ∀ G ∈ part, ¬ G.HasRing 6) →
      computeEmbeddings libs agg width one forward entries classes (.ok data) disk = .error .attribute) := by
  rw [parts_eq hparts]
  have q1 : (⟨libs.gudhi, libs.rings, libs.order, 2⟩ : Request).Ok (some 6) :=
    ⟨hlibs.gudhi, hlibs.rings, hlibs.order, show 1 ≤ 2 by omega, fun size h => by cases h; exact ⟨by omega, rfl⟩⟩
  have q2 : (⟨libs.gudhi', libs.rings', libs.order, 2⟩ : Request).Ok (some 6) :=
    ⟨hlibs.gudhi', hlibs.rings', hlibs.order, show 1 ≤ 2 by omega, fun size h => by cases h; exact ⟨by omega, rfl⟩⟩
  obtain ⟨preds, b1, b, h1, h2, -, h4, h5, h6⟩ := compute_core hnet hperm hagg hone hwidth hd hne hlibs
    (after_holds hperm hagg hone hd hne h hqs)
  refine ⟨fun hyes => ⟨preds, b.disk, _, h5 hyes, .next (.next h (q := ⟨libs.gudhi, libs.rings, libs.order, 2⟩) h1)
    (q := ⟨libs.gudhi', libs.rings', libs.order, 2⟩) h2, ?_, h4⟩, h6⟩
  intro q hq
  simp only [List.mem_append, List.mem_singleton, or_assoc] at hq
  rcases hq with hq | rfl | rfl
  · exact hqs q hq
  · exact q1
  · exact q2

/-- The greatest absolute value. -/
theorem magnitude_spec (entries : R → List ℚ) (rows : List R) :
    (∀ m, magnitude entries rows = .ok m ↔ IsGreatest (absEntries entries rows) m) ∧
      (absEntries entries rows = ∅ → magnitude entries rows = .error .runtime) ∧
      ((absEntries entries rows).Nonempty → ∃ m, magnitude entries rows = .ok m) := by
  have hmem : ∀ v, v ∈ ((rows.flatMap entries).map fun v => |v|) ↔ v ∈ absEntries entries rows := by
    intro v
    unfold absEntries
    simp only [List.mem_map, List.mem_flatMap, Set.mem_setOf_eq]
    constructor
    · rintro ⟨a, ⟨r, hr, ha⟩, rfl⟩
      exact ⟨r, hr, a, ha, rfl⟩
    · rintro ⟨r, hr, a, ha, rfl⟩
      exact ⟨a, ⟨r, hr, ha⟩, rfl⟩
  unfold magnitude
  cases hm : ((rows.flatMap entries).map fun v => |v|).max? with
  | none =>
    rw [List.max?_eq_none_iff] at hm
    refine ⟨fun m => ⟨fun h => (by cases h), fun h => ?_⟩, fun _ => rfl, fun ⟨v, hv⟩ => ?_⟩
    · have := (hmem m).mpr h.1
      rw [hm] at this
      simp at this
    · have := (hmem v).mpr hv
      rw [hm] at this
      simp at this
  | some m' =>
    rw [List.max?_eq_some_iff] at hm
    have hg : IsGreatest (absEntries entries rows) m' :=
      ⟨(hmem m').mp hm.1, fun v hv => hm.2 v ((hmem v).mpr hv)⟩
    refine ⟨fun m => ⟨fun h => ?_, fun h => ?_⟩, fun h => ?_, fun _ => ⟨m', rfl⟩⟩
    · cases h
      exact hg
    · rw [hg.unique h]
    · have := hg.1
      rw [h] at this
      exact absurd this (Set.notMem_empty _)

theorem absEntries_nonempty {entries : R → List ℚ} {classes : Nat} (hc : 0 < classes) {rows : List R} (hne : rows ≠ [])
    (h : ∀ r ∈ rows, (entries r).length = classes) : (absEntries entries rows).Nonempty := by
  obtain ⟨r, hr⟩ := List.exists_mem_of_ne_nil _ hne
  have hl := h r hr
  have : entries r ≠ [] := by
    intro h0
    rw [h0] at hl
    simp at hl
    omega
  obtain ⟨e, he⟩ := List.exists_mem_of_ne_nil _ this
  exact ⟨|e|, r, hr, e, he, rfl⟩

/-- What the script finds for a family and a seed. -/
def IsMagnitude (agg : List R → R) (one : R) (forward : Complex R L → Py (List R)) (entries : R → List ℚ)
    (data : List RawGraph) (m : ℚ) : Prop :=
  ∀ (g : Gudhi) (lib : RingLib), g.Ok → lib.Ok → ∃ preds, List.Forall₂ (fun G p => ∃ c,
    (srGraph one G : GraphData R L).lifted g lib agg 2 (some 6) false = .ok c ∧
    (fromComplexList [c] 2 >>= forward) = .ok [p]) data preds ∧ IsGreatest (absEntries entries preds) m

theorem family_ok {agg : List R → R}
    (hperm : ∀ l l' : List R, l.Perm l' → agg l = agg l') {width : R → Nat} {w : Nat}
    (hagg : ∀ l : List R, l ≠ [] → (∀ r ∈ l, width r = w) → width (agg l) = w) {one : R} (hone : width one = w)
    {nets : Nat → Complex R L → Py (List R)} (hnet : ∀ s, SRModel 𝕜 R L (nets s))
    {entries : R → List ℚ} {classes : Nat} (hc : 0 < classes)
    (hwidth : ∀ s B rows, nets s B = .ok rows → ∀ r ∈ rows, (entries r).length = classes)
    {data : List RawGraph} (hd : ∀ G ∈ data, G.Plain) (hne : data ≠ []) {libs : Nat → SRLibs} (hlibs : ∀ s, (libs s).Ok)
    (hrings : ∀ part ∈ chunks 8 data, ∃ G ∈ part, G.HasRing 6) :
    ∀ (seeds : List Nat) (disk : Nat → Option (Storage R L)), FilesHold agg one data (some 6) false disk →
    ∃ ms, familyMagnitudes libs agg width one nets entries classes (.ok data) disk seeds = .ok ms ∧
      List.Forall₂ (fun s m => IsMagnitude agg one (nets s) entries data m) seeds ms := by
  intro seeds
  induction seeds with
  | nil => exact fun _ _ => ⟨[], rfl, .nil⟩
  | cons s seeds ih =>
    intro disk hdisk
    obtain ⟨preds, b1, b, -, -, h3, h4, h5, -⟩ := compute_core (hnet s) hperm hagg hone (hwidth s) hd hne (hlibs s) hdisk
    obtain ⟨ms, e1, e2⟩ := ih b.disk h3
    have hp := h4 _ _ (hlibs s).gudhi (hlibs s).rings
    have hpn : preds ≠ [] := by
      rintro rfl
      exact hne (List.forall₂_nil_right_iff.mp hp)
    obtain ⟨m, hm⟩ := (magnitude_spec entries preds).2.2 (absEntries_nonempty hc hpn (width_of_preds (hwidth s) hp))
    refine ⟨m :: ms, ?_, .cons ?_ e2⟩
    · unfold familyMagnitudes
      rw [h5 hrings, ok_bind]
      dsimp only
      rw [hm, ok_bind, e1, ok_bind]
      rfl
    · exact fun g lib hg hl => ⟨preds, h4 g lib hg hl, ((magnitude_spec entries preds).1 m).mp hm⟩

/-- **C104** The script, for families in which every part of eight graphs has a graph with an induced cycle of at most six
nodes: with a ring size of more than 3 it writes, for every family and each of the seeds 0 to 4, the greatest absolute
value of an entry of the embeddings of the network with that seed. The ring size changes the name of the file and its
first line, and nothing else: the rings always have at most six nodes. With any other ring size it stops at once. -/
theorem C104_script (agg : List R → R)
    (hperm : ∀ l l' : List R, l.Perm l' → agg l = agg l') (width : R → Nat) (w : Nat)
    (hagg : ∀ l : List R, l ≠ [] → (∀ r ∈ l, width r = w) → width (agg l) = w) (one : R) (hone : width one = w)
    (nets : Bool → Nat → Complex R L → Py (List R)) (hnet : ∀ base s, SRModel 𝕜 R L (nets base s))
    (entries : R → List ℚ) (classes : Nat) (hc : 0 < classes)
    (hwidth : ∀ base s B rows, nets base s B = .ok rows → ∀ r ∈ rows, (entries r).length = classes)
    (libs : Nat → Nat → SRLibs) (hlibs : ∀ f s, (libs f s).Ok)
    (families : List (Py (List RawGraph) × (Nat → Option (Storage R L))))
    (hfam : ∀ f ∈ families, ∃ data qs parts, f.1 = .ok data ∧ data ≠ [] ∧ (∀ G ∈ data, G.Plain) ∧
      After agg width one (.ok data) (some 6) false qs f.2 ∧ (∀ q ∈ qs, q.Ok (some 6)) ∧ Division 8 data parts ∧
      ∀ part ∈ parts, ∃ G ∈ part, G.HasRing 6) (baseline : Bool) :
    (∃ ms, (∀ k : Int, 3 < k → magnitudeScript libs agg width one nets entries classes families baseline k = .ok
        ⟨(if baseline then "sr-base-" else "sr-") ++ toString k ++ ".txt",
          "Model: " ++ (if baseline then "MLP-sum" else "CIN") ++ "(" ++ toString k ++ ")", ms⟩) ∧
      List.Forall₂ (fun f fs => List.Forall₂ (fun s m => ∃ data, f.1 = .ok data ∧
        IsMagnitude agg one (nets baseline s) entries data m) [0, 1, 2, 3, 4] fs) families ms) ∧
    ∀ k : Int, k ≤ 3 →
      magnitudeScript libs agg width one nets entries classes families baseline k = .error .assertion := by
  constructor
  · obtain ⟨ms, h1, h2⟩ := mapE_forall₂ (f := fun fi : (Py (List RawGraph) × (Nat → Option (Storage R L))) × Nat =>
      familyMagnitudes (libs fi.2) agg width one (nets baseline) entries classes fi.1.1 fi.1.2 (List.range 5))
      (P := fun fi fs => List.Forall₂ (fun s m => ∃ data, fi.1.1 = .ok data ∧
        IsMagnitude agg one (nets baseline s) entries data m) [0, 1, 2, 3, 4] fs) (l := families.zipIdx) (by
        rintro ⟨f, i⟩ hfi
        have hf : f ∈ families := List.mem_of_getElem? (mem_of_mem_zipIdx' hfi)
        obtain ⟨data, qs, parts, a1, a2, a3, a4, a5, a6, a7⟩ := hfam f hf
        rw [parts_eq a6] at a7
        obtain ⟨fs, b1, b2⟩ := family_ok hperm hagg hone (fun s => hnet baseline s) hc (fun s => hwidth baseline s) a3 a2
          (fun s => hlibs i s) a7 (List.range 5) f.2 (after_holds hperm hagg hone a3 a2 a4 a5)
        refine ⟨fs, ?_, b2.imp fun s m h => ⟨data, a1, h⟩⟩
        dsimp only
        rw [a1]
        exact b1)
    refine ⟨ms, fun k hk => ?_, ?_⟩
    · unfold magnitudeScript
      rw [show pyAssert (decide (3 < k)) = .ok () by simp [pyAssert, hk], ok_bind, h1, ok_bind]
      rfl
    · have hz : families = families.zipIdx.map Prod.fst := by rw [List.zipIdx_map_fst]
      conv => arg 2; rw [hz]
      rw [List.forall₂_map_left_iff]
      exact h2
  · intro k hk
    unfold magnitudeScript
    rw [show pyAssert (decide (3 < k)) = .error .assertion by simp [pyAssert]; omega]
    rfl

/-- **C104** Strongly regular graphs are safe: if every node has at least two neighbours, there is an induced cycle of at
most five nodes. -/
theorem C104_regular_graphs_have_rings (G : RawGraph) (hG : G.Plain) (k l m : Nat) (h : StronglyRegular G.1 G.2 k l m)
    (hk : 2 ≤ k) : G.HasRing 5 :=
  regular_ring h hG.pos hk

/-- **C104** So on a family of strongly regular graphs of degree at least 2 the embeddings are always computed. -/
theorem C104_families (forward : Complex R L → Py (List R)) (hnet : SRModel 𝕜 R L forward) (agg : List R → R)
    (hperm : ∀ l l' : List R, l.Perm l' → agg l = agg l') (width : R → Nat) (w : Nat)
    (hagg : ∀ l : List R, l ≠ [] → (∀ r ∈ l, width r = w) → width (agg l) = w) (one : R) (hone : width one = w)
    (entries : R → List ℚ) (classes : Nat)
    (hwidth : ∀ B rows, forward B = .ok rows → ∀ r ∈ rows, (entries r).length = classes)
    (data : List RawGraph) (hd : ∀ G ∈ data, G.Plain) (hne : data ≠ [])
    (hreg : ∀ G ∈ data, ∃ k l m, 2 ≤ k ∧ StronglyRegular G.1 G.2 k l m) (libs : SRLibs) (hlibs : libs.Ok)
    (qs : List Request) (hqs : ∀ q ∈ qs, q.Ok (some 6)) (disk : Nat → Option (Storage R L))
    (h : After agg width one (.ok data) (some 6) false qs disk) :
    ∃ preds disk', computeEmbeddings libs agg width one forward entries classes (.ok data) disk = .ok (preds, disk') ∧
      preds.length = data.length := by
  obtain ⟨h1, h2, -⟩ := chunks_spec (by omega : 0 < 8) data
  obtain ⟨preds, disk', qs', e1, -, -, e2⟩ := (C104_embeddings forward hnet agg hperm width w hagg one hone entries classes
    hwidth data hd hne libs hlibs qs hqs disk h (chunks 8 data) (C75_division 8 (by omega) data).1).1 (by
    intro part hpart
    obtain ⟨G, hG⟩ := List.exists_mem_of_ne_nil _ (h2 part hpart).1
    have hm : G ∈ data := by
      rw [← h1]
      exact List.mem_flatten.mpr ⟨part, hpart, hG⟩
    obtain ⟨k, l, m, hk, hr⟩ := hreg G hm
    obtain ⟨r, hr1, hr2⟩ := C104_regular_graphs_have_rings G (hd G hm) k l m hr hk
    exact ⟨G, hG, r, hr1, by omega⟩)
  exact ⟨preds, disk', e1, (e2 _ _ hlibs.gudhi hlibs.rings).length_eq.symm⟩

/-- The complexes of isomorphic graphs, for all networks of the test. -/
theorem model_iso {forward : Complex R L → Py (List R)} (hnet : SRModel 𝕜 R L forward) {agg : List R → R}
    (hperm : ∀ l l' : List R, l.Perm l' → agg l = agg l') {g : Gudhi} (hg : g.Ok) {lib : RingLib}
    (hlib : lib.Ok) (one : R) {G H : RawGraph} (hG : G.Plain) (hH : H.Plain) (hiso : G.Iso H) {c c' : Complex R L} {p p' : R}
    (h1 : (srGraph one G : GraphData R L).lifted g lib agg 2 (some 6) false = .ok c)
    (h2 : (srGraph one H : GraphData R L).lifted g lib agg 2 (some 6) false = .ok c')
    (h3 : (fromComplexList [c] 2 >>= forward) = .ok [p]) (h4 : (fromComplexList [c'] 2 >>= forward) = .ok [p']) :
    p = p' := by
  cases hnet with
  | cell _ hn => exact lifted_iso hn hperm hg hg hlib hlib one hG hH hiso 2 (some 6) false 2 h1 h2 h3 h4
  | baseline net hn =>
    obtain ⟨sparse, hs, -, hsame⟩ := C92_sparse_can_be_agnostic (𝕜 := 𝕜) (L := L) net hn
    have ready : ∀ {G : RawGraph} {c : Complex R L}, G.Plain →
        (srGraph one G : GraphData R L).lifted g lib agg 2 (some 6) false = .ok c → c.Ready ∧ 0 < c.cellsIn 0 := by
      intro G c hG hc
      have x1 := hG.ok (F := R) (L := L) one
      have s1 := hG.simple (F := R) (L := L) one
      obtain ⟨c1, e1, f1, -⟩ := ring_shows (agg := agg) (maxK := 6) (down := false) (initEdges := true) (initRings := true)
        hg hlib hperm (⟨x1.pos, x1.rows, x1.edges, s1.noLoops, s1.attr, x1.labels⟩ :
          (⟨G.2, List.replicate G.2 one, G.1, none, none⟩ : RGraph R L).Ok) 2
      have e1' : (srGraph one G : GraphData R L).lifted g lib agg 2 (some 6) false = .ok c1 := e1
      rw [hc] at e1'
      cases e1'
      exact ⟨f1.ready, f1.cells 0 (Nat.zero_le _)⟩
    have move : ∀ {G : RawGraph} {c : Complex R L} {p : R}, G.Plain →
        (srGraph one G : GraphData R L).lifted g lib agg 2 (some 6) false = .ok c →
        (fromComplexList [c] 2 >>= net.forward 𝕜) = .ok [p] →
        (fromComplexList [c] 2 >>= sparse.forward 𝕜 SparseLevel.forward) = .ok [p] := by
      intro G c p hG hc hp
      obtain ⟨r1, r2⟩ := ready hG hc
      obtain ⟨ps, e1, e2⟩ := hsame [c] (by simp) (by simpa using r1) (by simpa using r2) 2
      rw [e2, ← e1]
      exact hp
    exact lifted_iso (.sparse sparse hs) hperm hg hg hlib hlib one hG hH hiso 2 (some 6) false 2 h1 h2 (move hG h1 h3)
      (move hH h2 h4)

theorem HasRing.iso {G H : RawGraph} (hG : G.Plain) (hiso : G.Iso H) {k : Nat} (h : G.HasRing k) : H.HasRing k := by
  obtain ⟨-, π, p1, p2, p3⟩ := hiso
  obtain ⟨r, hr, hk⟩ := h
  have hin : ∀ v ∈ r, v < G.2 := by
    intro v hv
    obtain ⟨i, hi⟩ := List.mem_iff_getElem?.mp hv
    have hlt := lt_of_get hi
    have hlong := hr.long
    have : ∃ j u, r[j]? = some u ∧ (Follows r.length i j ∨ Follows r.length j i) := by
      by_cases h0 : i = 0
      · subst h0
        exact ⟨1, r[1], List.getElem?_eq_getElem (by omega), .inl (.inl rfl)⟩
      · exact ⟨i - 1, r[i - 1], List.getElem?_eq_getElem (by omega), .inr (.inl (by omega))⟩
    obtain ⟨j, u, hu, hf⟩ := this
    have hj := (hr.joined i j v u hi hu).mpr hf
    rcases hj.2 with he | he
    · exact (hG.edges _ he).1
    · exact (hG.edges _ he).2
  refine ⟨r.map π, ⟨?_, ?_, ?_⟩, by simpa using hk⟩
  · rw [List.length_map]
    exact hr.long
  · exact hr.nodup.map_on fun x hx y hy hxy => p2 x y (hin x hx) (hin y hy) hxy
  · intro i j u v hu hv
    rw [List.getElem?_map, Option.map_eq_some_iff] at hu hv
    obtain ⟨u', hu', rfl⟩ := hu
    obtain ⟨v', hv', rfl⟩ := hv
    rw [p3 _ _ (hin _ (List.mem_of_getElem? hu')) (hin _ (List.mem_of_getElem? hv')), List.length_map]
    exact hr.joined i j u' v' hu' hv'

/-- **C104** The self-isomorphism test, for one seed. If every part of eight graphs has a graph with an induced cycle of
at most six nodes, the test passes exactly if all entries of the embeddings are smaller than 5·10⁸ in absolute value, and
otherwise stops with an `AssertionError`: the comparison with the permuted graphs never fails. If some part has no such
graph it stops with an `AttributeError`. -/
theorem C104_test [AddCommGroup L] (forward : Complex R L → Py (List R)) (hnet : SRModel 𝕜 R L forward) (agg : List R → R)
    (hperm : ∀ l l' : List R, l.Perm l' → agg l = agg l') (width : R → Nat) (w : Nat)
    (hagg : ∀ l : List R, l ≠ [] → (∀ r ∈ l, width r = w) → width (agg l) = w) (one : R) (hone : width one = w)
    (entries : R → List ℚ) (classes : Nat) (hc : 0 < classes)
    (hwidth : ∀ B rows, forward B = .ok rows → ∀ r ∈ rows, (entries r).length = classes)
    (data data' : List RawGraph) (hd : ∀ G ∈ data, G.Plain) (hne : data ≠ []) (coo : CooLib) (hcoo : coo.Correct)
    (draws : Nat → List (List Nat)) (hdraws : ∀ n, ∀ p ∈ draws n, p.Perm (List.range n))
    (hfile : permutedFile (L := L) coo draws (data.map (srGraph one)) = .ok (some data'))
    (libs libs' : SRLibs) (hlibs : libs.Ok) (hlibs' : libs'.Ok)
    (qs qs' : List Request) (hqs : ∀ q ∈ qs, q.Ok (some 6)) (hqs' : ∀ q ∈ qs', q.Ok (some 6))
    (disk disk' : Nat → Option (Storage R L)) (h : After agg width one (.ok data) (some 6) false qs disk)
    (h' : After agg width one (.ok data') (some 6) false qs' disk')
    {D : Type} [LinearOrder D] [Zero D] (dist : R → R → D) (hdist : ∀ a, dist a a = 0) (eps : D) (heps : 0 ≤ eps)
    (parts : List (List RawGraph)) (hparts : Division 8 data parts) :
    ((∀ part ∈ parts, ∃ G ∈ part, G.HasRing 6) → ∃ preds,
      (∀ (g : Gudhi) (lib : RingLib), g.Ok → lib.Ok → List.Forall₂ (fun G p => ∃ c,
        (srGraph one G : GraphData R L).lifted g lib agg 2 (some 6) false = .ok c ∧
        (fromComplexList [c] 2 >>= forward) = .ok [p]) data preds) ∧
      selfIsoTest libs libs' agg width one coo draws forward entries classes dist eps (.ok data) disk disk' =
        if ∀ r ∈ preds, ∀ e ∈ entries r, |e| < 500000000 then .ok (some ()) else .error .assertion) ∧
    ((∃ part ∈ parts, ∀ G ∈ part, ¬ G.HasRing 6) →
      selfIsoTest libs libs' agg width one coo draws forward entries classes dist eps (.ok data) disk disk' =
        .error .attribute) := by
  rw [parts_eq hparts]
  obtain ⟨out, o1, -, o2⟩ := C78_permuted_graphs (L := L) coo hcoo draws hdraws one data hd
  rw [hfile] at o1
  cases o1
  have hiso := o2 data' rfl
  have hd' : ∀ H ∈ data', H.Plain := by
    intro H hH
    obtain ⟨G, -, hGH⟩ := forall₂_mem hiso.flip hH
    exact hGH.2
  have hne' : data' ≠ [] := by
    rintro rfl
    exact hne (List.forall₂_nil_right_iff.mp hiso)
  obtain ⟨b1, b, preds, x1, x2, -, x4, batches, x5, x6, x7⟩ := embed_core hnet hperm hagg hone hd hne hlibs
    (after_holds hperm hagg hone hd hne h hqs)
  obtain ⟨b1', b', preds', y1, y2, -, y4, batches', y5, y6, -⟩ := embed_core hnet hperm hagg hone hd' hne' hlibs'
    (after_holds hperm hagg hone hd' hne' h' hqs')
  have start : ∀ {o : Py (Option Unit)}, ((infer (embedBatch forward) batches >>= fun rows =>
      infer (embedBatch forward) batches' >>= fun rows' => pyAssert (rows.length == rows'.length) >>= fun _ =>
      pyAssert ((rows.head?.all fun r => (entries r).length == classes) &&
        (rows'.head?.all fun r => (entries r).length == classes)) >>= fun _ =>
      validateMagnitude entries 500000000 rows >>= fun _ => validateMagnitude entries 500000000 rows' >>= fun _ =>
      validateSelfIso dist eps rows rows' >>= fun _ => (.ok (some ()) : Py (Option Unit))) = o) →
      selfIsoTest libs libs' agg width one coo draws forward entries classes dist eps (.ok data) disk disk' = o := by
    intro o ho
    rw [← ho]
    unfold selfIsoTest testEmbeddings
    rw [x1, ok_bind]
    show ((permutedFile coo draws (data.map (srGraph one)) >>= _) >>= _) = _
    rw [hfile, ok_bind]
    dsimp only
    rw [y1, ok_bind, x2, ok_bind, y2, ok_bind, x5, ok_bind, y5, ok_bind]
    cases infer (embedBatch forward) batches with
    | error e => rfl
    | ok rows =>
      rw [ok_bind, ok_bind]
      cases infer (embedBatch forward) batches' with
      | error e => rfl
      | ok rows' =>
        rw [ok_bind, ok_bind]
        cases pyAssert (rows.length == rows'.length) with
        | error e => rfl
        | ok u =>
          rw [ok_bind, ok_bind]
          cases pyAssert ((rows.head?.all fun r => (entries r).length == classes) &&
              (rows'.head?.all fun r => (entries r).length == classes)) with
          | error e => rfl
          | ok u => rfl
  constructor
  · intro hyes
    have g1 := x4 _ _ hlibs.gudhi hlibs.rings
    have g2 := y4 _ _ hlibs.gudhi hlibs.rings
    have hp : preds' = preds := by
      have l1 := g1.length_eq
      have l2 := g2.length_eq
      have l3 := hiso.length_eq
      refine List.ext_getElem (by omega) fun i hi hi' => ?_
      have a1 := (List.forall₂_iff_get.mp g1).2 i (by omega) hi'
      have a2 := (List.forall₂_iff_get.mp g2).2 i (by omega) hi
      have a3 := (List.forall₂_iff_get.mp hiso).2 i (by omega) (by omega)
      simp only [List.get_eq_getElem] at a1 a2 a3
      obtain ⟨c, k1, k2⟩ := a1
      obtain ⟨c', k1', k2'⟩ := a2
      exact (model_iso hnet hperm hlibs.gudhi hlibs.rings one (hd _ (List.getElem_mem _)) a3.2 a3.1 k1 k1' k2 k2').symm
    have hyes' : ∀ part ∈ chunks 8 data', ∃ G ∈ part, G.HasRing 6 := by
      intro part' hpart'
      have hboth : List.Forall₂ (fun G H => G.Plain ∧ G.Iso H) data data' := by
        rw [List.forall₂_iff_get] at hiso ⊢
        exact ⟨hiso.1, fun i hi hi' => ⟨hd _ (List.get_mem _ _), (hiso.2 i hi hi').1⟩⟩
      obtain ⟨part, hpart, hpp⟩ := forall₂_mem (chunks_forall₂ hboth 8).flip hpart'
      obtain ⟨G, hG, hGr⟩ := hyes part hpart
      obtain ⟨H, hH, hGH⟩ := forall₂_mem hpp hG
      exact ⟨H, hH, HasRing.iso hGH.1 hGH.2 hGr⟩
    refine ⟨preds, x4, start ?_⟩
    have y6' := y6 hyes'
    rw [hp] at y6'
    rw [x6 hyes, y6', ok_bind, ok_bind]
    have hw := width_of_preds hwidth g1
    have hpn : preds ≠ [] := by
      rintro rfl
      exact hne (List.forall₂_nil_right_iff.mp g1)
    obtain ⟨m, hm⟩ := (magnitude_spec entries preds).2.2 (absEntries_nonempty hc hpn hw)
    have hgr := ((magnitude_spec entries preds).1 m).mp hm
    have w1 : (preds.head?.all fun r => (entries r).length == classes) = true := by
      cases preds with
      | nil => rfl
      | cons r rows => simp [hw r (by simp)]
    rw [show pyAssert (preds.length == preds.length) = .ok () by simp [pyAssert], ok_bind, w1, Bool.and_self,
      show pyAssert true = .ok () from rfl, ok_bind]
    have hval : validateMagnitude entries 500000000 preds = pyAssert (decide (m < 500000000)) := by
      unfold validateMagnitude
      rw [hm, ok_bind]
    rw [hval]
    have hiff : m < 500000000 ↔ ∀ r ∈ preds, ∀ e ∈ entries r, |e| < 500000000 := by
      constructor
      · intro hlt r hr e he
        exact lt_of_le_of_lt (hgr.2 ⟨r, hr, e, he, rfl⟩) hlt
      · intro hall
        obtain ⟨r, hr, e, he, hme⟩ := hgr.1
        rw [hme]
        exact hall r hr e he
    by_cases hlt : m < 500000000
    · rw [if_pos (hiff.mp hlt), show pyAssert (decide (m < 500000000)) = .ok () by simp [pyAssert, hlt], ok_bind, ok_bind]
      have : validateSelfIso dist eps preds preds = .ok ((List.range preds.length).map fun _ => ()) := by
        refine mapE_eq_ok_iff.mpr ?_
        rw [List.forall₂_map_right_iff, List.forall₂_same]
        intro i hi
        obtain ⟨a, ha⟩ : ∃ a, preds[i]? = some a := ⟨_, List.getElem?_eq_getElem (List.mem_range.mp hi)⟩
        rw [getAt_eq_ok.mpr ha, ok_bind, ok_bind, pyAssert_eq_ok, hdist]
        simpa using heps
      rw [this, ok_bind]
    · rw [if_neg fun h => hlt (hiff.mpr h), show pyAssert (decide (m < 500000000)) = .error .assertion by
        simp [pyAssert, hlt]]
      rfl
  · intro hno
    refine start ?_
    rw [x7 hno]
    rfl

end

/-! ### Examples -/

open Fixtures

/-- A cycle of five nodes. -/
def fiveCycle : RawGraph := ([(0, 1), (1, 0), (1, 2), (2, 1), (2, 3), (3, 2), (3, 4), (4, 3), (4, 0), (0, 4)], 5)

/-- Two nodes and an edge. -/
def oneEdge : RawGraph := ([(0, 1), (1, 0)], 2)

theorem fiveCycle_plain : fiveCycle.Plain :=
  ⟨by decide, by unfold EdgesIn; decide, by unfold NoLoops; decide, by decide, by decide⟩

theorem oneEdge_plain : oneEdge.Plain :=
  ⟨by decide, by unfold EdgesIn; decide, by unfold NoLoops; decide, by decide, by decide⟩

/-- The cycle is strongly regular, and so is the edge, whose nodes have one neighbour only. -/
example : StronglyRegular fiveCycle.1 fiveCycle.2 2 0 1 ∧ StronglyRegular oneEdge.1 oneEdge.2 1 0 0 :=
  ⟨⟨by decide, by decide, by decide⟩, ⟨by decide, by decide, by decide⟩⟩

/-- The libraries of the examples. -/
def plainLibs : SRLibs := ⟨plainGudhi, plainRings, plainGudhi, plainRings, asGiven⟩

theorem plainLibs_ok : plainLibs.Ok :=
  ⟨plainGudhi_ok, plainRings_ok, plainGudhi_ok, plainRings_ok, fun _ => List.Perm.refl _⟩

/-- A cycle and an edge in the same part give two embeddings. -/
example : (computeEmbeddings plainLibs List.sum (fun _ => 1) (1 : ℚ)
    (sparseNetQ.forward ℚ SparseLevel.forward : Complex ℚ ℤ → Py (List ℚ)) (fun r => [r]) 1 (.ok [fiveCycle, oneEdge])
    fun _ => none).map (fun out => out.1.length) = .ok 2 := by decide +kernel

/-- An edge alone does not: there are no two-cells in the batch. -/
example : (computeEmbeddings plainLibs List.sum (fun _ => 1) (1 : ℚ)
    (sparseNetQ.forward ℚ SparseLevel.forward : Complex ℚ ℤ → Py (List ℚ)) (fun r => [r]) 1 (.ok [oneEdge])
    fun _ => none).map (fun out => out.1.length) = .error .attribute := by decide +kernel

/-- One part with a ring, and nothing on the disk: the hypotheses of the theorems. -/
example : Division 8 [fiveCycle, oneEdge] [[fiveCycle, oneEdge]] ∧ fiveCycle.HasRing 6 ∧
    SRModel ℚ ℚ ℤ (sparseNetQ.forward ℚ SparseLevel.forward) ∧
    After (L := ℤ) List.sum (fun _ => 1) (1 : ℚ) (.ok [fiveCycle, oneEdge]) (some 6) false [] (fun _ => none) := by
  refine ⟨⟨rfl, by decide, by decide⟩, ?_, .cell _ (.sparse _ sparseNetQ_fits), .start⟩
  obtain ⟨r, h1, h2⟩ := C104_regular_graphs_have_rings fiveCycle fiveCycle_plain 2 0 1 ⟨by decide, by decide, by decide⟩
    (by decide)
  exact ⟨r, h1, by omega⟩

/-- The test on a triangle and a path, with the baseline: it passes, and fails when the entries are large. -/
example : (selfIsoTest plainLibs plainLibs List.sum (fun _ => 1) (1 : ℚ) rowMajor (fun _ => [[0, 1, 2], [1, 2, 0]])
      (agnosticQ.forward ℚ : Complex ℚ ℤ → Py (List ℚ)) (fun r => [r]) 1 (fun a b => |a - b|) (1 / 100 : ℚ) (.ok srToy)
      (fun _ => none) fun _ => none) = .ok (some ()) ∧
    (selfIsoTest plainLibs plainLibs List.sum (fun _ => 1) (1 : ℚ) rowMajor (fun _ => [[0, 1, 2], [1, 2, 0]])
      (agnosticQ.forward ℚ : Complex ℚ ℤ → Py (List ℚ)) (fun r => [500000000 * (1 + |r|)]) 1 (fun a b => |a - b|)
      (1 / 100 : ℚ) (.ok srToy) (fun _ => none) fun _ => none) = .error .assertion := by
  decide +kernel

/-- The script for one family: asked for rings of at most 4 nodes, it uses the ring of 5 nodes. -/
example : (magnitudeScript (fun _ _ => plainLibs) List.sum (fun _ => 1) (1 : ℚ)
      (fun _ _ => (agnosticQ.forward ℚ : Complex ℚ ℤ → Py (List ℚ))) (fun r => [r]) 1 [(.ok [fiveCycle], fun _ => none)] true
      4).map (fun rep => (rep.file, rep.header, rep.magnitudes.map List.length)) =
    .ok ("sr-base-4.txt", "Model: MLP-sum(4)", [5]) := by decide +kernel

end Verif
