import Verif.Lemmas.SR

/-!
# C78: datasets of strongly regular graphs, from files to predictions
-/

namespace Verif

/-! ### Files -/

/-- **C78** Reading a graph6 file: if every graph of the file has an edge, no loops, and its edges lie between its
nodes, then each becomes a graph that stores every edge once in each direction and no other; a graph without edges is an
`IndexError`. -/
theorem C78_reading (toUndirected : List (Nat × Nat) → List (Nat × Nat)) (hu : Undirects toUndirected)
    (file : List RawGraph) :
    ((∀ G ∈ file, G.1 ≠ [] ∧ EdgesIn G.1 G.2 ∧ NoLoops G.1) → ∃ data, readG6 toUndirected file = .ok data ∧
      List.Forall₂ (fun G H => H.2 = G.2 ∧ H.Plain ∧ ∀ u v, Joined H.1 u v ↔ Joined G.1 u v) file data) ∧
    ((∃ G ∈ file, G.1 = []) → readG6 toUndirected file = .error .index) := by
  constructor
  · intro h
    refine ⟨file.map fun G => (toUndirected G.1, G.2), ?_, ?_⟩
    · refine mapE_eq_ok_iff.mpr ?_
      rw [List.forall₂_map_right_iff, List.forall₂_same]
      intro G hG
      rw [if_neg (h G hG).1]
    · rw [List.forall₂_map_right_iff, List.forall₂_same]
      intro G hG
      obtain ⟨h1, h2, h3⟩ := h G hG
      have hm := hu.mem G.1
      refine ⟨rfl, ⟨?_, ?_, ?_, hu.nodup _, ?_⟩, ?_⟩
      · obtain ⟨e, he⟩ := List.exists_mem_of_ne_nil _ h1
        exact Nat.lt_of_le_of_lt (Nat.zero_le _) (h2 e he).1
      · rintro ⟨a, b⟩ he
        rcases (hm a b).mp he with h | h
        · exact h2 _ h
        · exact (h2 _ h).symm
      · rintro ⟨a, b⟩ he
        rcases (hm a b).mp he with h | h
        · exact h3 _ h
        · exact fun e => h3 _ h e.symm
      · rintro ⟨a, b⟩ he
        exact (hm b a).mpr ((hm a b).mp he).symm
      · intro u v
        unfold Joined
        simp only [hm]
        tauto
  · rintro ⟨G, hG, h0⟩
    unfold readG6
    induction file with
    | nil => simp at hG
    | cons H file ih =>
      rw [mapE_cons]
      by_cases hH : H.1 = []
      · rw [if_pos hH]; rfl
      · rw [if_neg hH, ok_bind]
        have : G ∈ file := by
          rcases List.mem_cons.mp hG with rfl | h
          · exact absurd h0 hH
          · exact h
        rw [ih this]
        rfl

section
variable {R L : Type}

/-- **C78** Which file is read: the pickle if it is there and wanted, and then the graph6 file is not needed; otherwise
the graph6 file. The graphs have a row of ones for every node, no labels, and all of them are in every split. -/
theorem C78_sources {F L : Type} (one : F) (data : List RawGraph) :
    (∀ g6 pkl, (pkl = some data → loadSRGraphs (L := L) one (srRaw g6 pkl true) = loadSRGraphs one (.ok data)) ∧
      loadSRGraphs (L := L) one (srRaw g6 pkl false) = loadSRGraphs one g6 ∧
      ∀ prefer, loadSRGraphs (L := L) one (srRaw g6 none prefer) = loadSRGraphs one g6) ∧
    ∃ graphs splits, loadSRGraphs (L := L) one (.ok data) = .ok (graphs, splits) ∧
      List.Forall₂ (fun G D => D.edgeIndex = G.1 ∧ D.numNodes = G.2 ∧ D.y = none ∧ D.edgeAttr = none ∧
        ∃ x, D.x = some x ∧ x.length = G.2 ∧ ∀ r ∈ x, r = one) data graphs ∧
      ∀ split ∈ ["train", "valid", "test"], splits.Has split (List.range data.length) := by
  refine ⟨fun g6 pkl => ⟨?_, ?_, fun prefer => rfl⟩, _, _, rfl, ?_, ?_⟩
  · rintro rfl
    rfl
  · cases pkl <;> rfl
  · rw [List.forall₂_map_right_iff, List.forall₂_same]
    intro G _
    exact ⟨rfl, rfl, rfl, rfl, _, rfl, by simp, fun r hr => List.eq_of_mem_replicate hr⟩
  · intro split hs
    simp only [List.mem_cons, List.not_mem_nil, or_false] at hs
    rcases hs with rfl | rfl | rfl
    · exact .train _ rfl
    · exact .valid _ rfl
    · exact .test _ rfl

theorem valid_eyeRows {size : Nat} {p : List Nat} (hp : p.Perm (List.range size)) :
    isValidPermutationMatrix (eyeRows p size) size = .ok (decide (size ≤ 1) || decide (p ≠ List.range size)) := by
  obtain ⟨h1, h2⟩ := eyeRows_matrixOf hp
  rw [valid_of_perm h1 h2, ok_inj]
  congr 1
  rw [Bool.eq_iff_iff, Bool.not_eq_true', ← Bool.not_eq_true, isEye_matrixOf h2 h1, decide_eq_true_eq]
  apply not_congr
  have hl : p.length = size := by rw [hp.length_eq, List.length_range]
  constructor
  · intro hi
    apply List.ext_getElem
    · simp [hl]
    · intro i a b
      have := hi i (by omega)
      rw [List.getElem?_eq_getElem a] at this
      simpa using this
  · rintro rfl i hi
    simp [hi]

/-- Drawing one matrix: the first permutation that is accepted. -/
theorem generate_one {size : Nat} {perms : List (List Nat)} (hp : ∀ p ∈ perms, p.Perm (List.range size)) :
    generatePermutationMatrices size 1 perms [] =
      .ok ((perms.find? fun p => decide (size ≤ 1) || decide (p ≠ List.range size)).map fun p => [eyeRows p size]) := by
  induction perms with
  | nil => rfl
  | cons p perms ih =>
    unfold generatePermutationMatrices
    rw [if_neg (by simp)]
    unfold keepValid
    rw [valid_eyeRows (hp p (by simp)), ok_bind, List.find?_cons]
    cases hb : (decide (size ≤ 1) || decide (p ≠ List.range size)) with
    | false => exact ih fun q hq => hp q (by simp [hq])
    | true =>
      show generatePermutationMatrices size 1 perms [eyeRows p size] = _
      cases perms with
      | nil => rfl
      | cons q perms =>
        unfold generatePermutationMatrices
        rw [if_pos (by simp)]
        rfl

variable [AddCommGroup R] [AddCommGroup L]

/-- The permuted copy of a plain graph. -/
theorem permutedRaw_ok {coo : CooLib} (hcoo : coo.Correct) {draws : Nat → List (List Nat)}
    (hdraws : ∀ n, ∀ p ∈ draws n, p.Perm (List.range n)) (one : R) {G : RawGraph} (hG : G.Plain) :
    ∃ out, permutedRaw coo draws (srGraph one G : GraphData R L) = .ok out ∧
      (out = none ↔ ∀ p ∈ draws G.2, 1 < G.2 ∧ p = List.range G.2) ∧ ∀ H, out = some H → G.Iso H ∧ H.Plain := by
  have hgen := generate_one (hdraws G.2)
  cases hf : (draws G.2).find? fun p => decide (G.2 ≤ 1) || decide (p ≠ List.range G.2) with
  | none =>
    rw [hf] at hgen
    refine ⟨none, ?_, ?_, by simp⟩
    · unfold permutedRaw
      show generatePermutationMatrices G.2 1 (draws G.2) [] >>= _ = _
      rw [hgen]
      rfl
    · rw [List.find?_eq_none] at hf
      refine ⟨fun _ p hp => ?_, fun _ => rfl⟩
      have := hf p hp
      simpa using this
  | some p =>
    rw [hf] at hgen
    have hpm := List.mem_of_find?_eq_some hf
    have hacc := List.find?_some hf
    have hperm := hdraws _ _ hpm
    have hvalid : isValidPermutationMatrix (eyeRows p G.2) (List.replicate G.2 one).length = .ok true := by
      rw [List.length_replicate, valid_eyeRows hperm, hacc]
    obtain ⟨σ, s1, s2, s3⟩ := (C50_valid_iff_permutation _ _).mp hvalid
    obtain ⟨H, e1, e2, -, -, -, -, e3, e4⟩ := C51_permuted_graph (L := L) coo hcoo
      ⟨List.replicate G.2 one, none, G.1, false⟩ (eyeRows p G.2) σ rfl s1 s2 s3 (by
        intro e he
        simpa using hG.edges e he)
    simp only [List.length_replicate] at s1 e2 e4
    refine ⟨some (H.edges, H.x.length), ?_, ?_, ?_⟩
    · unfold permutedRaw
      show generatePermutationMatrices G.2 1 (draws G.2) [] >>= _ = _
      rw [hgen]
      show permuteGraph coo (⟨List.replicate G.2 one, none, G.1, false⟩ : PGraph R L) (eyeRows p G.2) >>= _ = _
      rw [e1]
      rfl
    · refine ⟨fun h => absurd h (by simp), fun h => ?_⟩
      have := h p hpm
      simp only [Bool.or_eq_true, decide_eq_true_eq] at hacc
      rcases hacc with h' | h'
      · omega
      · exact absurd this.2 h'
    · rintro _ ⟨⟩
      have hJ : ∀ u v, u < G.2 → v < G.2 → (Joined H.edges u v ↔ Joined G.1 (σ u) (σ v)) := by
        intro u v hu hv
        have hne : σ u ≠ σ v ↔ u ≠ v := not_congr ⟨s1.inj u v hu hv, fun e => by rw [e]⟩
        simp only [Joined, e4, hu, hv, true_and, hne]
      have hsurj : ∀ v, v < G.2 → ∃ u, u < G.2 ∧ σ u = v := fun v hv => s1.surj hv
      choose! τ t1 t2 using hsurj
      refine ⟨⟨e2, τ, t1, ?_, ?_⟩, ⟨?_, ?_, ?_, e3, ?_⟩⟩
      · intro u v hu hv h
        rw [← t2 u hu, ← t2 v hv, h]
      · intro u v hu hv
        simp only
        rw [hJ _ _ (t1 u hu) (t1 v hv), t2 u hu, t2 v hv]
      · show 0 < H.x.length
        rw [e2]
        exact hG.pos
      · rintro ⟨a, b⟩ he
        obtain ⟨h1, h2, -⟩ := (e4 a b).mp he
        show a < H.x.length ∧ b < H.x.length
        rw [e2]
        exact ⟨h1, h2⟩
      · rintro ⟨a, b⟩ he hab
        simp only at hab
        subst hab
        exact hG.noLoops _ ((e4 a a).mp he).2.2 rfl
      · rintro ⟨a, b⟩ he
        obtain ⟨h1, h2, h3⟩ := (e4 a b).mp he
        exact (e4 b a).mpr ⟨h2, h1, hG.both _ h3⟩

/-- **C78** The file of permuted graphs. Whatever permutations the random state yields: the loop does not end exactly
if for some graph no permutation is drawn but the identity of several nodes; otherwise there is one permuted graph for
each graph, isomorphic to it and as plain as it. -/
theorem C78_permuted_graphs (coo : CooLib) (hcoo : coo.Correct) (draws : Nat → List (List Nat))
    (hdraws : ∀ n, ∀ p ∈ draws n, p.Perm (List.range n)) (one : R) (data : List RawGraph) (hd : ∀ G ∈ data, G.Plain) :
    ∃ out, permutedFile (L := L) coo draws (data.map (srGraph one)) = .ok out ∧
      (out = none ↔ ∃ G ∈ data, ∀ p ∈ draws G.2, 1 < G.2 ∧ p = List.range G.2) ∧
      ∀ data', out = some data' → List.Forall₂ (fun G H => G.Iso H ∧ H.Plain) data data' := by
  obtain ⟨outs, ho⟩ := forall₂_of_forall (fun G hG => permutedRaw_ok (L := L) hcoo hdraws one (hd G hG))
  have hmap : mapE (permutedRaw coo draws) (data.map (srGraph (L := L) one)) = .ok outs := by
    refine mapE_eq_ok_iff.mpr ?_
    rw [List.forall₂_map_left_iff]
    exact ho.imp fun _ _ h => h.1
  unfold permutedFile
  rw [hmap, ok_bind]
  refine ⟨_, rfl, ?_, ?_⟩
  · have : (none ∈ outs ↔ ∃ G ∈ data, ∀ p ∈ draws G.2, 1 < G.2 ∧ p = List.range G.2) := by
      constructor
      · intro h
        obtain ⟨G, hG, h1⟩ := forall₂_mem ho.flip h
        exact ⟨G, hG, h1.2.1.mp rfl⟩
      · rintro ⟨G, hG, h⟩
        obtain ⟨o, hm, h1⟩ := forall₂_mem ho hG
        rw [h1.2.1.mpr h] at hm
        exact hm
    rw [← this]
    split <;> simp_all
  · intro data' h
    split at h
    · cases h
    · next hn =>
      cases h
      clear hmap
      induction ho with
      | nil => exact .nil
      | @cons G o data outs h1 _ ih =>
        cases o with
        | none => simp at hn
        | some H =>
          show List.Forall₂ _ _ (H :: outs.filterMap id)
          exact .cons (h1.2.2 H rfl) (ih (fun G hG => hd G (by simp [hG])) (fun h => hn (by simp [h])))

end

/-! ### Evaluation without targets -/

/-- In an evaluation with the isomorphism task the metric gets the predictions and no targets. -/
theorem evalModel_isomorphism {B P T V : Type} (forward : B → Py (List P)) (targets : B → Py (List T))
    (loss : List P → List T → Py ℚ) (metric : List P → Option (List T) → Py V) (loader : List B) :
    evalModel .isomorphism forward targets loss metric loader =
      (infer forward loader >>= fun preds => (metric preds none).map fun v => (v, none)) := by
  have key : ∀ (loader : List B) (acc : List (List P)),
      foldE (evalBatch .isomorphism forward targets loss) ([], acc, []) loader =
        (mapE forward loader).map fun preds => ([], acc ++ preds, []) := by
    intro loader
    induction loader with
    | nil => intro acc; simp [foldE, mapE, Except.map]
    | cons b loader ih =>
      intro acc
      rw [mapE_cons]
      cases hf : forward b with
      | error e => simp only [foldE, evalBatch, hf]; rfl
      | ok pred =>
        have : foldE (evalBatch .isomorphism forward targets loss) ([], acc, []) (b :: loader) =
            foldE (evalBatch .isomorphism forward targets loss) ([], acc ++ [pred], []) loader := by
          simp only [foldE, evalBatch, hf, evalTargets, ok_bind, List.append_nil]
          rfl
        rw [this, ih, ok_bind]
        cases mapE forward loader with
        | error e => rfl
        | ok preds => simp [Except.map, Bind.bind, Except.bind, pure, Except.pure]
  unfold evalModel infer
  rw [key]
  cases mapE forward loader with
  | error e => rfl
  | ok preds =>
    simp only [Except.map, ok_bind, List.nil_append, if_true]
    cases catRows preds with
    | error e => rfl
    | ok p =>
      simp only [ok_bind]
      cases metric p none <;> rfl

/-! ### Constructing the dataset again and again -/

section
variable {R L : Type} [AddCommGroup R] [DecidableEq R] [DecidableEq L]

/-- What the processed files hold: the file of dimension `d` has the complexes of all graphs, lifted to a dimension that
is not smaller than `d`, and `d` is the largest dimension among them. -/
def FilesHold (agg : List R → R) (one : R) (data : List RawGraph) (rings : Option Nat) (down : Bool)
    (disk : Nat → Option (Storage R L)) : Prop :=
  ∀ d st, disk d = some st → ∃ (g : Gudhi) (lib : RingLib) (k : Nat) (comps : List (Complex R L)), g.Ok ∧ lib.Ok ∧ d ≤ k ∧
    List.Forall₂ (fun G c => (srGraph one G : GraphData R L).lifted g lib agg k rings down = .ok c) data comps ∧
    Storable comps d ∧ collate comps d = .ok st ∧ IsLargest (comps.map Complex.dimension) (some d)

/-- The constructor, with whatever it finds on the disk. -/
theorem build_ok {agg : List R → R} (hperm : ∀ l l' : List R, l.Perm l' → agg l = agg l') {width : R → Nat} {w : Nat}
    (hagg : ∀ l : List R, l ≠ [] → (∀ r ∈ l, width r = w) → width (agg l) = w) {one : R} (hone : width one = w)
    {data : List RawGraph} (hd : ∀ G ∈ data, G.Plain) (hne : data ≠ []) {rings : Option Nat} {down : Bool}
    {disk : Nat → Option (Storage R L)} (hdisk : FilesHold agg one data rings down disk) {q : Request} (hq : q.Ok rings) :
    ∃ b comps st, q.build agg width one (.ok data) rings down disk = .ok b ∧
      FilesHold agg one data rings down b.disk ∧ b.maxDim ≤ q.maxDim ∧ b.splits = allItems data.length ∧
      b.dataset = ⟨st, none⟩ ∧ Storable comps b.maxDim ∧ collate comps b.maxDim = .ok st ∧
      IsLargest (comps.map Complex.dimension) (some b.maxDim) ∧
      ∀ (g : Gudhi) (lib : RingLib), g.Ok → lib.Ok → List.Forall₂ (fun G c' => ∃ (c : Complex R L) (φ : Nat → Nat → Nat),
        (srGraph one G : GraphData R L).lifted g lib agg q.maxDim rings down = .ok c ∧ Relabels c.view c'.view φ ∧
        c.Ready ∧ c'.Ready ∧ 0 < c.cellsIn 0) data comps := by
  have a1 : pyAssert (ringSizeOk rings) = .ok () := by
    cases hr : rings with
    | none => rfl
    | some size => simp [pyAssert, ringSizeOk, (hq.rings size hr).1]
  have a2 : pyAssert (rings.isNone || q.maxDim == 2) = .ok () := by
    cases hr : rings with
    | none => rfl
    | some size => simp [pyAssert, (hq.rings size hr).2]
  have hlen : ∀ {comps : List (Complex R L)} {m : Nat} {st : Storage R L} {P : RawGraph → Complex R L → Prop},
      Storable comps m → collate comps m = .ok st → List.Forall₂ P data comps → st.len q.order = data.length := by
    intro comps m st P h1 h2 h3
    have hcne : comps ≠ [] := by
      rintro rfl
      exact hne (List.forall₂_nil_right_iff.mp h3)
    rw [(C37_length_is_the_number_of_complexes q.order hq.order comps m st h2).1 (h1.hasAttribute hcne), h3.length_eq]
  have hdeep : ∀ {g' : Gudhi} {lib' : RingLib} {k' m : Nat} {comps : List (Complex R L)}, g'.Ok → lib'.Ok → m ≤ q.maxDim →
      q.maxDim ≤ k' →
      List.Forall₂ (fun G c => (srGraph one G : GraphData R L).lifted g' lib' agg k' rings down = .ok c) data comps →
      IsLargest (comps.map Complex.dimension) (some m) →
      ∀ (g : Gudhi) (lib : RingLib), g.Ok → lib.Ok → List.Forall₂ (fun G c' => ∃ (c : Complex R L) (φ : Nat → Nat → Nat),
        (srGraph one G : GraphData R L).lifted g lib agg q.maxDim rings down = .ok c ∧ Relabels c.view c'.view φ ∧
        c.Ready ∧ c'.Ready ∧ 0 < c.cellsIn 0) data comps := by
    intro g' lib' k' m comps hg' hlib' hmk hkk h1 h2 g lib hg hlib
    rw [List.forall₂_iff_get] at h1 ⊢
    refine ⟨h1.1, fun i hi hi' => ?_⟩
    have hc := h1.2 i hi hi'
    have := h2.2 _ (List.mem_map.mpr ⟨_, List.get_mem comps ⟨i, hi'⟩, rfl⟩)
    exact lifted_deeper hg hg' hlib hlib' hperm (hd _ (List.get_mem data ⟨i, hi⟩)) one hq.dim hkk rings down hc (by omega)
  unfold Request.build srDataset
  rw [a1, ok_bind, a2, ok_bind]
  cases hdk : disk q.maxDim with
  | some st =>
    obtain ⟨g', lib', k', comps, hg', hlib', hkk, h1, h2, h3, h4⟩ := hdisk _ _ hdk
    refine ⟨⟨disk, ⟨st, none⟩, q.maxDim, allItems (st.len q.order)⟩, comps, st, ?_, hdisk, Nat.le_refl _, ?_, rfl, h2, h3, h4,
      hdeep hg' hlib' (Nat.le_refl _) hkk h1 h4⟩
    · simp [srLoad, hdk]
    · show allItems _ = _
      rw [hlen h2 h3 h1]
  | none =>
    obtain ⟨comps, st, m, h1, h2, h3, h4, h5, h6⟩ := srProcess_ok (L := L) hq.gudhi hq.ringLib agg width hagg one hone hq.dim
      rings (fun size hs => (hq.rings size hs).2) down hd hne
    refine ⟨⟨fun d => if d = m then some st else disk d, ⟨st, none⟩, m, allItems (st.len q.order)⟩, comps, st, ?_, ?_, h5, ?_,
      rfl, h2, h3, h4, hdeep hq.gudhi hq.ringLib h5 (Nat.le_refl _) h1 h4⟩
    · simp only [Option.isSome_none, Bool.false_eq_true, if_false, loadSRGraphs, ok_bind]
      show srProcess q.g q.lib agg width (data.map (srGraph one)) q.maxDim rings down >>= _ = _
      rw [h6, ok_bind]
      simp [srLoad]
    · intro d s hds
      by_cases hdm : d = m
      · subst hdm
        simp only [if_true, Option.some.injEq] at hds
        subst hds
        exact ⟨q.g, q.lib, q.maxDim, comps, hq.gudhi, hq.ringLib, h5, h1, h2, h3, h4⟩
      · simp only [if_neg hdm] at hds
        exact hdisk d s hds
    · show allItems _ = _
      rw [hlen h2 h3 h1]

theorem after_holds {agg : List R → R} (hperm : ∀ l l' : List R, l.Perm l' → agg l = agg l') {width : R → Nat} {w : Nat}
    (hagg : ∀ l : List R, l ≠ [] → (∀ r ∈ l, width r = w) → width (agg l) = w) {one : R} (hone : width one = w)
    {data : List RawGraph} (hd : ∀ G ∈ data, G.Plain) (hne : data ≠ []) {rings : Option Nat} {down : Bool}
    {qs : List Request} {disk : Nat → Option (Storage R L)} (h : After agg width one (.ok data) rings down qs disk)
    (hq : ∀ q ∈ qs, q.Ok rings) : FilesHold agg one data rings down disk := by
  induction h with
  | start => intro d st h; cases h
  | @next qs disk q b _ hb ih =>
    obtain ⟨b', -, -, h1, h2, -⟩ := build_ok hperm hagg hone hd hne (ih fun q hq' => hq q (by simp [hq'])) (hq q (by simp))
    rw [hb] at h1
    cases h1
    exact h2

/-- **C78** Constructing the dataset any number of times, with any dimensions, in any order, whatever order the libraries
list simplices and rings in each time: no construction fails. -/
theorem C78_constructions_succeed (agg : List R → R) (hperm : ∀ l l' : List R, l.Perm l' → agg l = agg l')
    (width : R → Nat) (w : Nat) (hagg : ∀ l : List R, l ≠ [] → (∀ r ∈ l, width r = w) → width (agg l) = w) (one : R)
    (hone : width one = w) (data : List RawGraph) (hd : ∀ G ∈ data, G.Plain) (hne : data ≠ []) (rings : Option Nat)
    (down : Bool) (qs : List Request) (hq : ∀ q ∈ qs, q.Ok rings) :
    ∃ disk, After (L := L) agg width one (.ok data) rings down qs disk := by
  induction qs using List.reverseRecOn with
  | nil => exact ⟨_, .start⟩
  | append_singleton qs q ih =>
    obtain ⟨disk, h⟩ := ih fun q hq' => hq q (by simp [hq'])
    obtain ⟨b, -, -, h1, -⟩ := build_ok hperm hagg hone hd hne
      (after_holds hperm hagg hone hd hne h fun q hq' => hq q (by simp [hq'])) (hq q (by simp))
    exact ⟨b.disk, .next h h1⟩

/-- **C78** The dimension of a dataset of cliques: one less than the largest number of nodes in a clique of any of the
graphs, cliques of more nodes than the request allows left out. -/
theorem C78_dimension (agg : List R → R) (hperm : ∀ l l' : List R, l.Perm l' → agg l = agg l')
    (width : R → Nat) (w : Nat) (hagg : ∀ l : List R, l ≠ [] → (∀ r ∈ l, width r = w) → width (agg l) = w) (one : R)
    (hone : width one = w) (data : List RawGraph) (hd : ∀ G ∈ data, G.Plain) (hne : data ≠ []) (down : Bool)
    (qs : List Request) (hqs : ∀ q ∈ qs, q.Ok none) (disk : Nat → Option (Storage R L))
    (h : After agg width one (.ok data) none down qs disk) (q : Request) (hq : q.Ok none) (b : SRBuilt R L)
    (hb : q.build agg width one (.ok data) none down disk = .ok b) :
    (∃ G ∈ data, ∃ s, IsClique G.1 G.2 s ∧ s.length = b.maxDim + 1) ∧ b.maxDim ≤ q.maxDim ∧
      ∀ G ∈ data, ∀ s, IsClique G.1 G.2 s → s.length ≤ q.maxDim + 1 → s.length ≤ b.maxDim + 1 := by
  have hfiles := after_holds hperm hagg hone hd hne h hqs
  have reached : ∀ {g : Gudhi} {lib : RingLib} {k m : Nat} {comps : List (Complex R L)}, g.Ok →
      List.Forall₂ (fun G c => (srGraph one G : GraphData R L).lifted g lib agg k none down = .ok c) data comps →
      IsLargest (comps.map Complex.dimension) (some m) → ∃ G ∈ data, ∃ s, IsClique G.1 G.2 s ∧ s.length = m + 1 := by
    intro g lib k m comps hg h1 h2
    obtain ⟨c, hc, hcm⟩ := List.mem_map.mp h2.1
    obtain ⟨G, hG, h3⟩ := forall₂_mem h1.flip hc
    obtain ⟨s, h4, h5⟩ := clique_reached hg agg down ((hd G hG).ok (L := L) one) h3
    exact ⟨G, hG, s, h4, by rw [h5, hcm]⟩
  unfold Request.build srDataset at hb
  cases hdk : disk q.maxDim with
  | some st =>
    obtain ⟨g', lib', k', comps, hg', -, -, h1, -, -, h4⟩ := hfiles _ _ hdk
    have : b = ⟨disk, ⟨st, none⟩, q.maxDim, allItems (st.len q.order)⟩ := by
      simp [hdk, srLoad, ringSizeOk, pyAssert] at hb
      exact hb.symm
    subst this
    exact ⟨reached hg' h1 h4, Nat.le_refl _, fun _ _ _ _ hs => hs⟩
  | none =>
    obtain ⟨comps, st, m, h1, -, -, h4, h5, h6⟩ := srProcess_ok (L := L) hq.gudhi hq.ringLib agg width hagg one hone hq.dim
      none (fun size hs => by cases hs) down hd hne
    have : b.maxDim = m := by
      simp only [hdk, ringSizeOk, pyAssert, Option.isNone_none, Bool.true_or, if_true, ok_bind, Option.isSome_none,
        Bool.false_eq_true, if_false, loadSRGraphs] at hb
      have hb' : (srProcess q.g q.lib agg width (data.map (srGraph one)) q.maxDim none down >>= fun r =>
        srLoad q.order (fun d => if d = r.2 then some r.1 else disk d) r.2) = .ok b := hb
      rw [h6, ok_bind] at hb'
      simp [srLoad] at hb'
      rw [← hb']
    subst this
    refine ⟨reached hq.gudhi h1 h4, h5, fun G hG s hs hl => ?_⟩
    obtain ⟨c, hc, h7⟩ := forall₂_mem h1 hG
    obtain ⟨comp, e1, -, e2⟩ := clique_stored' hq.gudhi agg hq.dim down ((hd G hG).ok (L := L) one) rfl
    have e3 : (srGraph one G : GraphData R L).lifted q.g q.lib agg q.maxDim none down = .ok comp := e1
    rw [h7] at e3
    cases e3
    have := e2 s hs hl
    have := h4.2 _ (List.mem_map.mpr ⟨_, hc, rfl⟩)
    omega

/-- **C78** Requests for a dimension that no graph reaches are processed again every time: however often they were made
before, there is no file in the folder of that dimension. -/
theorem C78_processed_again (agg : List R → R) (hperm : ∀ l l' : List R, l.Perm l' → agg l = agg l')
    (width : R → Nat) (w : Nat) (hagg : ∀ l : List R, l ≠ [] → (∀ r ∈ l, width r = w) → width (agg l) = w) (one : R)
    (hone : width one = w) (data : List RawGraph) (hd : ∀ G ∈ data, G.Plain) (hne : data ≠ []) (down : Bool)
    (qs : List Request) (hqs : ∀ q ∈ qs, q.Ok none) (disk : Nat → Option (Storage R L))
    (h : After agg width one (.ok data) none down qs disk) (k : Nat)
    (hk : ∀ G ∈ data, ∀ s, IsClique G.1 G.2 s → s.length ≤ k) : disk k = none := by
  cases hdk : disk k with
  | none => rfl
  | some st =>
    exfalso
    obtain ⟨g', lib', k', comps, hg', -, -, h1, -, -, h4⟩ := after_holds hperm hagg hone hd hne h hqs _ _ hdk
    obtain ⟨c, hc, hcm⟩ := List.mem_map.mp h4.1
    obtain ⟨G, hG, h3⟩ := forall₂_mem h1.flip hc
    obtain ⟨s, h5, h6⟩ := clique_reached hg' agg down ((hd G hG).ok (L := L) one) h3
    have := hk G hG s h5
    omega

variable {𝕜 : Type} [Field 𝕜] [Module 𝕜 R]

/-- **C78** From the raw file to predictions. After any requests, the dataset of one more request has all graphs in every
split, and the predictions over the loader of any split, whatever the batch size, are in order those for the complex
lifted from each graph alone to the requested dimension. -/
theorem C78_predictions (forward : Complex R L → Py (List R)) (hnet : Network 𝕜 R L forward) (agg : List R → R)
    (hperm : ∀ l l' : List R, l.Perm l' → agg l = agg l') (width : R → Nat) (w : Nat)
    (hagg : ∀ l : List R, l ≠ [] → (∀ r ∈ l, width r = w) → width (agg l) = w) (one : R) (hone : width one = w)
    (data : List RawGraph) (hd : ∀ G ∈ data, G.Plain) (hne : data ≠ []) (rings : Option Nat) (down : Bool)
    (qs : List Request) (hqs : ∀ q ∈ qs, q.Ok rings) (disk : Nat → Option (Storage R L))
    (h : After agg width one (.ok data) rings down qs disk) (q : Request) (hq : q.Ok rings) :
    ∃ b, q.build agg width one (.ok data) rings down disk = .ok b ∧ b.maxDim ≤ q.maxDim ∧
      ∀ split ∈ ["train", "valid", "test"], ∀ batchSize, 0 < batchSize → ∀ mB, ∃ batches preds,
        splitLoader q.order b.dataset b.splits split none batchSize mB = .ok batches ∧ infer forward batches = .ok preds ∧
        ∀ (g : Gudhi) (lib : RingLib), g.Ok → lib.Ok → List.Forall₂ (fun G p => ∃ c,
          (srGraph one G : GraphData R L).lifted g lib agg q.maxDim rings down = .ok c ∧
          (fromComplexList [c] mB >>= forward) = .ok [p]) data preds := by
  obtain ⟨b, comps, st, h1, -, h2, h3, h4, h5, h6, -, h7⟩ := build_ok hperm hagg hone hd hne
    (after_holds hperm hagg hone hd hne h hqs) hq
  refine ⟨b, h1, h2, fun split hs batchSize hb mB => ?_⟩
  have hlen := (h7 q.g q.lib hq.gudhi hq.ringLib).length_eq
  have hids : b.splits.Has split (List.range data.length) := by
    rw [h3]
    simp only [List.mem_cons, List.not_mem_nil, or_false] at hs
    rcases hs with rfl | rfl | rfl
    · exact .train _ rfl
    · exact .valid _ rfl
    · exact .test _ rfl
  obtain ⟨preds, e1, ⟨batches, e2, -, e3⟩, -⟩ := C75_split_predictions forward hnet q.order hq.order comps b.maxDim h5 st h6 []
    b.splits split (List.range data.length) hids (by simpa using hne) (fun i hi => hlen ▸ List.mem_range.mp hi) batchSize hb
    mB
  refine ⟨batches, preds, ?_, e3, fun g lib hg hlib => ?_⟩
  · rw [h4]
    exact e2
  · rw [List.forall₂_iff_get] at e1 ⊢
    have hl1 := e1.1
    rw [List.length_range] at hl1
    refine ⟨hl1, fun i hi hi' => ?_⟩
    obtain ⟨c', f1, f2⟩ := e1.2 i (by simpa using hi) hi'
    simp only [List.get_eq_getElem, List.getElem_range] at f1 f2 ⊢
    have f3 := (List.forall₂_iff_get.mp (h7 g lib hg hlib)).2 i hi (hlen ▸ hi)
    simp only [List.get_eq_getElem] at f3
    rw [(List.getElem?_eq_some_iff.mp f1).2] at f3
    obtain ⟨c, φ, k1, k2, k3, k4, k5⟩ := f3
    obtain ⟨p, t1, t2⟩ := hnet.invariant mB k2 k3 k4 k5
    rw [f2] at t2
    cases t2
    exact ⟨c, k1, t1⟩

/-- The complexes of isomorphic graphs, and what a network predicts for them. -/
theorem lifted_iso {forward : Complex R L → Py (List R)} (hnet : Network 𝕜 R L forward) {agg : List R → R}
    (hperm : ∀ l l' : List R, l.Perm l' → agg l = agg l') {g g' : Gudhi} (hg : g.Ok) (hg' : g'.Ok) {lib lib' : RingLib}
    (hlib : lib.Ok) (hlib' : lib'.Ok) (one : R) {G H : RawGraph} (hG : G.Plain) (hH : H.Plain) (hiso : G.Iso H) (k : Nat)
    (rings : Option Nat) (down : Bool) (mB : Nat) {c c' : Complex R L} {p p' : R}
    (h1 : (srGraph one G : GraphData R L).lifted g lib agg k rings down = .ok c)
    (h2 : (srGraph one H : GraphData R L).lifted g' lib' agg k rings down = .ok c')
    (h3 : (fromComplexList [c] mB >>= forward) = .ok [p]) (h4 : (fromComplexList [c'] mB >>= forward) = .ok [p']) :
    p = p' := by
  obtain ⟨hsz, π, p1, p2, p3⟩ := hiso
  have hπ : GraphIso G.1 H.1 G.2 (List.replicate G.2 one) (List.replicate H.2 one) π :=
    ⟨p1, p2, p3, fun v hv => by
      rw [List.getElem?_replicate, List.getElem?_replicate, if_pos hv, if_pos (by rw [hsz]; exact p1 v hv)]⟩
  have key : ∃ φ, Relabels c.view c'.view φ ∧ c.Ready ∧ c'.Ready ∧ 0 < c.cellsIn 0 := by
    cases rings with
    | none =>
      obtain ⟨c1, c2, e1, e2, r1, r2, h0, φ, hφ⟩ := clique_relabels (L := L) hg hg' hperm hπ hG.edges (hsz ▸ hH.edges)
        hG.pos (by simp) (by simp [hsz]) k (y := none) (y' := none) (by simp) (by simp) down
      have h1' : cliqueComplex g agg (some (List.replicate G.2 one)) G.1 G.2 k (none : Option (List L)) down = .ok c := h1
      have h2' : cliqueComplex g' agg (some (List.replicate H.2 one)) H.1 H.2 k (none : Option (List L)) down = .ok c' := h2
      rw [hsz] at h2' e2
      rw [h1'] at e1
      cases e1
      rw [h2'] at e2
      cases e2
      exact ⟨φ, hφ, r1, r2, h0⟩
    | some size =>
      have x1 := hG.ok (F := R) (L := L) one
      have x2 := hH.ok (F := R) (L := L) one
      have s1 := hG.simple (F := R) (L := L) one
      have s2 := hH.simple (F := R) (L := L) one
      obtain ⟨c1, c2, e1, e2, f1, f2, φ, hφ⟩ := ring_relabels (maxK := size) (down := down) (initEdges := true)
        (initRings := true) hg hg' hlib hlib' hperm
        (⟨x1.pos, x1.rows, x1.edges, s1.noLoops, s1.attr, x1.labels⟩ :
          (⟨G.2, List.replicate G.2 one, G.1, none, none⟩ : RGraph R L).Ok)
        (⟨x2.pos, x2.rows, x2.edges, s2.noLoops, s2.attr, x2.labels⟩ :
          (⟨H.2, List.replicate H.2 one, H.1, none, none⟩ : RGraph R L).Ok)
        ⟨hsz, rfl, π, hπ, by intro a a' h; cases h⟩
      have h1' : (⟨G.2, List.replicate G.2 one, G.1, none, none⟩ : RGraph R L).lift g lib agg size down true true =
        .ok c := h1
      have h2' : (⟨H.2, List.replicate H.2 one, H.1, none, none⟩ : RGraph R L).lift g' lib' agg size down true true =
        .ok c' := h2
      rw [h1'] at e1
      cases e1
      rw [h2'] at e2
      cases e2
      exact ⟨φ, relabels_of_cells f1.ready f2.ready hφ, f1.ready, f2.ready, f1.cells 0 (Nat.zero_le _)⟩
  obtain ⟨φ, k2, k3, k4, k5⟩ := key
  obtain ⟨q, t1, t2⟩ := hnet.invariant mB k2 k3 k4 k5
  rw [h3] at t1
  rw [h4] at t2
  cases t1
  cases t2
  rfl

/-- **C78** The self-isomorphism test cannot fail. Take the dataset of plain graphs and the dataset of their permuted
copies, whatever was requested of either before, and however the two are cut into batches: the predictions are the same,
and the check of their distances passes for every tolerance that is not negative. -/
theorem C78_self_isomorphism [AddCommGroup L] (forward : Complex R L → Py (List R)) (hnet : Network 𝕜 R L forward)
    (agg : List R → R)
    (hperm : ∀ l l' : List R, l.Perm l' → agg l = agg l') (width : R → Nat) (w : Nat)
    (hagg : ∀ l : List R, l ≠ [] → (∀ r ∈ l, width r = w) → width (agg l) = w) (one : R) (hone : width one = w)
    (data data' : List RawGraph) (hd : ∀ G ∈ data, G.Plain) (hne : data ≠ []) (coo : CooLib) (hcoo : coo.Correct)
    (draws : Nat → List (List Nat)) (hdraws : ∀ n, ∀ p ∈ draws n, p.Perm (List.range n))
    (hfile : permutedFile (L := L) coo draws (data.map (srGraph one)) = .ok (some data')) (rings : Option Nat) (down : Bool)
    (qs qs' : List Request) (hqs : ∀ q ∈ qs, q.Ok rings) (hqs' : ∀ q ∈ qs', q.Ok rings)
    (disk disk' : Nat → Option (Storage R L)) (h : After agg width one (.ok data) rings down qs disk)
    (h' : After agg width one (.ok data') rings down qs' disk') (q q' : Request) (hq : q.Ok rings) (hq' : q'.Ok rings)
    (hdim : q'.maxDim = q.maxDim) (batchSize batchSize' : Nat) (hb : 0 < batchSize) (hb' : 0 < batchSize') (mB : Nat) :
    ∃ b b' batches batches' preds, q.build agg width one (.ok data) rings down disk = .ok b ∧
      q'.build agg width one (.ok data') rings down disk' = .ok b' ∧
      splitLoader q.order b.dataset b.splits "test" none batchSize mB = .ok batches ∧
      splitLoader q'.order b'.dataset b'.splits "test" none batchSize' mB = .ok batches' ∧
      infer forward batches = .ok preds ∧ infer forward batches' = .ok preds ∧ preds.length = data.length ∧
      ∀ {D : Type} [LinearOrder D] [Zero D] (dist : R → R → D), (∀ a, dist a a = 0) → ∀ eps : D, 0 ≤ eps →
        ∃ u, validateSelfIso dist eps preds preds = .ok u := by
  obtain ⟨out, o1, -, o2⟩ := C78_permuted_graphs (L := L) coo hcoo draws hdraws one data hd
  rw [hfile] at o1
  cases o1
  have hiso := o2 data' rfl
  have hd' : ∀ H ∈ data', H.Plain := by
    intro H hH
    obtain ⟨G, -, hGH⟩ := forall₂_mem hiso.flip hH
    exact hGH.2
  have hne' : data' ≠ [] := by
    rintro rfl
    exact hne (List.forall₂_nil_right_iff.mp hiso)
  obtain ⟨b, e1, -, e2⟩ := C78_predictions forward hnet agg hperm width w hagg one hone data hd hne rings down qs hqs disk h
    q hq
  obtain ⟨b', e1', -, e2'⟩ := C78_predictions forward hnet agg hperm width w hagg one hone data' hd' hne' rings down qs' hqs'
    disk' h' q' hq'
  obtain ⟨batches, preds, f1, f2, f3⟩ := e2 "test" (by simp) batchSize hb mB
  obtain ⟨batches', preds', f1', f2', f3'⟩ := e2' "test" (by simp) batchSize' hb' mB
  have g1 := f3 q.g q.lib hq.gudhi hq.ringLib
  have g2 := f3' q'.g q'.lib hq'.gudhi hq'.ringLib
  rw [hdim] at g2
  have hp : preds' = preds := by
    have l1 := g1.length_eq
    have l2 := g2.length_eq
    have l3 := hiso.length_eq
    refine List.ext_getElem (by omega) fun i hi hi' => ?_
    have a1 := (List.forall₂_iff_get.mp g1).2 i (by omega) hi'
    have a2 := (List.forall₂_iff_get.mp g2).2 i (by omega) hi
    have a3 := (List.forall₂_iff_get.mp hiso).2 i (by omega) (by omega)
    simp only [List.get_eq_getElem] at a1 a2 a3
    obtain ⟨c, k1, k2⟩ := a1
    obtain ⟨c', k1', k2'⟩ := a2
    exact (lifted_iso hnet hperm hq.gudhi hq'.gudhi hq.ringLib hq'.ringLib one (hd _ (List.getElem_mem _)) a3.2 a3.1 q.maxDim
      rings down mB k1 k1' k2 k2').symm
  subst hp
  refine ⟨b, b', batches, batches', preds', e1, e1', f1, f1', f2, f2', g1.length_eq.symm, ?_⟩
  intro D _ _ dist hdist eps heps
  refine ⟨(List.range preds'.length).map fun _ => (), ?_⟩
  refine mapE_eq_ok_iff.mpr ?_
  rw [List.forall₂_map_right_iff, List.forall₂_same]
  intro i hi
  obtain ⟨a, ha⟩ : ∃ a, preds'[i]? = some a := ⟨_, List.getElem?_eq_getElem (List.mem_range.mp hi)⟩
  rw [getAt_eq_ok.mpr ha, ok_bind, ok_bind, pyAssert_eq_ok, hdist]
  simpa using heps

/-- **C78** Isomorphic graphs are never told apart. In an evaluation of the dataset with the isomorphism metric, every
pair of isomorphic graphs counts as a failure: the failure rate is at least their share of all pairs. -/
theorem C78_isomorphic_graphs_fail {D T : Type} [LinearOrder D] [Zero D] (dist : R → R → D) (hdist : ∀ a, dist a a = 0)
    (eps : D) (heps : 0 < eps) (targets : Complex R L → Py (List T)) (loss : List R → List T → Py ℚ)
    (forward : Complex R L → Py (List R))
    (hnet : Network 𝕜 R L forward) (agg : List R → R)
    (hperm : ∀ l l' : List R, l.Perm l' → agg l = agg l') (width : R → Nat) (w : Nat)
    (hagg : ∀ l : List R, l ≠ [] → (∀ r ∈ l, width r = w) → width (agg l) = w) (one : R) (hone : width one = w)
    (data : List RawGraph) (hd : ∀ G ∈ data, G.Plain) (htwo : 2 ≤ data.length) (rings : Option Nat) (down : Bool)
    (qs : List Request) (hqs : ∀ q ∈ qs, q.Ok rings) (disk : Nat → Option (Storage R L))
    (h : After agg width one (.ok data) rings down qs disk) (q : Request) (hq : q.Ok rings) (batchSize : Nat)
    (hb : 0 < batchSize) (mB : Nat) (S : Finset (Nat × Nat))
    (hS : ∀ p ∈ S, p.1 < p.2 ∧ ∃ G H, data[p.1]? = some G ∧ data[p.2]? = some H ∧ G.Iso H) :
    ∃ b r, q.build agg width one (.ok data) rings down disk = .ok b ∧
      (splitLoader q.order b.dataset b.splits "test" none batchSize mB >>=
        evalModel .isomorphism forward targets loss fun preds _ => isomorphismMetric dist eps preds) = .ok (r, none) ∧
      r ≤ 1 ∧ (S.card : ℚ) / (data.length.choose 2 : ℚ) ≤ r := by
  have hne : data ≠ [] := by rintro rfl; simp at htwo
  obtain ⟨b, e1, -, e2⟩ := C78_predictions forward hnet agg hperm width w hagg one hone data hd hne rings down qs hqs disk h
    q hq
  obtain ⟨batches, preds, f1, f2, f3⟩ := e2 "test" (by simp) batchSize hb mB
  have g1 := f3 q.g q.lib hq.gudhi hq.ringLib
  have hlen := g1.length_eq
  have hm := C52_failure_rate dist eps preds (by omega)
  refine ⟨b, _, e1, ?_, (C52_is_a_rate dist eps preds _ hm).2, ?_⟩
  · rw [f1, ok_bind, evalModel_isomorphism, f2, ok_bind, hm]
    rfl
  · rw [hlen]
    refine div_le_div_of_nonneg_right ?_ (by positivity)
    rw [Nat.cast_le]
    refine Finset.card_le_card fun p hp => ?_
    obtain ⟨hlt, G, H, i1, i2, hiso⟩ := hS p hp
    have l1 := lt_of_get i1
    have l2 := lt_of_get i2
    have a1 := (List.forall₂_iff_get.mp g1).2 p.1 l1 (by omega)
    have a2 := (List.forall₂_iff_get.mp g1).2 p.2 l2 (by omega)
    simp only [List.get_eq_getElem] at a1 a2
    rw [(List.getElem?_eq_some_iff.mp i1).2] at a1
    rw [(List.getElem?_eq_some_iff.mp i2).2] at a2
    obtain ⟨c, k1, k2⟩ := a1
    obtain ⟨c', k1', k2'⟩ := a2
    have heq := lifted_iso hnet hperm hq.gudhi hq.gudhi hq.ringLib hq.ringLib one (hd _ (List.mem_of_getElem? i1))
      (hd _ (List.mem_of_getElem? i2)) hiso q.maxDim rings down mB k1 k1' k2 k2'
    unfold placePairs
    rw [Finset.mem_filter, Finset.mem_product, Finset.mem_range, Finset.mem_range]
    refine ⟨⟨by omega, by omega⟩, hlt, _, List.getElem?_eq_getElem (by omega), _, List.getElem?_eq_getElem (by omega), ?_⟩
    rw [heq]
    simpa [hdist] using heps

end

/-- **C78** The settings that the constructor refuses, whatever is on the disk: rings of at most 3 nodes, and rings
together with a dimension that is not 2. -/
theorem C78_refused [DecidableEq F] [DecidableEq L] (g : Gudhi) (lib : RingLib) (agg : List F → F) (width : F → Nat)
    (order : List (List Nat) → List (List Nat)) (one : F) (raw : Py (List RawGraph)) (down : Bool)
    (disk : Nat → Option (Storage F L)) (size k : Nat) (h : size ≤ 3 ∨ k ≠ 2) :
    srDataset g lib agg width order one raw (some size) down disk k = .error .assertion := by
  unfold srDataset
  rcases h with h | h
  · rw [show pyAssert (ringSizeOk (some size)) = .error .assertion by simp [ringSizeOk, pyAssert]; omega]
    rfl
  · rcases hs : pyAssert (ringSizeOk (some size)) with e | u
    · have : e = .assertion := by
        unfold pyAssert at hs
        split at hs
        · cases hs
        · exact (Except.error.inj hs).symm
      subst this
      rfl
    · rw [ok_bind, show pyAssert ((some size).isNone || k == 2) = .error .assertion by simp [pyAssert, h]]
      rfl

/-! ### Examples -/

open Fixtures

/-- A triangle and a path. -/
def srToy : List RawGraph :=
  [([(0, 1), (1, 0), (1, 2), (2, 1), (0, 2), (2, 0)], 3), ([(0, 1), (1, 0), (1, 2), (2, 1)], 3)]

theorem srToy_plain : ∀ G ∈ srToy, G.Plain := by
  intro G hG
  simp only [srToy, List.mem_cons, List.not_mem_nil, or_false] at hG
  rcases hG with rfl | rfl <;>
    exact ⟨by decide, by unfold EdgesIn; decide, by unfold NoLoops; decide, by decide, by decide⟩

/-- The file of permuted graphs: of the two draws the first is refused, as it moves nothing. -/
def srToyMoved : List RawGraph :=
  [([(0, 1), (0, 2), (1, 0), (1, 2), (2, 0), (2, 1)], 3), ([(0, 1), (0, 2), (1, 0), (2, 0)], 3)]

example : (permutedFile (L := ℤ) rowMajor (fun _ => [[0, 1, 2], [1, 2, 0]]) (srToy.map (srGraph (1 : ℚ)))) =
    .ok (some srToyMoved) := by decide +kernel

/-- The requests of the examples. -/
def srAsk (k : Nat) : Request := ⟨plainGudhi, plainRings, asGiven, k⟩

theorem srAsk_ok {k : Nat} (hk : 1 ≤ k) : (srAsk k).Ok none :=
  ⟨plainGudhi_ok, plainRings_ok, fun _ => List.Perm.refl _, hk, fun size h => by cases h⟩

/-- Nothing fails when the dimensions 5, 1 and 2 are requested one after the other; the first file is in the folder of
dimension 2, where the last request finds it, and there is none in the folder of dimension 5. -/
example : (do
    let b ← (srAsk 5).build (L := ℤ) List.sum (fun _ => 1) (1 : ℚ) (.ok srToy) none false fun _ => none
    let b' ← (srAsk 1).build List.sum (fun _ => 1) 1 (.ok srToy) none false b.disk
    let b'' ← (srAsk 2).build List.sum (fun _ => 1) 1 (.error .value) none false b'.disk
    return ([b.maxDim, b'.maxDim, b''.maxDim] == [2, 1, 2] && b''.splits.test == some [0, 1] &&
      (List.range 6).map (fun d => (b''.disk d).isSome) == [false, true, true, false, false, false])) =
    .ok true := by decide +kernel

/-- All of this meets the hypotheses of the theorems. -/
example : rowMajor.Correct ∧ (∀ n, ∀ p ∈ [List.range n, (List.range n).reverse], p.Perm (List.range n)) ∧
    Network ℚ ℚ ℤ (sparseNetQ.forward ℚ SparseLevel.forward) ∧
    (∀ l : List ℚ, l ≠ [] → (∀ r ∈ l, (fun _ => 1) r = 1) → (fun _ => 1) l.sum = 1) ∧ (srAsk 5).Ok none ∧
    After (L := ℤ) List.sum (fun _ => 1) (1 : ℚ) (.ok srToy) none false [] fun _ => none :=
  ⟨rowMajor_correct, fun n p hp => by
    simp only [List.mem_cons, List.not_mem_nil, or_false] at hp
    rcases hp with rfl | rfl
    · exact List.Perm.refl _
    · exact List.reverse_perm _, .sparse _ sparseNetQ_fits, fun _ _ _ => rfl, srAsk_ok (by decide), .start⟩

/-- No clique of the two graphs has more than 3 nodes, as they have only 3 nodes; so the folder of dimension 5 stays empty. -/
example : ∀ G ∈ srToy, ∀ s, IsClique G.1 G.2 s → s.length ≤ 5 := by
  intro G hG s hs
  have h2 : G.2 = 3 := by
    simp only [srToy, List.mem_cons, List.not_mem_nil, or_false] at hG
    rcases hG with rfl | rfl <;> rfl
  have hnd : s.Nodup := hs.1.2.imp fun h => Nat.ne_of_lt h
  have := (hnd.subperm (l₂ := List.range 3) fun v hv => List.mem_range.mpr (h2 ▸ hs.2.1 v hv)).length_le
  simp at this
  omega

/-- Predictions for the graphs and for their permuted copies, one with batches of one graph. -/
example : (do
    let b ← (srAsk 5).build (L := ℤ) List.sum (fun _ => 1) (1 : ℚ) (.ok srToy) none false fun _ => none
    let b' ← (srAsk 5).build (L := ℤ) List.sum (fun _ => 1) (1 : ℚ) (.ok srToyMoved) none false fun _ => none
    let batches ← splitLoader asGiven b.dataset b.splits "test" none 1 5
    let batches' ← splitLoader asGiven b'.dataset b'.splits "test" none 8 5
    let preds ← infer (sparseNetQ.forward ℚ SparseLevel.forward) batches
    let preds' ← infer (sparseNetQ.forward ℚ SparseLevel.forward) batches'
    let ok ← validateSelfIso (fun a b => |a - b|) 0 preds preds'
    return (batches.length == 2 && batches'.length == 1 && preds == preds' && preds[0]? != preds[1]? && ok.length == 2)) =
    .ok true := by decide +kernel

/-- Two triangles and a path: one pair of three is isomorphic. -/
example : (do
    let b ← (srAsk 2).build (L := ℤ) List.sum (fun _ => 1) (1 : ℚ) (.ok (srToy ++ srToyMoved.take 1)) none false fun _ => none
    let batches ← splitLoader asGiven b.dataset b.splits "test" none 2 2
    let preds ← infer (sparseNetQ.forward ℚ SparseLevel.forward) batches
    isomorphismMetric (fun a b => |a - b|) (1 / 100 : ℚ) preds) = .ok (1 / 3) := by decide +kernel

end Verif
