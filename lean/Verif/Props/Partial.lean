import Verif.Lemmas.Checks
import Verif.Lemmas.StripFeatures
import Verif.Props.Dummies
import Verif.Spec.Partial

/-! # The intermediate results of the networks and the tests that compare them (C106) -/

namespace Verif

variable {𝕜 R L : Type} [Field 𝕜] [AddCommGroup R] [Module 𝕜 R]

/-- **C106** Asking for the intermediate results changes nothing else: on all data the same prediction or the same exception,
and the prediction is what is stored under `out`. -/
theorem C106_the_prediction_stays {Lv : Type} (level : Lv → MPParams R → Py (List R)) (data : Complex R L) :
    (∀ net : SparseNet R Lv, Prod.fst <$> net.forwardPartial 𝕜 level data = net.forward 𝕜 level data ∧
      ∀ preds res, net.forwardPartial 𝕜 level data = .ok (preds, res) → res.lookup .out = some preds) ∧
    ∀ net : EmbedNet R Lv, Prod.fst <$> net.forwardPartial 𝕜 level data = net.forward 𝕜 level data ∧
      ∀ preds res, net.forwardPartial 𝕜 level data = .ok (preds, res) → res.lookup .out = some preds := by
  have hout : ∀ (net : SparseNet R Lv) (data : Complex R L) (preds : List R) (res : Results (List R)),
      net.forwardPartial 𝕜 level data = .ok (preds, res) → res.lookup ResultKey.out = some preds := by
    intro net data preds res h
    unfold SparseNet.forwardPartial at h
    obtain ⟨out, -, h⟩ := bind_eq_ok.mp h
    obtain ⟨xs, -, h⟩ := bind_eq_ok.mp h
    obtain ⟨pool, -, h⟩ := bind_eq_ok.mp h
    obtain ⟨pooled, -, h⟩ := bind_eq_ok.mp h
    obtain ⟨sel, -, h⟩ := bind_eq_ok.mp h
    obtain ⟨new, -, h⟩ := bind_eq_ok.mp h
    obtain ⟨x, -, h⟩ := bind_eq_ok.mp h
    cases h
    rw [lookup_append', lookup_append', lookup_other, lookup_other]
    · rfl
    · intro p hp
      obtain ⟨k, e⟩ := poolResults_mem hp
      rw [e]
      exact ResultKey.noConfusion
    · intro p hp
      obtain ⟨q, -, hp⟩ := List.mem_flatMap.mp hp
      obtain ⟨q', -, rfl⟩ := List.mem_map.mp hp
      exact ResultKey.noConfusion
  refine ⟨fun net => ⟨SparseNet.forwardPartial_fst level net data, hout net data⟩, fun net => ⟨?_, ?_⟩⟩
  · unfold EmbedNet.forwardPartial EmbedNet.forward
    cases checkNodes data with
    | error e => rfl
    | ok u =>
      simp only [ok_bind]
      cases data.getAllCochainParams net.net.maxDim true false with
      | error e => rfl
      | ok ps =>
        simp only [ok_bind]
        cases net.init.forward ps with
        | error e => rfl
        | ok xs =>
          simp only [ok_bind]
          cases data.setXs (xs.map some) with
          | error e => rfl
          | ok d => exact SparseNet.forwardPartial_fst level net.net d
  · intro preds res h
    unfold EmbedNet.forwardPartial at h
    obtain ⟨-, -, h⟩ := bind_eq_ok.mp h
    obtain ⟨ps, -, h⟩ := bind_eq_ok.mp h
    obtain ⟨xs, -, h⟩ := bind_eq_ok.mp h
    obtain ⟨d, -, h⟩ := bind_eq_ok.mp h
    exact hout net.net d preds res h

/-- What the values of the intermediate results are, from the results of the members. -/
theorem Blocks.values {Lv : Type} {rule : Lv → Rule R} {net : SparseNet R Lv} {mB : Nat} {C : Type}
    {f : List C → Py (List R × Results (List R))} {e : C → Complex R L} {cs : List C} {pred : C → R}
    (h : Blocks f cs pred (fun key c => net.HasKey mB key (e c)) fun key c => net.rowsAt rule mB 𝕜 key (e c)) (hne : cs ≠ []) :
    ∃ res, f cs = .ok (cs.map pred, res) ∧
      (∀ i k, i < net.convs.length → k ≤ net.maxDim → k ≤ mB → (∃ c ∈ cs, k ≤ (e c).dimension) →
        res.lookup (.layer i k) = some (cs.flatMap fun c => if k ≤ (e c).dimension then
          ((((e c).view.upTo mB).run net.maxDim true (net.convs.map (rulesOf rule)))[i]?.map fun v => v.X k).getD [] else [])) ∧
      (∀ i d, net.dims[i]? = some d → res.lookup (.pool i) = some (cs.map fun c => poolOf 𝕜 net.readout
        (((e c).view.upTo mB).final net.jump (((e c).view.upTo mB).run net.maxDim true (net.convs.map (rulesOf rule))) d))) ∧
      ∀ key, (∀ i k, key = .layer i k → ¬ (i < net.convs.length ∧ k ≤ net.maxDim ∧ k ≤ mB ∧ ∃ c ∈ cs, k ≤ (e c).dimension)) →
        (∀ i, key = .pool i → net.dims.length ≤ i) → key ≠ .out → res.lookup key = none := by
  obtain ⟨res, h1, -, h3⟩ := h.run cs hne fun _ h => h
  refine ⟨res, h1, fun i k hi hk hm hc => ?_, fun i d hd => ?_, fun key hl hp ho => ?_⟩
  · obtain ⟨c, hc, hle⟩ := hc
    rw [(h3 (.layer i k)).1 ⟨c, hc, hi, hk, hm, hle⟩]
    congr 1
    refine List.flatMap_congr fun c _ => ?_
    by_cases hle : k ≤ (e c).dimension
    · have hlt : i < (((e c).view.upTo mB).run net.maxDim true (net.convs.map (rulesOf rule))).length := by
        rw [run_length]; simpa using hi
      rw [if_pos hle]
      show (if _ then _ else _) = _
      rw [if_pos ⟨hi, hk, hm, hle⟩, layer_rows (List.getElem?_eq_getElem hlt), List.getElem?_eq_getElem hlt]
      rfl
    · rw [if_neg hle]
      exact if_neg fun h => hle h.2.2.2
  · obtain ⟨c, hc⟩ := List.exists_mem_of_ne_nil cs hne
    rw [(h3 (.pool i)).1 ⟨c, hc, lt_of_get hd⟩]
    congr 1
    rw [← flatMap_singleton']
    refine List.flatMap_congr fun c _ => ?_
    simp only [SparseNet.rowsAt, hd]
  · refine (h3 key).2 fun c hc hk => ?_
    cases key with
    | layer i k => exact hl i k rfl ⟨hk.1, hk.2.1, hk.2.2.1, c, hc, hk.2.2.2⟩
    | pool i => exact absurd (hp i rfl) (Nat.not_le.mpr hk)
    | out => exact ho rfl

/-- **C106** The intermediate results on a batch: under `layer{i}_{k}` the features of the `k`-cells of the members after layer
`i`, one member after the other, under `pool_{i}` the pooled features of each member, and nothing else but `out`. In
particular they are put together from the results of the members alone. -/
theorem C106_intermediate_results {cs : List (Complex R L)} (hne : cs ≠ []) (hr : ∀ c ∈ cs, c.Ready)
    (h0 : ∀ c ∈ cs, 0 < c.cellsIn 0) (mB : Nat) :
    (∀ net : SparseNet R (SparseLevel 𝕜 R), net.Fits →
      PutTogether (fun ds => fromComplexList ds mB >>= net.forwardPartial 𝕜 SparseLevel.forward) cs ∧
      ∃ res, (fromComplexList cs mB >>= net.forwardPartial 𝕜 SparseLevel.forward) =
          .ok (cs.map fun c => net.predict 𝕜 SparseLevel.rule (c.view.upTo mB), res) ∧
        (∀ i k, i < net.convs.length → k ≤ net.maxDim → k ≤ mB → (∃ c ∈ cs, k ≤ c.dimension) →
          res.lookup (.layer i k) = some (cs.flatMap fun c => if k ≤ c.dimension then
            (((c.view.upTo mB).run net.maxDim true (net.convs.map (rulesOf SparseLevel.rule)))[i]?.map fun v => v.X k).getD []
            else [])) ∧
        (∀ i d, net.dims[i]? = some d → res.lookup (.pool i) = some (cs.map fun c => poolOf 𝕜 net.readout
          ((c.view.upTo mB).final net.jump
            ((c.view.upTo mB).run net.maxDim true (net.convs.map (rulesOf SparseLevel.rule))) d))) ∧
        ∀ key, (∀ i k, key = .layer i k → ¬ (i < net.convs.length ∧ k ≤ net.maxDim ∧ k ≤ mB ∧ ∃ c ∈ cs, k ≤ c.dimension)) →
          (∀ i, key = .pool i → net.dims.length ≤ i) → key ≠ .out → res.lookup key = none) ∧
    ∀ net : SparseNet R (PPLevel 𝕜 R), net.Fits →
      PutTogether (fun ds => fromComplexList ds mB >>= net.forwardPartial 𝕜 PPLevel.forward) cs ∧
      ∃ res, (fromComplexList cs mB >>= net.forwardPartial 𝕜 PPLevel.forward) =
          .ok (cs.map fun c => net.predict 𝕜 PPLevel.rule (c.view.upTo mB), res) ∧
        (∀ i k, i < net.convs.length → k ≤ net.maxDim → k ≤ mB → (∃ c ∈ cs, k ≤ c.dimension) →
          res.lookup (.layer i k) = some (cs.flatMap fun c => if k ≤ c.dimension then
            (((c.view.upTo mB).run net.maxDim true (net.convs.map (rulesOf PPLevel.rule)))[i]?.map fun v => v.X k).getD []
            else [])) ∧
        (∀ i d, net.dims[i]? = some d → res.lookup (.pool i) = some (cs.map fun c => poolOf 𝕜 net.readout
          ((c.view.upTo mB).final net.jump
            ((c.view.upTo mB).run net.maxDim true (net.convs.map (rulesOf PPLevel.rule))) d))) ∧
        ∀ key, (∀ i k, key = .layer i k → ¬ (i < net.convs.length ∧ k ≤ net.maxDim ∧ k ≤ mB ∧ ∃ c ∈ cs, k ≤ c.dimension)) →
          (∀ i, key = .pool i → net.dims.length ≤ i) → key ≠ .out → res.lookup key = none := by
  constructor
  · intro net hn
    have hb := SparseNet.partial_blocks (𝕜 := 𝕜) (realises_sparse false) hn hr h0 mB
    exact ⟨hb.putTogether hne, Blocks.values (e := id) hb hne⟩
  · intro net hn
    have hb := SparseNet.partial_blocks (𝕜 := 𝕜) (realises_pp false) hn hr h0 mB
    exact ⟨hb.putTogether hne, Blocks.values (e := id) hb hne⟩

section
variable [DecidableEq R]

/-- **C106** The tests that compare all intermediate results with and without batches pass: for all parameters of SparseCIN and
CIN++, all lists of complexes with features and vertices, all sizes and dimensions of the batches. -/
theorem C106_partial_test (cs : List (Complex R L)) (hr : ∀ c ∈ cs, c.Ready) (h0 : ∀ c ∈ cs, 0 < c.cellsIn 0)
    (b : Nat) (hb : 0 < b) (m : Nat) :
    (∀ net : SparseNet R (SparseLevel 𝕜 R), net.Fits → partialTest (net.forwardPartial 𝕜 SparseLevel.forward) id b m cs = .ok ()) ∧
    ∀ net : SparseNet R (PPLevel 𝕜 R), net.Fits → partialTest (net.forwardPartial 𝕜 PPLevel.forward) id b m cs = .ok () :=
  ⟨fun _ hn => partialTest_ok (SparseNet.partial_blocks (𝕜 := 𝕜) (realises_sparse false) hn hr h0 m) hb,
    fun _ hn => partialTest_ok (SparseNet.partial_blocks (𝕜 := 𝕜) (realises_pp false) hn hr h0 m) hb⟩

/-- **C106** What the tests compare: they pass if and only if the same results are there with and without batches and are
equal. A result that is there in one of the two only raises `KeyError`, unless another one differs; a batch size of 0
raises `ValueError`. -/
theorem C106_what_the_tests_compare (unbatched batched : Results (List R)) :
    (compareResults unbatched batched = .ok () ↔ ∀ key, (key ∈ unbatched.map Prod.fst ∨ key ∈ batched.map Prod.fst) →
      ∃ rows, unbatched.lookup key = some rows ∧ batched.lookup key = some rows) ∧
    ((∀ key u v, unbatched.lookup key = some u → batched.lookup key = some v → u = v) →
      (∃ key, (key ∈ unbatched.map Prod.fst ∨ key ∈ batched.map Prod.fst) ∧
        (unbatched.lookup key = none ∨ batched.lookup key = none)) →
      compareResults unbatched batched = .error .key) ∧
    ∀ (forward : Complex R L → Py (List R × Results (List R))) (prepare : Complex R L → Complex R L) (maxDim : Nat)
      (cs : List (Complex R L)), partialTest forward prepare 0 maxDim cs = .error .value := by
  let f : ResultKey → Py Unit := fun key => do
    let u ← getResult unbatched key
    let v ← getResult batched key
    pyAssert (decide (u = v))
  have hf : ∀ key, f key = match unbatched.lookup key, batched.lookup key with
      | some u, some v => if u = v then .ok () else .error .assertion
      | _, _ => .error .key := by
    intro key
    show (getResult unbatched key >>= fun u => getResult batched key >>= fun v => pyAssert (decide (u = v))) = _
    unfold getResult
    cases unbatched.lookup key with
    | none => rfl
    | some u =>
      cases batched.lookup key with
      | none => rfl
      | some v =>
        show pyAssert (decide (u = v)) = if u = v then Except.ok () else Except.error PyErr.assertion
        by_cases h : u = v
        · rw [if_pos h, decide_eq_true h]
          rfl
        · rw [if_neg h, decide_eq_false h]
          rfl
  have hc : compareResults unbatched batched =
      (mapE f (unbatched.map Prod.fst ++ batched.map Prod.fst)).map fun _ => () := by
    show (mapE f (unbatched.map Prod.fst ++ batched.map Prod.fst) >>= fun _ => pure ()) = _
    cases mapE f (unbatched.map Prod.fst ++ batched.map Prod.fst) <;> rfl
  refine ⟨?_, ?_, fun _ _ _ _ => rfl⟩
  · have h1 : (compareResults unbatched batched = .ok ()) ↔
        ∃ r, mapE f (unbatched.map Prod.fst ++ batched.map Prod.fst) = .ok r := by
      rw [hc]
      cases mapE f (unbatched.map Prod.fst ++ batched.map Prod.fst) <;> simp [Except.map]
    rw [h1, mapE_unit_eq_ok]
    simp only [List.mem_append]
    refine forall_congr' fun key => imp_congr_right fun _ => ?_
    rw [hf]
    cases unbatched.lookup key with
    | none => simp
    | some u =>
      cases batched.lookup key with
      | none => simp
      | some v => by_cases h : u = v <;> simp [h, Ne.symm, eq_comm]
  · rintro heq ⟨key, hk, hn⟩
    have hor : ∀ key, f key = .ok () ∨ f key = .error .key := by
      intro key
      rw [hf]
      cases hu : unbatched.lookup key with
      | none => exact .inr rfl
      | some u =>
        cases hv : batched.lookup key with
        | none => exact .inr rfl
        | some v => exact .inl (by rw [heq key u v hu hv]; exact if_pos rfl)
    have hbad : f key = .error .key := by
      rw [hf]
      rcases hn with hn | hn <;> rw [hn]
      cases unbatched.lookup key <;> rfl
    rw [hc]
    have : ∀ ks : List ResultKey, key ∈ ks → mapE f ks = .error .key := by
      intro ks
      induction ks with
      | nil =>
        intro h
        cases h
      | cons k ks ih =>
        intro h
        rw [mapE_cons]
        rcases hor k with e | e
        · rw [e, ok_bind, ih ?_]
          · rfl
          · rcases List.mem_cons.mp h with rfl | h
            · rw [hbad] at e
              cases e
            · exact h
        · rw [e]
          rfl
    rw [this _ (List.mem_append.mpr hk)]
    rfl

/-- A result that is not there without batches. -/
example : compareResults ([(.out, [1])] : Results (List Nat)) [(.out, [1]), (.layer 0 1, [2])] = .error .key ∧
    compareResults ([(.out, [1]), (.layer 0 1, [2])] : Results (List Nat)) [(.layer 0 1, [2]), (.out, [1])] = .ok () :=
  by decide

/-- **C106** In particular on the hand-made complexes. -/
theorem C106_partial_test_on_the_handmade_complexes (num : Nat → R) (b : Nat) (hb : 0 < b) (m : Nat) :
    ∃ cs, testingComplexes num = .ok cs ∧ cs.length = 23 ∧
      (∀ net : SparseNet R (SparseLevel 𝕜 R), net.Fits →
        partialTest (net.forwardPartial 𝕜 SparseLevel.forward) id b m cs = .ok ()) ∧
      ∀ net : SparseNet R (PPLevel 𝕜 R), net.Fits → partialTest (net.forwardPartial 𝕜 PPLevel.forward) id b m cs = .ok () := by
  obtain ⟨cs, h1, h2, h3, -⟩ := testing_built num
  exact ⟨cs, h1, h2, C106_partial_test cs (fun c hc => (h3 c hc).1.sound.ready)
    (fun c hc => (h3 c hc).1.sound.full 0 (Nat.zero_le _)) b hb m⟩

/-- What a function does on the batches without features. -/
theorem strip_forward {A : Type} {cs : List (Complex R L)} (h : ∀ c ∈ cs, c.Sound) {mB : Nat} (hm : mB ≤ 2)
    (forward : Complex R L → Py A) {ds : List (Complex R L)} (hne : ds ≠ []) (hs : ∀ d ∈ ds, d ∈ cs) :
    (fromComplexList ds mB >>= fun batch => forward (stripFeatures batch)) =
      (fromComplexList (ds.map stripOne) mB >>= forward) := by
  obtain ⟨B, e1, e2⟩ := strip_batch hne (fun c hc => h c (hs c hc)) hm
  rw [e1, e2]
  rfl

theorem EmbedNet.strip_test {Lv : Type} {level : Lv → MPParams R → Py (List R)}
    {rule : Lv → Rule R} {needs : Lv → Prop} (hreal : Realises level rule needs false)
    {net : EmbedNet R Lv} (hn : net.net.Fits)
    (hred : ∀ a b : List R, a.Perm b → net.init.reduce a = net.init.reduce b)
    {cs : List (Complex R L)} (h : ∀ c ∈ cs, c.Sound) {b : Nat} (hb : 0 < b) {m : Nat} (h2 : m ≤ 2) (hm : m ≤ net.net.maxDim) :
    partialTest (net.forwardPartial 𝕜 level) stripFeatures b m cs = .ok () := by
  have hbl := EmbedNet.partial_blocks (𝕜 := 𝕜) hreal hn hred (cs := cs.map stripOne) (by
      intro c hc
      obtain ⟨k, hk, rfl⟩ := List.mem_map.mp hc
      exact strip_embeds (h k hk) _) (strip_uniform h) (mB := m) (fun c _ => (Nat.min_le_right _ _).trans h2)
    (fun c _ => (Nat.min_le_right _ _).trans hm)
  exact partialTest_ok (hbl.through fun ds hne hs => strip_forward h h2 _ hne hs) hb

/-- **C106** The tests of the embedding networks, which take the features of edges and 2-cells out of each batch, pass: on all
lists of cell complexes with features, all sizes of batches, all dimensions of the batches up to 2 and all dimensions of the
network from there. -/
theorem C106_embedding_tests (cs : List (Complex R L)) (hne : cs ≠ []) (h : ∀ c ∈ cs, c.Sound) (b : Nat) (hb : 0 < b)
    (m : Nat) (h2 : m ≤ 2) :
    (∀ net : EmbedNet R (SparseLevel 𝕜 R), net.net.Fits → m ≤ net.net.maxDim →
      (∀ l l' : List R, l.Perm l' → net.init.reduce l = net.init.reduce l') →
      partialTest (net.forwardPartial 𝕜 SparseLevel.forward) stripFeatures b m cs = .ok ()) ∧
    (∀ net : EmbedNet R (PPLevel 𝕜 R), net.net.Fits → m ≤ net.net.maxDim →
      (∀ l l' : List R, l.Perm l' → net.init.reduce l = net.init.reduce l') →
      partialTest (net.forwardPartial 𝕜 PPLevel.forward) stripFeatures b m cs = .ok ()) ∧
    (1 ≤ m → ∀ net : EmbedNet R (SparseLevel 𝕜 R), net.flat.net.Fits →
      (∀ l l' : List R, l.Perm l' → net.init.reduce l = net.init.reduce l') →
      batchingTest (fun batch => net.forwardNoRings 𝕜 SparseLevel.forward (stripFeatures batch)) b m cs = .ok ()) ∧
    (1 ≤ m → ∀ net : EmbedGIN 𝕜 R, net.convs ≠ [] → (net.readout = "sum" ∨ net.readout = "mean") →
      (∀ l l' : List R, l.Perm l' → net.init.reduce l = net.init.reduce l') →
      batchingTest (fun batch => net.forward (stripFeatures batch)) b m cs = .ok ()) := by
  have hem : ∀ (l : EmbedInit R) (ds : List (Complex R L)), (∀ d ∈ ds, d ∈ cs) → ∀ c ∈ ds.map stripOne, l.Embeds c := by
    intro l ds hs c hc
    obtain ⟨k, hk, rfl⟩ := List.mem_map.mp hc
    exact strip_embeds (h k (hs k hk)) l
  have hu : ∀ ds : List (Complex R L), (∀ d ∈ ds, d ∈ cs) → UniformFeatures (ds.map stripOne) :=
    fun ds hs => strip_uniform fun c hc => h c (hs c hc)
  refine ⟨fun net hn hm hred => EmbedNet.strip_test (realises_sparse false) hn hred h hb h2 hm,
    fun net hn hm hred => EmbedNet.strip_test (realises_pp false) hn hred h hb h2 hm, fun h1 net hn hred => ?_,
    fun h1 net hn hread hred => ?_⟩
  · refine batchingTest_ok (pred := fun c => net.flat.predict 𝕜 SparseLevel.rule 1 (stripOne c)) (fun ds hds hs => ?_) hne hb
    rw [strip_forward h h2 (net.forwardNoRings 𝕜 SparseLevel.forward) hds hs,
      EmbedNet.forwardNoRings_cut sparse_ignoresAttr (realises_sparse false) hn hred (by simpa using hds)
        (hem _ ds hs) (hu ds hs) (fun c _ => (Nat.min_le_right _ _).trans h2) h1, List.map_map]
    rfl
  · refine batchingTest_ok (pred := fun c => net.predict (stripOne c)) (fun ds hds hs => ?_) hne hb
    rw [strip_forward h h2 net.forward hds hs,
      EmbedGIN.forward_cut hn hread hred (by simpa using hds)
        (hem _ ds hs) (hu ds hs) (fun c _ => (Nat.min_le_right _ _).trans h2) h1, List.map_map]
    rfl

/-- **C106** In particular on the hand-made complexes, among them a pyramid of dimension 3. -/
theorem C106_embedding_tests_on_the_handmade_complexes (num : Nat → R) (b : Nat) (hb : 0 < b) (m : Nat) (h2 : m ≤ 2) :
    ∃ cs, testingComplexes num = .ok cs ∧ cs.length = 23 ∧ (∃ c ∈ cs, c.dimension = 3) ∧
      (∀ net : EmbedNet R (SparseLevel 𝕜 R), net.net.Fits → m ≤ net.net.maxDim →
        (∀ l l' : List R, l.Perm l' → net.init.reduce l = net.init.reduce l') →
        partialTest (net.forwardPartial 𝕜 SparseLevel.forward) stripFeatures b m cs = .ok ()) ∧
      (∀ net : EmbedNet R (PPLevel 𝕜 R), net.net.Fits → m ≤ net.net.maxDim →
        (∀ l l' : List R, l.Perm l' → net.init.reduce l = net.init.reduce l') →
        partialTest (net.forwardPartial 𝕜 PPLevel.forward) stripFeatures b m cs = .ok ()) ∧
      (1 ≤ m → ∀ net : EmbedNet R (SparseLevel 𝕜 R), net.flat.net.Fits →
        (∀ l l' : List R, l.Perm l' → net.init.reduce l = net.init.reduce l') →
        batchingTest (fun batch => net.forwardNoRings 𝕜 SparseLevel.forward (stripFeatures batch)) b m cs = .ok ()) ∧
      (1 ≤ m → ∀ net : EmbedGIN 𝕜 R, net.convs ≠ [] → (net.readout = "sum" ∨ net.readout = "mean") →
        (∀ l l' : List R, l.Perm l' → net.init.reduce l = net.init.reduce l') →
        batchingTest (fun batch => net.forward (stripFeatures batch)) b m cs = .ok ()) := by
  obtain ⟨cs, e1, e2, e3, e4⟩ := testing_built num
  exact ⟨cs, e1, e2, e4 3 (Nat.le_refl _), C106_embedding_tests cs (by rintro rfl; simp at e2)
    (fun c hc => (e3 c hc).1.sound) b hb m h2⟩

end

/-! ### Examples -/

open Fixtures

/-- The keys on a batch of a segment and a house: two dimensions for the one, three for the other. -/
example : ((fromComplexList [segQ, houseQ] 2 >>= sparseNetQ.forwardPartial ℚ SparseLevel.forward).map fun r =>
    (r.1.length, (r.2.lookup (.layer 0 2)).map List.length, (r.2.lookup (.layer 0 0)).map List.length,
      (r.2.lookup (.pool 0)).map List.length, (r.2.lookup (.layer 0 3)).isNone)) =
    .ok (2, some (houseQ.cellsIn 2), some (segQ.cellsIn 0 + houseQ.cellsIn 0), some 2, true) := by
  decide +kernel

example := (C106_the_prediction_stays (𝕜 := ℚ) SparseLevel.forward houseQ).1 sparseNetQ

example : PutTogether (fun ds => fromComplexList ds 2 >>= sparseNetQ.forwardPartial ℚ SparseLevel.forward) [segQ, houseQ] :=
  ((C106_intermediate_results (𝕜 := ℚ) (cs := [segQ, houseQ]) (by simp)
    (by simpa using ⟨segQ_ready, houseQ_ready⟩) (by decide) 2).1 sparseNetQ sparseNetQ_fits).1

example : partialTest (sparseNetQ.forwardPartial ℚ SparseLevel.forward) id 2 1 [segQ, houseQ, segQ] = .ok () :=
  (C106_partial_test (𝕜 := ℚ) [segQ, houseQ, segQ] (by simpa using ⟨segQ_ready, houseQ_ready, segQ_ready⟩) (by decide) 2 (by omega) 1).1
    sparseNetQ sparseNetQ_fits

example := C106_partial_test_on_the_handmade_complexes (𝕜 := ℚ) (fun n => (n : ℚ)) 7 (by omega) 3

/-- The test notices a network whose intermediate results are not put together from those of the members, though its
predictions are. -/
example : partialTest (fun B => (sparseNetQ.forwardPartial ℚ SparseLevel.forward B).map fun r =>
    (r.1, r.2.map fun p => (p.1, [p.2.sum]))) id 2 2 [segQ, houseQ] = .error .assertion := by
  decide +kernel

/-- Batches of four cut off at dimension 2. -/
example : ∃ cs, testingComplexes (fun n => (n : ℚ)) = .ok cs ∧
    partialTest (noRingsQ.forwardPartial ℚ SparseLevel.forward) stripFeatures 4 2 cs = .ok () ∧
    batchingTest (fun batch => ginQ.forward (stripFeatures batch)) 4 2 cs = .ok () := by
  obtain ⟨cs, h1, -, -, h3, -, -, h6⟩ :=
    C106_embedding_tests_on_the_handmade_complexes (𝕜 := ℚ) (fun n => (n : ℚ)) 4 (by omega) 2 (by omega)
  exact ⟨cs, h1, h3 noRingsQ sparseNetQ_fits (by decide) initQ_reduce, h6 (by omega) ginQ (by decide) (by decide) initQ_reduce⟩

end Verif
