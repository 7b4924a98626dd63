import Verif.Lemmas.Modules

/-!
# Numbers of parameters of the networks
-/

namespace Verif

/-- The layers of `SparseCIN` and the networks like it. -/
theorem newSparseConvs_creates {name : String} {norm : Nat → Mod} (h : getGraphNorm name = .ok norm)
    (inp L hid D : Nat) (cob eps : Bool) :
    Creates (newSparseConvs inp L hid D norm .pointwise cob eps)
      (Count.stack L ((D + 1) * Count.sparseLevel name inp hid cob eps)
        ((D + 1) * Count.sparseLevel name hid hid cob eps)) :=
  newList_layers_creates
    (b := fun d => newLevels D (newSparseLevel d hid norm .pointwise cob eps))
    (c := fun d => (D + 1) * Count.sparseLevel name d hid cob eps)
    (fun d => newLevels_creates (sparseLevel_creates h d hid cob eps) D) inp hid L

theorem newPPConvs_creates {name : String} {norm : Nat → Mod} (h : getGraphNorm name = .ok norm)
    (inp L hid D : Nat) (cob eps : Bool) :
    Creates (newPPConvs inp L hid D norm .pointwise cob eps)
      (Count.stack L ((D + 1) * Count.ppLevel name inp hid cob eps)
        ((D + 1) * Count.ppLevel name hid hid cob eps)) :=
  newList_layers_creates
    (b := fun d => newLevels D (newPPLevel d hid norm .pointwise cob eps))
    (c := fun d => (D + 1) * Count.ppLevel name d hid cob eps)
    (fun d => newLevels_creates (ppLevel_creates h d hid cob eps) D) inp hid L

theorem newLin1s_creates (a : SparseArgs) :
    Creates (newLin1s a) ((a.maxDim + 1) * (if a.jumpMode = some "cat" then
      (a.numLayers * a.hidden) * (a.multiplier * a.hidden)
      else Count.linear a.hidden (a.multiplier * a.hidden))) := by
  refine newList_replicate_creates ?_ _
  unfold lin1Input
  by_cases h : a.jumpMode = some "cat"
  · simpa [h] using newLinear_creates_noBias (a.numLayers * a.hidden) (a.multiplier * a.hidden)
  · simpa [h] using newLinear_creates a.hidden (a.multiplier * a.hidden)

theorem params_jumpModule : jumpModule.params = [] := by
  simp [jumpModule, params_mk, childParams_nil]

theorem childParams_jumpChild (mode : Option String) : childParams (jumpChild mode) = [] := by
  cases mode <;> simp [jumpChild, childParams_cons, childParams_nil, params_jumpModule]

theorem params_plainModule : plainModule.params = [] := by
  simp [plainModule, params_mk, childParams_nil]

/-- Simp set for the parameters of networks that were just built. -/
macro "net_params" : tactic => `(tactic| (
  simp only [bind_run, pure_run, params_mk, childParams_append, childParams_cons, childParams_nil,
    childParams_optChild, childParams_jumpChild, params_plainModule, List.mem_append, List.append_nil,
    List.map_nil, List.nil_append]))

theorem newSparseCIN_creates {a : SparseArgs} {eps : Bool} {b : StateM Nat NNModule}
    (h : a.newSparseCIN eps = .ok b) : Creates b
      (Count.stack a.numLayers
        ((a.maxDim + 1) * Count.sparseLevel a.graphNorm a.numInput a.hidden a.useCoboundaries eps)
        ((a.maxDim + 1) * Count.sparseLevel a.graphNorm a.hidden a.hidden a.useCoboundaries eps) +
      Count.head a.jumpMode a.maxDim a.numLayers a.hidden a.multiplier a.numClasses) := by
  unfold SparseArgs.newSparseCIN at h
  obtain ⟨_, -, h⟩ := bind_eq_ok.1 h
  obtain ⟨norm, hn, h⟩ := bind_eq_ok.1 h
  obtain ⟨act, ha, h⟩ := bind_eq_ok.1 h
  obtain ⟨_, -, h⟩ := bind_eq_ok.1 h
  cases h
  obtain rfl := act_count ha
  intro n
  have h1 := newSparseConvs_creates hn a.numInput a.numLayers a.hidden a.maxDim a.useCoboundaries eps n
  have h2 := newLin1s_creates a _ |> h1.append
  have h3 := newLinear_creates (a.multiplier * a.hidden) a.numClasses _ |> h2.append
  rw [Nat.add_assoc] at h3
  refine h3.congr fun p => ?_
  net_params
  tauto

/-- The children of a network after its layers were replaced. -/
theorem setChild_convs (r : Option (List ResetAct)) (before : List (String × NNModule))
    (old new : NNModule) (mode : Option String) (after : List (String × NNModule))
    (hb : ∀ c ∈ before, c.1 ≠ "convs") (ha : ∀ c ∈ after, c.1 ≠ "convs") :
    setChild "convs" new (.mk r [] (before ++ [("convs", old)] ++ jumpChild mode ++ after)) =
      .mk r [] (before ++ [("convs", new)] ++ jumpChild mode ++ after) := by
  have e : ∀ l : List (String × NNModule), (∀ c ∈ l, c.1 ≠ "convs") →
      l.map (fun c => if c.1 = "convs" then ("convs", new) else c) = l := by
    intro l hl
    conv_rhs => rw [← List.map_id l]
    exact List.map_congr_left fun c hc => if_neg (hl c hc)
  have hj : ∀ c ∈ jumpChild mode, c.1 ≠ "convs" := by
    cases mode <;> simp [jumpChild]
  simp only [setChild, List.map_append, e _ hb, e _ ha, e _ hj, List.map_cons, List.map_nil, if_true]

theorem newCINpp_creates {a : SparseArgs} {eps : Bool} {b : StateM Nat NNModule}
    (h : a.newCINpp eps = .ok b) : Creates b
      (Count.stack a.numLayers
        ((a.maxDim + 1) * Count.ppLevel a.graphNorm a.numInput a.hidden a.useCoboundaries eps)
        ((a.maxDim + 1) * Count.ppLevel a.graphNorm a.hidden a.hidden a.useCoboundaries eps) +
      Count.head a.jumpMode a.maxDim a.numLayers a.hidden a.multiplier a.numClasses) := by
  unfold SparseArgs.newCINpp at h
  obtain ⟨sup, hs, h⟩ := bind_eq_ok.1 h
  obtain ⟨norm, hn, h⟩ := bind_eq_ok.1 h
  obtain ⟨act, ha, h⟩ := bind_eq_ok.1 h
  cases h
  obtain rfl := act_count ha
  unfold SparseArgs.newSparseCIN at hs
  obtain ⟨_, -, hs⟩ := bind_eq_ok.1 hs
  obtain ⟨norm', hn', hs⟩ := bind_eq_ok.1 hs
  obtain ⟨act', ha', hs⟩ := bind_eq_ok.1 hs
  obtain ⟨_, -, hs⟩ := bind_eq_ok.1 hs
  cases hs
  obtain rfl := act_count ha'
  rw [hn] at hn'
  cases hn'
  intro n
  have h1 := newSparseConvs_creates hn a.numInput a.numLayers a.hidden a.maxDim a.useCoboundaries eps n
  have h2 := (newLin1s_creates a _).weaken h1.le
  have h3 := newLinear_creates (a.multiplier * a.hidden) a.numClasses _ |> h2.append
  have h4 := newPPConvs_creates hn a.numInput a.numLayers a.hidden a.maxDim a.useCoboundaries eps _ |>
    h3.append
  rw [Nat.add_comm] at h4
  refine h4.congr fun p => ?_
  simp only [replaceConvs, bind_run, pure_run]
  rw [← List.nil_append [("convs", _)], setChild_convs _ _ _ _ _ _ (by simp) (by simp)]
  net_params
  tauto

theorem childParams_embed (v : NNModule) (e : Option NNModule) (p : NNParam) :
    p ∈ childParams (embedChildren v e) ↔ p ∈ v.params ∨ p ∈ optParams e := by
  simp only [embedChildren, initConv]
  net_params
  tauto

/-- The size of the embeddings of vertices and, if wanted, edges. -/
theorem newEmbeds_creates {newV newE : StateM Nat NNModule} {cv ce : Nat} (hv : Creates newV cv)
    (he : Creates newE ce) (edge : Bool) (n : Nat) :
    Fresh n ((newV n).1.params ++
        optParams (newOpt (if edge then some newE else none) (newV n).2).1)
      (newOpt (if edge then some newE else none) (newV n).2).2 (cv + if edge then ce else 0) := by
  refine (hv n).append ?_
  cases edge with
  | false => exact newOpt_creates_none _
  | true => exact newOpt_creates_some he _

theorem newEmbedNet_creates {a : EmbedArgs} {newV newE : StateM Nat NNModule} {cv ce : Nat}
    (hv : Creates newV cv) (he : Creates newE ce) {eps : Bool} {b : StateM Nat NNModule}
    (h : a.newEmbedNet newV newE eps = .ok b) : Creates b
      (cv + (if a.embedEdge then ce else 0) + (Count.stack a.numLayers
        ((a.maxDim + 1) * Count.sparseLevel a.graphNorm a.embed a.hidden a.useCoboundaries eps)
        ((a.maxDim + 1) * Count.sparseLevel a.graphNorm a.hidden a.hidden a.useCoboundaries eps) +
      Count.head a.jumpMode a.maxDim a.numLayers a.hidden a.multiplier a.numClasses)) := by
  unfold EmbedArgs.newEmbedNet at h
  obtain ⟨norm, hn, h⟩ := bind_eq_ok.1 h
  obtain ⟨act, ha, h⟩ := bind_eq_ok.1 h
  obtain ⟨_, -, h⟩ := bind_eq_ok.1 h
  cases h
  obtain rfl := act_count ha
  intro n
  have h0 := newEmbeds_creates hv he a.embedEdge n
  have h1 := newSparseConvs_creates hn a.embed a.numLayers a.hidden a.maxDim a.useCoboundaries eps
    (newOpt (if a.embedEdge then some newE else none) (newV n).2).2
  have h2 := newLin1s_creates a.toSparseArgs _ |> h1.append
  have h3 := newLinear_creates (a.multiplier * a.hidden) a.numClasses _ |> h2.append
  rw [Nat.add_assoc] at h3
  refine (h0.append h3).congr fun p => ?_
  net_params
  simp only [childParams_embed]
  tauto

theorem newEmbedPP_creates {a : EmbedArgs} {newV newE : StateM Nat NNModule} {cv ce : Nat}
    (hv : Creates newV cv) (he : Creates newE ce) {eps : Bool} {b : StateM Nat NNModule}
    (h : a.newEmbedPP (a.newEmbedNet newV newE eps) eps = .ok b) : Creates b
      (cv + (if a.embedEdge then ce else 0) + (Count.stack a.numLayers
        ((a.maxDim + 1) * Count.ppLevel a.graphNorm a.embed a.hidden a.useCoboundaries eps)
        ((a.maxDim + 1) * Count.ppLevel a.graphNorm a.hidden a.hidden a.useCoboundaries eps) +
      Count.head a.jumpMode a.maxDim a.numLayers a.hidden a.multiplier a.numClasses)) := by
  unfold EmbedArgs.newEmbedPP at h
  obtain ⟨sup, hs, h⟩ := bind_eq_ok.1 h
  obtain ⟨norm, hn, h⟩ := bind_eq_ok.1 h
  obtain ⟨act, ha, h⟩ := bind_eq_ok.1 h
  cases h
  obtain rfl := act_count ha
  unfold EmbedArgs.newEmbedNet at hs
  obtain ⟨norm', hn', hs⟩ := bind_eq_ok.1 hs
  obtain ⟨act', ha', hs⟩ := bind_eq_ok.1 hs
  obtain ⟨_, -, hs⟩ := bind_eq_ok.1 hs
  cases hs
  obtain rfl := act_count ha'
  rw [hn] at hn'
  cases hn'
  intro n
  have h0 := newEmbeds_creates hv he a.embedEdge n
  have h1 := newSparseConvs_creates hn a.embed a.numLayers a.hidden a.maxDim a.useCoboundaries eps
    (newOpt (if a.embedEdge then some newE else none) (newV n).2).2
  have h2 := (newLin1s_creates a.toSparseArgs _).weaken h1.le
  have h3 := newLinear_creates (a.multiplier * a.hidden) a.numClasses _ |> h2.append
  have h4 := newPPConvs_creates hn a.embed a.numLayers a.hidden a.maxDim a.useCoboundaries eps _ |>
    h3.append
  rw [Nat.add_comm (_ + _) (Count.stack _ _ _)] at h4
  refine (h0.append h4).congr fun p => ?_
  simp only [replaceConvs, bind_run, pure_run]
  rw [setChild_convs _ _ _ _ _ _ ?_ (by simp)]
  · net_params
    simp only [childParams_embed]
    tauto
  · intro c hc
    simp only [embedChildren, List.mem_append, List.mem_cons, List.not_mem_nil, or_false] at hc
    rcases hc with (rfl | hc) | rfl | rfl
    · simp
    · cases h : (newOpt (if a.embedEdge then some newE else none) (newV n).2).1 with
      | none => simp [h, optChild] at hc
      | some m => simp [h, optChild] at hc; simp [hc]
    · simp
    · simp

theorem newCIN0_creates {a : CINArgs} {b : StateM Nat NNModule} (h : a.newCIN0 = .ok b) : Creates b
    (Count.stack a.numLayers (Count.cin0Layer a.numInput a.hidden) (Count.cin0Layer a.hidden a.hidden) +
      Count.linear (Count.jumpWidth a.jumpMode a.numLayers a.hidden) a.hidden +
      Count.linear a.hidden a.numClasses) := by
  unfold CINArgs.newCIN0 at h
  obtain ⟨_, -, h⟩ := bind_eq_ok.1 h
  obtain ⟨act, ha, h⟩ := bind_eq_ok.1 h
  obtain ⟨_, -, h⟩ := bind_eq_ok.1 h
  cases h
  obtain rfl := act_count ha
  intro n
  have h1 := newList_layers_creates (fun d => newCINConv_creates a.maxDim d a.hidden) a.numInput
    a.hidden a.numLayers n
  have h2 := newLinear_creates (lin1Input a.jumpMode a.numLayers a.hidden) a.hidden _ |> h1.append
  have h3 := newLinear_creates a.hidden a.numClasses _ |> h2.append
  refine h3.congr fun p => ?_
  net_params
  tauto

theorem sum_layerDim_pred (f : Nat → Nat) (inp h L : Nat) :
    ((List.range (L - 1)).map fun i => f (layerDim inp h i)).sum =
      Count.stack (L - 1) (f inp) (f h) := sum_layerDim f inp h (L - 1)

theorem newEdgeCIN0_creates {a : CINArgs} {b : StateM Nat NNModule} (h : a.newEdgeCIN0 = .ok b) :
    Creates b
    (Count.stack a.numLayers (Count.edgeLayer a.numInput a.hidden a.includeTop)
        (Count.edgeLayer a.hidden a.hidden a.includeTop) +
      (if a.includeTop && a.updateTop then
        Count.stack (a.numLayers - 1)
          (Count.linear a.numInput a.hidden + Count.linear a.hidden a.hidden + 2 * a.hidden)
          (Count.linear a.hidden a.hidden + Count.linear a.hidden a.hidden + 2 * a.hidden) else 0) +
      Count.linear (Count.jumpWidth a.jumpMode a.numLayers a.hidden) a.hidden +
      Count.linear a.hidden a.numClasses) := by
  unfold CINArgs.newEdgeCIN0 at h
  obtain ⟨_, -, h⟩ := bind_eq_ok.1 h
  obtain ⟨act, ha, h⟩ := bind_eq_ok.1 h
  obtain ⟨_, -, h⟩ := bind_eq_ok.1 h
  cases h
  obtain rfl := act_count ha
  intro n
  have h1 := newList_layers_creates (fun d => newEdgeCINConv_creates d a.hidden a.includeTop) a.numInput
    a.hidden a.numLayers n
  have ht : Creates (newList (if a.includeTop && a.updateTop then
        (List.range (a.numLayers - 1)).map fun i =>
          newSeq (cinUpdate (layerDim a.numInput a.hidden i) a.hidden .pointwise)
      else [])) (if a.includeTop && a.updateTop then
        Count.stack (a.numLayers - 1)
          (Count.linear a.numInput a.hidden + Count.linear a.hidden a.hidden + 2 * a.hidden)
          (Count.linear a.hidden a.hidden + Count.linear a.hidden a.hidden + 2 * a.hidden) else 0) := by
    split
    · exact newList_layers_creates (fun d => by
        have := newSeq_creates (cinUpdate d a.hidden .pointwise)
        rwa [cinUpdate_count] at this) a.numInput a.hidden (a.numLayers - 1)
    · exact newList_creates .nil
  have h2 := ht _ |> h1.append
  have h3 := newLinear_creates (lin1Input a.jumpMode a.numLayers a.hidden) a.hidden _ |> h2.append
  have h4 := newLinear_creates a.hidden a.numClasses _ |> h3.append
  refine h4.congr fun p => ?_
  net_params
  tauto

theorem ginMod_count {name : String} {norm : Nat → Mod} (h : getGraphNorm name = .ok norm)
    (d hid : Nat) : ((ginMod d hid norm .pointwise).map Mod.count).sum = Count.mlp name d hid := by
  simpa [ginMod, updateNet] using updateNet_count h d hid

theorem bnMod_count (d hid : Nat) :
    ((ginMod d hid .norm .pointwise).map Mod.count).sum = Count.mlp "bn" d hid :=
  ginMod_count (by rfl) d hid

theorem newEmbedGIN_creates {a : EmbedArgs} {atoms bonds : Nat} {eps : Bool} {b : StateM Nat NNModule}
    (h : a.newEmbedGIN atoms bonds eps = .ok b) : Creates b
    (atoms * a.embed + (if a.embedEdge then bonds * a.embed else 0) +
      (Count.stack a.numLayers (Count.mlp "bn" a.embed a.hidden + if eps then 1 else 0)
        (Count.mlp "bn" a.hidden a.hidden + if eps then 1 else 0) +
      Count.linear a.hidden a.hidden + Count.linear a.hidden a.numClasses)) := by
  unfold EmbedArgs.newEmbedGIN at h
  obtain ⟨_, -, h⟩ := bind_eq_ok.1 h
  obtain ⟨act, ha, h⟩ := bind_eq_ok.1 h
  cases h
  obtain rfl := act_count ha
  intro n
  have h0 := newEmbeds_creates (newEmbedding_creates atoms a.embed) (newEmbedding_creates bonds a.embed)
    a.embedEdge n
  have h1 := newList_layers_creates (fun d => by
    have := newGINConv_creates (ginMod d a.hidden .norm .pointwise) eps
    rwa [bnMod_count] at this) a.embed a.hidden a.numLayers
    (newOpt (if a.embedEdge then some (newEmbedding bonds a.embed) else none)
      (newEmbedding atoms a.embed n).2).2
  have h2 := newLinear_creates a.hidden a.hidden _ |> h1.append
  have h3 := newLinear_creates a.hidden a.numClasses _ |> h2.append
  refine (h0.append h3).congr fun p => ?_
  net_params
  simp only [childParams_embed]
  tauto

theorem newRingSparseCIN_creates {inp classes L hid D : Nat} {nl gn : String} {cob eps : Bool}
    {b : StateM Nat NNModule} (h : newRingSparseCIN inp classes L hid D nl gn cob eps = .ok b) :
    Creates b (Count.linear inp inp + Count.stack L ((D + 1) * Count.sparseLevel gn inp hid cob eps)
      ((D + 1) * Count.sparseLevel gn hid hid cob eps) + Count.linear hid classes) := by
  unfold newRingSparseCIN at h
  obtain ⟨act, ha, h⟩ := bind_eq_ok.1 h
  obtain ⟨norm, hn, h⟩ := bind_eq_ok.1 h
  cases h
  obtain rfl := act_count ha
  intro n
  have h1 := newLinear_creates inp inp n
  have h2 := newSparseConvs_creates hn inp L hid D cob eps _ |> h1.append
  have h3 := newLinear_creates hid classes _ |> h2.append
  refine h3.congr fun p => ?_
  net_params
  tauto

theorem newRingGIN_creates {inp L hid classes : Nat} {nl gn : String} {b : StateM Nat NNModule}
    (h : newRingGIN inp L hid classes nl gn = .ok b) :
    Creates b (Count.linear inp inp + Count.mlp gn inp hid + (L - 1) * Count.mlp gn hid hid +
      Count.linear hid classes) := by
  unfold newRingGIN at h
  obtain ⟨act, ha, h⟩ := bind_eq_ok.1 h
  obtain ⟨norm, hn, h⟩ := bind_eq_ok.1 h
  cases h
  obtain rfl := act_count ha
  intro n
  have g : ∀ d, Creates (newGINConv (ginMod d hid norm .pointwise) false) (Count.mlp gn d hid) := by
    intro d
    have := newGINConv_creates (ginMod d hid norm .pointwise) false
    rw [ginMod_count hn] at this
    simpa using this
  have h1 := newLinear_creates inp inp n
  have h2 := g inp _ |> h1.append
  have h3 := newList_replicate_creates (g hid) (L - 1) _ |> h2.append
  have h4 := newLinear_creates hid classes _ |> h3.append
  refine h4.congr fun p => ?_
  net_params
  tauto

theorem newGIN_creates {inp L hid classes : Nat} {mode : Option String} {ro nl : String} {eps : Bool}
    {b : StateM Nat NNModule} (h : newGIN inp L hid classes mode ro nl eps = .ok b) :
    Creates b (Count.mlp "bn" inp hid + (if eps then 1 else 0) +
      (L - 1) * (Count.mlp "bn" hid hid + if eps then 1 else 0) +
      Count.linear (Count.jumpWidth mode L hid) hid + Count.linear hid classes) := by
  unfold newGIN at h
  obtain ⟨_, -, h⟩ := bind_eq_ok.1 h
  obtain ⟨act, ha, h⟩ := bind_eq_ok.1 h
  obtain ⟨_, -, h⟩ := bind_eq_ok.1 h
  cases h
  obtain rfl := act_count ha
  intro n
  have g : ∀ d, Creates (newGINConv (ginMod d hid .norm .pointwise) eps)
      (Count.mlp "bn" d hid + if eps then 1 else 0) := by
    intro d
    have := newGINConv_creates (ginMod d hid .norm .pointwise) eps
    rwa [bnMod_count] at this
  have h2 := g inp n
  have h3 := newList_replicate_creates (g hid) (L - 1) _ |> h2.append
  have h4 := newLinear_creates (lin1Input mode L hid) hid _ |> h3.append
  have h5 := newLinear_creates hid classes _ |> h4.append
  refine h5.congr fun p => ?_
  net_params
  tauto

theorem newDummy_creates {inp classes L D : Nat} {ro : String} {b : StateM Nat NNModule}
    (h : newDummy inp classes L D ro = .ok b) : Creates b (Count.linear inp classes) := by
  unfold newDummy at h
  obtain ⟨_, -, h⟩ := bind_eq_ok.1 h
  cases h
  intro n
  have h1 := newList_replicate_creates (newLevels_creates pure_plain_creates D) L n
  have h2 := newLinear_creates inp classes _ |> h1.append
  rw [Nat.mul_zero, Nat.mul_zero, Nat.zero_add] at h2
  refine h2.congr fun p => ?_
  net_params

theorem newEdgeNet_creates {a : EdgeArgs} {up : Bool} {b : StateM Nat NNModule}
    (h : a.newEdgeNet up = .ok b) : Creates b
    (Count.stack a.numLayers ((if up then 3 else 2) * (a.numInput * a.hidden))
      ((if up then 3 else 2) * (a.hidden * a.hidden)) +
      Count.linear a.hidden a.hidden + Count.linear a.hidden a.numClasses) := by
  unfold EdgeArgs.newEdgeNet at h
  obtain ⟨_, -, h⟩ := bind_eq_ok.1 h
  obtain ⟨_, -, h⟩ := bind_eq_ok.1 h
  obtain ⟨_, -, h⟩ := bind_eq_ok.1 h
  cases h
  intro n
  have h1 := newList_layers_creates (fun d => newOriented_creates up d a.hidden) a.numInput
    a.hidden a.numLayers n
  have h2 := newLinear_creates a.hidden a.hidden _ |> h1.append
  have h3 := newLinear_creates a.hidden a.numClasses _ |> h2.append
  refine h3.congr fun p => ?_
  net_params
  tauto

theorem newAgnostic_creates {inp classes hid D : Nat} {nl : String} {b : StateM Nat NNModule}
    (h : newAgnostic inp classes hid D nl = .ok b) : Creates b
    ((D + 1) * Count.linear inp hid + Count.linear hid hid + Count.linear hid classes) := by
  unfold newAgnostic at h
  obtain ⟨_, -, h⟩ := bind_eq_ok.1 h
  cases h
  intro n
  have h1 := newList_replicate_creates (newLinear_creates inp hid) (D + 1) n
  have h2 := newLinear_creates hid hid _ |> h1.append
  have h3 := newLinear_creates hid classes _ |> h2.append
  refine h3.congr fun p => ?_
  net_params
  tauto

end Verif
