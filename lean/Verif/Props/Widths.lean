import Verif.Lemmas.WidthSound

/-!
# Sizes of the modules: property C82

Networks whose constructors get supported names accept every batch whose feature matrices have the
numbers of columns they were constructed for: no layer fails, and there is one output column per class.
Where other batches or arguments fail, the exception is given.
-/

namespace Verif

namespace WidthsEx

/-- A batch of two-dimensional complexes with `n` feature columns everywhere. -/
def batch (n : Nat) : List LevelShape :=
  [⟨some n, true, false, false⟩, ⟨some n, true, true, true⟩, ⟨some n, false, true, true⟩]

/-- A batch of molecules: rings have no features. -/
def molecules : List LevelShape :=
  [⟨some 1, true, false, false⟩, ⟨some 1, true, true, true⟩, ⟨none, false, true, true⟩]

/-- Arguments of `SparseCIN`, with all kinds of sizes different. -/
def args : SparseArgs :=
  { numInput := 3, numClasses := 5, numLayers := 4, hidden := 7, jumpMode := some "cat",
    useCoboundaries := true }

/-- Arguments of the embedding networks, with all kinds of sizes different. -/
def embedArgs : EmbedArgs :=
  { args with embedDim := some 11, embedEdge := true }

/-- Arguments of `CIN0` and `EdgeCIN0`, with all kinds of sizes different. -/
def cinArgs : CINArgs :=
  { numInput := 3, numClasses := 5, numLayers := 4, hidden := 7, jumpMode := some "max" }

end WidthsEx

open WidthsEx

/-! ### The parameters -/

/-- **C82** The shapes that the theorems below are about are those of the parameters of message passing:
if the complex has the shapes, `get_all_cochain_params` has the shapes computed from them. -/
theorem C82_parameters {α L : Type} (comp : Complex (List α) L) (shapes : List LevelShape)
    (hs : List.Forall₂ (fun c s => Cochain.HasShape c s) comp.cochains shapes)
    (hdim : comp.dimension + 1 = comp.cochains.length) (maxDim : Nat) (top down : Bool)
    (ps : List (MPParams (List α))) (h : comp.getAllCochainParams maxDim top down true = .ok ps) :
    ∃ qs, paramShapes shapes maxDim top down = .ok qs ∧
      List.Forall₂ (fun p q => MPParams.HasShape p q) ps qs :=
  params_sound hs hdim h

/-- Two vertices and an edge, with two feature columns. -/
example :
    let comp : Complex (List Nat) Nat :=
      { dimension := 1, y := none,
        cochains := [
          { dim := 0, x := some [[1, 2], [3, 4]], upperIndex := some [(0, 1), (1, 0)],
            sharedCoboundaries := some [0, 0] },
          { dim := 1, x := some [[5, 6]], boundaryIndex := some [(0, 0), (1, 0)] }] }
    (comp.getAllCochainParams 2 true true true).toOption.map List.length = some 2 ∧
    (paramShapes [⟨some 2, true, false, false⟩, ⟨some 2, false, false, true⟩] 2).toOption.map
      (fun qs => qs.map fun q => (q.upAttr, q.boundaryAttr)) =
      some [(some 2, none), (none, some 2)] := by decide

/-! ### `SparseCIN` and `CINpp` -/

/-- **C82** The constructors of `SparseCIN` and `CINpp` succeed iff the names they look up are supported;
otherwise the exception is that of the first unsupported one. The final readout is not looked up. -/
theorem C82_construction (a : SparseArgs) :
    match a.nameError with
    | none => (∃ net, a.sparseCIN = .ok net) ∧ ∃ net, a.cinpp = .ok net
    | some e => a.sparseCIN = .error e ∧ a.cinpp = .error e := by
  cases h : a.nameError with
  | none =>
    obtain ⟨_, _, _, _, h1⟩ := sparseBuild_ok (buildable_of h) (fun layerDim norm act =>
      sparseCINConv a.maxDim layerDim a.hidden norm act a.useCoboundaries)
    obtain ⟨_, _, _, _, h2⟩ := sparseBuild_ok (buildable_of h) (fun layerDim norm act =>
      cinppConv a.maxDim layerDim a.hidden norm act a.useCoboundaries)
    exact ⟨⟨_, h1⟩, ⟨_, h2⟩⟩
  | some e => exact ⟨build_error _ h, build_error _ h⟩

example : args.nameError = none ∧ { args with graphNorm := "batch" }.nameError = some .value ∧
    { args with jumpMode := some "lstm" }.nameError = some .assertion ∧
    { args with nonlinearity := "gelu" }.nameError = some .notImplemented ∧
    { args with readout := "max" }.nameError = some .notImplemented ∧
    { args with finalReadout := "max" }.nameError = none := by decide +kernel

/-- **C82** `SparseCIN`: on batches with `num_input_features` columns in the dimensions up to `max_dim`
(and, with coboundary features, no cells above) the output has one column per class. -/
theorem C82_sparse_cin (a : SparseArgs) (ha : a.Named) (hr : a.ReadsOut) (hk : a.numLayers ≠ 0)
    (data : List LevelShape) (hd : Columns data a.maxDim a.numInput)
    (hu : a.useCoboundaries = true → UpTo data a.maxDim) :
    ∃ net, a.sparseCIN = .ok net ∧ net.forward SparseWidths.forward data = .ok a.numClasses :=
  sparse_net_ok ha hr hk (sparse_fits _ _ _) hd hu

/-- **C82** `CINpp`: the same. -/
theorem C82_cinpp (a : SparseArgs) (ha : a.Named) (hr : a.ReadsOut) (hk : a.numLayers ≠ 0)
    (data : List LevelShape) (hd : Columns data a.maxDim a.numInput)
    (hu : a.useCoboundaries = true → UpTo data a.maxDim) :
    ∃ net, a.cinpp = .ok net ∧ net.forward PPWidths.forward data = .ok a.numClasses :=
  sparse_net_ok ha hr hk (pp_fits _ _ _) hd hu

theorem args_named : args.Named :=
  ⟨⟨by decide +kernel, by decide +kernel, by decide +kernel, by decide +kernel⟩, by decide +kernel⟩

theorem batch_columns (n maxDim : Nat) : Columns (batch n) maxDim n := by
  refine ⟨by simp [batch], fun d _ l hl => ?_⟩
  match d with
  | 0 | 1 | 2 =>
    simp only [batch, List.getElem?_cons_zero, List.getElem?_cons_succ, Option.some.injEq] at hl
    subst hl
    rfl
  | d + 3 => simp [batch] at hl

example : args.Named ∧ args.ReadsOut ∧ args.numLayers ≠ 0 ∧ Columns (batch 3) args.maxDim args.numInput ∧
    UpTo (batch 3) args.maxDim ∧
    (do let net ← args.sparseCIN; net.forward SparseWidths.forward (batch 3)) = .ok 5 ∧
    (do let net ← args.cinpp; net.forward PPWidths.forward (batch 3)) = .ok 5 :=
  ⟨args_named, ⟨0, by simp, by simp [args]⟩, by simp [args], batch_columns _ _,
    by simp [UpTo, batch, args], by decide +kernel, by decide +kernel⟩

/-- **C82** An unsupported final readout is only noticed by `forward` (`NotImplementedError`); if no
dimension is read out, `torch.stack` fails (`RuntimeError`). -/
theorem C82_final_readout (a : SparseArgs) (ha : a.Buildable) (hk : a.numLayers ≠ 0)
    (data : List LevelShape) (hd : Columns data a.maxDim a.numInput)
    (hu : a.useCoboundaries = true → UpTo data a.maxDim) :
    ∃ net net', a.sparseCIN = .ok net ∧ a.cinpp = .ok net' ∧
      (¬ a.ReadsOut → net.forward SparseWidths.forward data = .error .runtime ∧
        net'.forward PPWidths.forward data = .error .runtime) ∧
      (a.ReadsOut → ¬ okReadout a.finalReadout →
        net.forward SparseWidths.forward data = .error .notImplemented ∧
        net'.forward PPWidths.forward data = .error .notImplemented) := by
  obtain ⟨net, hb, hf, h1, h2, h3, h4, h5, h6⟩ := sparse_net_run ha hk
    (sparse_fits a.maxDim a.hidden a.useCoboundaries) hd hu
  obtain ⟨net', hb', hf', h1', h2', h3', h4', h5', h6'⟩ := sparse_net_run ha hk
    (pp_fits a.maxDim a.hidden a.useCoboundaries) hd hu
  refine ⟨net, net', hb, hb', fun hr => ?_, fun hr hfin => ?_⟩
  · have hdims : a.dims = [] := by
      by_contra hne
      apply hr
      unfold SparseArgs.dims at hne
      unfold SparseArgs.ReadsOut
      split
      · trivial
      · next dims hdims =>
        rw [hdims] at hne
        obtain ⟨d, hd⟩ := List.exists_mem_of_ne_nil _ hne
        exact ⟨d, (List.mem_filter.1 hd).1, by simpa using (List.mem_filter.1 hd).2⟩
    rw [hf, hf']
    exact ⟨readout_nothing (levelsOf_ne_zero _ _) (h1 ▸ levelsOf_le_maxDim _ _) (h2.trans hdims),
      readout_nothing (levelsOf_ne_zero _ _) (h1' ▸ levelsOf_le_maxDim _ _) (h2'.trans hdims)⟩
  · rw [hf, hf']
    exact ⟨readout_unnamed (levelsOf_ne_zero _ _) (h1 ▸ levelsOf_le_maxDim _ _)
        (h2 ▸ readsOut_dims hr) (fun d hd => by rw [h2] at hd; rw [h1]; exact dims_le hd) h3 h4
        (h5 ▸ hfin),
      readout_unnamed (levelsOf_ne_zero _ _) (h1' ▸ levelsOf_le_maxDim _ _)
        (h2' ▸ readsOut_dims hr) (fun d hd => by rw [h2'] at hd; rw [h1']; exact dims_le hd) h3' h4'
        (h5' ▸ hfin)⟩

example : (do
      let net ← { args with finalReadout := "max" }.sparseCIN
      net.forward SparseWidths.forward (batch 3)) = .error .notImplemented ∧
    (do
      let net ← { args with readoutDims := some [3, 4] }.sparseCIN
      net.forward SparseWidths.forward (batch 3)) = .error .runtime := by decide +kernel

/-- **C82** `SparseCIN` with coboundary features on batches with cells above `max_dim`: those cells keep
their features, so a single layer needs `num_input_features` columns there, and several layers need
`hidden` columns as well, or the concatenation of the messages fails. -/
theorem C82_coboundaries_beyond_max_dim (a : SparseArgs) (ha : a.Named) (hr : a.ReadsOut)
    (hk : a.numLayers ≠ 0) (hc : a.useCoboundaries = true) (data : List LevelShape)
    (hd : Columns data a.maxDim a.numInput) (cells above : LevelShape)
    (hcells : data[a.maxDim]? = some cells) (hup : cells.up = true)
    (habove : data[a.maxDim + 1]? = some above) :
    ∃ net, a.sparseCIN = .ok net ∧ net.forward SparseWidths.forward data =
      if above.x = some a.numInput ∧ (a.numLayers = 1 ∨ a.numInput = a.hidden) then .ok a.numClasses
      else .error (if above.x = none then .type else .runtime) := by
  obtain ⟨norm, j, hn, hj, hb⟩ := sparseBuild_ok ha.toBuildable (fun layerDim norm act =>
    sparseCINConv a.maxDim layerDim a.hidden norm act a.useCoboundaries)
  refine ⟨_, hb, ?_⟩
  have hlt : a.maxDim + 1 < data.length := (List.getElem?_eq_some_iff.1 habove).1
  have hlev := levelsOf_top hlt
  have hrun := sparse_run_top (hidden := a.hidden) hn (above := above)
    (show (levelAt data a.maxDim).up = true by simp [levelAt, hcells, hup]) habove
    a.numLayers a.numInput
  rw [← hlev, columns_stamp hd, hlev] at hrun
  simp only [SparseNetWidths.forward, hc]
  rw [hrun]
  by_cases hbad : above.x = some a.numInput ∧ (a.numLayers = 1 ∨ a.numInput = a.hidden)
  · have : ¬ (a.numLayers ≠ 0 ∧ (above.x ≠ some a.numInput ∨
        (2 ≤ a.numLayers ∧ above.x ≠ some a.hidden))) := by
      rintro ⟨_, h | ⟨h2, h⟩⟩
      · exact h hbad.1
      · rcases hbad.2 with h1 | h1
        · omega
        · exact h (by rw [hbad.1, h1])
    rw [if_neg this, if_pos hbad, ok_bind]
    obtain ⟨j', hj', hfin⟩ := finalWidths_jump (start := none) (n := a.maxDim + 1)
      (h := a.hidden) hk ha.jump
    cases (hj.symm.trans hj' : Except.ok j = Except.ok j')
    rw [hfin, ok_bind]
    exact readoutWidths_ok (Nat.succ_ne_zero _) (le_refl _) (readsOut_dims hr)
      (fun d hd => dims_le hd) rfl rfl ha.final rfl
  · have : a.numLayers ≠ 0 ∧ (above.x ≠ some a.numInput ∨
        (2 ≤ a.numLayers ∧ above.x ≠ some a.hidden)) := by
      refine ⟨hk, ?_⟩
      by_cases h1 : above.x = some a.numInput
      · right
        have h2 : ¬ (a.numLayers = 1 ∨ a.numInput = a.hidden) := fun h => hbad ⟨h1, h⟩
        rw [not_or] at h2
        refine ⟨by omega, ?_⟩
        rw [h1]
        simpa using h2.2
      · exact Or.inl h1
    rw [if_pos this, if_neg hbad]
    rfl

/-- `SparseCIN` for dimension 1 on complexes with two-cells. -/
example : (do
      let net ← { args with maxDim := 1 }.sparseCIN
      net.forward SparseWidths.forward (batch 3)) = .error .runtime ∧
    (do
      let net ← { args with maxDim := 1, numLayers := 1 }.sparseCIN
      net.forward SparseWidths.forward (batch 3)) = .ok 5 := by decide +kernel

/-- **C82** A `SparseCIN` without layers cannot be used (`TypeError`: there is nothing to pool). -/
theorem C82_no_layers (a : SparseArgs) (ha : a.Buildable) (h0 : a.numLayers = 0)
    (hj : a.jumpMode = none) (data : List LevelShape) :
    ∃ net, a.sparseCIN = .ok net ∧ net.forward SparseWidths.forward data = .error .type := by
  obtain ⟨norm, j, hn, hj', hb⟩ := sparseBuild_ok ha (fun layerDim norm act =>
    sparseCINConv a.maxDim layerDim a.hidden norm act a.useCoboundaries)
  refine ⟨_, hb, ?_⟩
  rw [hj] at hj'
  cases hj'
  simp only [SparseNetWidths.forward, h0]
  rfl

example : (do
    let net ← { args with numLayers := 0, jumpMode := none }.sparseCIN
    net.forward SparseWidths.forward (batch 3)) = .error .type := by decide +kernel

/-- **C82** A wrong number of columns is not always noticed: torch broadcasts a single column, so a
network for three columns accepts isolated vertices with one (but not vertices with edges). -/
theorem C82_single_columns_are_broadcast :
    (do let net ← args.sparseCIN; net.forward SparseWidths.forward [⟨some 1, false, false, false⟩]) =
      .ok 5 ∧
    (do let net ← args.sparseCIN; net.forward SparseWidths.forward (batch 1)) = .error .runtime := by
  decide +kernel

/-! ### Embedding networks -/

/-- **C82** `EmbedSparseCIN`: on batches of complexes of dimension at most 2 with boundary incidences, one
column of vertex features and one or none of edge features (then the edges are embedded, too). -/
theorem C82_embed_sparse_cin (a : EmbedArgs) (ha : a.toSparseArgs.Named) (hr : a.toSparseArgs.ReadsOut)
    (hk : a.numLayers ≠ 0) (data : List LevelShape) (hraw : RawFeatures data 1 1 a.embedEdge)
    (hb : HasBoundaries data a.maxDim) (h3 : min a.maxDim (data.length - 1) ≤ 2)
    (hu : a.useCoboundaries = true → UpTo data a.maxDim) :
    ∃ net, a.embedSparseCIN = .ok net ∧ net.forward SparseWidths.forward data = .ok a.numClasses :=
  embed_net_ok ha hr hk (sparse_fits _ _ _) (embedding_fits _ _) hraw (fun _ => checkScalars_ok hraw)
    hb h3 hu

/-- **C82** `EmbedCINpp`: the same. -/
theorem C82_embed_cinpp (a : EmbedArgs) (ha : a.toSparseArgs.Named) (hr : a.toSparseArgs.ReadsOut)
    (hk : a.numLayers ≠ 0) (data : List LevelShape) (hraw : RawFeatures data 1 1 a.embedEdge)
    (hb : HasBoundaries data a.maxDim) (h3 : min a.maxDim (data.length - 1) ≤ 2)
    (hu : a.useCoboundaries = true → UpTo data a.maxDim) :
    ∃ net, a.embedCINpp = .ok net ∧ net.forward PPWidths.forward data = .ok a.numClasses :=
  embed_net_ok ha hr hk (pp_fits _ _ _) (embedding_fits _ _) hraw (fun _ => checkScalars_ok hraw)
    hb h3 hu

/-- **C82** `EmbedSparseCIN`, `EmbedCINpp` and `EmbedSparseCINNoRings` insist on one column: with any other number of
columns of vertex features, or of edge features if there are any, `forward` fails with an `AssertionError`. -/
theorem C82_embed_several_columns (a : EmbedArgs) (ha : a.toSparseArgs.Named) (data : List LevelShape) (v : LevelShape)
    (hv : data[0]? = some v) (w : Nat) (hw : v.x = some w)
    (hbad : w ≠ 1 ∨ ∃ e w', data[1]? = some e ∧ e.x = some w' ∧ w' ≠ 1) :
    (∃ net, a.embedSparseCIN = .ok net ∧ net.forward SparseWidths.forward data = .error .assertion) ∧
    (∃ net, a.embedCINpp = .ok net ∧ net.forward PPWidths.forward data = .error .assertion) ∧
    ∃ net, a.embedSparseCINNoRings = .ok net ∧ net.forwardNoRings data = .error .assertion := by
  have hs : checkScalars data = .error .assertion := by
    unfold checkScalars
    rw [hv]
    simp only [hw, needX, ok_bind]
    by_cases h1 : w = 1
    · obtain ⟨e, w', he, hx, hw'⟩ := hbad.resolve_left (not_not.mpr h1)
      have h2 : belowWidth data 2 = some w' := by simp [belowWidth, he, hx]
      simp [h1, pyAssert, ok_bind, checkScalarEdges, h2, hw']
    · simp [pyAssert, h1]
  have built : ∀ {Lv : Type} (a : EmbedArgs), a.toSparseArgs.Named → ∀ (init : EmbedWidths)
      (conv : Nat → (Nat → Mod) → Mod → List Lv), ∃ net, a.build true init conv = .ok net ∧ net.scalars = true := by
    intro Lv a ha init conv
    obtain ⟨norm, j, hn, hj, hbuild⟩ := sparseBuild_ok (named_embed ha).toBuildable conv
    exact ⟨_, by rw [EmbedArgs.build, hbuild, ok_bind]; rfl, rfl⟩
  have fails : ∀ {Lv : Type} (level : Lv → ParamShape → Py Nat) (net : EmbedNetWidths Lv), net.scalars = true →
      net.forward level data = .error .assertion := by
    intro Lv level net h
    unfold EmbedNetWidths.forward inputCheck
    rw [if_pos h, hs]
    rfl
  refine ⟨?_, ?_, ?_⟩
  · obtain ⟨net, h1, h2⟩ := built a ha _ _
    exact ⟨net, h1, fails _ net h2⟩
  · obtain ⟨net, h1, h2⟩ := built a ha _ _
    exact ⟨net, h1, fails _ net h2⟩
  · obtain ⟨net, h1, -⟩ := built { a with maxDim := 1, jumpMode := none, readoutDims := some [0, 1] }
      ⟨⟨ha.readout, ha.norm, ha.nonlinearity, by simp [okJump]⟩, ha.final⟩ _ _
    refine ⟨net, h1, ?_⟩
    unfold EmbedNetWidths.forwardNoRings
    rw [hs]
    rfl

example : (∃ net, embedArgs.embedSparseCIN = .ok net ∧ net.forward SparseWidths.forward
    [⟨some 9, true, false, false⟩, ⟨some 3, true, true, true⟩] = .error .assertion) :=
  (C82_embed_several_columns embedArgs args_named _ _ rfl 9 rfl (.inl (by decide))).1

/-- **C82** `OGBEmbedSparseCIN`: up to nine columns of atom features and three of bond features. -/
theorem C82_ogb_embed_sparse_cin (a : EmbedArgs) (ha : a.toSparseArgs.Named)
    (hr : a.toSparseArgs.ReadsOut) (hk : a.numLayers ≠ 0) (data : List LevelShape)
    (hraw : RawFeatures data 9 3 a.embedEdge) (hb : HasBoundaries data a.maxDim)
    (h3 : min a.maxDim (data.length - 1) ≤ 2) (hu : a.useCoboundaries = true → UpTo data a.maxDim) :
    ∃ net, a.ogbEmbedSparseCIN = .ok net ∧ net.forward SparseWidths.forward data = .ok a.numClasses :=
  embed_net_ok ha hr hk (sparse_fits _ _ _) (columns_fits _ _) hraw (fun h => absurd h (by simp))
    hb h3 hu

/-- **C82** `OGBEmbedCINpp`: the same. -/
theorem C82_ogb_embed_cinpp (a : EmbedArgs) (ha : a.toSparseArgs.Named)
    (hr : a.toSparseArgs.ReadsOut) (hk : a.numLayers ≠ 0) (data : List LevelShape)
    (hraw : RawFeatures data 9 3 a.embedEdge) (hb : HasBoundaries data a.maxDim)
    (h3 : min a.maxDim (data.length - 1) ≤ 2) (hu : a.useCoboundaries = true → UpTo data a.maxDim) :
    ∃ net, a.ogbEmbedCINpp = .ok net ∧ net.forward PPWidths.forward data = .ok a.numClasses :=
  embed_net_ok ha hr hk (pp_fits _ _ _) (columns_fits _ _) hraw (fun h => absurd h (by simp))
    hb h3 hu

/-- **C82** The encoders of the OGB variants have nine columns for atoms: with more columns (or none) of vertex features
`forward` fails with an `IndexError`. -/
theorem C82_ogb_too_many_columns (a : EmbedArgs) (ha : a.toSparseArgs.Named) (data : List LevelShape) (v : LevelShape)
    (hv : data[0]? = some v) (w : Nat) (hw : v.x = some w) (hbad : w = 0 ∨ 9 < w)
    (h3 : min a.maxDim (data.length - 1) ≤ 2) :
    (∃ net, a.ogbEmbedSparseCIN = .ok net ∧ net.forward SparseWidths.forward data = .error .index) ∧
    ∃ net, a.ogbEmbedCINpp = .ok net ∧ net.forward PPWidths.forward data = .error .index := by
  have hne : data ≠ [] := by rintro rfl; simp at hv
  have fails : ∀ {Lv : Type} (level : Lv → ParamShape → Py Nat) (conv : Nat → (Nat → Mod) → Mod → List Lv),
      ∃ net, a.build false
        { v := .columns 9 a.embed, e := if a.embedEdge then some (.columns 3 a.embed) else none } conv = .ok net ∧
        net.forward level data = .error .index := by
    intro Lv level conv
    obtain ⟨norm, j, hn, hj, hbuild⟩ := sparseBuild_ok (named_embed ha).toBuildable conv
    refine ⟨_, by rw [EmbedArgs.build, hbuild, ok_bind]; rfl, ?_⟩
    simp only [EmbedNetWidths.forward, inputCheck]
    rw [if_neg (by simp), ok_bind, params_of_data hne, ok_bind]
    have hlen : (levelsOf a.maxDim data) - 1 ≤ 2 := by unfold levelsOf; omega
    have hpos := levelsOf_ne_zero a.maxDim data
    obtain ⟨n, hn'⟩ : ∃ n, levelsOf a.maxDim data = n + 1 := ⟨_, (Nat.succ_pred_eq_of_ne_zero hpos).symm⟩
    rw [hn'] at hlen ⊢
    rw [List.range_succ_eq_map, List.map_cons, List.map_map]
    have h0 : (levelAt data 0).x = some w := by
      have := getElem?_levelAt (data := data) (d := 0) (List.length_pos_of_ne_nil hne)
      rw [hv] at this
      cases this
      exact hw
    have hx : (levelParams data (levelAt data 0) 0 a.maxDim true false).x = some w := h0
    have hlong : ¬ 2 < ((List.range n).map ((fun d => levelParams data (levelAt data d) d a.maxDim true false) ∘
        Nat.succ)).length := by
      simp; omega
    have henc : (Encoder.columns 9 a.embed).out w = .error .index := by
      unfold Encoder.out
      dsimp only
      rw [if_neg (by omega)]
    simp only [EmbedWidths.forward]
    rw [if_neg hlong, hx]
    dsimp only
    rw [henc]
    rfl
  exact ⟨fails _ _, fails _ _⟩

example : ∃ net, embedArgs.ogbEmbedSparseCIN = .ok net ∧ net.forward SparseWidths.forward
    [⟨some 10, true, false, false⟩, ⟨some 3, true, true, true⟩] = .error .index :=
  (C82_ogb_too_many_columns embedArgs args_named _ _ rfl 10 rfl (by decide) (by decide)).1

/-- **C82** `EmbedSparseCINNoRings`: two-cells may be there, whatever their features are. -/
theorem C82_no_rings (a : EmbedArgs) (ha : a.toSparseArgs.Named) (hk : a.numLayers ≠ 0)
    (data : List LevelShape) (hraw : RawFeatures data 1 1 a.embedEdge) (hb : HasBoundaries data 1) :
    ∃ net, a.embedSparseCINNoRings = .ok net ∧ net.forwardNoRings data = .ok a.numClasses :=
  noRings_ok ha hk hraw hb

theorem molecules_raw : RawFeatures molecules 1 1 true := by
  refine ⟨⟨_, 1, rfl, rfl, le_refl _, le_refl _⟩, fun e he w hw => ?_⟩
  simp only [molecules, List.getElem?_cons_zero, List.getElem?_cons_succ, Option.some.injEq] at he
  subst he
  cases hw
  exact ⟨rfl, le_refl _, le_refl _⟩

theorem molecules_boundaries (maxDim : Nat) : HasBoundaries molecules maxDim := by
  intro d h1 _ l hl
  match d with
  | 1 | 2 =>
    simp only [molecules, List.getElem?_cons_zero, List.getElem?_cons_succ, Option.some.injEq] at hl
    subst hl
    rfl
  | d + 3 => simp [molecules] at hl

example : embedArgs.toSparseArgs.Named ∧ embedArgs.toSparseArgs.ReadsOut ∧ embedArgs.numLayers ≠ 0 ∧
    RawFeatures molecules 1 1 embedArgs.embedEdge ∧ HasBoundaries molecules embedArgs.maxDim ∧
    min embedArgs.maxDim (molecules.length - 1) ≤ 2 ∧ UpTo molecules embedArgs.maxDim :=
  ⟨args_named, ⟨0, by simp, by simp⟩, by simp [embedArgs, args], molecules_raw,
    molecules_boundaries _, by decide, by simp [UpTo, molecules, embedArgs, args]⟩

example :
    (do let net ← embedArgs.embedSparseCIN; net.forward SparseWidths.forward molecules) = .ok 5 ∧
    (do let net ← embedArgs.embedCINpp; net.forward PPWidths.forward molecules) = .ok 5 ∧
    (do let net ← embedArgs.ogbEmbedSparseCIN; net.forward SparseWidths.forward
          [⟨some 9, true, false, false⟩, ⟨some 3, true, true, true⟩]) = .ok 5 ∧
    (do let net ← embedArgs.ogbEmbedCINpp; net.forward PPWidths.forward
          [⟨some 9, true, false, false⟩, ⟨some 3, true, true, true⟩]) = .ok 5 ∧
    (do let net ← embedArgs.embedSparseCINNoRings; net.forwardNoRings molecules) = .ok 5 := by
  decide +kernel

/-! ### `CIN0` and `EdgeCIN0` -/

theorem cin0_build {a : CINArgs} (ha : a.Named) : ∃ j, makeJump a.jumpMode = .ok j ∧
    a.cin0 = .ok {
      convs := (List.range a.numLayers).map fun i =>
        cinConv a.maxDim (layerDim a.numInput a.hidden i) a.hidden .pointwise
      tops := []
      maxDim := a.maxDim
      includeTop := true
      updateTop := false
      jump := j
      act := .pointwise
      lin1 := .linear (lin1Input a.jumpMode a.numLayers a.hidden) a.hidden
      lin2 := .linear a.hidden a.numClasses } := by
  obtain ⟨p, hp⟩ := getPoolingFn_named ha.readout
  obtain ⟨j, hj⟩ := makeJump_ok ha.jump
  refine ⟨j, hj, ?_⟩
  rw [CINArgs.cin0, hp, ok_bind, getNonlinearity_ok ha.nonlinearity, ok_bind, hj, ok_bind]
  rfl

/-- **C82** `CIN0`: on batches up to dimension `max_dim` with `num_input_features` columns. -/
theorem C82_cin0 (a : CINArgs) (ha : a.Named) (hk : a.numLayers ≠ 0) (data : List LevelShape)
    (hd : Columns data a.maxDim a.numInput) (hv : NoLowerVertices data) (hu : UpTo data a.maxDim) :
    ∃ net, a.cin0 = .ok net ∧ net.forward data = .ok a.numClasses := by
  obtain ⟨j, hj, hb⟩ := cin0_build ha
  refine ⟨_, hb, ?_⟩
  have hrun := cin0_run (hidden := a.hidden) hd.1 hv hu a.numLayers a.numInput
  rw [columns_stamp hd] at hrun
  exact cin_tail hk ha.jump hj (levelsOf_ne_zero a.maxDim data) (levelsOf_le_maxDim _ _) rfl rfl rfl
    ((run_without_top rfl 0 _ _).trans hrun)

/-- **C82** `CIN0` on batches with cells above `max_dim` with `w` columns: one layer needs
`num_input_features` of them, several layers `hidden` as well. -/
theorem C82_cin0_beyond_max_dim (a : CINArgs) (ha : a.Named) (hk : a.numLayers ≠ 0)
    (data : List LevelShape) (hd : Columns data a.maxDim a.numInput) (hv : NoLowerVertices data)
    (cells above : LevelShape) (hcells : data[a.maxDim]? = some cells) (hup : cells.up = true)
    (habove : data[a.maxDim + 1]? = some above) (w : Nat) (hx : above.x = some w) :
    ∃ net, a.cin0 = .ok net ∧ net.forward data =
      if w = a.numInput ∧ (a.numLayers = 1 ∨ w = a.hidden) then .ok a.numClasses
      else .error .runtime := by
  obtain ⟨j, hj, hb⟩ := cin0_build ha
  refine ⟨_, hb, ?_⟩
  have hrun := cin0_run_top (hidden := a.hidden) hv
    (show (levelAt data a.maxDim).up = true by simp [levelAt, hcells, hup]) habove hx
    a.numLayers a.numInput
  rw [columns_stamp hd] at hrun
  by_cases hgood : w = a.numInput ∧ (a.numLayers = 1 ∨ w = a.hidden)
  · rw [if_neg (by omega)] at hrun
    rw [if_pos hgood]
    exact cin_tail hk ha.jump hj (levelsOf_ne_zero a.maxDim data) (levelsOf_le_maxDim _ _) rfl rfl rfl
      ((run_without_top rfl 0 _ _).trans hrun)
  · rw [if_pos (by omega)] at hrun
    rw [if_neg hgood]
    exact cin_tail_error ((run_without_top rfl 0 _ _).trans hrun)

theorem cinArgs_named : cinArgs.Named := ⟨by decide +kernel, by decide +kernel, by decide +kernel⟩

theorem batch_lower (n : Nat) : NoLowerVertices (batch n) := by
  intro l hl
  simp only [batch, List.getElem?_cons_zero, Option.some.injEq] at hl
  subst hl
  rfl

example : cinArgs.Named ∧ Columns (batch 3) cinArgs.maxDim cinArgs.numInput ∧
    NoLowerVertices (batch 3) ∧ UpTo (batch 3) cinArgs.maxDim ∧
    (do let net ← cinArgs.cin0; net.forward (batch 3)) = .ok 5 ∧
    (do let net ← { cinArgs with maxDim := 1 }.cin0; net.forward (batch 3)) = .error .runtime ∧
    (do let net ← { cinArgs with maxDim := 1, hidden := 3 }.cin0; net.forward (batch 3)) = .ok 5 :=
  ⟨cinArgs_named, batch_columns _ _, batch_lower _, by simp [UpTo, batch, cinArgs],
    by decide +kernel, by decide +kernel, by decide +kernel⟩

theorem edgeCIN0_build {a : CINArgs} (ha : a.Named) : ∃ j, makeJump a.jumpMode = .ok j ∧
    a.edgeCIN0 = .ok {
      convs := (List.range a.numLayers).map fun i =>
        edgeCINConv (layerDim a.numInput a.hidden i) a.hidden .pointwise a.includeTop
      tops := if a.includeTop && a.updateTop then
          (List.range (a.numLayers - 1)).map fun i =>
            cinUpdate (layerDim a.numInput a.hidden i) a.hidden .pointwise
        else []
      maxDim := 1
      includeTop := a.includeTop
      updateTop := a.includeTop && a.updateTop
      jump := j
      act := .pointwise
      lin1 := .linear (lin1Input a.jumpMode a.numLayers a.hidden) a.hidden
      lin2 := .linear a.hidden a.numClasses } := by
  obtain ⟨p, hp⟩ := getPoolingFn_named ha.readout
  obtain ⟨j, hj⟩ := makeJump_ok ha.jump
  refine ⟨j, hj, ?_⟩
  rw [CINArgs.edgeCIN0, hp, ok_bind, getNonlinearity_ok ha.nonlinearity, ok_bind, hj, ok_bind]
  rfl

/-- **C82** `EdgeCIN0` without the features of the two-cells: these do not matter. -/
theorem C82_edge_cin0_without_top (a : CINArgs) (ha : a.Named) (hk : a.numLayers ≠ 0)
    (data : List LevelShape) (hd : Columns data 1 a.numInput) (hv : NoLowerVertices data)
    (ht : a.includeTop = false) :
    ∃ net, a.edgeCIN0 = .ok net ∧ net.forward data = .ok a.numClasses := by
  obtain ⟨j, hj, hb⟩ := edgeCIN0_build ha
  refine ⟨_, hb, ?_⟩
  have hrun := edgeCIN_run (hidden := a.hidden) hd.1 hv (Or.inl ht) a.numLayers a.numInput
  rw [columns_stamp hd] at hrun
  exact cin_tail hk ha.jump hj (levelsOf_ne_zero 1 data) (levelsOf_le_maxDim _ _) rfl rfl rfl
    ((run_without_top (by simp [ht]) 0 _ _).trans hrun)

/-- **C82** `EdgeCIN0` with the features of the two-cells and their updates: all features need
`num_input_features` columns. -/
theorem C82_edge_cin0_update_top (a : CINArgs) (ha : a.Named) (hk : a.numLayers ≠ 0)
    (data : List LevelShape) (hd : Columns data 2 a.numInput) (hv : NoLowerVertices data)
    (ht : a.includeTop = true) (hu : a.updateTop = true) (h3 : 2 < data.length) :
    ∃ net, a.edgeCIN0 = .ok net ∧ net.forward data = .ok a.numClasses := by
  obtain ⟨j, hj, hb⟩ := edgeCIN0_build ha
  refine ⟨_, hb, ?_⟩
  rw [ht, hu]
  have hstamp := columns_stamp hd
  rw [show levelsOf 2 data = 3 by unfold levelsOf; omega] at hstamp
  obtain ⟨data', hrun⟩ := edgeCIN_run_update (hidden := a.hidden) (data := data)
    (net := { convs := (List.range a.numLayers).map fun i =>
                edgeCINConv (layerDim a.numInput a.hidden i) a.hidden .pointwise true
              tops := if true && true then
                  (List.range (a.numLayers - 1)).map fun i =>
                    cinUpdate (layerDim a.numInput a.hidden i) a.hidden .pointwise
                else []
              maxDim := 1
              includeTop := true
              updateTop := true && true
              jump := j
              act := .pointwise
              lin1 := .linear (lin1Input a.jumpMode a.numLayers a.hidden) a.hidden
              lin2 := .linear a.hidden a.numClasses }) rfl rfl rfl hv h3 a.numLayers 0 a.numInput
    (by simp) (fun i hi => by
      simp only [Nat.zero_add, Bool.and_self, if_true, List.getElem?_map]
      rw [List.getElem?_range (by omega)]
      rfl)
  rw [hstamp] at hrun
  exact cin_tail hk ha.jump hj (n := 2) (by omega) (le_refl 2) rfl rfl rfl hrun

/-- **C82** `EdgeCIN0` with the features of the two-cells but no updates of them: one layer needs
`num_input_features` columns on the two-cells, several layers `hidden` as well. -/
theorem C82_edge_cin0_fixed_top (a : CINArgs) (ha : a.Named) (hk : a.numLayers ≠ 0)
    (data : List LevelShape) (hd : Columns data 1 a.numInput) (hv : NoLowerVertices data)
    (ht : a.includeTop = true) (hu : a.updateTop = false)
    (edges above : LevelShape) (hedges : data[1]? = some edges) (hup : edges.up = true)
    (habove : data[2]? = some above) (w : Nat) (hx : above.x = some w) :
    ∃ net, a.edgeCIN0 = .ok net ∧ net.forward data =
      if w = a.numInput ∧ (a.numLayers = 1 ∨ w = a.hidden) then .ok a.numClasses
      else .error .runtime := by
  obtain ⟨j, hj, hb⟩ := edgeCIN0_build ha
  refine ⟨_, hb, ?_⟩
  have hrun := edgeCIN_run_top (hidden := a.hidden) hv
    (show (levelAt data 1).up = true by simp [levelAt, hedges, hup]) habove hx
    a.numLayers a.numInput
  rw [columns_stamp hd] at hrun
  rw [ht, hu]
  by_cases hgood : w = a.numInput ∧ (a.numLayers = 1 ∨ w = a.hidden)
  · rw [if_neg (by omega)] at hrun
    rw [if_pos hgood]
    exact cin_tail hk ha.jump hj (levelsOf_ne_zero 1 data) (levelsOf_le_maxDim _ _) rfl rfl rfl
      ((run_without_top rfl 0 _ _).trans hrun)
  · rw [if_pos (by omega)] at hrun
    rw [if_neg hgood]
    exact cin_tail_error ((run_without_top rfl 0 _ _).trans hrun)

/-- **C82** `EdgeCIN0` on batches without two-cells. -/
theorem C82_edge_cin0_no_top (a : CINArgs) (ha : a.Named) (hk : a.numLayers ≠ 0)
    (data : List LevelShape) (hd : Columns data 1 a.numInput) (hv : NoLowerVertices data)
    (h2 : data.length ≤ 2) :
    ∃ net, a.edgeCIN0 = .ok net ∧ net.forward data = .ok a.numClasses := by
  obtain ⟨j, hj, hb⟩ := edgeCIN0_build ha
  refine ⟨_, hb, ?_⟩
  have hrun := edgeCIN_run (hidden := a.hidden) (top := a.includeTop) hd.1 hv (Or.inr h2)
    a.numLayers a.numInput
  rw [columns_stamp hd] at hrun
  exact cin_tail hk ha.jump hj (levelsOf_ne_zero 1 data) (levelsOf_le_maxDim _ _) rfl rfl rfl
    ((run_short 0 data h2 _).trans hrun)

example : Columns (batch 3) 2 cinArgs.numInput ∧ NoLowerVertices (batch 3) ∧
    (do let net ← cinArgs.edgeCIN0; net.forward (batch 3)) = .ok 5 ∧
    (do let net ← { cinArgs with includeTop := false }.edgeCIN0; net.forward (batch 3)) = .ok 5 ∧
    (do let net ← { cinArgs with updateTop := false }.edgeCIN0; net.forward (batch 3)) =
      .error .runtime ∧
    (do let net ← { cinArgs with updateTop := false, numLayers := 1 }.edgeCIN0
        net.forward (batch 3)) = .ok 5 ∧
    (do let net ← cinArgs.edgeCIN0
        net.forward ((batch 3).take 2)) = .ok 5 :=
  ⟨batch_columns _ _, batch_lower _, by decide +kernel, by decide +kernel, by decide +kernel,
    by decide +kernel, by decide +kernel⟩

/-! ### The other networks on complexes -/

/-- **C82** `Dummy` on batches with `num_input_features` columns everywhere. `max_dim` is not passed to
`get_all_cochain_params`, which takes 2: with a smaller one the assertion in the layer fails on
complexes with more dimensions. -/
theorem C82_dummy (numInput numClasses numLayers maxDim : Nat) (readout : String)
    (hr : okReadout readout) (hk : numLayers ≠ 0) (data : List LevelShape)
    (hd : AllColumns data numInput) (hv : NoLowerVertices data) :
    dummyWidths numInput numClasses numLayers maxDim readout data =
      if min 2 (data.length - 1) ≤ maxDim then .ok numClasses else .error .assertion :=
  dummy_ok hr hk hd hv

example : AllColumns (batch 3) 3 ∧ dummyWidths 3 5 4 2 "sum" (batch 3) = .ok 5 ∧
    dummyWidths 3 5 4 1 "sum" (batch 3) = .error .assertion :=
  ⟨⟨by simp [batch], by simp [batch]⟩, by decide +kernel, by decide +kernel⟩

/-- **C82** `MessagePassingAgnostic` on batches with `num_input_features` columns up to `max_dim`. -/
theorem C82_message_passing_agnostic (numInput numClasses hidden maxDim : Nat)
    (nonlinearity readout : String) (hn : okNonlinearity nonlinearity) (hr : okReadout readout)
    (data : List LevelShape) (hd : Columns data maxDim numInput) :
    agnosticWidths numInput numClasses hidden maxDim nonlinearity readout data = .ok numClasses :=
  agnostic_ok hn hr hd

example : agnosticWidths 3 5 7 1 "elu" "mean" (batch 3) = .ok 5 ∧
    agnosticWidths 4 5 7 1 "elu" "mean" (batch 3) = .error .runtime := by decide +kernel

/-- **C82** `EdgeOrient` (`upMod`) and `EdgeMPNN` on edge features with `w` columns: exactly
`num_input_features` columns are accepted; without layers the result is never bound. -/
theorem C82_edge_networks (upMod orient : Bool) (a : EdgeArgs) (ha : a.Named) (w : Nat) :
    edgeNetWidths upMod orient a w =
      if a.numLayers = 0 then .error .name
      else if w = a.numInput then .ok a.numClasses else .error .runtime :=
  edgeNet_ok ha w

example : edgeNetWidths true true { numInput := 3, numClasses := 5, numLayers := 4, hidden := 7 } 3 =
      .ok 5 ∧
    edgeNetWidths false true { numInput := 3, numClasses := 5, numLayers := 4, hidden := 7 } 1 =
      .error .runtime ∧
    edgeNetWidths false false { numInput := 3, numClasses := 5, numLayers := 0, hidden := 7 } 3 =
      .error .name := by decide +kernel

/-! ### Graph networks -/

/-- **C82** `GIN0`, `GIN`, `GIN0WithJK` and `GINWithJK` accept exactly `num_features` columns (with
`num_layers` zero there is a layer nevertheless; only `'cat'` needs a positive number). -/
theorem C82_gin (numFeatures numLayers hidden numClasses : Nat) (mode : Option String)
    (readout nonlinearity : String) (hr : okReadout readout) (hn : okNonlinearity nonlinearity)
    (hm : okJump mode) (hk : numLayers ≠ 0 ∨ mode ≠ some "cat") (w : Nat) :
    ginWidths numFeatures numLayers hidden numClasses mode readout nonlinearity w =
      if w = numFeatures then .ok numClasses else .error .runtime :=
  gin_ok hr hn hm hk w

example : ginWidths 3 4 7 5 (some "cat") "mean" "relu" 3 = .ok 5 ∧
    ginWidths 3 0 7 5 none "mean" "relu" 3 = .ok 5 ∧
    ginWidths 3 0 7 5 (some "cat") "mean" "relu" 3 = .error .runtime ∧
    ginWidths 3 4 7 5 (some "max") "mean" "relu" 2 = .error .runtime := by decide +kernel

/-- **C82** `RingGIN` accepts exactly `num_features` columns. -/
theorem C82_ring_gin (numFeatures numLayers hidden numClasses : Nat) (nonlinearity graphNorm : String)
    (hn : okNonlinearity nonlinearity) (hg : okNorm graphNorm) (w : Nat) :
    ringGINWidths numFeatures numLayers hidden numClasses nonlinearity graphNorm w =
      if w = numFeatures then .ok numClasses else .error .runtime :=
  ringGIN_ok hn hg w

/-- **C82** `RingSparseCIN` on batches with `num_input_features` columns up to `max_dim`. -/
theorem C82_ring_sparse_cin (numInput numClasses numLayers hidden maxDim : Nat)
    (nonlinearity graphNorm : String) (cob : Bool) (hn : okNonlinearity nonlinearity)
    (hg : okNorm graphNorm) (hk : numLayers ≠ 0) (data : List LevelShape)
    (hd : Columns data maxDim numInput) (hu : cob = true → UpTo data maxDim) :
    ringSparseWidths numInput numClasses numLayers hidden maxDim nonlinearity graphNorm cob data =
      .ok numClasses :=
  ringSparse_ok hn hg hk hd hu

/-- **C82** `RingSparseCIN` raises `TypeError` on vertices without features, and `RuntimeError` if they have another
number of columns. -/
theorem C82_ring_sparse_cin_other_vertices (numInput numClasses numLayers hidden maxDim : Nat)
    (nonlinearity graphNorm : String) (cob : Bool) (hn : okNonlinearity nonlinearity)
    (hg : okNorm graphNorm) (v : LevelShape) (rest : List LevelShape) (hv : v.x ≠ some numInput) :
    ringSparseWidths numInput numClasses numLayers hidden maxDim nonlinearity graphNorm cob (v :: rest) =
      .error (if v.x = none then .type else .runtime) := by
  obtain ⟨n, h1, -⟩ := getGraphNorm_ok hg
  unfold ringSparseWidths
  rw [getNonlinearity_ok hn, ok_bind, h1, ok_bind]
  unfold initNodes
  cases hx : v.x with
  | none => simp [hx]
  | some w =>
    have : w ≠ numInput := fun e => hv (by rw [hx, e])
    simp [hx, Mod.out, this]

example : okNonlinearity "relu" ∧ okNorm "bn" ∧
    ringSparseWidths 3 5 4 7 2 "relu" "bn" true [⟨none, true, false, false⟩] = .error .type ∧
    ringSparseWidths 3 5 4 7 2 "relu" "bn" true [⟨some 4, true, false, false⟩] = .error .runtime := by
  unfold okNonlinearity okNorm
  decide +kernel

example : ringGINWidths 3 4 7 5 "relu" "bn" 3 = .ok 5 ∧
    ringSparseWidths 3 5 4 7 2 "relu" "bn" true (batch 3) = .ok 5 := by decide +kernel

/-- **C82** `EmbedGIN`: the edge features keep `embed_dim` columns in all layers, whereas the vertex
features have `hidden` columns after the first, so several layers need `embed_dim = hidden`
(`AssertionError` in `GINEConv` otherwise), and so does the readout without layers. -/
theorem C82_embed_gin (a : EmbedArgs) (hr : okReadout a.readout) (hn : okNonlinearity a.nonlinearity)
    (data : List LevelShape) (hraw : RawFeatures data 1 1 a.embedEdge) (hb : HasBoundaries data 1) :
    embedGINWidths a data =
      if a.numLayers = 1 ∨ a.embed = a.hidden then .ok a.numClasses
      else if a.numLayers = 0 then .error .runtime else .error .assertion :=
  embedGIN_ok hr hn hraw hb

example : RawFeatures molecules 1 1 embedArgs.embedEdge ∧ HasBoundaries molecules 1 ∧
    embedGINWidths embedArgs molecules = .error .assertion ∧
    embedGINWidths { embedArgs with embedDim := none } molecules = .ok 5 :=
  ⟨molecules_raw, molecules_boundaries _, by decide +kernel, by decide +kernel⟩

end Verif
