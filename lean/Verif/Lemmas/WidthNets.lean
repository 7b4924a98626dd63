import Verif.Lemmas.Widths

/-!
# Helper lemmas for the widths of the other networks
-/

namespace Verif

/-! ### Embedding networks -/

theorem embed_forward {l : EmbedWidths} {v : ParamShape} {rest : List ParamShape} {w o : Nat}
    (hlen : rest.length ≤ 2) (hx : v.x = some w) (hv : l.v.out w = .ok o)
    (hb : ∀ p ∈ rest, p.boundary = true)
    (he : ∀ e, rest[0]? = some e → ∀ w, e.x = some w → ∃ enc, l.e = some enc ∧ enc.out w = .ok o) :
    l.forward (v :: rest) = .ok (List.replicate (rest.length + 1) o) := by
  match rest with
  | [] => simp [EmbedWidths.forward, hx, hv, ok_bind]
  | [e] =>
    have h1 := hb e (by simp)
    have h2 : l.edges o e.x = .ok o := by
      cases hex : e.x with
      | none => rfl
      | some w' =>
        obtain ⟨enc, h3, h4⟩ := he e rfl w' hex
        simp [EmbedWidths.edges, h3, h4, ok_bind, pyAssert]
    simp [EmbedWidths.forward, hx, hv, ok_bind, reduceOut, h1, h2]
  | [e, c] =>
    have h1 := hb e (by simp)
    have h1' := hb c (by simp)
    have h2 : l.edges o e.x = .ok o := by
      cases hex : e.x with
      | none => rfl
      | some w' =>
        obtain ⟨enc, h3, h4⟩ := he e rfl w' hex
        simp [EmbedWidths.edges, h3, h4, ok_bind, pyAssert]
    simp [EmbedWidths.forward, hx, hv, ok_bind, reduceOut, h1, h1', h2]
  | _ :: _ :: _ :: rest => simp at hlen

/-- Encoders that take the raw features. -/
structure InitFits (l : EmbedWidths) (vmax emax o : Nat) (embedEdge : Bool) : Prop where
  v : ∀ w, 1 ≤ w → w ≤ vmax → l.v.out w = .ok o
  e : embedEdge = true → ∃ enc, l.e = some enc ∧ ∀ w, 1 ≤ w → w ≤ emax → enc.out w = .ok o

theorem embedding_fits (o : Nat) (embedEdge : Bool) :
    InitFits { v := .embedding o, e := if embedEdge then some (.embedding o) else none } 1 1 o
      embedEdge := by
  refine ⟨fun w h1 h2 => ?_, fun h => ⟨.embedding o, by simp [h], fun w h1 h2 => ?_⟩⟩ <;>
  · have : w = 1 := by omega
    simp [Encoder.out, this]

theorem columns_fits (o : Nat) (embedEdge : Bool) :
    InitFits { v := .columns 9 o, e := if embedEdge then some (.columns 3 o) else none } 9 3 o
      embedEdge := by
  refine ⟨fun w h1 h2 => ?_, fun h => ⟨.columns 3 o, by simp [h], fun w h1 h2 => ?_⟩⟩ <;>
  · simp [Encoder.out, h1, h2]

/-- The cells at dimension 0 and above, as the parameters see them. -/
theorem init_ok {l : EmbedWidths} {data : List LevelShape} {vmax emax o maxDim : Nat}
    {embedEdge : Bool} (hl : InitFits l vmax emax o embedEdge) (hraw : RawFeatures data vmax emax embedEdge)
    (hb : HasBoundaries data maxDim) (h3 : levelsOf maxDim data ≤ 3) {f : Nat → ParamShape}
    (hx : ∀ d, d < levelsOf maxDim data → (f d).x = (levelAt data d).x)
    (hbd : ∀ d, d < levelsOf maxDim data → (f d).boundary = (levelAt data d).boundary) :
    l.forward ((List.range (levelsOf maxDim data)).map f) =
      .ok (List.replicate (levelsOf maxDim data) o) := by
  obtain ⟨⟨v, w, hv, hvw, hw1, hw2⟩, hedge⟩ := hraw
  have hne : data ≠ [] := by rintro rfl; simp at hv
  obtain ⟨n, hn⟩ := Nat.exists_eq_succ_of_ne_zero (levelsOf_ne_zero maxDim data)
  have hlt : ∀ d, d < n + 1 → data[d]? = some (levelAt data d) := fun d hd =>
    getElem?_levelAt (lt_of_lt_of_le (by omega) (levelsOf_le (maxDim := maxDim) hne))
  have hmax := levelsOf_le_maxDim maxDim data
  rw [hn, List.range_succ_eq_map, List.map_cons, List.map_map]
  have h0 : (levelAt data 0).x = some w := by
    have := hlt 0 (by omega)
    rw [hv] at this
    cases this
    exact hvw
  rw [embed_forward (w := w) (o := o) (by simp; omega) (by rw [hx 0 (by omega), h0])
    (hl.v w hw1 hw2)]
  · simp
  · intro p hp
    obtain ⟨d, hd, rfl⟩ := List.mem_map.1 hp
    have hd' : d < n := List.mem_range.1 hd
    simp only [Function.comp, Nat.succ_eq_add_one]
    rw [hbd _ (by omega)]
    exact hb (d + 1) (by omega) (by omega) _ (hlt _ (by omega))
  · intro e he w' hw'
    rw [List.getElem?_map] at he
    by_cases hn0 : n = 0
    · subst hn0; simp at he
    · have : (List.range n)[0]? = some 0 := by
        rw [List.getElem?_range (by omega)]
      rw [this] at he
      simp only [Option.map_some, Function.comp, Option.some.injEq, Nat.succ_eq_add_one,
        zero_add] at he
      subst he
      rw [hx 1 (by omega)] at hw'
      obtain ⟨hee, h1, h2⟩ := hedge _ (hlt 1 (by omega)) w' hw'
      obtain ⟨enc, h5, h6⟩ := hl.e hee
      exact ⟨enc, h5, h6 w' h1 h2⟩

theorem checkScalars_ok {data : List LevelShape} {b : Bool} (h : RawFeatures data 1 1 b) :
    checkScalars data = .ok () := by
  obtain ⟨⟨v, w, hv, hvw, hw1, hw2⟩, hedge⟩ := h
  have hw : w = 1 := by omega
  subst hw
  rw [checkScalars, hv]
  simp only [hvw, needX, ok_bind, pyAssert, beq_self_eq_true, if_true]
  rw [checkScalarEdges, belowWidth]
  cases he : data[1]? with
  | none => rfl
  | some e =>
    cases hx : e.x with
    | none => simp [hx]
    | some w =>
      obtain ⟨_, h1, h2⟩ := hedge e he w hx
      have : w = 1 := by omega
      simp [hx, this, pyAssert]

theorem params_of_data {data : List LevelShape} {maxDim : Nat} (hne : data ≠ []) :
    paramShapes data maxDim true false = .ok ((List.range (levelsOf maxDim data)).map fun d =>
      levelParams data (levelAt data d) d maxDim true false) := paramShapes_of hne

theorem raw_ne {data : List LevelShape} {v e : Nat} {b : Bool} (h : RawFeatures data v e b) :
    data ≠ [] := by
  obtain ⟨⟨v, w, hv, _⟩, _⟩ := h
  rintro rfl
  simp at hv

theorem named_embed {a : EmbedArgs} (ha : a.toSparseArgs.Named) :
    ({ a.toSparseArgs with numInput := a.embed, readout := "sum" } : SparseArgs).Named :=
  ⟨⟨by simp [okReadout], ha.norm, ha.nonlinearity, ha.jump⟩, ha.final⟩

/-- The common part of the theorems on the embedding networks. -/
theorem embed_net_ok {Lv : Type} {level : Lv → ParamShape → Py Nat} {a : EmbedArgs}
    (ha : a.toSparseArgs.Named) (hr : a.toSparseArgs.ReadsOut)
    (hk : a.numLayers ≠ 0) {conv : Nat → (Nat → Mod) → Mod → List Lv}
    (hc : ConvFits level conv a.maxDim a.hidden a.useCoboundaries)
    {scalars : Bool} {init : EmbedWidths} {vmax emax : Nat}
    (hi : InitFits init vmax emax a.embed a.embedEdge)
    {data : List LevelShape} (hraw : RawFeatures data vmax emax a.embedEdge)
    (hsc : scalars = true → checkScalars data = .ok ())
    (hb : HasBoundaries data a.maxDim) (h3 : min a.maxDim (data.length - 1) ≤ 2)
    (hu : a.useCoboundaries = true → UpTo data a.maxDim) :
    ∃ net, a.build scalars init conv = .ok net ∧ net.forward level data = .ok a.numClasses := by
  obtain ⟨norm, j, hn, hj, hbuild⟩ := sparseBuild_ok (named_embed ha).toBuildable conv
  refine ⟨_, by rw [EmbedArgs.build, hbuild, ok_bind]; rfl, ?_⟩
  obtain ⟨j', hj', hfin⟩ := finalWidths_jump
    (start := some (List.replicate (levelsOf a.maxDim data) a.embed)) (n := levelsOf a.maxDim data)
    (h := a.hidden) hk ha.jump
  cases (hj.symm.trans hj' : Except.ok j = Except.ok j')
  have hne := raw_ne hraw
  have hrun := run_fits hc hn hne hu a.numLayers a.embed
  obtain ⟨p, hp⟩ := getPoolingFn_named ha.readout
  have hs : inputCheck scalars data = Except.ok () := by
    cases scalars with
    | true => exact hsc rfl
    | false => rfl
  simp only [EmbedNetWidths.forward]
  rw [hs, ok_bind, params_of_data hne, ok_bind,
    init_ok hi hraw hb (by unfold levelsOf; omega) (fun _ _ => rfl) (fun _ _ => rfl), ok_bind,
    setWidths_replicate (levelsOf_le hne), ok_bind, hrun, ok_bind, hfin, ok_bind, hp, ok_bind]
  exact readoutWidths_ok (levelsOf_ne_zero _ _) (levelsOf_le_maxDim _ _) (readsOut_dims hr)
    (fun d hd => dims_le (a := { a.toSparseArgs with numInput := a.embed, readout := "sum" }) hd)
    rfl rfl ha.final rfl

theorem dropRings_getElem? {ps : List ParamShape} {i : Nat} {p : ParamShape}
    (h : (dropRingShapes ps)[i]? = some p) : ∃ q, ps[i]? = some q ∧ p.x = q.x ∧
      p.boundary = q.boundary ∧ p.boundaryAttr = q.boundaryAttr ∧ p.upAttr = q.upAttr ∧
      (p.up = true → q.up = true ∧ i ≠ 1) := by
  match ps with
  | [] => simp [dropRingShapes] at h
  | [v] =>
    refine ⟨p, h, rfl, rfl, rfl, rfl, fun hu => ⟨hu, ?_⟩⟩
    rintro rfl
    simp [dropRingShapes] at h
  | v :: e :: rest =>
    match i with
    | 0 =>
      simp only [dropRingShapes, List.getElem?_cons_zero, Option.some.injEq] at h
      subst h
      exact ⟨v, by simp, rfl, rfl, rfl, rfl, fun hu => ⟨hu, by simp⟩⟩
    | 1 =>
      simp only [dropRingShapes, List.getElem?_cons_succ, List.getElem?_cons_zero,
        Option.some.injEq] at h
      subst h
      exact ⟨e, by simp, rfl, rfl, rfl, rfl, fun hu => absurd hu (by simp)⟩
    | i + 2 =>
      simp only [dropRingShapes, List.getElem?_cons_succ] at h
      exact ⟨p, by simpa using h, rfl, rfl, rfl, rfl, fun hu => ⟨hu, by omega⟩⟩

theorem dropRingShapes_length (ps : List ParamShape) : (dropRingShapes ps).length = ps.length := by
  match ps with
  | [] => rfl
  | [_] => rfl
  | _ :: _ :: _ => rfl

theorem dropRings_map (f : Nat → ParamShape) (n : Nat) :
    dropRingShapes ((List.range n).map f) =
      (List.range n).map fun d => if d = 1 then { f d with up := false } else f d := by
  match n with
  | 0 => rfl
  | 1 => rfl
  | n + 2 =>
    simp only [List.range_succ_eq_map, List.map_cons, List.map_map, dropRingShapes]
    rfl

theorem noRings_ok {a : EmbedArgs} (ha : a.toSparseArgs.Named) (hk : a.numLayers ≠ 0)
    {data : List LevelShape} (hraw : RawFeatures data 1 1 a.embedEdge) (hb : HasBoundaries data 1) :
    ∃ net, a.embedSparseCINNoRings = .ok net ∧ net.forwardNoRings data = .ok a.numClasses := by
  let a' : EmbedArgs := { a with maxDim := 1, jumpMode := none, readoutDims := some [0, 1] }
  have ha' : a'.toSparseArgs.Named :=
    ⟨⟨ha.readout, ha.norm, ha.nonlinearity, by simp [okJump, a']⟩, ha.final⟩
  obtain ⟨norm, j, hn, hj, hbuild⟩ := sparseBuild_ok (named_embed ha').toBuildable
    (fun layerDim norm act => sparseCINConv 1 layerDim a.hidden norm act a.useCoboundaries)
  refine ⟨_, by
    show a'.embedSparseCIN = _
    rw [EmbedArgs.embedSparseCIN, EmbedArgs.build]
    rw [show a'.maxDim = 1 from rfl, show a'.hidden = a.hidden from rfl,
      show a'.useCoboundaries = a.useCoboundaries from rfl, hbuild, ok_bind]; rfl, ?_⟩
  have hj0 : j = none := by
    have : makeJump none = .ok j := hj
    cases this; rfl
  subst hj0
  have hne := raw_ne hraw
  obtain ⟨p, hp⟩ := getPoolingFn_named ha.readout
  have hrun := runWidths_const
    (params := fun data => do
      let ps ← paramShapes data 1 true false
      return dropRingShapes ps)
    (forward := SparseWidths.forward) (hidden := a.hidden)
    (conv := fun w => sparseCINConv 1 w a.hidden norm .pointwise a.useCoboundaries)
    (n := levelsOf 1 data) (data := data) (levelsOf_le hne) (levelsOf_ne_zero _ _)
    (fun w => by
      refine ⟨_, by rw [paramShapes_of (stamp_ne hne), ok_bind]; rfl,
        by rw [dropRingShapes_length]; simp [levelsOf_stamp], ?_⟩
      intro i l p hl hp
      obtain ⟨q, hq, e1, e2, e3, e4, e5⟩ := dropRings_getElem? hp
      have hq' := hq
      rw [List.getElem?_map] at hq'
      obtain ⟨d, hd, rfl⟩ := Option.map_eq_some_iff.1 hq'
      obtain ⟨hi, hdi⟩ := List.getElem?_eq_some_iff.1 hd
      simp only [List.length_range, levelsOf_stamp] at hi
      simp only [List.getElem_range] at hdi
      subst hdi
      have g := goodParams_stamp (w := w) (top := true) (down := false) hne hi
      refine sparse_level hn (List.mem_of_getElem? hl) ⟨e1.trans g.x, ?_⟩ ?_
      · rw [e3, e2]; exact g.boundary
      · intro _ hup
        obtain ⟨hqup, hi1⟩ := e5 hup
        have hi2 := levelsOf_le_maxDim 1 data
        have hi0 : i = 0 := by omega
        subst hi0
        rw [e4]
        refine goodUp_stamp' (Or.inl (by omega)) ?_ hqup
        unfold levelsOf
        omega)
    (fun w => by simp only [sparseCINConv, List.length_replicate]; exact levelsOf_le_maxDim _ _)
    a.numLayers a.embed
  simp only [EmbedNetWidths.forwardNoRings]
  rw [checkScalars_ok hraw, ok_bind, params_of_data hne, ok_bind, dropRings_map,
    init_ok (embedding_fits a'.embed a.embedEdge) hraw hb (by unfold levelsOf; omega), ok_bind,
    setWidths_replicate (levelsOf_le hne), ok_bind]
  · erw [hrun]
    rw [ok_bind, finalWidths_none hk, ok_bind]
    rw [show getPoolingFn a'.readout = .ok p from hp, ok_bind]
    exact readoutWidths_ok (levelsOf_ne_zero _ _) (levelsOf_le_maxDim _ _)
      (readsOut_dims (a := { a'.toSparseArgs with numInput := a'.embed, readout := "sum" })
        ⟨0, by simp [a'], by simp⟩)
      (fun d hd => dims_le (a := { a'.toSparseArgs with numInput := a'.embed, readout := "sum" }) hd)
      rfl rfl ha.final rfl
  · intro d _
    by_cases h : d = 1 <;> simp [h, levelParams]
  · intro d _
    by_cases h : d = 1 <;> simp [h, levelParams]

end Verif
