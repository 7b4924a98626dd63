import Verif.Lemmas.Influence
import Verif.Props.CellNet

/-!
# C88: which parts of a network cannot influence its predictions
-/

namespace Verif

variable {𝕜 R L : Type} [Field 𝕜] [AddCommGroup R] [Module 𝕜 R]

/-! ### On every input -/

/-- **C88** The networks on lower messages of CIN++ are never used: with others in their place the network
does the same on every input, also when it fails. -/
theorem C88_lower_messages_are_unused (net : SparseNet R (PPLevel 𝕜 R)) (convs : List (List (PPLevel 𝕜 R)))
    (h : List.Forall₂ (List.Forall₂ (PPLevel.Alike False)) net.convs convs) (data : Complex R L) (i : EmbedInit R) :
    { net with convs := convs }.forward 𝕜 PPLevel.forward data = net.forward 𝕜 PPLevel.forward data ∧
    EmbedNet.forward 𝕜 PPLevel.forward ⟨i, { net with convs := convs }⟩ data =
      EmbedNet.forward 𝕜 PPLevel.forward ⟨i, net⟩ data := by
  have e : ∀ d : Complex R L, { net with convs := convs }.forward 𝕜 PPLevel.forward d =
      net.forward 𝕜 PPLevel.forward d := fun d => by
    unfold SparseNet.forward
    simp only
    rw [runConvs_alike h]
    rfl
  refine ⟨e data, ?_⟩
  unfold EmbedNet.forward
  simp only [e]

/-- **C88** The dense layers of dimensions that are not read out are never used. -/
theorem C88_unread_dense_layers_are_unused {Lv : Type} (level : Lv → MPParams R → Py (List R)) (net : SparseNet R Lv)
    (lin1s : List (R → R))
    (h : ∀ d ∈ net.dims, lin1s[d]? = net.lin1s[d]?) (data : Complex R L) :
    { net with lin1s := lin1s }.forward 𝕜 level data = net.forward 𝕜 level data := by
  unfold SparseNet.forward
  simp only
  congr 1
  funext out
  exact readoutPart_lin1s h _ _

/-! ### On graphs -/

/-- **C88** SparseCIN and CIN++ on clique complexes: networks on upper messages of a dimension that has
no cells above it do not matter; without jumping knowledge, neither do the levels too far from the
dimensions that are read out for the layers that are left. -/
theorem C88_clique_predictions (g : Gudhi) (hg : g.Ok) (agg : List R → R)
    (hagg : ∀ l l' : List R, l.Perm l' → agg l = agg l') (k : Nat) (down : Bool) (mB : Nat)
    (sparse sparse' : SparseNet R (SparseLevel 𝕜 R)) (hs : sparse.Fits) (hs' : sparse'.Fits)
    (as : sparse.Alike SparseLevel.Alike (min (max k 1) mB) sparse')
    (pp pp' : SparseNet R (PPLevel 𝕜 R)) (hp : pp.Fits) (hp' : pp'.Fits)
    (ap : pp.Alike PPLevel.Alike (min (max k 1) mB) pp')
    (cin : CINNet R (CINLevel 𝕜 R)) (hc : cin.Fits)
    (Gs : List (FGraph R L)) (hne : Gs ≠ []) (hG : ∀ G ∈ Gs, G.Ok) :
    ∃ cs out out', mapE (FGraph.lift g agg k down) Gs = .ok cs ∧
      (fromComplexList cs mB >>= sparse.forward 𝕜 SparseLevel.forward) = .ok out ∧
      (fromComplexList cs mB >>= sparse'.forward 𝕜 SparseLevel.forward) = .ok out ∧
      (fromComplexList cs mB >>= pp.forward 𝕜 PPLevel.forward) = .ok out' ∧
      (fromComplexList cs mB >>= pp'.forward 𝕜 PPLevel.forward) = .ok out' := by
  obtain ⟨cs, e, s, p, -⟩ := C85_clique_predictions g hg agg hagg k down sparse hs pp hp cin hc Gs hne hG mB
  obtain ⟨cs', e', s', p', -⟩ := C85_clique_predictions g hg agg hagg k down sparse' hs' pp' hp' cin hc Gs hne hG mB
  rw [e] at e'
  cases e'
  have ht : ∀ G : FGraph R L, ∀ d, min (max k 1) mB ≤ d →
      (cliqueSets G.edges G.size k).upTo mB (d + 1) = ∅ := fun G d hd => by
    unfold Cells.upTo cliqueSets
    split
    · rw [if_neg (by omega)]
    · rfl
  refine ⟨cs, _, _, e, s, s'.trans ?_, p, p'.trans ?_⟩
  · refine congrArg Except.ok (List.map_congr_left fun G _ => ?_)
    exact SparseNet.predictOn_alike (fun a => SparseLevel.rule_same a (ht G _)) as hs hs' _ _
  · refine congrArg Except.ok (List.map_congr_left fun G _ => ?_)
    exact SparseNet.predictOn_alike (fun a => PPLevel.rule_same a (ht G _)) ap hp hp' _ _

section
variable [DecidableEq R]

theorem ringSets_top (edges : List (Nat × Nat)) (size maxK mB : Nat) {d : Nat} (hd : min 2 mB ≤ d) :
    (ringSets edges size maxK).upTo mB (d + 1) = ∅ := by
  unfold Cells.upTo
  split
  · obtain ⟨n, rfl⟩ : ∃ n, d = n + 2 := ⟨d - 2, by omega⟩
    rfl
  · rfl

/-- **C88** SparseCIN and CIN++ on ring complexes: likewise, there are no cells above dimension 2. -/
theorem C88_ring_predictions (g : Gudhi) (hg : g.Ok) (lib : RingLib) (hl : lib.Ok) (agg : List R → R)
    (hagg : ∀ l l' : List R, l.Perm l' → agg l = agg l') (maxK : Nat) (down : Bool) (mB : Nat)
    (sparse sparse' : SparseNet R (SparseLevel 𝕜 R)) (hs : sparse.Fits) (hs' : sparse'.Fits)
    (as : sparse.Alike SparseLevel.Alike (min 2 mB) sparse')
    (pp pp' : SparseNet R (PPLevel 𝕜 R)) (hp : pp.Fits) (hp' : pp'.Fits)
    (ap : pp.Alike PPLevel.Alike (min 2 mB) pp')
    (cin : CINNet R (CINLevel 𝕜 R)) (hc : cin.Fits)
    (Gs : List (RGraph R L)) (hne : Gs ≠ []) (hG : ∀ G ∈ Gs, G.Ok) :
    ∃ cs out out', mapE (RGraph.lift g lib agg maxK down true true) Gs = .ok cs ∧
      (fromComplexList cs mB >>= sparse.forward 𝕜 SparseLevel.forward) = .ok out ∧
      (fromComplexList cs mB >>= sparse'.forward 𝕜 SparseLevel.forward) = .ok out ∧
      (fromComplexList cs mB >>= pp.forward 𝕜 PPLevel.forward) = .ok out' ∧
      (fromComplexList cs mB >>= pp'.forward 𝕜 PPLevel.forward) = .ok out' := by
  obtain ⟨cs, e, s, p, -⟩ := C85_ring_predictions g hg lib hl agg hagg maxK down sparse hs pp hp cin hc Gs hne hG mB
  obtain ⟨cs', e', s', p', -⟩ :=
    C85_ring_predictions g hg lib hl agg hagg maxK down sparse' hs' pp' hp' cin hc Gs hne hG mB
  rw [e] at e'
  cases e'
  refine ⟨cs, _, _, e, s, s'.trans ?_, p, p'.trans ?_⟩
  · refine congrArg Except.ok (List.map_congr_left fun G _ => ?_)
    exact SparseNet.predictOn_alike (fun a => SparseLevel.rule_same a (ringSets_top _ _ _ _)) as hs hs' _ _
  · refine congrArg Except.ok (List.map_congr_left fun G _ => ?_)
    exact SparseNet.predictOn_alike (fun a => PPLevel.rule_same a (ringSets_top _ _ _ _)) ap hp hp' _ _

/-- **C88** The embedding networks on ring complexes: likewise; without rings, edges are the top
dimension. -/
theorem C88_embedding_predictions (g : Gudhi) (hg : g.Ok) (lib : RingLib) (hl : lib.Ok) (agg : List R → R)
    (hagg : ∀ l l' : List R, l.Perm l' → agg l = agg l') (maxK : Nat) (down initEdges initRings : Bool)
    (mB : Nat) (h1 : 1 ≤ mB)
    (sparse sparse' : EmbedNet R (SparseLevel 𝕜 R)) (hs : sparse.net.Fits) (hs' : sparse'.net.Fits)
    (is : sparse'.init = sparse.init) (as : sparse.net.Alike SparseLevel.Alike (min 2 mB) sparse'.net)
    (hrs : ∀ l l' : List R, l.Perm l' → sparse.init.reduce l = sparse.init.reduce l')
    (pp pp' : EmbedNet R (PPLevel 𝕜 R)) (hp : pp.net.Fits) (hp' : pp'.net.Fits)
    (ip : pp'.init = pp.init) (ap : pp.net.Alike PPLevel.Alike (min 2 mB) pp'.net)
    (hrp : ∀ l l' : List R, l.Perm l' → pp.init.reduce l = pp.init.reduce l')
    (flat flat' : EmbedNet R (SparseLevel 𝕜 R)) (hf : flat.flat.net.Fits) (hf' : flat'.flat.net.Fits)
    (iflat : flat'.init = flat.init) (af : flat.flat.net.Alike SparseLevel.Alike 1 flat'.flat.net)
    (hrf : ∀ l l' : List R, l.Perm l' → flat.init.reduce l = flat.init.reduce l')
    (gin : EmbedGIN 𝕜 R) (hn : gin.convs ≠ []) (hread : gin.readout = "sum" ∨ gin.readout = "mean")
    (hrg : ∀ l l' : List R, l.Perm l' → gin.init.reduce l = gin.init.reduce l')
    (hemb : initEdges = true → sparse.init.eEmbed.isSome ∧ pp.init.eEmbed.isSome ∧
      flat.init.eEmbed.isSome ∧ gin.init.eEmbed.isSome)
    (Gs : List (RGraph R L)) (hne : Gs ≠ []) (hG : ∀ G ∈ Gs, G.Ok)
    (hms : min 2 mB ≤ sparse.net.maxDim) (hmp : min 2 mB ≤ pp.net.maxDim) :
    ∃ cs out out' out'', mapE (RGraph.lift g lib agg maxK down initEdges initRings) Gs = .ok cs ∧
      (fromComplexList cs mB >>= sparse.forward 𝕜 SparseLevel.forward) = .ok out ∧
      (fromComplexList cs mB >>= sparse'.forward 𝕜 SparseLevel.forward) = .ok out ∧
      (fromComplexList cs mB >>= pp.forward 𝕜 PPLevel.forward) = .ok out' ∧
      (fromComplexList cs mB >>= pp'.forward 𝕜 PPLevel.forward) = .ok out' ∧
      (fromComplexList cs mB >>= flat.forwardNoRings 𝕜 SparseLevel.forward) = .ok out'' ∧
      (fromComplexList cs mB >>= flat'.forwardNoRings 𝕜 SparseLevel.forward) = .ok out'' := by
  obtain ⟨cs, e, s, p, f, -⟩ := C85_embedding_predictions g hg lib hl agg hagg maxK down initEdges initRings sparse hs
    hrs pp hp hrp flat hf hrf gin hn hread hrg hemb Gs hne hG mB h1 hms hmp
  obtain ⟨cs', e', s', p', f', -⟩ := C85_embedding_predictions g hg lib hl agg hagg maxK down initEdges initRings
    sparse' hs' (by rwa [is]) pp' hp' (by rwa [ip]) flat' hf' (by rwa [iflat]) gin hn hread hrg
    (by rwa [is, ip, iflat]) Gs hne hG mB h1 (by rwa [as.maxDim]) (by rwa [ap.maxDim])
  rw [e] at e'
  cases e'
  rw [is] at s'
  rw [ip] at p'
  rw [iflat] at f'
  refine ⟨cs, _, _, _, e, s, s'.trans ?_, p, p'.trans ?_, f, f'.trans ?_⟩
  · refine congrArg Except.ok (List.map_congr_left fun G _ => ?_)
    exact SparseNet.predictOn_alike (fun a => SparseLevel.rule_same a (ringSets_top _ _ _ _)) as hs hs' _ _
  · refine congrArg Except.ok (List.map_congr_left fun G _ => ?_)
    exact SparseNet.predictOn_alike (fun a => PPLevel.rule_same a (ringSets_top _ _ _ _)) ap hp hp' _ _
  · refine congrArg Except.ok (List.map_congr_left fun G _ => ?_)
    exact SparseNet.predictOn_alike
      (fun a => SparseLevel.rule_same a (ringSets_top _ _ _ 1)) af hf hf' _ _

end

/-! ### The theorems on concrete cases -/

namespace Fixtures

/-- A level that has nothing in common with `sparseQ`. -/
def otherQ : SparseLevel ℚ ℚ := ⟨.plain fun _ => 7, fun _ => 8, id, id, fun _ _ => 9, 5, 6⟩

/-- Two layers of which only the vertices are read out. -/
def nodesNetQ : SparseNet ℚ (SparseLevel ℚ ℚ) := { sparseNetQ with readoutDims := some [0] }

/-- The same with other levels out of range and other dense layers for edges and triangles. -/
def nodesNetQ' : SparseNet ℚ (SparseLevel ℚ ℚ) :=
  { nodesNetQ with
    convs := [[sparseQ, sparseQ, otherQ], [sparseQ, otherQ, otherQ]]
    lin1s := [fun x => x + 1, id, id] }

/-- `ppNetQ` with another network on lower messages everywhere, and on upper messages of triangles. -/
def ppNetQ' : SparseNet ℚ (PPLevel ℚ ℚ) :=
  { ppNetQ with convs := [[{ ppQ with msgDown := .plain id }, { ppQ with msgDown := .plain id },
      { ppQ with msgDown := .plain id, msgUp := .plain fun _ => 7 }]] }

/-- `flatQ` with another network on the upper messages of edges. -/
def flatQ' : EmbedNet ℚ (SparseLevel ℚ ℚ) :=
  { flatQ with net := { flatQ.net with
      convs := [[sparseQ, { sparseQ with msgUp := .plain fun _ => 7 }], [sparseQ, { sparseQ with msgUp := .plain id }]] } }

theorem nodesNetQ_fits : nodesNetQ.Fits :=
  ⟨by simp [nodesNetQ, sparseNetQ], by simp [nodesNetQ, sparseNetQ], rfl, .inr rfl, .inl rfl, by decide⟩
theorem nodesNetQ'_fits : nodesNetQ'.Fits :=
  ⟨by simp [nodesNetQ', nodesNetQ, sparseNetQ], by simp [nodesNetQ', nodesNetQ, sparseNetQ], rfl, .inr rfl, .inl rfl,
    by decide⟩
theorem ppNetQ'_fits : ppNetQ'.Fits :=
  ⟨by simp [ppNetQ', ppNetQ], by simp [ppNetQ', ppNetQ], rfl, .inl rfl, .inl rfl, by decide⟩
theorem flatQ_fits : flatQ.flat.net.Fits :=
  ⟨by simp [EmbedNet.flat, flatQ, sparseNetQ], by simp [EmbedNet.flat, flatQ, sparseNetQ], rfl, .inr rfl, .inl rfl,
    by decide⟩
theorem flatQ'_fits : flatQ'.flat.net.Fits :=
  ⟨by simp [EmbedNet.flat, flatQ', flatQ, sparseNetQ], by simp [EmbedNet.flat, flatQ', flatQ, sparseNetQ], rfl, .inr rfl,
    .inl rfl, by decide⟩

theorem nodesNetQ_alike (t : Nat) : nodesNetQ.Alike SparseLevel.Alike t nodesNetQ' where
  maxDim := rfl
  jump := rfl
  readout := rfl
  readoutDims := rfl
  act := rfl
  lin1s d hd := by
    have : d = 0 := by simpa [SparseNet.dims, nodesNetQ, sparseNetQ] using hd
    subst this
    rfl
  finalReadout := rfl
  lin2 := rfl
  layers := rfl
  levels i d ls ls' l l' h1 h2 h3 h4 h5 := by
    rcases h5 with h5 | ⟨r, hr, h5, h6⟩
    · exact absurd rfl h5
    have : r = 0 := by simpa [SparseNet.dims, nodesNetQ, sparseNetQ] using hr
    subst this
    have hd : d + i + 1 ≤ 2 := by simpa [nodesNetQ, sparseNetQ, Nat.add_assoc] using h5
    obtain ⟨rfl, rfl⟩ | ⟨rfl, rfl⟩ | ⟨rfl, rfl⟩ : (i = 0 ∧ d = 0) ∨ (i = 0 ∧ d = 1) ∨ (i = 1 ∧ d = 0) := by omega
    all_goals
      cases h1
      cases h2
      cases h3
      cases h4
      exact ⟨fun _ => rfl, rfl, rfl, rfl, rfl, rfl, rfl⟩

theorem ppNetQ_alike : ppNetQ.Alike PPLevel.Alike 2 ppNetQ' where
  maxDim := rfl
  jump := rfl
  readout := rfl
  readoutDims := rfl
  act := rfl
  lin1s _ _ := rfl
  finalReadout := rfl
  lin2 := rfl
  layers := rfl
  levels i d ls ls' l l' h1 h2 h3 h4 _ := by
    match i, d with
    | 0, 0 => cases h1; cases h2; cases h3; cases h4; exact ⟨fun _ => rfl, rfl, rfl, rfl, rfl, rfl, rfl, rfl, rfl⟩
    | 0, 1 => cases h1; cases h2; cases h3; cases h4; exact ⟨fun _ => rfl, rfl, rfl, rfl, rfl, rfl, rfl, rfl, rfl⟩
    | 0, 2 =>
      cases h1; cases h2; cases h3; cases h4
      exact ⟨fun h => absurd (Nat.le_refl 2) h, rfl, rfl, rfl, rfl, rfl, rfl, rfl, rfl⟩
    | 0, _ + 3 => cases h1; cases h3
    | _ + 1, _ => cases h1

theorem flatQ_alike : flatQ.flat.net.Alike SparseLevel.Alike 1 flatQ'.flat.net where
  maxDim := rfl
  jump := rfl
  readout := rfl
  readoutDims := rfl
  act := rfl
  lin1s _ _ := rfl
  finalReadout := rfl
  lin2 := rfl
  layers := rfl
  levels i d ls ls' l l' h1 h2 h3 h4 _ := by
    match i, d with
    | 0, 0 => cases h1; cases h2; cases h3; cases h4; exact ⟨fun _ => rfl, rfl, rfl, rfl, rfl, rfl, rfl⟩
    | 1, 0 => cases h1; cases h2; cases h3; cases h4; exact ⟨fun _ => rfl, rfl, rfl, rfl, rfl, rfl, rfl⟩
    | 0, 1 =>
      cases h1; cases h2; cases h3; cases h4
      exact ⟨fun h => absurd (Nat.le_refl 1) h, rfl, rfl, rfl, rfl, rfl, rfl⟩
    | 1, 1 =>
      cases h1; cases h2; cases h3; cases h4
      exact ⟨fun h => absurd (Nat.le_refl 1) h, rfl, rfl, rfl, rfl, rfl, rfl⟩
    | 0, _ + 2 => cases h1; cases h3
    | 1, _ + 2 => cases h1; cases h3
    | _ + 2, _ => cases h1

end Fixtures

section Cases
open Fixtures

example := C88_lower_messages_are_unused ppNetQ
  [[{ ppQ with msgDown := .plain id }, { ppQ with msgDown := .withAttr fun x a => x * a }, ppQ]]
  (.cons (.cons ⟨fun _ => rfl, rfl, rfl, rfl, rfl, rfl, rfl, rfl, rfl⟩
    (.cons ⟨fun _ => rfl, rfl, rfl, rfl, rfl, rfl, rfl, rfl, rfl⟩
      (.cons ⟨fun _ => rfl, rfl, rfl, rfl, rfl, rfl, rfl, rfl, rfl⟩ .nil))) .nil) houseQ initQ

example := C88_unread_dense_layers_are_unused (𝕜 := ℚ) SparseLevel.forward { sparseNetQ with readoutDims := some [2, 0] }
  [fun x => x + 1, id, fun x => 3 - x] (by
    intro d hd
    have : d = 2 ∨ d = 0 := by simpa [SparseNet.dims, sparseNetQ] using hd
    rcases this with rfl | rfl <;> rfl) houseQ

example := C88_clique_predictions (L := Nat) plainGudhi plainGudhi_ok List.sum (fun _ _ h => h.sum_eq) 2 true 2
  nodesNetQ nodesNetQ' nodesNetQ_fits nodesNetQ'_fits (nodesNetQ_alike _) ppNetQ ppNetQ' ppNetQ_fits ppNetQ'_fits
  ppNetQ_alike cinNetQ cinNetQ_fits [kiteG, kiteH] (by simp) (by simpa using ⟨kiteG_ok, kiteH_ok⟩)

example := C88_ring_predictions plainGudhi plainGudhi_ok plainRings plainRings_ok List.sum (fun _ _ h => h.sum_eq) 4 true 2
  nodesNetQ nodesNetQ' nodesNetQ_fits nodesNetQ'_fits (nodesNetQ_alike _) ppNetQ ppNetQ' ppNetQ_fits ppNetQ'_fits
  ppNetQ_alike cinNetQ cinNetQ_fits [shedG, shedH] (by simp) (by simpa using ⟨shedG_ok, shedH_ok⟩)

example := C88_embedding_predictions plainGudhi plainGudhi_ok plainRings plainRings_ok List.sum (fun _ _ h => h.sum_eq)
  4 true true true 2 (by decide) ⟨initQ, nodesNetQ⟩ ⟨initQ, nodesNetQ'⟩ nodesNetQ_fits nodesNetQ'_fits rfl
  (nodesNetQ_alike _) (fun _ _ h => h.sum_eq) ⟨initQ, ppNetQ⟩ ⟨initQ, ppNetQ'⟩ ppNetQ_fits ppNetQ'_fits rfl ppNetQ_alike
  (fun _ _ h => h.sum_eq) flatQ flatQ' flatQ_fits flatQ'_fits rfl flatQ_alike (fun _ _ h => h.sum_eq) ginQ
  (by simp [ginQ]) (.inl rfl) (fun _ _ h => h.sum_eq) (fun _ => ⟨rfl, rfl, rfl, rfl⟩) [shedG, shedH] (by simp)
  (by simpa using ⟨shedG_ok, shedH_ok⟩) (by decide) (by decide)

/-- What is in range matters: another network on the upper messages of vertices, or on edges in the first
of the two layers. -/
example :
    let run (convs : List (List (SparseLevel ℚ ℚ))) :=
      ((fromComplexList [segQ, segQ] 2 >>= SparseNet.forward ℚ SparseLevel.forward
        { nodesNetQ with convs := convs, readout := "sum", act := id }).toOption)
    run [[sparseQ, sparseQ, sparseQ], [sparseQ, sparseQ, sparseQ]] ≠
      run [[sparseQ, otherQ, sparseQ], [sparseQ, sparseQ, sparseQ]] ∧
    run [[sparseQ, sparseQ, sparseQ], [sparseQ, sparseQ, sparseQ]] ≠
      run [[sparseQ, sparseQ, sparseQ], [{ sparseQ with msgUp := .plain id }, sparseQ, sparseQ]] := by
  decide +kernel

end Cases

end Verif
