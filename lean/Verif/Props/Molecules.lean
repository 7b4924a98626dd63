import Verif.Lemmas.Molecules
import Verif.Props.ToGraph

/-!
# The datasets of the embedding networks (C80) and the predictions over their splits (C81)
-/

namespace Verif

section
variable {F L : Type} [DecidableEq F] [DecidableEq L]

omit [DecidableEq F] in
theorem collate_labelled {graphs : List (GraphData F L)} {comps : List (Complex F L)}
    {lift : GraphData F L → Py (Complex F L)}
    (h : List.Forall₂ (fun (G : GraphData F L) c => lift G = .ok c ∧ c.y = G.y) graphs comps) (hne : graphs ≠ [])
    (hl : ∀ G ∈ graphs, ∃ l, G.y = some [l]) : ∃ st, collate comps 2 = .ok st := by
  have hlab : ∀ c ∈ comps, ∃ l, c.y = some [l] := by
    intro c hc
    obtain ⟨G, hG, h1⟩ := forall₂_mem h.flip hc
    rw [h1.2]
    exact hl G hG
  refine (C36_storing_succeeds comps 2).mpr ⟨?_, ?_, .inr fun c hc => by obtain ⟨l, e⟩ := hlab c hc; rw [e]; rfl⟩
  · rintro rfl
    exact hne (List.forall₂_nil_right_iff.mp h)
  · intro c hc l e
    obtain ⟨l', e'⟩ := hlab c hc
    rw [e'] at e
    cases e
    rfl

/-- **C80** ZINC with edge features. Processing succeeds on molecules; the dataset stores the complexes of the
training, validation and test molecules one after the other, each lifted on its own, and the three lists of ids are the
three consecutive ranges. -/
theorem C80_zinc (g : Gudhi) (hg : g.Ok) (lib : RingLib) (hlib : lib.Ok) (agg : List F → F) (width : F → Nat)
    (w w' : Nat) (hagg : ∀ l : List F, l ≠ [] → (∀ r ∈ l, width r = w) → width (agg l) = w)
    (train val test : List (GraphData F L)) (hne : train ++ val ++ test ≠ [])
    (h : ∀ G ∈ train ++ val ++ test, Molecule width w w' G) (maxRingSize : Nat) (down : Bool) :
    ∃ ds, zincDataset g lib agg width train val test maxRingSize down true =
        .ok (ds, ⟨some (List.range' 0 train.length), some (List.range' train.length val.length),
          some (List.range' (train.length + val.length) test.length)⟩) ∧
      ds.HoldsLifts (GraphData.ringLift g lib agg maxRingSize down) (train ++ val ++ test) := by
  obtain ⟨a, a1, a2, -⟩ := molecules_convert hg hlib hagg (fun G hG => h G (by simp [hG]) : ∀ G ∈ train, _) maxRingSize down
  obtain ⟨b, b1, b2, -⟩ := molecules_convert hg hlib hagg (fun G hG => h G (by simp [hG]) : ∀ G ∈ val, _) maxRingSize down
  obtain ⟨c, c1, c2, -⟩ := molecules_convert hg hlib hagg (fun G hG => h G (by simp [hG]) : ∀ G ∈ test, _) maxRingSize down
  have hall := List.rel_append (List.rel_append a2 b2) c2
  obtain ⟨st, hst⟩ := collate_labelled hall hne fun G hG => (h G hG).label
  refine ⟨⟨st, none⟩, ?_, _, hall, hst, rfl⟩
  have e : joinSplits [a.complexes, b.complexes, c.complexes] =
      { items := a.complexes ++ b.complexes ++ c.complexes,
        idx := [List.range' 0 train.length, List.range' train.length val.length,
          List.range' (train.length + val.length) test.length],
        start := (a.complexes ++ b.complexes ++ c.complexes).length } := by
    simp [joinSplits, addSplit, a2.length_eq, b2.length_eq, c2.length_eq]
    omega
  unfold zincDataset zincProcess
  simp only [a1, b1, c1, ok_bind, e, hst]
  rfl

/-- **C80** ZINC without edge features, which is the default of the class: processing fails as soon as some molecule has
an edge, because the number of edges is checked on their features. -/
theorem C80_zinc_without_edge_features (g : Gudhi) (hg : g.Ok) (lib : RingLib) (hlib : lib.Ok) (agg : List F → F)
    (width : F → Nat) (w w' : Nat) (train val test : List (GraphData F L)) (G : GraphData F L)
    (hG : G ∈ train ++ val ++ test) (h : Molecule width w w' G) (he : G.edgeIndex ≠ []) (maxRingSize : Nat)
    (down : Bool) :
    ∃ e, zincDataset g lib agg width train val test maxRingSize down false = .error e := by
  obtain ⟨x, hx, -⟩ := h.nodes
  have rej : ∀ part : List (GraphData F L), G ∈ part →
      ∃ e, convertWithRings g lib agg width part maxRingSize down false false = .error e := fun part hp =>
    C35_ring_conversion_rejects g hg lib hlib agg width maxRingSize down false false part G hp x hx h.simple.noLoops
      h.simple.attr (.inr ⟨rfl, he⟩)
  cases hz : zincDataset g lib agg width train val test maxRingSize down false with
  | error e => exact ⟨e, rfl⟩
  | ok r =>
    exfalso
    unfold zincDataset zincProcess at hz
    obtain ⟨p, h1, -⟩ := bind_eq_ok.mp hz
    obtain ⟨a, ha, h1⟩ := bind_eq_ok.mp h1
    obtain ⟨b, hb, h1⟩ := bind_eq_ok.mp h1
    obtain ⟨c, hc, h1⟩ := bind_eq_ok.mp h1
    rcases List.mem_append.mp hG with hG | hG
    · rcases List.mem_append.mp hG with hG | hG
      · obtain ⟨e, he⟩ := rej _ hG
        rw [ha] at he; cases he
      · obtain ⟨e, he⟩ := rej _ hG
        rw [hb] at he; cases he
    · obtain ⟨e, he⟩ := rej _ hG
      rw [hc] at he; cases he

omit [DecidableEq F] [DecidableEq L] in
theorem Molecule.topFeatures {width : F → Nat} {w w' v v' : Nat} {top : F → F} {simple : Bool}
    (hs : simple = false → v = w ∧ v' = w') (ht : simple = true → ∀ r, (width r = w → width (top r) = v) ∧
      (width r = w' → width (top r) = v')) {G : GraphData F L} (h : Molecule width w w' G) :
    Molecule width v v' (topFeatures top simple G) := by
  cases simple with
  | false =>
    obtain ⟨rfl, rfl⟩ := hs rfl
    exact h
  | true =>
    obtain ⟨x, hx, hw⟩ := h.nodes
    obtain ⟨a, ha, hb⟩ := h.bonds
    have ht := ht rfl
    refine ⟨⟨x.map top, ⟨?_, hx.pos, ?_, hx.edges, hx.labels⟩, ?_⟩, ⟨h.simple.nodup, h.simple.both, h.simple.noLoops,
      h.simple.label, ?_⟩, ⟨a.map top, ?_, ?_⟩, h.label⟩
    · simp [Verif.topFeatures, hx.features]
    · simpa [Verif.topFeatures] using hx.rows
    · intro r hr
      obtain ⟨r', hr', rfl⟩ := List.mem_map.mp hr
      exact (ht r').1 (hw r' hr')
    · intro a' ha'
      simp only [Verif.topFeatures, if_true, ha, Option.map_some, Option.some.injEq] at ha'
      subst ha'
      obtain ⟨h1, h2⟩ := h.simple.attr a ha
      refine ⟨by simpa [Verif.topFeatures] using h1, ?_⟩
      intro i j e e' he he' hee
      rw [List.getElem?_map, List.getElem?_map, h2 i j e e' he he' hee]
    · simp [Verif.topFeatures, ha]
    · intro r hr
      obtain ⟨r', hr', rfl⟩ := List.mem_map.mp hr
      exact (ht r').2 (hb r' hr')

/-- **C80** OGB with edge features. The dataset stores the complex of each molecule, with only the top features if
`simple`, and the ids are those of the dictionary, the validation ids under `valid`. -/
theorem C80_ogb (g : Gudhi) (hg : g.Ok) (lib : RingLib) (hlib : lib.Ok) (agg : List F → F) (width : F → Nat)
    (top : F → F) (simple : Bool) (w w' v v' : Nat) (hs : simple = false → v = w ∧ v' = w')
    (ht : simple = true → ∀ r, (width r = w → width (top r) = v) ∧ (width r = w' → width (top r) = v'))
    (hagg : ∀ l : List F, l ≠ [] → (∀ r ∈ l, width r = v) → width (agg l) = v)
    (graphs : List (GraphData F L)) (hne : graphs ≠ []) (h : ∀ G ∈ graphs, Molecule width w w' G)
    (splitIdx : Dict String (List Nat)) (train valid test : List Nat) (h1 : Dict.get? splitIdx "train" = some train)
    (h2 : Dict.get? splitIdx "valid" = some valid) (h3 : Dict.get? splitIdx "test" = some test)
    (numTasks maxRingSize : Nat) (down : Bool) :
    ∃ ds, ogbDataset g lib agg width top graphs splitIdx numTasks maxRingSize down true simple =
        .ok (ds, ⟨some train, some valid, some test⟩, numTasks) ∧
      ds.HoldsLifts (GraphData.ringLift g lib agg maxRingSize down) (if simple then graphs.map (GraphData.mapRows top) else graphs) := by
  have hgr : (if simple then graphs.map (GraphData.mapRows top) else graphs) = graphs.map (topFeatures top simple) := by
    cases simple
    · exact (List.map_id graphs).symm
    · rfl
  rw [hgr]
  have hm : ∀ G ∈ graphs.map (topFeatures top simple), Molecule width v v' G := by
    intro G hG
    obtain ⟨G', hG', rfl⟩ := List.mem_map.mp hG
    exact (h G' hG').topFeatures hs ht
  obtain ⟨a, a1, a2, -⟩ := molecules_convert hg hlib hagg hm maxRingSize down
  obtain ⟨st, hst⟩ := collate_labelled a2 (by simpa using hne) fun G hG => (hm G hG).label
  refine ⟨⟨st, none⟩, ?_, _, a2, hst, rfl⟩
  unfold ogbDataset ogbProcess
  simp only [a1, ok_bind, pure_bind, hst, Dict.get, h1, h2, h3]
  rfl

omit [DecidableEq F] [DecidableEq L] in
theorem Unfeatured.molecule {G : GraphData F L} (h : Unfeatured G) (width : F → Nat) (zero : F) :
    Molecule width (width zero) (width zero) (cslPopulate zero G) := by
  obtain ⟨l, hl⟩ := h.label
  refine ⟨⟨_, ⟨rfl, h.pos, by simp [cslPopulate], ?_, ?_⟩, ?_⟩, ⟨?_, ?_, ?_, ?_, ?_⟩, ⟨_, rfl, ?_⟩, h.label⟩
  · intro e he
    exact h.edges e (List.mem_filter.mp he).1
  · intro l' hl'
    have hl' : G.y = some l' := hl'
    rw [hl] at hl'
    cases hl'
    exact .inl rfl
  · intro r hr
    rw [List.eq_of_mem_replicate hr]
  · exact h.nodup.filter _
  · intro e he
    obtain ⟨e1, e2⟩ := List.mem_filter.mp he
    refine List.mem_filter.mpr ⟨h.both e e1, ?_⟩
    simp only [Prod.fst_swap, Prod.snd_swap, Bool.not_eq_true', beq_eq_false_iff_ne] at e2 ⊢
    exact fun h => e2 h.symm
  · intro e he
    obtain ⟨e1, e2⟩ := List.mem_filter.mp he
    simpa using e2
  · intro l' hl'
    have hl' : G.y = some l' := hl'
    rw [hl] at hl'
    cases hl'
    rfl
  · intro a ha
    cases ha
    refine ⟨by simp [cslPopulate], ?_⟩
    intro i j e e' he he' _
    rw [List.getElem?_replicate, List.getElem?_replicate]
    have l1 := lt_of_get he
    have l2 := lt_of_get he'
    simp only [cslPopulate] at l1 l2
    simp [l1, l2]
  · intro r hr
    rw [List.eq_of_mem_replicate hr]

/-- **C80** CSL. On 150 graphs without features, which may have loops, processing succeeds and the dataset stores the
complex of each graph without its loops, with zeros for features. -/
theorem C80_csl_processing (g : Gudhi) (hg : g.Ok) (lib : RingLib) (hlib : lib.Ok) (agg : List F → F) (width : F → Nat)
    (zero : F) (hagg : ∀ l : List F, l ≠ [] → (∀ r ∈ l, width r = width zero) → width (agg l) = width zero)
    (graphs : List (GraphData F L)) (hlen : graphs.length = 150) (h : ∀ G ∈ graphs, Unfeatured G)
    (maxRingSize : Nat) :
    ∃ st, cslProcess g lib agg width zero graphs maxRingSize = .ok st ∧
      (⟨st, none⟩ : Dataset F L).HoldsLifts (GraphData.ringLift g lib agg maxRingSize false)
        (graphs.map (GraphData.constant zero)) := by
  have hgr : graphs.map (GraphData.constant zero) = graphs.map (cslPopulate zero) := by
    refine List.map_congr_left fun G _ => ?_
    have : (G.edgeIndex.filter fun e => e.1 ≠ e.2) = removeSelfLoops G.edgeIndex :=
      List.filter_congr fun e _ => by simp [Bool.beq_eq_decide_eq]
    unfold GraphData.constant cslPopulate
    rw [this]
  rw [hgr]
  have hm : ∀ G ∈ graphs.map (cslPopulate zero), Molecule width (width zero) (width zero) G := by
    intro G hG
    obtain ⟨G', hG', rfl⟩ := List.mem_map.mp hG
    exact (h G' hG').molecule width zero
  obtain ⟨a, a1, a2, -⟩ := molecules_convert hg hlib hagg hm maxRingSize false
  have hne : graphs ≠ [] := by rintro rfl; simp at hlen
  obtain ⟨st, hst⟩ := collate_labelled a2 (by simpa using hne) fun G hG => (hm G hG).label
  refine ⟨st, ?_, _, a2, hst, rfl⟩
  obtain ⟨G, rest, rfl⟩ := List.exists_cons_of_ne_nil hne
  obtain ⟨b1, b2⟩ := (h G (by simp)).bare
  unfold cslProcess
  have e1 : pyAssert ((G :: rest).length == 150) = .ok () := by rw [hlen]; rfl
  have e2 : getAt (G :: rest) 0 = .ok G := rfl
  rw [e1, ok_bind, e2, ok_bind, b1, b2]
  simp only [Option.isNone_none, a1, pyAssert, if_true, ok_bind, hst]

omit [DecidableEq F] [DecidableEq L] in
theorem allBelow150_iff (ids : List Nat) :
    (do let a ← allBelow150 ids; pyAssert a : Py Unit) = .ok () ↔ ids ≠ [] ∧ ∀ i ∈ ids, i < 150 := by
  unfold allBelow150
  by_cases h : ids = []
  · simp [h]
  · rw [if_neg h, ok_bind]
    by_cases h' : ∀ i ∈ ids, i < 150
    · simp [h', h, pyAssert]
    · simp only [h', decide_false, pyAssert, h, ne_eq, not_false_eq_true, and_false, iff_false]
      simp

/-- **C80** Which folds of CSL are accepted: the numbers 0 to 4, if the row of that number in the three files holds three
times as many training ids as test ids and as many validation ids as test ids, at least one each, all below 150. -/
theorem C80_csl_folds (g : Gudhi) (lib : RingLib) (agg : List F → F) (width : F → Nat) (zero : F)
    (graphs : List (GraphData F L)) (maxRingSize : Nat) (st : Storage F L)
    (hst : cslProcess g lib agg width zero graphs maxRingSize = .ok st) (fold : Int)
    (trainFile valFile testFile : List (List Nat)) (ds : Dataset F L) (splits : Splits) :
    cslDataset g lib agg width zero graphs maxRingSize fold trainFile valFile testFile = .ok (ds, splits) ↔
      ds = ⟨st, none⟩ ∧ 0 ≤ fold ∧ fold ≤ 4 ∧ ∃ train val test, splits = ⟨some train, some val, some test⟩ ∧
        trainFile[fold.toNat]? = some train ∧ valFile[fold.toNat]? = some val ∧ testFile[fold.toNat]? = some test ∧
        train.length = 3 * test.length ∧ val.length = test.length ∧ test ≠ [] ∧
        ∀ i, i ∈ train ∨ i ∈ val ∨ i ∈ test → i < 150 := by
  unfold cslDataset
  rw [hst, ok_bind]
  constructor
  · intro h
    obtain ⟨_, h1, h⟩ := bind_eq_ok.mp h
    obtain ⟨train, h2, h⟩ := bind_eq_ok.mp h
    obtain ⟨val, h3, h⟩ := bind_eq_ok.mp h
    obtain ⟨test, h4, h⟩ := bind_eq_ok.mp h
    obtain ⟨_, h5, h⟩ := bind_eq_ok.mp h
    obtain ⟨_, h6, h⟩ := bind_eq_ok.mp h
    obtain ⟨a, h7, h⟩ := bind_eq_ok.mp h
    obtain ⟨_, h8, h⟩ := bind_eq_ok.mp h
    obtain ⟨b, h9, h⟩ := bind_eq_ok.mp h
    obtain ⟨_, h10, h⟩ := bind_eq_ok.mp h
    obtain ⟨c, h11, h⟩ := bind_eq_ok.mp h
    obtain ⟨_, h12, h⟩ := bind_eq_ok.mp h
    cases ok_inj.mp h
    have k1 := (allBelow150_iff train).mp (by rw [h7]; exact h8)
    have k2 := (allBelow150_iff val).mp (by rw [h9]; exact h10)
    have k3 := (allBelow150_iff test).mp (by rw [h11]; exact h12)
    rw [pyAssert_eq_ok] at h1 h5 h6
    simp only [Bool.and_eq_true, decide_eq_true_eq] at h1
    refine ⟨rfl, h1.1, h1.2, train, val, test, rfl, getAt_eq_ok.mp h2, getAt_eq_ok.mp h3, getAt_eq_ok.mp h4,
      by simpa using h5, by simpa using h6, k3.1, ?_⟩
    rintro i (hi | hi | hi)
    · exact k1.2 i hi
    · exact k2.2 i hi
    · exact k3.2 i hi
  · rintro ⟨rfl, h1, h2, train, val, test, rfl, h3, h4, h5, h6, h7, h8, h9⟩
    have a1 : pyAssert (decide (0 ≤ fold) && decide (fold ≤ 4)) = .ok () := by simp [pyAssert, h1, h2]
    have a2 : pyAssert (train.length == 3 * test.length) = .ok () := by simp [pyAssert, h6]
    have a3 : pyAssert (val.length == test.length) = .ok () := by simp [pyAssert, h7]
    have hpos : 0 < test.length := List.length_pos_iff.mpr h8
    have b1 : allBelow150 train = .ok true := by
      unfold allBelow150
      rw [if_neg (by rintro rfl; simp only [List.length_nil] at h6; omega)]
      simp only [ok_inj, decide_eq_true_eq]
      exact fun i hi => h9 i (.inl hi)
    have b2 : allBelow150 val = .ok true := by
      unfold allBelow150
      rw [if_neg (by rintro rfl; simp only [List.length_nil] at h7; omega)]
      simp only [ok_inj, decide_eq_true_eq]
      exact fun i hi => h9 i (.inr (.inl hi))
    have b3 : allBelow150 test = .ok true := by
      unfold allBelow150
      rw [if_neg h8]
      simp only [ok_inj, decide_eq_true_eq]
      exact fun i hi => h9 i (.inr (.inr hi))
    rw [a1, ok_bind, getAt_eq_ok.mpr h3, ok_bind, getAt_eq_ok.mpr h4, ok_bind, getAt_eq_ok.mpr h5, ok_bind, a2, ok_bind,
      a3, ok_bind, b1, ok_bind]
    simp only [b2, b3]
    rfl

/-- **C80** Peptides. If every SMILES string of the table becomes a molecule with as many rows as nodes and edges, the
dataset stores the complex of each, with its label from the table; the ids are those of the split file, the validation
ids those under `val`. -/
theorem C80_peptides (g : Gudhi) (hg : g.Ok) (lib : RingLib) (hlib : lib.Ok) (agg : List F → F) (width : F → Nat)
    (w w' : Nat) (hagg : ∀ l : List F, l ≠ [] → (∀ r ∈ l, width r = w) → width (agg l) = w)
    (smiles2graph : String → Py (SmilesGraph F)) (table : List (String × L)) (hne : table ≠ [])
    (mol : String × L → GraphData F L)
    (h : ∀ row ∈ table, ∃ s, smiles2graph row.1 = .ok s ∧ s.nodeFeat.length = s.numNodes ∧
      s.edgeFeat.length = s.edgeIndex.length ∧
      mol row = ⟨some s.nodeFeat, s.edgeIndex, some s.edgeFeat, s.numNodes, some [row.2]⟩ ∧ Molecule width w w' (mol row))
    (splitFile : Dict String (List Nat)) (train val test : List Nat) (h1 : Dict.get? splitFile "train" = some train)
    (h2 : Dict.get? splitFile "val" = some val) (h3 : Dict.get? splitFile "test" = some test)
    (numTasks maxRingSize : Nat) (down : Bool) :
    ∃ ds, peptidesDataset g lib agg width smiles2graph table splitFile numTasks maxRingSize down =
        .ok (ds, ⟨some train, some val, some test⟩, numTasks) ∧
      ds.HoldsLifts (GraphData.ringLift g lib agg maxRingSize down) (table.map mol) := by
  have hm : ∀ G ∈ table.map mol, Molecule width w w' G := by
    intro G hG
    obtain ⟨row, hr, rfl⟩ := List.mem_map.mp hG
    obtain ⟨s, -, -, -, -, e⟩ := h row hr
    exact e
  obtain ⟨a, a1, a2, -⟩ := molecules_convert hg hlib hagg hm maxRingSize down
  obtain ⟨st, hst⟩ := collate_labelled a2 (by simpa using hne) fun G hG => (hm G hG).label
  refine ⟨⟨st, none⟩, ?_, _, a2, hst, rfl⟩
  have hgr : mapE (peptideGraph smiles2graph) table = .ok (table.map mol) := by
    rw [mapE_eq_ok_iff, List.forall₂_map_right_iff, List.forall₂_same]
    intro row hr
    obtain ⟨s, e1, e2, e3, e4, -⟩ := h row hr
    unfold peptideGraph
    rw [e1, ok_bind]
    simp [e2, e3, e4, pyAssert]
  have hset : ∀ (d : Dict String (List Nat)) (k : String), k ≠ "valid" → ∀ v,
      Dict.get? (Dict.set d "valid" v) k = Dict.get? d k := by
    intro d k hk v
    induction d with
    | nil => simp [Dict.set, Dict.get?, Ne.symm hk]
    | cons p d ih =>
      obtain ⟨k', v'⟩ := p
      simp only [Dict.set]
      split
      · next hh => subst hh; simp [Dict.get?, Ne.symm hk]
      · simp only [Dict.get?, ih]
  unfold peptidesDataset peptidesProcess peptideSplits
  simp only [hgr, ok_bind, pure_bind, Dict.get, h2, a1, hst, hset _ "train" (by decide), hset _ "val" (by decide),
    hset _ "test" (by decide), h1, h3]
  rfl

/-- **C80** And only then: if the dataset is made, every SMILES string of the table became a molecule with as many rows as
nodes and as edges, and the split file has the three keys. -/
theorem C80_peptides_checks (g : Gudhi) (lib : RingLib) (agg : List F → F) (width : F → Nat)
    (smiles2graph : String → Py (SmilesGraph F)) (table : List (String × L)) (splitFile : Dict String (List Nat))
    (numTasks maxRingSize : Nat) (down : Bool) (out : Dataset F L × Splits × Nat)
    (h : peptidesDataset g lib agg width smiles2graph table splitFile numTasks maxRingSize down = .ok out) :
    (∀ row ∈ table, ∃ s, smiles2graph row.1 = .ok s ∧ s.nodeFeat.length = s.numNodes ∧
      s.edgeFeat.length = s.edgeIndex.length) ∧ (Dict.get? splitFile "val").isSome := by
  unfold peptidesDataset at h
  obtain ⟨⟨st, idx, tasks⟩, h1, -⟩ := bind_eq_ok.mp h
  unfold peptidesProcess at h1
  obtain ⟨graphs, h2, h3⟩ := bind_eq_ok.mp h1
  refine ⟨?_, ?_⟩
  · intro row hr
    have all := mapE_eq_ok_iff.mp h2
    obtain ⟨i, hi, rfl⟩ := List.getElem_of_mem hr
    have hG := all.get hi (by rw [← all.length_eq]; exact hi)
    simp only [List.get_eq_getElem] at hG
    unfold peptideGraph at hG
    obtain ⟨s, e1, e2⟩ := bind_eq_ok.mp hG
    obtain ⟨_, e3, e4⟩ := bind_eq_ok.mp e2
    obtain ⟨_, e5, -⟩ := bind_eq_ok.mp e4
    refine ⟨s, e1, ?_, ?_⟩
    · simpa [pyAssert] using e5
    · simpa [pyAssert] using e3
  · obtain ⟨idx', h4, -⟩ := bind_eq_ok.mp h3
    unfold peptideSplits Dict.get at h4
    obtain ⟨v, h5, -⟩ := bind_eq_ok.mp h4
    cases hv : Dict.get? splitFile "val" with
    | none => rw [hv] at h5; cases h5
    | some v => rfl

end

/-! ### Predictions -/

section
variable {𝕜 R L V : Type} [Field 𝕜] [AddCommGroup R] [Module 𝕜 R]

/-- What an embedding network predicts for a batch, complex by complex. -/
theorem EmbedNetwork.byComplex {mB : Nat} {init : EmbedInit R} {forward : Complex R L → Py (List R)}
    (hnet : EmbedNetwork 𝕜 R L mB init forward)
    (hred : ∀ l l' : List R, l.Perm l' → init.reduce l = init.reduce l') :
    ∃ p : Complex R L → R,
      (∀ cs : List (Complex R L), cs ≠ [] → (∀ c ∈ cs, init.Takes c) → UniformFeatures cs →
        (fromComplexList cs mB >>= forward) = .ok (cs.map p)) ∧
      ∀ c c' φ, RelabelsCells c c' φ → init.Takes c → init.Takes c' → p c' = p c := by
  have small : ∀ {m : Nat} {cs : List (Complex R L)}, min 2 mB ≤ m → (∀ c ∈ cs, init.Takes c) →
      ∀ c ∈ cs, min c.dimension mB ≤ m := by
    intro m cs hm h c hc
    have := (h c hc).small
    omega
  cases hnet with
  | sparse net h hm =>
    exact ⟨net.predict 𝕜 SparseLevel.rule mB, fun cs hne ht hu => EmbedNet.forward_all (realises_sparse false) h hred hne
      ht hu (small hm ht), fun c c' φ hφ h1 h2 => EmbedNet.predict_relabel hred hφ h1 h2 mB⟩
  | pp net h hm =>
    exact ⟨net.predict 𝕜 PPLevel.rule mB, fun cs hne ht hu => EmbedNet.forward_all (realises_pp false) h hred hne
      ht hu (small hm ht), fun c c' φ hφ h1 h2 => EmbedNet.predict_relabel hred hφ h1 h2 mB⟩
  | noRings net h h1 =>
    exact ⟨net.flat.predict 𝕜 SparseLevel.rule 1, fun cs hne ht hu => EmbedNet.forwardNoRings_all sparse_ignoresAttr
      (realises_sparse false) h hred hne ht hu h1,
      fun c c' φ hφ h1 h2 => EmbedNet.predict_relabel (net := net.flat) hred hφ h1 h2 1⟩
  | gin net h hr h1 =>
    exact ⟨net.predict, fun cs hne ht hu => EmbedGIN.forward_all h hr hred hne ht hu h1,
      fun c c' φ hφ h1 h2 => EmbedGIN.predict_relabel hred hφ h1 h2⟩

omit [AddCommGroup R] in
/-- What is read of a dataset that holds complexes with edge features. -/
theorem ring_reads {comps : List (Complex R L)} (hf : ∀ c ∈ comps, RingFacts c true false)
    (hy : ∀ c ∈ comps, c.y.isSome) {st : Storage R L} (hst : collate comps 2 = .ok st) (i : Nat) (c : Complex R L)
    (hi : comps[i]? = some c) : ∃ c', st.read i = .ok c' ∧ SameComplex c c' := by
  have hm := List.mem_of_getElem? hi
  exact C36_reading_gives_the_stored_complex comps 2 st hst i c hi (hf c hm).valid (hf c hm).counted (hf c hm).small
    fun a ha => by rw [hy a ha, hy c hm]

theorem ring_forward {mB : Nat} {init : EmbedInit R} {forward : Complex R L → Py (List R)} {p : Complex R L → R}
    (he : init.eEmbed.isSome)
    (hp : ∀ cs : List (Complex R L), cs ≠ [] → (∀ c ∈ cs, init.Takes c) → UniformFeatures cs →
      (fromComplexList cs mB >>= forward) = .ok (cs.map p)) {comps : List (Complex R L)}
    (hf : ∀ c ∈ comps, RingFacts c true false) (ds : List (Complex R L)) (hne : ds ≠ [])
    (hd : ∀ d ∈ ds, ∃ c ∈ comps, SameComplex c d) : (fromComplexList ds mB >>= forward) = .ok (ds.map p) := by
  refine hp ds hne (fun d hm => ?_) ?_
  · obtain ⟨c, hc, hs⟩ := hd d hm
    exact hs.takes ((hf c hc).takes fun _ => he)
  · intro k
    have hu : UniformFeatures comps := uniform_of_facts hf
    rcases hu k with hu | hu
    · refine .inl fun d hm hk => ?_
      obtain ⟨c, hc, hs⟩ := hd d hm
      rw [hs.xs (hf c hc).valid (hf c hc).cells]
      exact hu c hc (hs.dimension ▸ hk)
    · refine .inr fun d hm => ?_
      obtain ⟨c, hc, hs⟩ := hd d hm
      rw [hs.xs (hf c hc).valid (hf c hc).cells]
      exact hu c hc

variable [DecidableEq R]

theorem holds_facts {g : Gudhi} (hg : g.Ok) {lib : RingLib} (hlib : lib.Ok) {agg : List R → R} {width : R → Nat}
    {w w' : Nat} {graphs : List (GraphData R L)} (h : ∀ G ∈ graphs, Molecule width w w' G) {maxK : Nat} {down : Bool}
    {comps : List (Complex R L)} (hc : List.Forall₂ (fun (G : GraphData R L) c =>
      G.ringLift g lib agg maxK down = .ok c ∧ c.y = G.y) graphs comps) :
    (∀ c ∈ comps, RingFacts c true false) ∧ ∀ c ∈ comps, c.y.isSome := by
  constructor
  · intro c hm
    obtain ⟨G, hG, h1⟩ := forall₂_mem hc.flip hm
    obtain ⟨comp, e1, e2, -⟩ := (h G hG).lifts hg hlib agg maxK down
    rw [h1.1] at e1
    cases e1
    exact e2
  · intro c hm
    obtain ⟨G, hG, h1⟩ := forall₂_mem hc.flip hm
    obtain ⟨l, hl⟩ := (h G hG).label
    rw [h1.2, hl]
    rfl

/-- **C81** Predictions of the embedding networks over a split of a dataset that holds the complexes of molecules.
Whatever was read before and whatever the batch size: the `k`-th prediction is the one for the complex lifted from the
graph with the `k`-th id of the split, passed alone. With shuffling the predictions are permuted in the same way as the
positions. -/
theorem C81_predictions (mB : Nat) (init : EmbedInit R) (forward : Complex R L → Py (List R))
    (hnet : EmbedNetwork 𝕜 R L mB init forward)
    (hred : ∀ l l' : List R, l.Perm l' → init.reduce l = init.reduce l') (he : init.eEmbed.isSome)
    (g : Gudhi) (hg : g.Ok) (lib : RingLib) (hlib : lib.Ok) (agg : List R → R) (width : R → Nat) (w w' : Nat)
    (order : List (List Nat) → List (List Nat)) (ho : ∀ l, (order l).Perm l) (graphs : List (GraphData R L))
    (h : ∀ G ∈ graphs, Molecule width w w' G) (maxK : Nat) (down : Bool) (ds : Dataset R L)
    (hds : ds.HoldsLifts (GraphData.ringLift g lib agg maxK down) graphs) (before : List Nat) (splits : Splits)
    (split : String) (ids : List Nat) (hsp : splits.Has split ids) (hne : ids ≠ []) (hids : ∀ i ∈ ids, i < graphs.length)
    (b : Nat) (hb : 0 < b) :
    ∃ preds, List.Forall₂ (fun i p => ∃ G c, graphs[i]? = some G ∧ G.ringLift g lib agg maxK down = .ok c ∧
        (fromComplexList [c] mB >>= forward) = .ok [p]) ids preds ∧
      (∃ batches, splitLoader order (Dataset.getMany order ds before).1 splits split none b mB = .ok batches ∧
        batches.length = (ids.length + b - 1) / b ∧ infer forward batches = .ok preds) ∧
      ∀ perm : List Nat, perm.Perm (List.range ids.length) → ∃ batches drawn,
        splitLoader order (Dataset.getMany order ds before).1 splits split (some perm) b mB = .ok batches ∧
        batches.length = (ids.length + b - 1) / b ∧ infer forward batches = .ok drawn ∧
        List.Forall₂ (fun j p => preds[j]? = some p) perm drawn ∧ drawn.Perm preds := by
  obtain ⟨comps, hc, hst, hca⟩ := hds
  obtain ⟨st, ca⟩ := ds
  cases hca
  obtain ⟨hf, hy⟩ := holds_facts hg hlib h hc
  obtain ⟨p, hp1, hp2⟩ := hnet.byComplex hred
  have hne' : ∃ c, c ∈ comps := by
    obtain ⟨i, hi⟩ := List.exists_mem_of_ne_nil ids hne
    have := hids i hi
    rw [hc.length_eq] at this
    exact ⟨_, List.getElem_mem this⟩
  obtain ⟨c0, hc0⟩ := hne'
  obtain ⟨preds, e1, e2, e3⟩ := split_predictions_of ho ((hf c0 hc0).hasAttribute hc0 2) hst (ring_reads hf hy hst)
    (p := p) (ring_forward he hp1 hf)
    (fun c hm d hs => hp2 c d _ (hs.relabels (hf c hm).valid (hf c hm).cells) ((hf c hm).takes fun _ => he)
      (hs.takes ((hf c hm).takes fun _ => he)))
    (fun c hm => hp1 [c] (by simp) (by simpa using (hf c hm).takes fun _ => he)
      (uniform_of_facts (by simpa using hf c hm))) before hsp hne (fun i hi => hc.length_eq ▸ hids i hi) hb
  refine ⟨preds, e1.imp ?_, e2, e3⟩
  rintro i p ⟨c, h5, h6⟩
  have hi := lt_of_get h5
  have h7 := List.forall₂_iff_get.mp hc
  have h8 := h7.2 i (h7.1 ▸ hi) hi
  simp only [List.get_eq_getElem] at h8
  rw [(List.getElem?_eq_some_iff.mp h5).2] at h8
  exact ⟨_, c, List.getElem?_eq_getElem _, h8.1, h6⟩

/-- **C81** Scores over a split, without shuffling: what the metric gives for the predictions of the complexes lifted
from the graphs of the split, one by one, and the labels of these graphs. -/
theorem C81_scores (mB : Nat) (init : EmbedInit R) (forward : Complex R L → Py (List R))
    (hnet : EmbedNetwork 𝕜 R L mB init forward)
    (hred : ∀ l l' : List R, l.Perm l' → init.reduce l = init.reduce l') (he : init.eEmbed.isSome)
    (g : Gudhi) (hg : g.Ok) (lib : RingLib) (hlib : lib.Ok) (agg : List R → R) (width : R → Nat) (w w' : Nat)
    (order : List (List Nat) → List (List Nat)) (ho : ∀ l, (order l).Perm l) (graphs : List (GraphData R L))
    (h : ∀ G ∈ graphs, Molecule width w w' G) (maxK : Nat) (down : Bool) (ds : Dataset R L)
    (hds : ds.HoldsLifts (GraphData.ringLift g lib agg maxK down) graphs) (before : List Nat) (splits : Splits)
    (split : String) (ids : List Nat) (hsp : splits.Has split ids) (hne : ids ≠ []) (hids : ∀ i ∈ ids, i < graphs.length)
    (b : Nat) (hb : 0 < b) (task : Task) (loss : List R → List L → Py ℚ) (metric : List R → Option (List L) → Py V)
    (v : V) (l : Option ℚ)
    (hrun : (splitLoader order (Dataset.getMany order ds before).1 splits split none b mB >>=
      evalModel task forward Complex.targets loss metric) = .ok (v, l)) :
    ∃ preds, List.Forall₂ (fun i p => ∃ G c, graphs[i]? = some G ∧ G.ringLift g lib agg maxK down = .ok c ∧
        (fromComplexList [c] mB >>= forward) = .ok [p]) ids preds ∧
      metric preds (if task = .isomorphism then none
        else some (ids.flatMap fun i => ((graphs[i]?).bind GraphData.y).getD [])) = .ok v := by
  obtain ⟨comps, hc, hst, hca⟩ := hds
  obtain ⟨st, ca⟩ := ds
  cases hca
  obtain ⟨hf, hy⟩ := holds_facts hg hlib h hc
  obtain ⟨p, hp1, hp2⟩ := hnet.byComplex hred
  have hne' : ∃ c, c ∈ comps := by
    obtain ⟨i, hi⟩ := List.exists_mem_of_ne_nil ids hne
    have := hids i hi
    rw [hc.length_eq] at this
    exact ⟨_, List.getElem_mem this⟩
  obtain ⟨c0, hc0⟩ := hne'
  have h7 := List.forall₂_iff_get.mp hc
  obtain ⟨preds, e1, e2⟩ := split_scores_of ho ((hf c0 hc0).hasAttribute hc0 2) hst (ring_reads hf hy hst)
    (p := p) (ring_forward he hp1 hf)
    (fun c hm d hs => hp2 c d _ (hs.relabels (hf c hm).valid (hf c hm).cells) ((hf c hm).takes fun _ => he)
      (hs.takes ((hf c hm).takes fun _ => he)))
    (fun c hm => hp1 [c] (by simp) (by simpa using (hf c hm).takes fun _ => he)
      (uniform_of_facts (by simpa using hf c hm))) (fun c _ d hs => hs.y) before hsp hne
    (fun i hi => hc.length_eq ▸ hids i hi) hy hb hrun
  refine ⟨preds, e1.imp ?_, ?_⟩
  · rintro i p ⟨c, h5, h6⟩
    have hi := lt_of_get h5
    have h8 := h7.2 i (h7.1 ▸ hi) hi
    simp only [List.get_eq_getElem] at h8
    rw [(List.getElem?_eq_some_iff.mp h5).2] at h8
    exact ⟨_, c, List.getElem?_eq_getElem _, h8.1, h6⟩
  · have hl : (ids.flatMap fun i => ((comps[i]?).bind Complex.y).getD []) =
        ids.flatMap fun i => ((graphs[i]?).bind GraphData.y).getD [] := by
      refine List.flatMap_congr fun i hi => ?_
      have hi1 := hids i hi
      have hi2 := h7.1 ▸ hi1
      have h8 := (h7.2 i hi1 hi2).2
      simp only [List.get_eq_getElem] at h8
      rw [List.getElem?_eq_getElem hi1, List.getElem?_eq_getElem hi2, Option.bind_some, Option.bind_some, h8]
    rw [← hl]
    exact e2

/-- **C81** Two datasets that hold the complexes of pairwise isomorphic molecules, however their atoms are numbered and
whatever order the libraries list simplices and rings in: the same predictions over every split. -/
theorem C81_isomorphic_molecules (mB : Nat) (init : EmbedInit R) (forward : Complex R L → Py (List R))
    (hnet : EmbedNetwork 𝕜 R L mB init forward)
    (hred : ∀ l l' : List R, l.Perm l' → init.reduce l = init.reduce l') (he : init.eEmbed.isSome)
    (g g' : Gudhi) (hg : g.Ok) (hg' : g'.Ok) (lib lib' : RingLib) (hlib : lib.Ok) (hlib' : lib'.Ok)
    (agg : List R → R) (hperm : ∀ l l' : List R, l.Perm l' → agg l = agg l') (width : R → Nat) (w w' : Nat)
    (order order' : List (List Nat) → List (List Nat)) (ho : ∀ l, (order l).Perm l) (ho' : ∀ l, (order' l).Perm l)
    (graphs graphs' : List (GraphData R L)) (h : ∀ G ∈ graphs, Molecule width w w' G)
    (h' : ∀ G ∈ graphs', Molecule width w w' G) (hiso : List.Forall₂ GraphData.Iso graphs graphs') (maxK : Nat)
    (down : Bool) (ds ds' : Dataset R L) (hds : ds.HoldsLifts (GraphData.ringLift g lib agg maxK down) graphs)
    (hds' : ds'.HoldsLifts (GraphData.ringLift g' lib' agg maxK down) graphs') (splits : Splits) (split : String)
    (ids : List Nat) (hsp : splits.Has split ids) (hne : ids ≠ []) (hids : ∀ i ∈ ids, i < graphs.length)
    (b b' : Nat) (hb : 0 < b) (hb' : 0 < b') :
    ∃ batches batches' preds, splitLoader order ds splits split none b mB = .ok batches ∧
      splitLoader order' ds' splits split none b' mB = .ok batches' ∧
      infer forward batches = .ok preds ∧ infer forward batches' = .ok preds ∧ preds.length = ids.length := by
  obtain ⟨preds, a4, ⟨batches, a2, -, a3⟩, -⟩ := C81_predictions mB init forward hnet hred he g hg lib hlib agg width w
    w' order ho graphs h maxK down ds hds [] splits split ids hsp hne hids b hb
  obtain ⟨preds', b4, ⟨batches', b2, -, b3⟩, -⟩ := C81_predictions mB init forward hnet hred he g' hg' lib' hlib' agg
    width w w' order' ho' graphs' h' maxK down ds' hds' [] splits split ids hsp hne
    (fun i hi => hiso.length_eq ▸ hids i hi) b' hb'
  obtain ⟨p, hp1, hp2⟩ := hnet.byComplex (L := L) hred
  have hp : preds' = preds := by
    clear a2 a3 b2 b3 hsp hne
    induction a4 generalizing preds' with
    | nil => exact List.forall₂_nil_left_iff.mp b4
    | @cons i q ids preds hip _ ih =>
      cases b4 with
      | @cons _ q' _ preds' hip' b4 =>
        rw [ih (fun i hi => hids i (by simp [hi])) preds' b4]
        obtain ⟨G, c, q1, q2, q3⟩ := hip
        obtain ⟨H, c', r1, r2, r3⟩ := hip'
        have hGH : G.Iso H := by
          have h7 := List.forall₂_iff_get.mp hiso
          have h8 := h7.2 i (lt_of_get q1) (lt_of_get r1)
          simp only [List.get_eq_getElem] at h8
          rw [(List.getElem?_eq_some_iff.mp q1).2, (List.getElem?_eq_some_iff.mp r1).2] at h8
          exact h8
        have mG := h G (List.mem_of_getElem? q1)
        have mH := h' H (List.mem_of_getElem? r1)
        obtain ⟨-, x, x', ex, ex', hi⟩ := hGH
        obtain ⟨y, hx, -⟩ := mG.nodes
        obtain ⟨y', hx', -⟩ := mH.nodes
        have e1 := hx.features
        rw [ex] at e1
        cases e1
        have e1' := hx'.features
        rw [ex'] at e1'
        cases e1'
        have o1 : (⟨G.numNodes, x, G.edgeIndex, G.edgeAttr, G.y⟩ : RGraph R L).Ok :=
          ⟨hx.pos, hx.rows, hx.edges, mG.simple.noLoops, mG.simple.attr, hx.labels⟩
        have o2 : (⟨H.numNodes, x', H.edgeIndex, H.edgeAttr, H.y⟩ : RGraph R L).Ok :=
          ⟨hx'.pos, hx'.rows, hx'.edges, mH.simple.noLoops, mH.simple.attr, hx'.labels⟩
        obtain ⟨c1, c1', h1, h2, f1, f2, φ, hφ⟩ := ring_relabels (maxK := maxK) (down := down) (initEdges := true)
          (initRings := false) hg hg' hlib hlib' hperm o1 o2 hi
        unfold GraphData.ringLift at q2 r2
        unfold RGraph.lift at h1 h2
        simp only at h1 h2
        rw [ex, h1] at q2
        cases q2
        rw [ex', h2] at r2
        cases r2
        have t1 := f1.takes (l := init) fun _ => he
        have t2 := f2.takes (l := init) fun _ => he
        have s1 := hp1 [c] (by simp) (by simpa using t1) (uniform_of_facts (by simpa using f1))
        have s2 := hp1 [c'] (by simp) (by simpa using t2) (uniform_of_facts (by simpa using f2))
        rw [q3] at s1
        rw [r3] at s2
        have t1' := hp2 c c' φ hφ t1 t2
        simp only [ok_inj, List.map_cons, List.map_nil, List.cons.injEq, and_true] at s1 s2
        rw [s1, s2, t1']
  subst hp
  exact ⟨batches, batches', _, a2, b2, a3, b3, a4.length_eq.symm⟩

variable [DecidableEq L]

/-- **C81** ZINC from the downloaded molecules to the predictions over a split: in the order of the molecules of that
split, the predictions for their complexes alone, whatever the batch size. -/
theorem C81_zinc_predictions (mB : Nat) (init : EmbedInit R) (forward : Complex R L → Py (List R))
    (hnet : EmbedNetwork 𝕜 R L mB init forward)
    (hred : ∀ l l' : List R, l.Perm l' → init.reduce l = init.reduce l') (he : init.eEmbed.isSome)
    (g : Gudhi) (hg : g.Ok) (lib : RingLib) (hlib : lib.Ok) (agg : List R → R) (width : R → Nat) (w w' : Nat)
    (hagg : ∀ l : List R, l ≠ [] → (∀ r ∈ l, width r = w) → width (agg l) = w)
    (order : List (List Nat) → List (List Nat)) (ho : ∀ l, (order l).Perm l) (train val test : List (GraphData R L))
    (h : ∀ G ∈ train ++ val ++ test, Molecule width w w' G) (maxK : Nat) (down : Bool) (split : String)
    (part : List (GraphData R L))
    (hpart : (split, part) ∈ [("train", train), ("valid", val), ("test", test)]) (hne : part ≠ []) (b : Nat)
    (hb : 0 < b) :
    ∃ ds splits batches preds, zincDataset g lib agg width train val test maxK down true = .ok (ds, splits) ∧
      splitLoader order ds splits split none b mB = .ok batches ∧ batches.length = (part.length + b - 1) / b ∧
      infer forward batches = .ok preds ∧
      List.Forall₂ (fun (G : GraphData R L) p => ∃ c, G.ringLift g lib agg maxK down = .ok c ∧
        (fromComplexList [c] mB >>= forward) = .ok [p]) part preds := by
  have hall : train ++ val ++ test ≠ [] := by
    intro h0
    simp only [List.append_eq_nil_iff] at h0
    obtain ⟨⟨rfl, rfl⟩, rfl⟩ := h0
    simp only [List.mem_cons, Prod.mk.injEq, List.not_mem_nil, or_false] at hpart
    rcases hpart with ⟨-, rfl⟩ | ⟨-, rfl⟩ | ⟨-, rfl⟩ <;> exact hne rfl
  obtain ⟨ds, h1, h2⟩ := C80_zinc g hg lib hlib agg width w w' hagg train val test hall h maxK down
  have key : ∀ start : Nat, (∀ i < part.length, (train ++ val ++ test)[start + i]? = part[i]?) →
      Splits.Has ⟨some (List.range' 0 train.length), some (List.range' train.length val.length),
          some (List.range' (train.length + val.length) test.length)⟩ split (List.range' start part.length) →
      ∃ ds splits batches preds, zincDataset g lib agg width train val test maxK down true = .ok (ds, splits) ∧
        splitLoader order ds splits split none b mB = .ok batches ∧ batches.length = (part.length + b - 1) / b ∧
        infer forward batches = .ok preds ∧
        List.Forall₂ (fun (G : GraphData R L) p => ∃ c, G.ringLift g lib agg maxK down = .ok c ∧
          (fromComplexList [c] mB >>= forward) = .ok [p]) part preds := by
    intro start hat hsp
    have hpos : 0 < part.length := List.length_pos_iff.mpr hne
    obtain ⟨preds, e1, ⟨batches, e2, e3, e4⟩, -⟩ := C81_predictions mB init forward hnet hred he g hg lib hlib agg width w
      w' order ho _ h maxK down ds h2 [] _ split _ hsp (by
        intro h0
        have := congrArg List.length h0
        simp at this
        exact hne this) (by
        intro i hi
        obtain ⟨k, hk, rfl⟩ := List.mem_range'.mp hi
        have := hat k hk
        rw [List.getElem?_eq_getElem hk] at this
        have := lt_of_get this
        omega) b hb
    refine ⟨ds, _, batches, preds, h1, e2, by simpa using e3, e4, ?_⟩
    rw [List.forall₂_iff_get] at e1 ⊢
    refine ⟨by simpa using e1.1, fun i hi hi' => ?_⟩
    obtain ⟨G, c, k1, k2, k3⟩ := e1.2 i (by simpa using hi) hi'
    simp only [List.get_eq_getElem, List.getElem_range', one_mul] at k1 k3
    rw [hat i hi, List.getElem?_eq_getElem hi] at k1
    cases k1
    exact ⟨c, k2, k3⟩
  simp only [List.mem_cons, Prod.mk.injEq, List.not_mem_nil, or_false] at hpart
  rcases hpart with ⟨rfl, rfl⟩ | ⟨rfl, rfl⟩ | ⟨rfl, rfl⟩
  · refine key 0 (fun i hi => ?_) (.train _ rfl)
    rw [Nat.zero_add, List.append_assoc, List.getElem?_append_left hi]
  · refine key train.length (fun i hi => ?_) (.valid _ rfl)
    rw [List.append_assoc, List.getElem?_append_right (by omega), Nat.add_sub_cancel_left, List.getElem?_append_left hi]
  · refine key (train.length + val.length) (fun i hi => ?_) (.test _ rfl)
    rw [List.getElem?_append_right (by simp), List.length_append, Nat.add_sub_cancel_left]

end

/-! ### Concrete cases -/

namespace Fixtures

/-- A triangle and a path with features on atoms and bonds. -/
def triMol : GraphData ℚ Nat :=
  { x := some [1, 2, 3], edgeIndex := [(0, 1), (1, 0), (1, 2), (2, 1), (2, 0), (0, 2)],
    edgeAttr := some [5, 5, 6, 6, 7, 7], numNodes := 3, y := some [0] }

def pathMol : GraphData ℚ Nat :=
  { x := some [1, 2, 3], edgeIndex := [(0, 1), (1, 0), (1, 2), (2, 1)], edgeAttr := some [5, 5, 6, 6],
    numNodes := 3, y := some [1] }

/-- The same with atoms 0 and 2 exchanged and the bonds in another order. -/
def triMol' : GraphData ℚ Nat :=
  { x := some [3, 2, 1], edgeIndex := [(2, 0), (0, 2), (2, 1), (1, 2), (1, 0), (0, 1)],
    edgeAttr := some [7, 7, 5, 5, 6, 6], numNodes := 3, y := some [0] }

def pathMol' : GraphData ℚ Nat :=
  { x := some [3, 2, 1], edgeIndex := [(2, 1), (1, 2), (0, 1), (1, 0)], edgeAttr := some [5, 5, 6, 6],
    numNodes := 3, y := some [1] }

theorem molecule_of_dec {G : GraphData ℚ Nat} {x a : List ℚ} {l : Nat} (hx : G.x = some x) (ha : G.edgeAttr = some a)
    (hy : G.y = some [l]) (h1 : 0 < G.numNodes) (h2 : x.length = G.numNodes) (h3 : a.length = G.edgeIndex.length)
    (h4 : ∀ e ∈ G.edgeIndex, e.1 < G.numNodes ∧ e.2 < G.numNodes) (h5 : G.edgeIndex.Nodup)
    (h6 : ∀ e ∈ G.edgeIndex, e.swap ∈ G.edgeIndex) (h7 : ∀ e ∈ G.edgeIndex, e.1 ≠ e.2)
    (h8 : ∀ i < a.length, ∀ j < a.length, (G.edgeIndex[i]? = G.edgeIndex[j]? ∨
      G.edgeIndex[i]? = (G.edgeIndex[j]?).map Prod.swap) → a[i]? = a[j]?) : Molecule (fun _ => 1) 1 1 G := by
  refine ⟨⟨x, ⟨hx, h1, h2, h4, ?_⟩, fun _ _ => rfl⟩, ⟨h5, h6, h7, ?_, ?_⟩, ⟨a, ha, fun _ _ => rfl⟩, l, hy⟩
  · intro l' h
    rw [hy] at h
    cases h
    exact .inl rfl
  · intro l' h
    rw [hy] at h
    cases h
    rfl
  · intro a' h
    rw [ha] at h
    cases h
    refine ⟨h3, fun i j e e' hi hj he => h8 i (h3 ▸ lt_of_get hi) j (h3 ▸ lt_of_get hj) ?_⟩
    rw [hi, hj]
    rcases he with rfl | rfl
    · exact .inl rfl
    · exact .inr rfl

theorem molecules_ok : ∀ G ∈ [triMol, pathMol, triMol', pathMol'], Molecule (fun _ => 1) 1 1 G := by
  intro G hG
  simp only [List.mem_cons, List.not_mem_nil, or_false] at hG
  rcases hG with rfl | rfl | rfl | rfl <;>
    exact molecule_of_dec rfl rfl rfl (by decide) rfl rfl (by decide) (by decide) (by decide) (by decide)
      (by decide +kernel)

theorem molecules_iso : List.Forall₂ GraphData.Iso [triMol, pathMol] [triMol', pathMol'] := by
  refine .cons ⟨rfl, _, _, rfl, rfl, rfl, rfl, fun v => 2 - v, ⟨?_, ?_, ?_, ?_⟩, ?_⟩
    (.cons ⟨rfl, _, _, rfl, rfl, rfl, rfl, fun v => 2 - v, ⟨?_, ?_, ?_, ?_⟩, ?_⟩ .nil)
  · intro v hv; show 2 - v < 3; omega
  · intro u v hu hv h
    have hu : u < 3 := hu
    have hv : v < 3 := hv
    omega
  · have h : ∀ u < 3, ∀ v < 3, (Joined [(2, 0), (0, 2), (2, 1), (1, 2), (1, 0), (0, 1)] (2 - u) (2 - v) ↔
      Joined [(0, 1), (1, 0), (1, 2), (2, 1), (2, 0), (0, 2)] u v) := by decide +kernel
    exact fun u v hu hv => h u hu v hv
  · have h : ∀ v < 3, [(3 : ℚ), 2, 1][2 - v]? = [(1 : ℚ), 2, 3][v]? := by decide +kernel
    exact h
  · intro a a' h h' i j e e' hi hj he
    cases h
    cases h'
    have key : ∀ i < 6, ∀ j < 6,
        ((triMol'.edgeIndex[j]? = (triMol.edgeIndex[i]?).map fun e => (2 - e.1, 2 - e.2)) ∨
        triMol'.edgeIndex[j]? = (triMol.edgeIndex[i]?).map fun e => (2 - e.2, 2 - e.1)) →
        ([7, 7, 5, 5, 6, 6] : List ℚ)[j]? = ([5, 5, 6, 6, 7, 7] : List ℚ)[i]? := by decide +kernel
    refine key i (lt_of_get hi) j (lt_of_get hj) ?_
    rw [show triMol.edgeIndex[i]? = some e from hi, show triMol'.edgeIndex[j]? = some e' from hj]
    exact he.imp (congrArg some) (congrArg some)
  · intro v hv; show 2 - v < 3; omega
  · intro u v hu hv h
    have hu : u < 3 := hu
    have hv : v < 3 := hv
    omega
  · have h : ∀ u < 3, ∀ v < 3, (Joined [(2, 1), (1, 2), (0, 1), (1, 0)] (2 - u) (2 - v) ↔
      Joined [(0, 1), (1, 0), (1, 2), (2, 1)] u v) := by decide +kernel
    exact fun u v hu hv => h u hu v hv
  · have h : ∀ v < 3, [(3 : ℚ), 2, 1][2 - v]? = [(1 : ℚ), 2, 3][v]? := by decide +kernel
    exact h
  · intro a a' h h' i j e e' hi hj he
    cases h
    cases h'
    have key : ∀ i < 4, ∀ j < 4,
        ((pathMol'.edgeIndex[j]? = (pathMol.edgeIndex[i]?).map fun e => (2 - e.1, 2 - e.2)) ∨
        pathMol'.edgeIndex[j]? = (pathMol.edgeIndex[i]?).map fun e => (2 - e.2, 2 - e.1)) →
        ([5, 5, 6, 6] : List ℚ)[j]? = ([5, 5, 6, 6] : List ℚ)[i]? := by decide +kernel
    refine key i (lt_of_get hi) j (lt_of_get hj) ?_
    rw [show pathMol.edgeIndex[i]? = some e from hi, show pathMol'.edgeIndex[j]? = some e' from hj]
    exact he.imp (congrArg some) (congrArg some)

/-- A CSL graph: a square with a loop on every node. -/
def loopedSquare : GraphData ℚ Nat :=
  { x := none, edgeIndex := [(0, 0), (1, 1), (2, 2), (3, 3), (0, 1), (1, 0), (1, 2), (2, 1), (2, 3), (3, 2), (3, 0), (0, 3)],
    edgeAttr := none, numNodes := 4, y := some [3] }

theorem loopedSquare_unfeatured : Unfeatured loopedSquare :=
  ⟨by decide, by unfold EdgesIn; decide, by decide, by decide, ⟨3, rfl⟩, rfl, rfl⟩

/-- What two SMILES strings are read as. -/
def twoSmiles (s : String) : Py (SmilesGraph ℚ) :=
  if s = "CC" then .ok ⟨2, [1, 2], [(0, 1), (1, 0)], [5, 5]⟩ else .ok ⟨1, [9], [], []⟩

end Fixtures

open Fixtures

/-- ZINC on four molecules: the ids of the parts; without edge features it is not built. -/
example : (∀ G ∈ [triMol, pathMol] ++ [triMol'] ++ [pathMol'], Molecule (fun _ => 1) 1 1 G) ∧
    ((zincDataset plainGudhi plainRings List.sum (fun _ => 1) [triMol, pathMol] [triMol'] [pathMol'] 4 false true).map
      fun r => (r.2.train, r.2.valid, r.2.test)) = .ok (some [0, 1], some [2], some [3]) ∧
    ((zincDataset plainGudhi plainRings List.sum (fun _ => 1) [triMol, pathMol] [triMol'] [pathMol'] 4 false false).map
      fun r => r.2.train) = .error .attribute :=
  ⟨molecules_ok, by decide +kernel, by decide +kernel⟩

/-- OGB with the top features (here: halved) and with all. -/
example : (∀ G ∈ [triMol, pathMol], Molecule (fun _ => 1) 1 1 G) ∧
    ([true, false].map fun simple => ((ogbDataset plainGudhi plainRings List.sum (fun _ => 1) (fun r => r / 2)
        [triMol, pathMol] [("train", [1]), ("valid", [0]), ("test", [1])] 1 4 false true simple).map
      fun r => (r.2.1.train, r.2.1.valid, ((r.1.storage.read 1).toOption.map fun c => c.attr 1 Cochain.x)))) =
    [.ok (some [1], some [0], some (some [3, 5 / 2])), .ok (some [1], some [0], some (some [6, 5]))] :=
  ⟨fun G hG => molecules_ok G (by simp at hG ⊢; tauto), by decide +kernel⟩

/-- 150 CSL graphs meet the hypotheses. -/
example : (List.replicate 150 loopedSquare).length = 150 ∧ (∀ G ∈ List.replicate 150 loopedSquare, Unfeatured G) ∧
    (GraphData.constant (0 : ℚ) loopedSquare).edgeIndex.length = 8 ∧
    ∃ st, cslProcess plainGudhi plainRings List.sum (fun _ => 1) 0 (List.replicate 150 loopedSquare) 4 = .ok st :=
  have h : ∀ G ∈ List.replicate 150 loopedSquare, Unfeatured G :=
    fun _ hG => List.eq_of_mem_replicate hG ▸ loopedSquare_unfeatured
  ⟨by simp, h, by decide, by
    obtain ⟨st, e, -⟩ := C80_csl_processing plainGudhi plainGudhi_ok plainRings plainRings_ok List.sum (fun _ => 1) 0
      (fun _ _ _ => rfl) _ (by simp) h 4
    exact ⟨st, e⟩⟩

/-- Folds of CSL that are accepted and rejected. -/
example : ([([0, 1, 2], [3], [4]), ([0, 1], [3], [4]), ([0, 1, 150], [3], [4]), ([], [], [])].map fun p =>
      (do pyAssert (p.1.length == 3 * p.2.2.length)
          let a ← allBelow150 p.1
          pyAssert a : Py Unit)) = [.ok (), .error .assertion, .error .assertion, .error .value] := by decide +kernel

/-- Peptides from two strings; a string whose molecule has no features is refused. -/
example : ((peptidesDataset (L := Nat) plainGudhi plainRings List.sum (fun _ => 1)
      (fun _ => .ok (⟨1, [], [], []⟩ : SmilesGraph ℚ)) [("C", 4)] [("train", [0]), ("val", []), ("test", [])] 10 4
      false).map fun r => r.2.2) = .error .assertion := by decide +kernel

example : ((peptidesDataset (L := Nat) plainGudhi plainRings List.sum (fun _ => 1) twoSmiles [("CC", 4), ("C", 6)]
        [("train", [1]), ("val", [0]), ("test", [1])] 10 4 false).map fun r =>
      (r.2.1.train, r.2.1.valid, (r.1.storage.read 0).toOption.map fun c => c.attr 1 Cochain.x)) =
    .ok (some [1], some [0], some (some [5])) := by decide +kernel

theorem flatQ_fits : flatQ.flat.net.Fits :=
  ⟨by simp [EmbedNet.flat, flatQ, sparseNetQ], by simp [EmbedNet.flat, flatQ, sparseNetQ], rfl, .inr rfl, .inl rfl,
    by decide⟩

/-- Four networks the theorems cover. -/
example : EmbedNetwork ℚ ℚ Nat 2 initQ (noRingsQ.forward ℚ SparseLevel.forward) ∧
    EmbedNetwork ℚ ℚ Nat 2 initQ (embedPPQ.forward ℚ PPLevel.forward) ∧
    EmbedNetwork ℚ ℚ Nat 2 initQ (flatQ.forwardNoRings ℚ SparseLevel.forward) ∧
    EmbedNetwork ℚ ℚ Nat 2 initQ ginQ.forward ∧ initQ.eEmbed.isSome ∧
    ∀ l l' : List ℚ, l.Perm l' → initQ.reduce l = initQ.reduce l' :=
  ⟨.sparse noRingsQ sparseNetQ_fits (by decide), .pp embedPPQ ppNetQ_fits (by decide),
    .noRings flatQ flatQ_fits (by decide), .gin ginQ (by simp [ginQ]) (.inl rfl) (by decide), rfl, initQ_reduce⟩

/-- Predictions over the training part of two datasets of isomorphic molecules, in batches of different sizes. -/
example : List.Forall₂ GraphData.Iso [triMol, pathMol] [triMol', pathMol'] ∧
    (do
      let (ds, splits) ← zincDataset plainGudhi plainRings List.sum (fun _ => 1) [triMol, pathMol] [] [] 4 false true
      let batches ← splitLoader asGiven ds splits "train" none 1 2
      let preds ← infer (noRingsQ.forward ℚ SparseLevel.forward) batches
      let (ds', splits') ← zincDataset plainGudhi backRings List.sum (fun _ => 1) [triMol', pathMol'] [] [] 4 false true
      let batches' ← splitLoader List.reverse ds' splits' "train" none 2 2
      let preds' ← infer (noRingsQ.forward ℚ SparseLevel.forward) batches'
      let c ← triMol.ringLift plainGudhi plainRings List.sum 4 false
      let d ← pathMol.ringLift plainGudhi plainRings List.sum 4 false
      let p ← fromComplexList [c] 2 >>= noRingsQ.forward ℚ SparseLevel.forward
      let q ← fromComplexList [d] 2 >>= noRingsQ.forward ℚ SparseLevel.forward
      return (preds == preds' && preds == p ++ q && !(p == q) && batches.length == 2 && batches'.length == 1)) =
    .ok true :=
  ⟨molecules_iso, by decide +kernel⟩

end Verif
