import Verif.Lemmas.TUDataset

/-!
# TU datasets from graphs to predictions (C76) and their folds (C77)
-/

namespace Verif

section
variable {F L : Type} [DecidableEq F] [DecidableEq L]

theorem forall₂_of_forall {A B : Type} {P : A → B → Prop} {l : List A} (h : ∀ a ∈ l, ∃ b, P a b) :
    ∃ l', List.Forall₂ P l l' := by
  induction l with
  | nil => exact ⟨[], .nil⟩
  | cons a l ih =>
    obtain ⟨b, hb⟩ := h a (by simp)
    obtain ⟨l', hl'⟩ := ih fun a' h' => h a' (by simp [h'])
    exact ⟨b :: l', .cons hb hl'⟩

omit [DecidableEq L] in
theorem Processable.lifts {width : F → Nat} {w w' : Nat} {graphs : List (GraphData F L)} {maxDim : Nat}
    {maxRingSize : Option Nat} (h : Processable width w w' graphs maxDim maxRingSize) {g : Gudhi} (hg : g.Ok)
    {lib : RingLib} (hlib : lib.Ok) (agg : List F → F) (down : Bool) :
    ∀ G ∈ graphs, ∃ comp, G.lifted g lib agg maxDim maxRingSize down = .ok comp ∧ StoredAs G maxDim comp := by
  intro G hG
  obtain ⟨x, hx, -⟩ := h.graph G hG
  obtain ⟨l, hl⟩ := h.label G hG
  cases hr : maxRingSize with
  | none => exact clique_stored hg agg h.dim down hx hl
  | some size =>
    obtain ⟨-, h2, h3, -⟩ := h.rings size hr
    subst h2
    exact ring_stored hg hlib agg size down hx (h3 G hG) hl

/-- **C76** Processing a dataset of labelled graphs succeeds, for both kinds of lifting. What is written to the file
is the collation of one complex per graph: the complex that lifting this graph alone gives, with the label of the
graph. -/
theorem C76_processing (g : Gudhi) (hg : g.Ok) (lib : RingLib) (hlib : lib.Ok) (agg : List F → F) (width : F → Nat)
    (w w' : Nat) (hagg : ∀ l : List F, l ≠ [] → (∀ r ∈ l, width r = w) → width (agg l) = w)
    (graphs : List (GraphData F L)) (maxDim : Nat) (maxRingSize : Option Nat) (down : Bool)
    (h : Processable width w w' graphs maxDim maxRingSize) :
    ∃ comps st, List.Forall₂ (fun (G : GraphData F L) c => G.lifted g lib agg maxDim maxRingSize down = .ok c ∧
        c.y = G.y) graphs comps ∧
      Storable comps maxDim ∧ collate comps maxDim = .ok st ∧
      tuProcess g lib agg width graphs maxDim maxRingSize down = .ok st := by
  obtain ⟨comps, hc⟩ := forall₂_of_forall (h.lifts hg hlib agg down)
  have hstored : ∀ c ∈ comps, ∃ G ∈ graphs, StoredAs G maxDim c := by
    intro c hm
    obtain ⟨G, hG, h1⟩ := forall₂_mem hc.flip hm
    exact ⟨G, hG, h1.2⟩
  have hlab : ∀ c ∈ comps, ∃ l, c.y = some [l] := by
    intro c hm
    obtain ⟨G, hG, h1⟩ := hstored c hm
    rw [h1.label]
    exact h.label G hG
  have hne : comps ≠ [] := by
    rintro rfl
    exact h.nonempty (List.forall₂_nil_right_iff.mp hc)
  obtain ⟨st, hst⟩ := (C36_storing_succeeds comps maxDim).mpr ⟨hne, by
    intro c hm l hl
    obtain ⟨l', h1⟩ := hlab c hm
    rw [h1] at hl
    cases hl
    rfl, .inr fun c hm => by obtain ⟨l', h1⟩ := hlab c hm; rw [h1]; rfl⟩
  refine ⟨comps, st, hc.imp fun G c h1 => ⟨h1.1, h1.2.label⟩, ⟨?_, ?_, ?_, ?_⟩, hst, ?_⟩
  · intro c hm; obtain ⟨G, -, h1⟩ := hstored c hm; exact h1.ready
  · intro c hm; obtain ⟨G, -, h1⟩ := hstored c hm; exact h1.full
  · intro c hm; obtain ⟨G, -, h1⟩ := hstored c hm; exact h1.small
  · intro c hm c' hm'
    obtain ⟨l, h1⟩ := hlab c hm
    obtain ⟨l', h1'⟩ := hlab c' hm'
    rw [h1, h1']
    rfl
  · unfold tuProcess
    cases hr : maxRingSize with
    | none =>
      subst hr
      obtain ⟨r, h1, -, -⟩ := C35_clique_datasets_convert g hg agg width w hagg graphs maxDim h.dim down h.graph
      obtain ⟨h2, -, -⟩ := (C35_clique_conversion ..).mp h1
      have : r.complexes = comps := by
        have e1 := mapE_eq_ok_iff.mpr h2
        have e2 := mapE_eq_ok_iff.mpr (hc.imp fun G c h1 => (h1.1 : cliqueComplex g agg G.x G.edgeIndex G.numNodes
          maxDim G.y down = .ok c))
        rw [e1] at e2
        exact ok_inj.mp e2
      simp only [h1, ok_bind, this, hst]
    | some size =>
      subst hr
      obtain ⟨-, h0, hs, he⟩ := h.rings size rfl
      obtain ⟨r, h1, -, -⟩ := C35_ring_datasets_convert g hg lib hlib agg width w w' hagg size down true graphs (by
        intro G hG
        obtain ⟨x, hx, hw⟩ := h.graph G hG
        refine ⟨x, hx, hs G hG, hw, ?_⟩
        rcases he with ⟨e1, e2⟩ | e
        · exact .inl ⟨e2 G hG, e1⟩
        · exact .inr (e G hG))
      obtain ⟨h2, -, -, -⟩ := (C35_ring_conversion ..).mp h1
      have : r.complexes = comps := by
        have e1 := mapE_eq_ok_iff.mpr h2
        have e2 := mapE_eq_ok_iff.mpr (hc.imp fun G c h1 => (h1.1 : ringComplex g lib agg G.x G.edgeIndex G.edgeAttr
          G.numNodes G.y size down true true = .ok c))
        rw [e1] at e2
        exact ok_inj.mp e2
      simp only [h1, ok_bind, this, hst]

/-! ### Folds -/

omit [DecidableEq F] [DecidableEq L] in
theorem items_of_labelled {graphs : List (GraphData F L)} (h : ∀ G ∈ graphs, ∃ l, G.y = some [l]) :
    ∃ labels, mapE itemOf (graphs.map GraphData.y) = .ok labels ∧ graphs.map GraphData.y = labels.map fun l => some [l] := by
  induction graphs with
  | nil => exact ⟨[], rfl, rfl⟩
  | cons G graphs ih =>
    obtain ⟨labels, h1, h2⟩ := ih fun G' h' => h G' (by simp [h'])
    obtain ⟨l, hl⟩ := h G (by simp)
    refine ⟨l :: labels, ?_, by simp [hl, h2]⟩
    rw [List.map_cons, mapE_cons, hl, h1]
    rfl

omit [DecidableEq F] [DecidableEq L] in
/-- Reading all items of a stored dataset gives their labels. -/
theorem labels_read {order : List (List Nat) → List (List Nat)} (ho : ∀ l, (order l).Perm l)
    {cs : List (Complex F L)} {maxDim : Nat} (hs : Storable cs maxDim) (hne : cs ≠ []) {st : Storage F L}
    (hst : collate cs maxDim = .ok st) :
    ((Dataset.getMany order ⟨st, none⟩ (List.range (st.len order))).2.map fun ds => ds.map Complex.y) =
      .ok (cs.map Complex.y) := by
  have hl := (C37_length_is_the_number_of_complexes order ho cs maxDim st hst).1 (hs.hasAttribute hne)
  have hrr : ∀ i, cs.length ≤ i → st.read i = .error .index := fun i hi => read_range hst hi
  obtain ⟨h1, -, -⟩ := getMany_ok hl hrr (List.range (st.len order)) ⟨st, none⟩ rfl (by intro l hl; cases hl)
  rw [h1, hl]
  obtain ⟨ds, hds⟩ : ∃ ds, List.Forall₂ (fun (i : Nat) c' => st.read i = .ok c' ∧
      ∃ c, cs[i]? = some c ∧ c'.y = c.y) (List.range cs.length) ds := by
    refine forall₂_of_forall fun i hi => ?_
    have hi' := List.mem_range.mp hi
    obtain ⟨c', h1, -, -, -, h2⟩ := hs.reads hst (List.getElem?_eq_getElem hi')
    exact ⟨c', h1, _, List.getElem?_eq_getElem hi', h2⟩
  rw [mapE_eq_ok_iff.mpr (hds.imp fun _ _ h => h.1)]
  show Except.ok _ = _
  congr 1
  have hlen := hds.length_eq
  rw [List.length_range] at hlen
  refine List.ext_getElem (by simp [hlen]) fun i h2 h3 => ?_
  simp only [List.getElem_map]
  have h4 := (List.forall₂_iff_get.mp hds).2 i (by simpa using h3) (by simpa using h2)
  obtain ⟨-, c, h5, h6⟩ := h4
  simp only [List.get_eq_getElem, List.getElem_range] at h5 h6
  rw [h6]
  rw [List.getElem?_eq_getElem (by simpa using h3)] at h5
  rw [Option.some.inj h5]

omit [DecidableEq L] in
/-- Which folds there are. -/
theorem tuFold_iff {skf : Nat → List L → Py (List (List Nat × List Nat))} {files : Int → Option (List Nat × List Nat)}
    {ys : List (Option (List L))} {seed : Nat} {fold : Option Int} {s : Splits} :
    tuFold skf files (.ok ys) seed fold = .ok s ↔ s.test = none ∧ ∃ f, fold = some f ∧ ∃ train valid,
      s.train = some train ∧ s.valid = some valid ∧
      (files (f + 1) = some (train, valid) ∨ files (f + 1) = none ∧ 0 ≤ f ∧ f < 10 ∧ ∃ labels folds,
        mapE itemOf ys = .ok labels ∧ skf seed labels = .ok folds ∧ folds[f.toNat]? = some (train, valid)) := by
  obtain ⟨tr, va, te⟩ := s
  unfold tuFold
  cases fold with
  | none => simp
  | some f =>
    simp only
    cases hf : files (f + 1) with
    | some p =>
      obtain ⟨a, b⟩ := p
      simp only [ok_inj, Splits.mk.injEq, Option.some.injEq, reduceCtorEq, false_and, or_false, Prod.mk.injEq]
      constructor
      · rintro ⟨rfl, rfl, rfl⟩; exact ⟨rfl, f, rfl, a, b, rfl, rfl, .inl hf⟩
      · rintro ⟨rfl, f', rfl, a', b', rfl, rfl, h⟩
        rw [hf] at h
        rcases h with h | ⟨h, -⟩
        · cases h; exact ⟨rfl, rfl, rfl⟩
        · cases h
    | none =>
      simp only [ok_bind, getFoldIndices, reduceCtorEq, false_or, true_and, Option.some.injEq, exists_eq_left']
      rw [bind_eq_ok]
      constructor
      · rintro ⟨⟨a, b⟩, h1, h2⟩
        obtain ⟨u, h3, h4⟩ := bind_eq_ok.mp h1
        obtain ⟨labels, h5, h6⟩ := bind_eq_ok.mp h4
        obtain ⟨folds, h7, h8⟩ := bind_eq_ok.mp h6
        have h9 : 0 ≤ f ∧ f < 10 := by
          unfold pyAssert at h3
          split at h3
          · next hh => simpa using hh
          · cases h3
        cases h2
        exact ⟨rfl, a, b, rfl, rfl, .inr ⟨hf, h9.1, h9.2, labels, folds, h5, h7, getAt_eq_ok.mp h8⟩⟩
      · rintro ⟨rfl, a, b, rfl, rfl, h⟩
        rcases h with h | ⟨-, h1, h2, labels, folds, h3, h4, h5⟩
        · rw [hf] at h; cases h
        refine ⟨(a, b), ?_, rfl⟩
        have : pyAssert (decide (0 ≤ f) && decide (f < 10)) = .ok () := by simp [pyAssert, h1, h2]
        rw [this, ok_bind, h3, ok_bind, h4, ok_bind, getAt_eq_ok, h5]

/-- **C76** The dataset that `TUDataset` makes of labelled graphs: items as written by the processing (none of them
read yet if the fold is in files, all of them otherwise, to get the labels), and the same folds as `load_tu_graph_dataset` gives for the graphs, or the same exception. -/
theorem C76_dataset (g : Gudhi) (hg : g.Ok) (lib : RingLib) (hlib : lib.Ok) (agg : List F → F) (width : F → Nat)
    (w w' : Nat) (hagg : ∀ l : List F, l ≠ [] → (∀ r ∈ l, width r = w) → width (agg l) = w)
    (order : List (List Nat) → List (List Nat)) (ho : ∀ l, (order l).Perm l)
    (skf : Nat → List L → Py (List (List Nat × List Nat))) (files : Int → Option (List Nat × List Nat))
    (graphs : List (GraphData F L)) (maxDim : Nat) (maxRingSize : Option Nat) (down : Bool) (seed : Nat)
    (fold : Option Int) (h : Processable width w w' graphs maxDim maxRingSize) :
    ∃ comps st before, List.Forall₂ (fun (G : GraphData F L) c => G.lifted g lib agg maxDim maxRingSize down = .ok c ∧
        c.y = G.y) graphs comps ∧
      Storable comps maxDim ∧ collate comps maxDim = .ok st ∧
      before.Nodup ∧ (∀ i, i ∈ before ↔ i < graphs.length ∧ ∀ n, fold = some n → files (n + 1) = none) ∧
      tuDataset g lib agg width order skf files graphs maxDim maxRingSize down seed fold =
        (loadTUGraphs skf files graphs seed fold).map fun p =>
          ((Dataset.getMany order ⟨st, none⟩ before).1, p.2) := by
  obtain ⟨comps, st, h1, h2, h3, h4⟩ := C76_processing g hg lib hlib agg width w w' hagg graphs maxDim maxRingSize down h
  have hne : comps ≠ [] := by
    rintro rfl
    exact h.nonempty (List.forall₂_nil_right_iff.mp h1)
  have hl : st.len order = graphs.length := by
    rw [(C37_length_is_the_number_of_complexes order ho comps maxDim st h3).1 (h2.hasAttribute hne), h1.length_eq]
  refine ⟨comps, st, if readsFolds files fold then [] else List.range (st.len order), h1, h2, h3, ?_, ?_, ?_⟩
  · split
    · exact List.nodup_nil
    · exact List.nodup_range
  · intro i
    unfold readsFolds
    cases fold with
    | none => simp [hl]
    | some n =>
      cases hf : files (n + 1) <;> simp [hl, hf]
  have a1 : pyAssert (ringSizeOk maxRingSize) = .ok () := by
    cases hr : maxRingSize with
    | none => rfl
    | some size => simp [pyAssert, ringSizeOk, (h.rings size hr).1]
  have a2 : pyAssert (maxRingSize.isNone || maxDim == 2) = .ok () := by
    cases hr : maxRingSize with
    | none => rfl
    | some size => simp [pyAssert, (h.rings size hr).2.1]
  have hy : comps.map Complex.y = graphs.map GraphData.y := by
    clear h2 h3 h4 hne h hl
    induction h1 with
    | nil => rfl
    | cons hab _ ih => rw [List.map_cons, List.map_cons, hab.2, ih]
  unfold tuDataset loadTUGraphs
  rw [a1, ok_bind, a2, ok_bind, h4, ok_bind]
  simp only [labels_read ho h2 hne h3, hy]
  cases tuFold skf files (.ok (graphs.map GraphData.y)) seed fold with
  | error e => rfl
  | ok s =>
    simp only [ok_bind]
    show Except.ok _ = Except.ok _
    congr 2
    cases readsFolds files fold <;> rfl

/-- **C77** Ten folds. Whenever `StratifiedKFold` accepts the labels and no folds are in files: each of the folds 0 to 9
divides the graphs into a training and a validation part, there is no test part, and every graph is in the validation
part of exactly one fold. Any other number is rejected, and so is no number. -/
theorem C77_ten_folds (skf : Nat → List L → Py (List (List Nat × List Nat))) (hskf : TenFolds skf)
    (graphs : List (GraphData F L)) (hl : ∀ G ∈ graphs, ∃ l, G.y = some [l]) (seed : Nat)
    (hok : ∀ labels, graphs.map GraphData.y = labels.map (fun l => some [l]) → ∃ folds, skf seed labels = .ok folds) :
    (∃ train valid : Nat → List Nat,
      (∀ f : Nat, f < 10 → loadTUGraphs skf (fun _ => none) graphs seed (some (f : Int)) =
        .ok (graphs, ⟨some (train f), some (valid f), none⟩)) ∧
      (∀ f < 10, (train f ++ valid f).Perm (List.range graphs.length)) ∧
      ∀ i < graphs.length, ∃! f, f < 10 ∧ i ∈ valid f) ∧
    (∀ f : Int, f < 0 ∨ 10 ≤ f → loadTUGraphs skf (fun _ => none) graphs seed (some f) = .error .assertion) ∧
    loadTUGraphs skf (fun _ => none) graphs seed none = .error .type := by
  refine ⟨?_, ?_, rfl⟩
  · obtain ⟨labels, h1, h2⟩ := items_of_labelled hl
    obtain ⟨folds, h3⟩ := hok labels h2
    have hlen : graphs.length = labels.length := by
      have := congrArg List.length h2
      simpa using this
    have hc := hskf.count _ _ _ h3
    have hget : ∀ f < 10, ∃ p, folds[f]? = some p ∧ p ∈ folds := fun f hf =>
      ⟨_, List.getElem?_eq_getElem (by omega), List.getElem_mem _⟩
    refine ⟨fun f => (folds[f]?.getD ([], [])).1, fun f => (folds[f]?.getD ([], [])).2, ?_, ?_, ?_⟩
    · intro f hf
      obtain ⟨p, hp, -⟩ := hget f hf
      have : tuFold skf (fun _ => none) (.ok (graphs.map GraphData.y)) seed (some (f : Int)) =
          .ok ⟨some p.1, some p.2, none⟩ :=
        tuFold_iff.mpr ⟨rfl, f, rfl, p.1, p.2, rfl, rfl, .inr ⟨rfl, by omega, by omega, labels, folds, h1, h3, by
          simpa using hp⟩⟩
      unfold loadTUGraphs
      simp only [this, hp]
      rfl
    · intro f hf
      obtain ⟨p, hp, hm⟩ := hget f hf
      simp only [hlen, hp]
      exact hskf.divides _ _ _ h3 p hm
    · intro i hi
      have hperm := hskf.once _ _ _ h3
      have hmem : i ∈ folds.flatMap Prod.snd := hperm.mem_iff.mpr (List.mem_range.mpr (hlen ▸ hi))
      obtain ⟨p, hp, hip⟩ := List.mem_flatMap.mp hmem
      obtain ⟨f, hf⟩ := List.mem_iff_getElem?.mp hp
      refine ⟨f, ⟨by have := lt_of_get hf; omega, by simp only [hf]; exact hip⟩, ?_⟩
      rintro f' ⟨hf', hi'⟩
      obtain ⟨p', hp', -⟩ := hget f' hf'
      simp only [hp'] at hi'
      by_contra hne
      have hnd : (folds.flatMap Prod.snd).Nodup := hperm.nodup_iff.mpr List.nodup_range
      rw [List.nodup_flatMap] at hnd
      have hpw := List.pairwise_iff_getElem.mp hnd.2
      have e1 := List.getElem?_eq_some_iff.mp hf
      have e2 := List.getElem?_eq_some_iff.mp hp'
      rcases Nat.lt_or_gt_of_ne hne with hlt | hlt
      · have := hpw f' f e2.1 e1.1 hlt
        rw [e1.2, e2.2] at this
        exact this hi' hip
      · have := hpw f f' e1.1 e2.1 hlt
        rw [e1.2, e2.2] at this
        exact this hip hi'
  · intro f hf
    have : (decide (0 ≤ f) && decide (f < 10)) = false := by
      rcases hf with hf | hf <;> simp <;> omega
    unfold loadTUGraphs tuFold
    simp only [getFoldIndices, this, ok_bind, pyAssert]
    rfl

/-- **C77** Folds need one label per graph: the first graph without exactly one label decides the exception. -/
theorem C77_labels_needed (skf : Nat → List L → Py (List (List Nat × List Nat))) (pre post : List (GraphData F L))
    (G : GraphData F L) (hpre : ∀ G ∈ pre, ∃ l, G.y = some [l]) (seed f : Nat) (hf : f < 10) :
    (G.y = none → loadTUGraphs skf (fun _ => none) (pre ++ G :: post) seed (some (f : Int)) = .error .attribute) ∧
    ∀ ls, G.y = some ls → ls.length ≠ 1 →
      loadTUGraphs skf (fun _ => none) (pre ++ G :: post) seed (some (f : Int)) = .error .value := by
  have key : ∀ e, itemOf G.y = .error e → mapE itemOf ((pre ++ G :: post).map GraphData.y) = .error e := by
    intro e he
    induction pre with
    | nil => rw [List.nil_append, List.map_cons, mapE_cons, he]; rfl
    | cons P pre ih =>
      obtain ⟨l, hl⟩ := hpre P (by simp)
      rw [List.cons_append, List.map_cons, mapE_cons, hl, ih fun G' h' => hpre G' (by simp [h'])]
      rfl
  have step : ∀ e, itemOf G.y = .error e →
      loadTUGraphs skf (fun _ => none) (pre ++ G :: post) seed (some (f : Int)) = .error e := by
    intro e he
    have ha : pyAssert (decide (0 ≤ (f : Int)) && decide ((f : Int) < 10)) = .ok () := by
      have : (f : Int) < 10 := by omega
      simp [pyAssert, this]
    unfold loadTUGraphs tuFold
    simp only [getFoldIndices, ok_bind, ha, key e he]
    rfl
  refine ⟨fun h => step _ (by rw [h]; rfl), fun ls h hl => step _ ?_⟩
  rw [h]
  rcases ls with _ | ⟨a, _ | ⟨b, ls⟩⟩
  · rfl
  · simp at hl
  · rfl

end

/-! ### Predictions -/

section
variable {𝕜 R L : Type} [Field 𝕜] [AddCommGroup R] [Module 𝕜 R]

/-- What a network predicts for a complex alone is determined by the complex up to renumbering. -/
theorem Network.invariant {forward : Complex R L → Py (List R)} (hnet : Network 𝕜 R L forward) (mB : Nat)
    {c c' : Complex R L} {φ : Nat → Nat → Nat} (h : Relabels c.view c'.view φ) (hr : c.Ready) (hr' : c'.Ready)
    (h0 : 0 < c.cellsIn 0) :
    ∃ p, (fromComplexList [c] mB >>= forward) = .ok [p] ∧ (fromComplexList [c'] mB >>= forward) = .ok [p] := by
  have hb : RenumberedBatch [c] [c'] := .cons ⟨φ, h⟩ .nil
  have r1 : ∀ d ∈ [c], d.Ready := by simpa using hr
  have r2 : ∀ d ∈ [c'], d.Ready := by simpa using hr'
  have z1 : ∀ d ∈ [c], 0 < d.cellsIn 0 := by simpa using h0
  have z2 := cells_of_renumbered hb r1 r2 z1
  cases hnet with
  | sparse net hf =>
    refine ⟨_, SparseNet.forward_all (realises_sparse false) hf (by simp) r1 z1 mB, ?_⟩
    rw [SparseNet.forward_all (realises_sparse false) hf (by simp) r2 z2 mB, map_eq_of_renumbered hb r1
      (fun v w φ hφ hv => net.predict_relabel hφ hv)]
    rfl
  | pp net hf =>
    refine ⟨_, SparseNet.forward_all (realises_pp false) hf (by simp) r1 z1 mB, ?_⟩
    rw [SparseNet.forward_all (realises_pp false) hf (by simp) r2 z2 mB, map_eq_of_renumbered hb r1
      (fun v w φ hφ hv => net.predict_relabel hφ hv)]
    rfl
  | cin net hf =>
    refine ⟨_, CINNet.forward_all realises_cin hf (by simp) r1 z1 mB, ?_⟩
    rw [CINNet.forward_all realises_cin hf (by simp) r2 z2 mB, map_eq_of_renumbered hb r1
      (fun v w φ hφ hv => net.predict_relabel hφ hv)]
    rfl

variable [DecidableEq R] [DecidableEq L]

/-- **C76** From graphs to predictions. For every split of the dataset with ids in range, whatever the batch size: the
predictions over the loader are, in the order of the ids, those for the complex lifted from each graph alone. -/
theorem C76_predictions (forward : Complex R L → Py (List R)) (hnet : Network 𝕜 R L forward)
    (g : Gudhi) (hg : g.Ok) (lib : RingLib) (hlib : lib.Ok) (agg : List R → R) (width : R → Nat)
    (w w' : Nat) (hagg : ∀ l : List R, l ≠ [] → (∀ r ∈ l, width r = w) → width (agg l) = w)
    (order : List (List Nat) → List (List Nat)) (ho : ∀ l, (order l).Perm l)
    (skf : Nat → List L → Py (List (List Nat × List Nat))) (files : Int → Option (List Nat × List Nat))
    (graphs : List (GraphData R L)) (maxDim : Nat) (maxRingSize : Option Nat) (down : Bool) (seed : Nat)
    (fold : Option Int) (h : Processable width w w' graphs maxDim maxRingSize) (splits : Splits)
    (hsp : loadTUGraphs skf files graphs seed fold = .ok (graphs, splits)) (split : String) (ids : List Nat)
    (hids : splits.Has split ids) (hne : ids ≠ []) (hlt : ∀ i ∈ ids, i < graphs.length) (b : Nat) (hb : 0 < b)
    (mB : Nat) :
    ∃ ds batches preds,
      tuDataset g lib agg width order skf files graphs maxDim maxRingSize down seed fold = .ok (ds, splits) ∧
      splitLoader order ds splits split none b mB = .ok batches ∧ infer forward batches = .ok preds ∧
      List.Forall₂ (fun i p => ∃ G c, graphs[i]? = some G ∧ G.lifted g lib agg maxDim maxRingSize down = .ok c ∧
        (fromComplexList [c] mB >>= forward) = .ok [p]) ids preds := by
  obtain ⟨comps, st, before, h1, h2, h3, -, -, h4⟩ := C76_dataset g hg lib hlib agg width w w' hagg order ho skf files graphs
    maxDim maxRingSize down seed fold h
  obtain ⟨preds, e1, ⟨batches, e2, -, e3⟩, -⟩ := C75_split_predictions forward hnet order ho comps maxDim h2 st h3 before
    splits split ids hids hne (fun i hi => h1.length_eq ▸ hlt i hi) b hb mB
  refine ⟨_, batches, preds, by rw [h4, hsp]; rfl, e2, e3, e1.imp ?_⟩
  rintro i p ⟨c, h5, h6⟩
  have hi := lt_of_get h5
  have h7 := List.forall₂_iff_get.mp h1
  have h8 := h7.2 i (h7.1 ▸ hi) hi
  simp only [List.get_eq_getElem] at h8
  rw [(List.getElem?_eq_some_iff.mp h5).2] at h8
  exact ⟨_, c, List.getElem?_eq_getElem _, h8.1, h6⟩

theorem Processable.lifts_iso {width : R → Nat} {w w' : Nat} {graphs graphs' : List (GraphData R L)} {maxDim : Nat}
    {maxRingSize : Option Nat} (h : Processable width w w' graphs maxDim maxRingSize)
    (h' : Processable width w w' graphs' maxDim maxRingSize) {g g' : Gudhi} (hg : g.Ok) (hg' : g'.Ok)
    {lib lib' : RingLib} (hlib : lib.Ok) (hlib' : lib'.Ok) {agg : List R → R}
    (hperm : ∀ l l' : List R, l.Perm l' → agg l = agg l') (down : Bool) {G H : GraphData R L} (hG : G ∈ graphs)
    (hH : H ∈ graphs') (hiso : G.Iso H) :
    ∃ c c' φ, G.lifted g lib agg maxDim maxRingSize down = .ok c ∧ H.lifted g' lib' agg maxDim maxRingSize down = .ok c' ∧
      Relabels c.view c'.view φ ∧ c.Ready ∧ c'.Ready ∧ 0 < c.cellsIn 0 := by
  obtain ⟨-, x, x', ex, ex', hi⟩ := hiso
  obtain ⟨y, hx, -⟩ := h.graph G hG
  obtain ⟨y', hx', -⟩ := h'.graph H hH
  have e1 := hx.features
  rw [ex] at e1
  cases e1
  have e1' := hx'.features
  rw [ex'] at e1'
  cases e1'
  cases hr : maxRingSize with
  | none =>
    obtain ⟨hsz, -, π, hπ, -⟩ := hi
    simp only at hsz hπ
    obtain ⟨c, c', h1, h2, r1, r2, h0, φ, hφ⟩ := clique_relabels (L := L) hg hg' hperm hπ hx.edges
      (hsz ▸ hx'.edges) hx.pos hx.rows (hx'.rows.trans hsz) maxDim hx.labels (hsz ▸ hx'.labels) down
    refine ⟨c, c', φ, ?_, ?_, hφ, r1, r2, h0⟩
    · unfold GraphData.lifted
      simp only [ex, h1]
    · unfold GraphData.lifted
      simp only [ex', hsz, h2]
  | some size =>
    obtain ⟨-, -, s1, -⟩ := h.rings size hr
    obtain ⟨-, -, s2, -⟩ := h'.rings size hr
    have hS := s1 G hG
    have hS' := s2 H hH
    have o1 : (⟨G.numNodes, x, G.edgeIndex, G.edgeAttr, G.y⟩ : RGraph R L).Ok :=
      ⟨hx.pos, hx.rows, hx.edges, hS.noLoops, hS.attr, hx.labels⟩
    have o2 : (⟨H.numNodes, x', H.edgeIndex, H.edgeAttr, H.y⟩ : RGraph R L).Ok :=
      ⟨hx'.pos, hx'.rows, hx'.edges, hS'.noLoops, hS'.attr, hx'.labels⟩
    obtain ⟨c, c', h1, h2, f1, f2, φ, hφ⟩ := ring_relabels (maxK := size) (down := down) (initEdges := true)
      (initRings := true) hg hg' hlib hlib' hperm o1 o2 hi
    refine ⟨c, c', φ, ?_, ?_, relabels_of_cells f1.ready f2.ready hφ, f1.ready, f2.ready, f1.cells 0 (Nat.zero_le _)⟩
    · unfold GraphData.lifted
      simp only [ex]
      exact h1
    · unfold GraphData.lifted
      simp only [ex']
      exact h2

/-- **C76** Two datasets of pairwise isomorphic graphs, however their nodes are numbered, their edges are listed, and
whatever order the libraries list simplices and rings in: the same folds, and the same predictions on every split. -/
theorem C76_isomorphic_datasets (forward : Complex R L → Py (List R)) (hnet : Network 𝕜 R L forward)
    (g g' : Gudhi) (hg : g.Ok) (hg' : g'.Ok) (lib lib' : RingLib) (hlib : lib.Ok) (hlib' : lib'.Ok) (agg : List R → R)
    (hperm : ∀ l l' : List R, l.Perm l' → agg l = agg l') (width : R → Nat)
    (w w' : Nat) (hagg : ∀ l : List R, l ≠ [] → (∀ r ∈ l, width r = w) → width (agg l) = w)
    (order order' : List (List Nat) → List (List Nat)) (ho : ∀ l, (order l).Perm l) (ho' : ∀ l, (order' l).Perm l)
    (skf : Nat → List L → Py (List (List Nat × List Nat))) (files : Int → Option (List Nat × List Nat))
    (graphs graphs' : List (GraphData R L)) (maxDim : Nat) (maxRingSize : Option Nat) (down : Bool) (seed : Nat)
    (fold : Option Int) (h : Processable width w w' graphs maxDim maxRingSize)
    (h' : Processable width w w' graphs' maxDim maxRingSize) (hiso : List.Forall₂ GraphData.Iso graphs graphs')
    (splits : Splits) (hsp : loadTUGraphs skf files graphs seed fold = .ok (graphs, splits)) (split : String)
    (ids : List Nat) (hids : splits.Has split ids) (hne : ids ≠ []) (hlt : ∀ i ∈ ids, i < graphs.length) (b b' : Nat)
    (hb : 0 < b) (hb' : 0 < b') (mB : Nat) :
    ∃ ds ds' batches batches' preds,
      tuDataset g lib agg width order skf files graphs maxDim maxRingSize down seed fold = .ok (ds, splits) ∧
      tuDataset g' lib' agg width order' skf files graphs' maxDim maxRingSize down seed fold = .ok (ds', splits) ∧
      splitLoader order ds splits split none b mB = .ok batches ∧
      splitLoader order' ds' splits split none b' mB = .ok batches' ∧
      infer forward batches = .ok preds ∧ infer forward batches' = .ok preds ∧ preds.length = ids.length := by
  have hsp' : loadTUGraphs skf files graphs' seed fold = .ok (graphs', splits) := by
    have hy : graphs'.map GraphData.y = graphs.map GraphData.y := by
      clear h h' hsp hlt
      induction hiso with
      | nil => rfl
      | cons hab _ ih => rw [List.map_cons, List.map_cons, hab.1, ih]
    unfold loadTUGraphs at hsp ⊢
    rw [hy]
    obtain ⟨s, h1, h2⟩ := bind_eq_ok.mp hsp
    cases h2
    rw [h1]
    rfl
  obtain ⟨ds, batches, preds, a1, a2, a3, a4⟩ := C76_predictions forward hnet g hg lib hlib agg width w w' hagg order ho
    skf files graphs maxDim maxRingSize down seed fold h splits hsp split ids hids hne hlt b hb mB
  obtain ⟨ds', batches', preds', b1, b2, b3, b4⟩ := C76_predictions forward hnet g' hg' lib' hlib' agg width w w' hagg
    order' ho' skf files graphs' maxDim maxRingSize down seed fold h' splits hsp' split ids hids hne
    (fun i hi => hiso.length_eq ▸ hlt i hi) b' hb' mB
  have hp : preds' = preds := by
    clear a1 a2 a3 b1 b2 b3 hids hne
    induction a4 generalizing preds' with
    | nil => exact List.forall₂_nil_left_iff.mp b4
    | @cons i p ids preds hip _ ih =>
      cases b4 with
      | @cons _ p' _ preds' hip' b4 =>
        rw [ih (fun i hi => hlt i (by simp [hi])) preds' b4]
        obtain ⟨G, c, q1, q2, q3⟩ := hip
        obtain ⟨H, c', r1, r2, r3⟩ := hip'
        have hGH : G.Iso H := by
          have h7 := List.forall₂_iff_get.mp hiso
          have h8 := h7.2 i (lt_of_get q1) (lt_of_get r1)
          simp only [List.get_eq_getElem] at h8
          rw [(List.getElem?_eq_some_iff.mp q1).2, (List.getElem?_eq_some_iff.mp r1).2] at h8
          exact h8
        obtain ⟨c1, c1', φ, s1, s2, s3, s4, s5, s6⟩ := h.lifts_iso h' hg hg' hlib hlib' hperm down
          (List.mem_of_getElem? q1) (List.mem_of_getElem? r1) hGH
        rw [q2] at s1
        cases s1
        rw [r2] at s2
        cases s2
        obtain ⟨q, t1, t2⟩ := hnet.invariant mB s3 s4 s5 s6
        rw [q3] at t1
        rw [r3] at t2
        cases t1
        cases t2
        rfl
  subst hp
  exact ⟨ds, ds', batches, batches', _, a1, b1, a2, b2, a3, b3, a4.length_eq.symm⟩

end

/-! ### Concrete cases -/

namespace Fixtures

/-- Item `i` is validated in fold `i % 10`. -/
def tenParts (_ : Nat) (labels : List Nat) : Py (List (List Nat × List Nat)) :=
  .ok ((List.range 10).map fun f => ((List.range labels.length).filter fun i => !(i % 10 == f),
    (List.range labels.length).filter fun i => i % 10 == f))

theorem tenParts_ok : TenFolds tenParts where
  count := by intro _ _ _ h; cases h; simp
  divides := by
    intro _ _ _ h p hp
    cases h
    obtain ⟨f, -, rfl⟩ := List.mem_map.mp hp
    exact List.perm_append_comm.trans (List.filter_append_perm _ _)
  once := by
    intro _ labels _ h
    cases h
    refine (List.perm_ext_iff_of_nodup ?_ List.nodup_range).mpr fun i => ?_
    · rw [List.nodup_flatMap]
      refine ⟨?_, ?_⟩
      · intro p hp
        obtain ⟨f, -, rfl⟩ := List.mem_map.mp hp
        exact List.nodup_range.filter _
      · rw [List.pairwise_map]
        refine List.nodup_range.imp fun {a b} hab => ?_
        intro i h1 h2
        simp only [List.mem_filter, beq_iff_eq] at h1 h2
        exact hab (h1.2.symm.trans h2.2)
    · simp only [List.mem_flatMap, List.mem_map, List.mem_range]
      constructor
      · rintro ⟨p, ⟨f, -, rfl⟩, h⟩
        exact List.mem_range.mp (List.mem_filter.mp h).1
      · intro hi
        exact ⟨_, ⟨i % 10, Nat.mod_lt _ (by omega), rfl⟩, List.mem_filter.mpr ⟨List.mem_range.mpr hi, by simp⟩⟩

/-- A triangle and a path. -/
def toyGraphs : List (GraphData ℚ Nat) :=
  [{ x := some [1, 2, 3], edgeIndex := [(0, 1), (1, 0), (1, 2), (2, 1), (2, 0), (0, 2)], edgeAttr := none,
     numNodes := 3, y := some [0] },
   { x := some [1, 2, 3], edgeIndex := [(0, 1), (1, 0), (1, 2), (2, 1)], edgeAttr := none,
     numNodes := 3, y := some [1] }]

/-- The same graphs, with nodes 0 and 2 exchanged and the edges in another order. -/
def toyGraphs' : List (GraphData ℚ Nat) :=
  [{ x := some [3, 2, 1], edgeIndex := [(2, 0), (0, 2), (2, 1), (1, 2), (1, 0), (0, 1)], edgeAttr := none,
     numNodes := 3, y := some [0] },
   { x := some [3, 2, 1], edgeIndex := [(2, 1), (1, 2), (0, 1), (1, 0)], edgeAttr := none,
     numNodes := 3, y := some [1] }]

theorem toy_processable (Gs : List (GraphData ℚ Nat)) (hGs : Gs = toyGraphs ∨ Gs = toyGraphs') (rings : Option Nat)
    (hr : rings = none ∨ rings = some 4) : Processable (fun _ => 1) 1 1 Gs 2 rings := by
  have hok : ∀ G ∈ Gs, ∃ x, G.Ok x := by
    intro G hG
    rcases hGs with rfl | rfl <;> simp only [toyGraphs, toyGraphs', List.mem_cons, List.not_mem_nil, or_false] at hG <;>
      rcases hG with rfl | rfl <;>
      exact ⟨_, rfl, by decide, rfl, by unfold EdgesIn; decide, by intro l h; cases h; exact .inl rfl⟩
  refine ⟨⟨?_, fun G hG => ?_, ?_⟩, by omega, ?_⟩
  · rcases hGs with rfl | rfl <;> simp [toyGraphs, toyGraphs']
  · obtain ⟨x, hx⟩ := hok G hG
    exact ⟨x, hx, fun _ _ => rfl⟩
  · rcases hGs with rfl | rfl <;> simp [toyGraphs, toyGraphs']
  · intro size hs
    have : size = 4 := by rcases hr with rfl | rfl <;> simp_all
    subst this
    refine ⟨by omega, rfl, ?_, .inl ⟨rfl, ?_⟩⟩
    · intro G hG
      rcases hGs with rfl | rfl <;> simp only [toyGraphs, toyGraphs', List.mem_cons, List.not_mem_nil, or_false] at hG <;>
        rcases hG with rfl | rfl <;>
        exact ⟨by decide, by decide, by unfold NoLoops; decide, by intro l h; cases h; rfl, by intro a h; cases h⟩
    · rcases hGs with rfl | rfl <;> simp [toyGraphs, toyGraphs']

theorem toy_iso : List.Forall₂ GraphData.Iso toyGraphs toyGraphs' := by
  refine .cons ⟨rfl, _, _, rfl, rfl, rfl, rfl, fun v => 2 - v, ⟨?_, ?_, ?_, ?_⟩, ?_⟩
    (.cons ⟨rfl, _, _, rfl, rfl, rfl, rfl, fun v => 2 - v, ⟨?_, ?_, ?_, ?_⟩, ?_⟩ .nil)
  · intro v hv; show 2 - v < 3; omega
  · intro u v hu hv h
    have hu : u < 3 := hu
    have hv : v < 3 := hv
    omega
  · have h : ∀ u < 3, ∀ v < 3, (Joined [(2, 0), (0, 2), (2, 1), (1, 2), (1, 0), (0, 1)] (2 - u) (2 - v) ↔
      Joined [(0, 1), (1, 0), (1, 2), (2, 1), (2, 0), (0, 2)] u v) := by decide +kernel
    exact fun u v hu hv => h u hu v hv
  · have h : ∀ v < 3, [(3 : ℚ), 2, 1][2 - v]? = [(1 : ℚ), 2, 3][v]? := by decide +kernel
    exact h
  · intro a a' h; cases h
  · intro v hv; show 2 - v < 3; omega
  · intro u v hu hv h
    have hu : u < 3 := hu
    have hv : v < 3 := hv
    omega
  · have h : ∀ u < 3, ∀ v < 3, (Joined [(2, 1), (1, 2), (0, 1), (1, 0)] (2 - u) (2 - v) ↔
      Joined [(0, 1), (1, 0), (1, 2), (2, 1)] u v) := by decide +kernel
    exact fun u v hu hv => h u hu v hv
  · have h : ∀ v < 3, [(3 : ℚ), 2, 1][2 - v]? = [(1 : ℚ), 2, 3][v]? := by decide +kernel
    exact h
  · intro a a' h; cases h

end Fixtures

open Fixtures

/-- The hypotheses of `C77_ten_folds` are met; the second graph is validated in fold 1. -/
example : TenFolds tenParts ∧ (∀ G ∈ toyGraphs, ∃ l, G.y = some [l]) ∧
    (∀ seed labels, ∃ folds, tenParts seed labels = .ok folds) ∧
    ((loadTUGraphs tenParts (fun _ => none) toyGraphs 0 (some 1)).map fun p => (p.2.train, p.2.valid, p.2.test)) =
      .ok (some [0], some [1], none) :=
  ⟨tenParts_ok, by simp [toyGraphs], fun _ _ => ⟨_, rfl⟩, by decide +kernel⟩

/-- The datasets of both, made with rings, and the predictions on the training part of fold 5. -/
example : Processable (fun _ => 1) 1 1 toyGraphs 2 (some 4) ∧ Processable (fun _ => 1) 1 1 toyGraphs' 2 (some 4) ∧
    List.Forall₂ GraphData.Iso toyGraphs toyGraphs' ∧
    (do
      let (ds, splits) ← tuDataset plainGudhi plainRings List.sum (fun _ => 1) asGiven tenParts (fun _ => none) toyGraphs
        2 (some 4) false 0 (some 5)
      let batches ← splitLoader asGiven ds splits "train" none 1 2
      let preds ← infer (sparseNetQ.forward ℚ SparseLevel.forward) batches
      let (ds', splits') ← tuDataset plainGudhi backRings List.sum (fun _ => 1) List.reverse tenParts (fun _ => none)
        toyGraphs' 2 (some 4) false 0 (some 5)
      let batches' ← splitLoader List.reverse ds' splits' "train" none 2 2
      let preds' ← infer (sparseNetQ.forward ℚ SparseLevel.forward) batches'
      return (batches.length == 2 && batches'.length == 1 && preds == preds' && preds[0]? != preds[1]?)) = .ok true :=
  ⟨toy_processable _ (.inl rfl) _ (.inr rfl), toy_processable _ (.inr rfl) _ (.inr rfl), toy_iso, by decide +kernel⟩

/-- Settings that the constructor refuses: rings of at most 3 nodes, and rings with another dimension. -/
example : ((tuDataset plainGudhi plainRings List.sum (fun _ => 1) asGiven tenParts (fun _ => none) toyGraphs
      2 (some 3) false 0 (some 5)).map fun _ => ()) = .error .assertion ∧
    ((tuDataset plainGudhi plainRings List.sum (fun _ => 1) asGiven tenParts (fun _ => none) toyGraphs
      1 (some 4) false 0 (some 5)).map fun _ => ()) = .error .assertion := by
  refine ⟨?_, ?_⟩ <;> decide +kernel

end Verif
