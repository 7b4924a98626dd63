import Verif.Spec.Convert
import Verif.Lemmas.Convert
import Verif.Props.Rings
import Verif.FixturesRing

/-! # Converting datasets of graphs (C35) -/

namespace Verif

variable {F L : Type}

theorem hasWidth_iff {width : F → Nat} {c : Cochain F L} {w : Nat} :
    HasWidth width c.x w ↔ c.numFeatures width = w := by
  unfold HasWidth Cochain.numFeatures
  rcases c.x with _ | _ | ⟨r, rows⟩
  · simp [eq_comm]
  · simp [eq_comm]
  · simp [eq_comm]

theorem largest_iff {comps : List (Complex F L)} {m : Option Nat} :
    m = comps.foldl (fun m c => largerDim m c.dimension) none ↔ IsLargest (comps.map Complex.dimension) m := by
  have h := largest_eq (comps := comps) (m := none)
  revert h
  cases comps.foldl (fun m c => largerDim m c.dimension) none with
  | none =>
    rintro ⟨-, rfl⟩
    cases m <;> simp [IsLargest]
  | some k =>
    rintro ⟨h1, -, h3⟩
    obtain ⟨c, hc, rfl⟩ := h1.resolve_left (by simp)
    cases m with
    | none =>
      simp only [IsLargest, List.map_eq_nil_iff, reduceCtorEq, false_iff]
      rintro rfl; cases hc
    | some m =>
      simp only [IsLargest, Option.some.injEq, List.mem_map, forall_exists_index, and_imp,
        forall_apply_eq_imp_iff₂]
      constructor
      · rintro rfl; exact ⟨⟨c, hc, rfl⟩, h3⟩
      · rintro ⟨⟨c', hc', rfl⟩, h4⟩
        have := h3 _ hc'
        have := h4 _ hc
        omega

/-- The numbers of features that are recorded. -/
theorem entries_iff {width : F → Nat} {comps : List (Complex F L)} {ess : List (List (Nat × Nat))}
    (h : List.Forall₂ (fun (comp : Complex F L) es =>
      mapE (widthEntry width comp) (List.range (comp.dimension + 1)) = .ok es) comps ess)
    (d w : Nat) : (d, w) ∈ ess.flatten ↔ ∃ comp ∈ comps, d ≤ comp.dimension ∧ ∃ c, comp.cochains[d]? = some c ∧
      c.numFeatures width = w := by
  induction h with
  | nil => simp
  | @cons comp es comps ess h1 h2 ih =>
    rw [List.flatten_cons, List.mem_append, ih]
    have : (d, w) ∈ es ↔ d ≤ comp.dimension ∧ ∃ c, comp.cochains[d]? = some c ∧
        c.numFeatures width = w := by
      have h3 := mapE_eq_ok_iff.mp h1
      constructor
      · intro hm
        obtain ⟨i, hi⟩ := List.mem_iff_getElem?.mp hm
        have hlt := lt_of_get hi
        rw [← h3.length_eq] at hlt
        have h4 := List.forall₂_iff_get.mp h3
        have h5 := h4.2 i hlt (lt_of_get hi)
        simp only [List.get_eq_getElem, List.getElem_range] at h5
        rw [(List.getElem?_eq_some_iff.mp hi).2] at h5
        unfold widthEntry at h5
        simp only [List.length_range] at hlt
        split at h5
        · cases h5
        · rename_i c hc
          cases h5
          exact ⟨by omega, c, hc, rfl⟩
      · rintro ⟨hd, c, hc, rfl⟩
        have h4 := List.forall₂_iff_get.mp h3
        have hl : d < (List.range (comp.dimension + 1)).length := by simp; omega
        have h5 := h4.2 d hl (h4.1 ▸ hl)
        simp only [List.get_eq_getElem, List.getElem_range, widthEntry, hc] at h5
        rw [ok_inj.mp h5]
        exact List.getElem_mem _
    rw [this]
    simp

/-- The cochains up to the dimension must be there. -/
theorem entries_exist {width : F → Nat} {comps : List (Complex F L)} : (∃ ess, List.Forall₂ (fun (comp : Complex F L) es =>
      mapE (widthEntry width comp) (List.range (comp.dimension + 1)) = .ok es) comps ess) ↔
    ∀ comp ∈ comps, ∀ d, d ≤ comp.dimension → ∃ c, comp.cochains[d]? = some c := by
  induction comps with
  | nil => simp
  | cons comp comps ih =>
    have : (∃ es, mapE (widthEntry width comp) (List.range (comp.dimension + 1)) = .ok es) ↔
        ∀ d, d ≤ comp.dimension → ∃ c, comp.cochains[d]? = some c := by
      constructor
      · rintro ⟨es, h⟩ d hd
        have h4 := List.forall₂_iff_get.mp (mapE_eq_ok_iff.mp h)
        have hl : d < (List.range (comp.dimension + 1)).length := by simp; omega
        have h5 := h4.2 d hl (h4.1 ▸ hl)
        simp only [List.get_eq_getElem, List.getElem_range, widthEntry] at h5
        split at h5
        · cases h5
        · exact ⟨_, by assumption⟩
      · intro h
        refine ⟨_, mapE_ok (g := fun d => (d, ((comp.cochains[d]?).map (·.numFeatures width)).getD 0)) ?_⟩
        intro d hd
        obtain ⟨c, hc⟩ := h d (by simpa [Nat.lt_succ_iff] using hd)
        simp [widthEntry, hc]
    simp only [List.forall₂_cons_left_iff, List.mem_cons, forall_eq_or_imp]
    rw [← ih, ← this]
    constructor
    · rintro ⟨_, es, ess, h1, h2, rfl⟩; exact ⟨⟨es, h1⟩, ess, h2⟩
    · rintro ⟨⟨es, h1⟩, ess, h2⟩; exact ⟨_, es, ess, h1, h2, rfl⟩

/-- What the recording loop computes. -/
theorem reports_iff {width : F → Nat} {comps : List (Complex F L)} {n : Nat} {m : Option Nat}
    {nf : List (Option Nat)} :
    (∃ nf', foldE (recordComplex width) (none, List.replicate n none) comps = .ok (m, nf') ∧
      nf = upToDim m nf') ↔
    Reports width comps m nf ∧ ∀ comp ∈ comps, comp.dimension < n := by
  simp only [recordComplexes_eq_ok, largest_iff]
  have hentry := @entries_iff F L width comps
  have hex := @entries_exist F L width comps
  constructor
  · rintro ⟨nf', ⟨h1, ess, h2, h3⟩, rfl⟩
    have hlt : ∀ comp ∈ comps, comp.dimension < n := by
      intro comp hc
      obtain ⟨c, hcc⟩ := hex.mp ⟨ess, h2⟩ comp hc _ le_rfl
      have := h3.has _ _ ((hentry h2 _ _).mpr ⟨comp, hc, le_rfl, c, hcc, rfl⟩)
      have := lt_of_get this
      rw [h3.len] at this
      simpa using this
    refine ⟨⟨h1, ?_, ?_⟩, hlt⟩
    · cases m with
      | none => rfl
      | some m =>
        obtain ⟨c, hc, rfl⟩ := List.mem_map.mp h1.1
        have := hlt c hc
        simp only [upToDim, List.length_take, h3.len, List.length_replicate, Option.map_some, Option.getD_some]
        omega
    · intro comp hc d hd
      obtain ⟨c, hcc⟩ := hex.mp ⟨ess, h2⟩ comp hc d hd
      refine ⟨c, _, hcc, ?_, hasWidth_iff.mpr rfl⟩
      cases m with
      | none => rw [show comps = [] by simpa [IsLargest] using h1] at hc; cases hc
      | some m =>
        have := h1.2 _ (List.mem_map_of_mem hc)
        simp only [upToDim]
        rw [List.getElem?_take, if_pos (by omega)]
        exact h3.has _ _ ((hentry h2 _ _).mpr ⟨comp, hc, hd, c, hcc, rfl⟩)
  · rintro ⟨h, hlt⟩
    obtain ⟨ess, h2⟩ := hex.mpr fun comp hc d hd => by
      obtain ⟨c, w, h1, -⟩ := h.widths comp hc d hd
      exact ⟨c, h1⟩
    have hle : nf.length ≤ n := by
      rw [h.len]
      have hL := h.largest
      cases m with
      | none => simp
      | some m =>
        obtain ⟨c, hc, rfl⟩ := List.mem_map.mp hL.1
        exact hlt c hc
    refine ⟨nf ++ List.replicate (n - nf.length) none, ⟨h.largest, ess, h2, ?_⟩, ?_⟩
    · refine ⟨by simp; omega, ?_, ?_, ?_⟩
      · intro d w hm
        obtain ⟨comp, hc, hd, c, hcc, rfl⟩ := (hentry h2 d w).mp hm
        obtain ⟨c', w', h3, h4, h5⟩ := h.widths comp hc d hd
        rw [hcc] at h3; cases h3
        rw [hasWidth_iff] at h5
        subst h5
        rw [List.getElem?_append_left (lt_of_get h4), h4]
      · intro d w hk
        rw [List.getElem?_replicate] at hk
        split at hk <;> cases hk
      · intro d w hk
        right
        have hd : d < nf.length := by
          by_contra hc
          rw [List.getElem?_append_right (by omega), List.getElem?_replicate] at hk
          split at hk <;> cases hk
        rw [List.getElem?_append_left hd] at hk
        rw [h.len] at hd
        have hL := h.largest
        cases m with
        | none => simp at hd
        | some m =>
          obtain ⟨comp, hc, rfl⟩ := List.mem_map.mp hL.1
          obtain ⟨c, w', h3, h4, h5⟩ := h.widths comp hc d (by simpa [Nat.lt_succ_iff] using hd)
          rw [h4] at hk; cases hk
          exact (hentry h2 d w).mpr ⟨comp, hc, by simpa [Nat.lt_succ_iff] using hd, c, h3, hasWidth_iff.mp h5⟩
    · have hl := h.len
      cases m with
      | none => simpa [upToDim] using hl
      | some m =>
        simp only [Option.map_some, Option.getD_some] at hl
        simp only [upToDim]
        rw [List.take_append_of_le_length (by omega), List.take_of_length_le (by omega)]

/-- The part of the loop after the lifting. -/
def convertRest (width : F → Nat) (s : Converted F L) (comp : Complex F L) : Py (Converted F L) := do
  let r ← recordComplex width (s.dimension, s.numFeatures) comp
  return { complexes := s.complexes ++ [comp], dimension := r.1, numFeatures := r.2 }

theorem convertRest_eq_ok {width : F → Nat} (comps : List (Complex F L)) (s s' : Converted F L) :
    foldE (convertRest width) s comps = .ok s' ↔
      s'.complexes = s.complexes ++ comps ∧
      foldE (recordComplex width) (s.dimension, s.numFeatures) comps = .ok (s'.dimension, s'.numFeatures) := by
  induction comps generalizing s s' with
  | nil =>
    obtain ⟨a, b, c⟩ := s
    obtain ⟨a', b', c'⟩ := s'
    simp only [foldE, List.append_nil]
    constructor
    · intro h; cases h; exact ⟨rfl, rfl⟩
    · rintro ⟨rfl, h⟩; cases h; rfl
  | cons comp comps ih =>
    simp only [foldE]
    unfold convertRest
    cases hr : recordComplex width (s.dimension, s.numFeatures) comp with
    | error e => simp [error_bind]
    | ok r =>
      simp only [ok_bind, pure_eq_ok]
      refine (ih _ _).trans ?_
      simp only [List.append_assoc, List.singleton_append]

/-- **C35** The clique conversion returns `r` iff `r` has the lifts of the graphs in the order of the input,
the largest dimension, and the common number of features of each dimension. It fails in all other cases:
when a graph cannot be lifted, when two complexes have different numbers of features, and when a complex
has a dimension above the expansion dimension. -/
theorem C35_clique_conversion (g : Gudhi) (agg : List F → F) (width : F → Nat)
    (dataset : List (GraphData F L)) (k : Nat) (down : Bool) (r : Converted F L) :
    convertWithGudhi g agg width dataset k down = .ok r ↔
      List.Forall₂ (fun (data : GraphData F L) comp =>
        cliqueComplex g agg data.x data.edgeIndex data.numNodes k data.y down = .ok comp) dataset r.complexes ∧
      Reports width r.complexes r.dimension r.numFeatures ∧ ∀ comp ∈ r.complexes, comp.dimension ≤ k := by
  have hstep : ∀ s data, convertStep g agg width k down s data =
      (fun data : GraphData F L => cliqueComplex g agg data.x data.edgeIndex data.numNodes k data.y down) data >>=
        convertRest width s := fun _ _ => rfl
  unfold convertWithGudhi
  rw [bind_eq_ok]
  constructor
  · rintro ⟨s, h1, h2⟩
    obtain ⟨comps, h3, h4⟩ := (foldE_bind_map hstep).mp h1
    obtain ⟨h5, h6⟩ := (convertRest_eq_ok _ _ _).mp h4
    rw [List.nil_append] at h5
    cases ok_inj.mp h2
    have := (reports_iff (width := width) (comps := comps) (n := k + 1)).mp ⟨_, h6, rfl⟩
    rw [← h5] at this h3
    exact ⟨mapE_eq_ok_iff.mp h3, this.1, fun c hc => Nat.le_of_lt_succ (this.2 c hc)⟩
  · rintro ⟨h1, h2, h3⟩
    obtain ⟨nf', h4, h5⟩ := reports_iff.mpr ⟨h2, fun c hc => Nat.lt_succ_of_le (h3 c hc)⟩
    refine ⟨⟨r.complexes, r.dimension, nf'⟩, ?_, ?_⟩
    · exact (foldE_bind_map hstep).mpr ⟨r.complexes, mapE_eq_ok_iff.mpr h1,
        (convertRest_eq_ok _ _ _).mpr ⟨rfl, h4⟩⟩
    · rw [← h5]; rfl

theorem reports_of {width : F → Nat} {comps : List (Complex F L)} (W : Nat → Nat)
    (h : ∀ comp ∈ comps, ∀ d, d ≤ comp.dimension →
      ∃ (c : Cochain F L), comp.cochains[d]? = some c ∧ HasWidth width c.x (W d)) :
    ∃ m nf, Reports width comps m nf ∧ ∀ (d : Nat) (w : Option Nat), nf[d]? = some w → w = some (W d) := by
  obtain ⟨m, hm⟩ : ∃ m, m = comps.foldl (fun m c => largerDim m c.dimension) none := ⟨_, rfl⟩
  have hL := largest_iff.mp hm
  cases m with
  | none =>
    refine ⟨none, [], ⟨hL, rfl, ?_⟩, by simp⟩
    have : comps = [] := by simpa [IsLargest] using hL
    subst this
    simp
  | some m =>
    refine ⟨some m, tab (m + 1) fun d => some (W d), ⟨hL, tab_length _ _, ?_⟩, ?_⟩
    · intro comp hc d hd
      obtain ⟨c, h1, h2⟩ := h comp hc d hd
      have := hL.2 _ (List.mem_map_of_mem hc)
      exact ⟨c, W d, h1, tab_get _ (by omega), h2⟩
    · intro d w hw
      have hd : d < m + 1 := by have := lt_of_get hw; rwa [tab_length] at this
      rw [tab_get _ hd] at hw
      exact (Option.some.inj hw).symm

theorem hasWidth_of_all {width : F → Nat} {rows : List F} {w : Nat} (hne : rows ≠ [])
    (h : ∀ r ∈ rows, width r = w) : HasWidth width (some rows) w := by
  cases rows with
  | nil => exact absurd rfl hne
  | cons r rows => exact .inr (.inr ⟨r, rows, rfl, (h r (by simp)).symm⟩)

theorem attr_eq_some {A : Type} {comp : Complex F L} {d : Nat} {get : Cochain F L → Option A} {a : A}
    (h : comp.attr d get = some a) : ∃ c, comp.cochains[d]? = some c ∧ get c = some a := by
  unfold Complex.attr at h
  cases hc : comp.cochains[d]? with
  | none => rw [hc] at h; cases h
  | some c => rw [hc] at h; exact ⟨c, rfl, h⟩

/-- Combined rows are as wide as the rows of the vertices. -/
theorem width_of_combined {agg : List F → F} {width : F → Nat} {w : Nat}
    (hagg : ∀ l : List F, l ≠ [] → (∀ r ∈ l, width r = w) → width (agg l) = w) {x : List F}
    (hw : ∀ r ∈ x, width r = w) {cells : List (List Nat)} (hc : ∀ s ∈ cells, s ≠ []) {rows : List F}
    (hlen : rows.length = cells.length)
    (h : ∀ (c : Nat) (s : List Nat), cells[c]? = some s → ∃ vals,
      List.Forall₂ (fun v r => x[v]? = some r) s vals ∧ rows[c]? = some (agg vals)) :
    ∀ r ∈ rows, width r = w := by
  intro r hr
  obtain ⟨c, hcr⟩ := List.mem_iff_getElem?.mp hr
  have hlt : c < cells.length := hlen ▸ lt_of_get hcr
  obtain ⟨vals, hf, ha⟩ := h c _ (List.getElem?_eq_getElem hlt)
  rw [hcr] at ha
  cases ha
  apply hagg
  · rintro rfl
    exact hc _ (List.getElem_mem hlt) (List.forall₂_nil_right_iff.mp hf)
  · intro r' hr'
    obtain ⟨i, hi⟩ := List.mem_iff_getElem?.mp hr'
    have h2 := List.forall₂_iff_get.mp hf
    have hi' := lt_of_get hi
    have h3 := h2.2 i (h2.1 ▸ hi') hi'
    simp only [List.get_eq_getElem] at h3
    rw [(List.getElem?_eq_some_iff.mp hi).2] at h3
    exact hw _ (List.mem_of_getElem? h3)

/-- The features of a clique complex are as wide as those of the graph. -/
theorem clique_widths (g : Gudhi) (hg : g.Ok) (agg : List F → F) (width : F → Nat) (w : Nat)
    (hagg : ∀ l : List F, l ≠ [] → (∀ r ∈ l, width r = w) → width (agg l) = w) (k : Nat) (down : Bool)
    (data : GraphData F L) (x : List F) (hd : data.Ok x) (hw : ∀ r ∈ x, width r = w) :
    ∃ comp, cliqueComplex g agg data.x data.edgeIndex data.numNodes k data.y down = .ok comp ∧
      comp.dimension ≤ max k 1 ∧ ∀ d, d ≤ comp.dimension →
        ∃ (c : Cochain F L), comp.cochains[d]? = some c ∧ HasWidth width c.x w := by
  have H := holds_expanded hg hd.edges k
  obtain ⟨t, comp, h1, h2, h3, h4⟩ := C29_clique_complex_features g hg agg x _ _ k data.y down hd.edges hd.pos
    hd.rows hd.labels
  obtain ⟨⟨comp', e1, -, -, e4⟩, -⟩ := C28_lifting_succeeds g hg agg x _ _ k data.y down hd.edges hd.pos
    hd.rows hd.labels
  rw [h2] at e1
  cases e1
  rw [hd.features]
  refine ⟨comp, h2, e4, fun d hdd => ?_⟩
  by_cases h0 : d = 0
  · subst h0
    obtain ⟨c, hc, hx⟩ := attr_eq_some h3
    refine ⟨c, hc, hx ▸ hasWidth_of_all ?_ hw⟩
    rintro rfl
    have h5 := hd.rows
    have h6 := hd.pos
    simp at h5
    omega
  · obtain ⟨rows, h5, h6, h7⟩ := h4 d (by omega) hdd
    obtain ⟨c, hc, hx⟩ := attr_eq_some h5
    have hlev : ∀ s ∈ t.level d, s.length = d + 1 := by
      obtain ⟨t', _, h1', -, -, -, h3'⟩ := C27_cells_are_the_cliques g hg agg x _ _ k data.y down hd.edges hd.pos
        hd.rows hd.labels
      rw [h1] at h1'
      cases h1'
      intro s hs
      exact ((h3' d s).mp hs).2.1
    refine ⟨c, hc, hx ▸ hasWidth_of_all ?_ (width_of_combined hagg hw ?_ h6 h7)⟩
    · rintro rfl
      have hb := buildTables_ok H hd.pos
      rw [h1] at hb
      cases ok_inj.mp hb
      obtain ⟨_, _, f1, f2, f3, -⟩ := lifted_of_holds agg x data.y down H hd.pos hd.rows hd.labels
      unfold cliqueComplex at h2
      have hdim : d < (g.expanded (insertions data.edgeIndex data.numNodes) k).dims := by
        have := f3.size
        have h8 : cliqueComplex g agg (some x) data.edgeIndex data.numNodes k data.y down = _ := f2
        unfold cliqueComplex at h8
        rw [h2] at h8
        cases ok_inj.mp h8
        omega
      unfold Tables.level at h6
      rw [tab_get _ hdim] at h6
      exact cellsOf_ne_nil H hdim (List.length_eq_zero_iff.mp h6.symm)
    · intro s hs h8
      have := hlev s hs
      rw [h8] at this
      simp at this

/-- **C35** A dataset of graphs whose features all have the same width converts: one complex per graph, and
that width in all dimensions. -/
theorem C35_clique_datasets_convert (g : Gudhi) (hg : g.Ok) (agg : List F → F) (width : F → Nat) (w : Nat)
    (hagg : ∀ l : List F, l ≠ [] → (∀ r ∈ l, width r = w) → width (agg l) = w)
    (dataset : List (GraphData F L)) (k : Nat) (hk : 1 ≤ k) (down : Bool)
    (hd : ∀ data ∈ dataset, ∃ x, data.Ok x ∧ ∀ r ∈ x, width r = w) :
    ∃ r, convertWithGudhi g agg width dataset k down = .ok r ∧ r.complexes.length = dataset.length ∧
      ∀ (d : Nat) (n : Option Nat), r.numFeatures[d]? = some n → n = some w := by
  have hl : ∀ data ∈ dataset, ∃ comp,
      cliqueComplex g agg data.x data.edgeIndex data.numNodes k data.y down = .ok comp ∧
      comp.dimension ≤ max k 1 ∧ ∀ d, d ≤ comp.dimension →
        ∃ (c : Cochain F L), comp.cochains[d]? = some c ∧ HasWidth width c.x w := by
    intro data hm
    obtain ⟨x, h1, h2⟩ := hd data hm
    exact clique_widths g hg agg width w hagg k down data x h1 h2
  obtain ⟨comps, h1, h2⟩ : ∃ comps, List.Forall₂ (fun (data : GraphData F L) comp =>
        cliqueComplex g agg data.x data.edgeIndex data.numNodes k data.y down = .ok comp) dataset comps ∧
      ∀ comp ∈ comps, comp.dimension ≤ max k 1 ∧ ∀ d, d ≤ comp.dimension →
        ∃ (c : Cochain F L), comp.cochains[d]? = some c ∧ HasWidth width c.x w := by
    clear hd
    induction dataset with
    | nil => exact ⟨[], .nil, by simp⟩
    | cons data dataset ih =>
      obtain ⟨comp, h1, h2⟩ := hl data (by simp)
      obtain ⟨comps, h3, h4⟩ := ih fun d hm => hl d (by simp [hm])
      exact ⟨comp :: comps, .cons h1 h3, List.forall_mem_cons.mpr ⟨h2, h4⟩⟩
  obtain ⟨m, nf, h3, h4⟩ := reports_of (comps := comps) (fun _ => w) fun comp hc => (h2 comp hc).2
  refine ⟨⟨comps, m, nf⟩, (C35_clique_conversion ..).mpr ⟨h1, h3, fun comp hc => ?_⟩, h1.length_eq.symm, h4⟩
  have := (h2 comp hc).1
  omega

theorem forall₂_both {A B : Type} {R S : A → B → Prop} {l : List A} {l' : List B} (h : List.Forall₂ R l l')
    (h' : List.Forall₂ S l l') : List.Forall₂ (fun a b => R a b ∧ S a b) l l' := by
  induction h with
  | nil => exact .nil
  | cons hab _ ih => exact .cons ⟨hab, (List.forall₂_cons.mp h').1⟩ (ih (List.forall₂_cons.mp h').2)

theorem forall₂_mem {A B : Type} {R : A → B → Prop} {l : List A} {l' : List B} (h : List.Forall₂ R l l') {a : A}
    (ha : a ∈ l) : ∃ b ∈ l', R a b := by
  induction h with
  | nil => cases ha
  | cons hab _ ih =>
    rcases List.mem_cons.mp ha with rfl | ha
    · exact ⟨_, by simp, hab⟩
    · obtain ⟨b, h3, h4⟩ := ih ha
      exact ⟨b, by simp [h3], h4⟩

/-- **C35** A dataset with two graphs whose features have different widths does not convert, whatever the
other graphs are. -/
theorem C35_different_widths_are_rejected (g : Gudhi) (hg : g.Ok) (agg : List F → F) (width : F → Nat)
    (dataset : List (GraphData F L)) (k : Nat) (down : Bool) (G H : GraphData F L) (hG : G ∈ dataset)
    (hH : H ∈ dataset) (x x' : List F) (r r' : F) (okG : G.Ok x) (okH : H.Ok x') (h : x.head? = some r)
    (h' : x'.head? = some r') (hne : width r ≠ width r') :
    ∃ e, convertWithGudhi g agg width dataset k down = .error e := by
  cases hres : convertWithGudhi g agg width dataset k down with
  | error e => exact ⟨e, rfl⟩
  | ok res =>
    exfalso
    obtain ⟨h1, h2, -⟩ := (C35_clique_conversion ..).mp hres
    have key : ∀ (D : GraphData F L), D ∈ dataset → ∀ x r, D.Ok x → x.head? = some r →
        res.numFeatures[0]? = some (some (width r)) := by
      intro D hD x r hd hr
      obtain ⟨comp, hm, hc⟩ : ∃ comp ∈ res.complexes,
          cliqueComplex g agg D.x D.edgeIndex D.numNodes k D.y down = .ok comp := by
        exact forall₂_mem h1 hD
      obtain ⟨t, comp', h3, h4, h5, -⟩ := C29_clique_complex_features g hg agg x _ _ k D.y down hd.edges hd.pos
        hd.rows hd.labels
      rw [hd.features, h4] at hc
      cases hc
      obtain ⟨c, w, h6, h7, h8⟩ := h2.widths comp hm 0 (by omega)
      obtain ⟨c', h9, h10⟩ := attr_eq_some h5
      rw [h6] at h9
      cases h9
      rw [h7]
      rw [h10] at h8
      rcases h8 with ⟨h8, -⟩ | ⟨h8, -⟩ | ⟨r', rows, h8, rfl⟩
      · cases h8
      · cases h8; cases hr
      · cases h8; cases hr; rfl
    have e1 := key G hG x r okG h
    rw [key H hH x' r' okH h'] at e1
    simp only [Option.some.injEq] at e1
    exact hne e1.symm

/-- **C35** With expansion dimension 0 a dataset with an edge does not convert: there is no place for the
number of features of the edges. -/
theorem C35_expansion_zero_is_rejected (g : Gudhi) (hg : g.Ok) (agg : List F → F) (width : F → Nat)
    (dataset : List (GraphData F L)) (down : Bool) (G : GraphData F L) (hG : G ∈ dataset) (x : List F)
    (hd : G.Ok x) (u v : Nat) (huv : u ≠ v) (he : (u, v) ∈ G.edgeIndex) :
    ∃ e, convertWithGudhi g agg width dataset 0 down = .error e := by
  cases hres : convertWithGudhi g agg width dataset 0 down with
  | error e => exact ⟨e, rfl⟩
  | ok res =>
    exfalso
    obtain ⟨h1, -, h3⟩ := (C35_clique_conversion ..).mp hres
    obtain ⟨comp, hm, hc⟩ : ∃ comp ∈ res.complexes,
        cliqueComplex g agg G.x G.edgeIndex G.numNodes 0 G.y down = .ok comp := by
      exact forall₂_mem h1 hG
    obtain ⟨t, comp', h4, h5, h6, -, h7⟩ := C27_cells_are_the_cliques g hg agg x _ _ 0 G.y down hd.edges hd.pos
      hd.rows hd.labels
    rw [hd.features, h5] at hc
    cases hc
    have h8 := h3 comp hm
    have hb := (hd.edges _ he)
    have hmem : [min u v, max u v] ∈ t.level 1 := by
      refine (h7 1 _).mpr ⟨by simp; omega, by simp, ?_, ?_, by simp⟩
      · intro a ha
        simp only [List.mem_cons, List.not_mem_nil, or_false] at ha
        omega
      · intro a ha b hb hab
        simp only [List.mem_cons, List.not_mem_nil, or_false] at ha hb
        have : (a = u ∧ b = v) ∨ (a = v ∧ b = u) := by omega
        rcases this with ⟨rfl, rfl⟩ | ⟨rfl, rfl⟩
        · exact .inl he
        · exact .inr he
    have h9 := h6 1
    have h10 : 0 < (t.level 1).length := List.length_pos_of_mem hmem
    have h11 : comp.cellsIn 1 = 0 := by
      obtain ⟨⟨comp'', e1, e2, -⟩, -⟩ := C28_lifting_succeeds g hg agg x _ _ 0 G.y down hd.edges hd.pos
        hd.rows hd.labels
      rw [h5] at e1
      cases e1
      unfold Complex.cellsIn
      have := e2.valid.len
      rw [List.getElem?_eq_none (by omega)]
      rfl
    omega

/-! ### Rings -/

/-- What the ring conversion checks for each graph: the same label, the same features of the nodes, and
half as many edges as columns of the edge index. -/
structure MatchesGraph (data : GraphData F L) (comp : Complex F L) : Prop where
  label : comp.y = data.y
  features : ∃ x, data.x = some x ∧ comp.attr 0 Cochain.x = some x
  edges : 1 ≤ comp.dimension → ∃ rows, comp.attr 1 Cochain.x = some rows ∧
    rows.length = data.edgeIndex.length / 2

section

variable [DecidableEq F] [DecidableEq L]

theorem checks_iff {comp : Complex F L} {data : GraphData F L} :
    (checkLabel comp data = .ok () ∧ checkFeatures comp data = .ok () ∧ checkEdges comp data = .ok ()) ↔
      MatchesGraph data comp := by
  have h1 : checkLabel comp data = .ok () ↔ comp.y = data.y := by
    unfold checkLabel pyAssert
    cases comp.y <;> cases data.y <;> simp
  have h2 : checkFeatures comp data = .ok () ↔ ∃ x, data.x = some x ∧ comp.attr 0 Cochain.x = some x := by
    unfold checkFeatures pyAssert Complex.attr
    cases comp.cochains[0]? with
    | none => simp
    | some c =>
      simp only [Option.bind_some]
      cases c.x <;> cases data.x <;> simp [eq_comm]
  have h3 : checkEdges comp data = .ok () ↔ (1 ≤ comp.dimension → ∃ rows, comp.attr 1 Cochain.x = some rows ∧
      rows.length = data.edgeIndex.length / 2) := by
    unfold checkEdges pyAssert Complex.attr
    by_cases hd : 1 ≤ comp.dimension
    · simp only [hd, if_true, forall_const]
      cases comp.cochains[1]? with
      | none => simp
      | some c =>
        simp only [Option.bind_some]
        cases c.x <;> simp
    · simp [hd]
  rw [h1, h2, h3]
  exact ⟨fun ⟨a, b, c⟩ => ⟨a, b, c⟩, fun h => ⟨h.1, h.2, h.3⟩⟩

theorem ringLoop_eq_ok {width : F → Nat} (comps : List (Complex F L)) (dataset : List (GraphData F L))
    (hlen : comps.length = dataset.length) (s s' : Option Nat × List (Option Nat)) :
    foldE (ringConvertStep width) s (comps.zip dataset) = .ok s' ↔
      foldE (recordComplex width) s comps = .ok s' ∧ List.Forall₂ MatchesGraph dataset comps := by
  induction comps generalizing dataset s with
  | nil =>
    have : dataset = [] := List.length_eq_zero_iff.mp hlen.symm
    subst this
    simp [foldE]
  | cons comp comps ih =>
    cases dataset with
    | nil => cases hlen
    | cons data dataset =>
      simp only [List.zip_cons_cons, foldE, List.forall₂_cons]
      unfold ringConvertStep
      simp only
      cases hr : recordComplex width s comp with
      | error e => simp [error_bind]
      | ok r =>
        simp only [ok_bind]
        rw [← checks_iff]
        cases h1 : checkLabel comp data with
        | error e => simp [error_bind]
        | ok _ =>
          cases h2 : checkFeatures comp data with
          | error e => simp [error_bind, ok_bind]
          | ok _ =>
            cases h3 : checkEdges comp data with
            | error e => simp [error_bind, ok_bind]
            | ok _ =>
              simp only [ok_bind, pure_eq_ok, true_and]
              exact ih dataset (by simpa using hlen) r

/-- **C35** The ring conversion returns `r` iff `r` has the lifts of the graphs in the order of the input,
each with the label, the features and the number of edges of its graph, the largest dimension, and the
common number of features of each dimension. It fails in all other cases. -/
theorem C35_ring_conversion (g : Gudhi) (lib : RingLib) (agg : List F → F) (width : F → Nat)
    (dataset : List (GraphData F L)) (maxK : Nat) (down initEdges initRings : Bool) (r : Converted F L) :
    convertWithRings g lib agg width dataset maxK down initEdges initRings = .ok r ↔
      List.Forall₂ (fun (data : GraphData F L) comp =>
        ringComplex g lib agg data.x data.edgeIndex data.edgeAttr data.numNodes data.y maxK down initEdges
          initRings = .ok comp) dataset r.complexes ∧
      List.Forall₂ MatchesGraph dataset r.complexes ∧
      Reports width r.complexes r.dimension r.numFeatures ∧ ∀ comp ∈ r.complexes, comp.dimension ≤ 2 := by
  unfold convertWithRings
  rw [bind_eq_ok]
  constructor
  · rintro ⟨comps, h1, h2⟩
    obtain ⟨s, h3, h4⟩ := bind_eq_ok.mp h2
    cases ok_inj.mp h4
    have hf := mapE_eq_ok_iff.mp h1
    obtain ⟨h5, h6⟩ := (ringLoop_eq_ok comps dataset hf.length_eq.symm _ _).mp h3
    have := (reports_iff (width := width) (comps := comps) (n := 3)).mp ⟨_, h5, rfl⟩
    exact ⟨hf, h6, this.1, fun c hc => Nat.le_of_lt_succ (this.2 c hc)⟩
  · rintro ⟨h1, h2, h3, h4⟩
    obtain ⟨nf', h5, h6⟩ := reports_iff.mpr ⟨h3, fun c hc => Nat.lt_succ_of_le (h4 c hc)⟩
    refine ⟨r.complexes, mapE_eq_ok_iff.mpr h1, ?_⟩
    rw [bind_eq_ok]
    refine ⟨(r.dimension, nf'), (ringLoop_eq_ok _ _ h1.length_eq.symm _ _).mpr ⟨h5, h2⟩, ?_⟩
    rw [← h6]; rfl

/-- A graph that has each edge in both directions has half as many edges as columns. -/
theorem edge_count {edges : List (Nat × Nat)} (hnd : edges.Nodup) (hb : ∀ e ∈ edges, e.swap ∈ edges)
    (hn : NoLoops edges) {cells : List (List Nat)} (hc : cells.Nodup)
    (hm : ∀ f, f ∈ cells ↔ ∃ u v, u < v ∧ f = [u, v] ∧ ((u, v) ∈ edges ∨ (v, u) ∈ edges)) :
    cells.length = edges.length / 2 := by
  have h1 : cells.Perm ((edges.filter fun e => e.1 < e.2).map fun e => [e.1, e.2]) := by
    refine (List.perm_ext_iff_of_nodup hc ?_).mpr fun f => ?_
    · refine (hnd.filter _).map_on ?_
      rintro ⟨a, b⟩ - ⟨a', b'⟩ - h
      simpa using h
    · rw [hm]
      simp only [List.mem_map, List.mem_filter, decide_eq_true_eq, Prod.exists]
      constructor
      · rintro ⟨u, v, h1, rfl, h2⟩
        exact ⟨u, v, ⟨h2.elim id fun h => hb _ h, h1⟩, rfl⟩
      · rintro ⟨u, v, ⟨h1, h2⟩, rfl⟩
        exact ⟨u, v, h2, rfl, .inl h1⟩
  have h2 : ((edges.filter fun e => e.1 < e.2).map Prod.swap).Perm (edges.filter fun e => ¬ (e.1 < e.2)) := by
    refine (List.perm_ext_iff_of_nodup ?_ (hnd.filter _)).mpr fun f => ?_
    · exact (hnd.filter _).map Prod.swap_injective
    · simp only [List.mem_map, List.mem_filter, decide_eq_true_eq, Prod.exists]
      obtain ⟨u, v⟩ := f
      constructor
      · rintro ⟨a, b, ⟨h3, h4⟩, h5⟩
        cases h5
        exact ⟨hb _ h3, by simp; omega⟩
      · rintro ⟨h3, h4⟩
        have := hn _ h3
        simp only [decide_not, Bool.not_eq_true', decide_eq_false_iff_not] at h4
        exact ⟨v, u, ⟨hb _ h3, by simp only at this; omega⟩, rfl⟩
  have h3 := h1.length_eq
  have h4 := h2.length_eq
  have h5 := List.length_eq_length_filter_add (l := edges) fun e => decide (e.1 < e.2)
  simp only [List.length_map] at h3 h4
  simp only [decide_not] at h4
  omega

/-- A simple graph passes the checks after the lifting, and its complex has the expected widths. -/
theorem ring_widths (g : Gudhi) (hg : g.Ok) (lib : RingLib) (hl : lib.Ok) (agg : List F → F)
    (width : F → Nat) (w wE : Nat)
    (hagg : ∀ l : List F, l ≠ [] → (∀ r ∈ l, width r = w) → width (agg l) = w) (maxK : Nat)
    (down initRings : Bool) (data : GraphData F L) (x : List F) (hd : data.Ok x) (hs : data.Simple)
    (hw : ∀ r ∈ x, width r = w)
    (hE : (data.edgeAttr = none ∧ wE = w) ∨ ∃ a, data.edgeAttr = some a ∧ ∀ r ∈ a, width r = wE) :
    ∃ comp, ringComplex g lib agg data.x data.edgeIndex data.edgeAttr data.numNodes data.y maxK down true
        initRings = .ok comp ∧ MatchesGraph data comp ∧ comp.dimension ≤ 2 ∧
      ∀ d, d ≤ comp.dimension → ∃ (c : Cochain F L), comp.cochains[d]? = some c ∧
        HasWidth width c.x (if d = 0 then w else if d = 1 then wE else if initRings then w else 0) := by
  obtain ⟨t, comp, h1, h2, h3, h4, h5, h6, ⟨h7, h8, h9⟩, h10, -, h12, h13, h14, h15⟩ := ring_lifted (agg := agg)
    (maxK := maxK) (down := down) (initEdges := true) (initRings := initRings) (attr := data.edgeAttr)
    hg hl hd.edges hs.noLoops hd.pos hd.rows hd.labels hs.attr
  obtain ⟨t', e1, e2, e3, e4, e5, e6, e7, e8, -⟩ := C23_ring_ids_are_consecutive_and_unique g hg lib hl
    data.edgeIndex data.numNodes maxK hd.edges hd.pos
  rw [h1] at e1
  cases e1
  have hsz := h3.size
  have hcount := edge_count hs.nodup hs.both hs.noLoops e4 e5
  have hdim2 : 2 ≤ comp.dimension → t.level 2 ≠ [] := by
    intro h hnil
    obtain ⟨⟨comp', f1, -, -, -, f2, -⟩, -⟩ := C28_ring_lifting_succeeds g hg lib hl agg x data.edgeIndex
      data.edgeAttr data.numNodes data.y maxK down true initRings hd.edges hs.noLoops hd.pos hd.rows hd.labels
      hs.attr
    rw [h2] at f1
    cases f1
    obtain ⟨r, hr, hk⟩ := f2.mp (by omega)
    obtain ⟨r', hr', -⟩ := (C31_rings_are_the_induced_cycles lib hl data.edgeIndex maxK).2.2 r hr hk
    rw [← e6, hnil] at hr'
    cases hr'
  have hdim1 : 1 ≤ comp.dimension → t.level 1 ≠ [] := by
    intro h hnil
    obtain ⟨⟨comp', f1, -, -, -, -, f2⟩, -⟩ := C28_ring_lifting_succeeds g hg lib hl agg x data.edgeIndex
      data.edgeAttr data.numNodes data.y maxK down true initRings hd.edges hs.noLoops hd.pos hd.rows hd.labels
      hs.attr
    rw [h2] at f1
    cases f1
    rw [hnil] at hcount
    have h0 : data.edgeIndex ≠ [] := fun h0 => by have := f2.mpr h0; omega
    obtain ⟨⟨u, v⟩, he⟩ := List.exists_mem_of_ne_nil _ h0
    have hne := hs.noLoops _ he
    simp only at hne
    have hin : [min u v, max u v] ∈ t.level 1 := by
      refine (e5 _).mpr ⟨min u v, max u v, by omega, rfl, ?_⟩
      rcases Nat.lt_or_gt_of_ne hne with h | h
      · rw [Nat.min_eq_left (by omega), Nat.max_eq_right (by omega)]; exact .inl he
      · rw [Nat.min_eq_right (by omega), Nat.max_eq_left (by omega)]; exact .inr he
    rw [hnil] at hin
    cases hin
  have hrow1 : 1 ≤ comp.dimension → ∃ rows, comp.attr 1 Cochain.x = some rows ∧
      rows.length = (t.level 1).length ∧ ∀ r ∈ rows, width r = wE := by
    intro h
    rcases hE with ⟨ha, rfl⟩ | ⟨a, ha, hwa⟩
    · obtain ⟨rows, f1, f2, f3⟩ := h12 rfl (by omega) ha
      refine ⟨rows, f1, f2, width_of_combined hagg hw ?_ f2 f3⟩
      intro s hs' h0
      obtain ⟨u, v, -, hf, -⟩ := (e5 s).mp hs'
      rw [h0] at hf
      cases hf
    · obtain ⟨rows, f1, f2, f3⟩ := h13 rfl (by omega) a ha
      refine ⟨rows, f1, f2, fun r hr => ?_⟩
      obtain ⟨c, hc⟩ := List.mem_iff_getElem?.mp hr
      have hlt : c < (t.level 1).length := f2 ▸ lt_of_get hc
      obtain ⟨u, v, huv, hf, he⟩ := (e5 _).mp (List.getElem_mem hlt)
      have he' : (u, v) ∈ data.edgeIndex := he.elim id fun h => hs.both _ h
      obtain ⟨i, hi⟩ := List.mem_iff_getElem?.mp he'
      have hcan : canon (u, v) = [u, v] := by
        unfold canon
        rw [sortedNat_pair, if_pos (by simp only; omega)]
      have := f3 i (u, v) c hi (by rw [List.getElem?_eq_getElem hlt, hf, hcan])
      rw [hc] at this
      exact hwa r (List.mem_of_getElem? this.symm)
  rw [hd.features]
  refine ⟨comp, h2, ⟨?_, ⟨x, hd.features, h10⟩, ?_⟩, by omega, ?_⟩
  · rw [h8]
    unfold complexLabel
    cases hy : data.y with
    | none => rfl
    | some l => simp [hs.label l hy]
  · intro h
    obtain ⟨rows, f1, f2, -⟩ := hrow1 h
    exact ⟨rows, f1, by rw [f2, hcount]⟩
  · intro d hdd
    have : d = 0 ∨ d = 1 ∨ d = 2 := by omega
    rcases this with rfl | rfl | rfl
    · obtain ⟨c, hc, hx⟩ := attr_eq_some h10
      refine ⟨c, hc, hx ▸ hasWidth_of_all ?_ hw⟩
      rintro rfl
      have h5 := hd.rows
      have h6 := hd.pos
      simp at h5
      omega
    · obtain ⟨rows, f1, f2, f3⟩ := hrow1 hdd
      obtain ⟨c, hc, hx⟩ := attr_eq_some f1
      refine ⟨c, hc, hx ▸ hasWidth_of_all ?_ f3⟩
      rintro rfl
      exact hdim1 hdd (List.length_eq_zero_iff.mp f2.symm)
    · simp only [show (2 : Nat) ≠ 0 by decide, show (2 : Nat) ≠ 1 by decide, if_false]
      cases initRings with
      | true =>
        obtain ⟨rows, f1, f2, f3⟩ := h15 rfl (by omega)
        obtain ⟨c, hc, hx⟩ := attr_eq_some f1
        refine ⟨c, hc, hx ▸ hasWidth_of_all ?_ (width_of_combined hagg hw ?_ f2 f3)⟩
        · rintro rfl
          exact hdim2 hdd (List.length_eq_zero_iff.mp f2.symm)
        · intro s hs' h0
          rw [e6] at hs'
          have := ((C31_rings_are_the_induced_cycles lib hl data.edgeIndex maxK).2.1 s hs').2.1
          rw [h0] at this
          simp at this
      | false =>
        have hlen := h4.len
        have hlt : 2 < comp.cochains.length := by omega
        refine ⟨comp.cochains[2], List.getElem?_eq_getElem hlt, .inl ⟨?_, rfl⟩⟩
        have := h14 rfl
        unfold Complex.attr at this
        rw [List.getElem?_eq_getElem hlt] at this
        exact this

/-- **C35** A dataset of simple graphs converts, with node features of one width and either no edge
features or edge features of one width: all the checks on the order of the complexes pass. -/
theorem C35_ring_datasets_convert (g : Gudhi) (hg : g.Ok) (lib : RingLib) (hl : lib.Ok) (agg : List F → F)
    (width : F → Nat) (w wE : Nat)
    (hagg : ∀ l : List F, l ≠ [] → (∀ r ∈ l, width r = w) → width (agg l) = w) (maxK : Nat)
    (down initRings : Bool) (dataset : List (GraphData F L))
    (hd : ∀ data ∈ dataset, ∃ x, data.Ok x ∧ data.Simple ∧ (∀ r ∈ x, width r = w) ∧
      ((data.edgeAttr = none ∧ wE = w) ∨ ∃ a, data.edgeAttr = some a ∧ ∀ r ∈ a, width r = wE)) :
    ∃ r, convertWithRings g lib agg width dataset maxK down true initRings = .ok r ∧
      r.complexes.length = dataset.length ∧
      ∀ (d : Nat) (n : Option Nat), r.numFeatures[d]? = some n →
        n = some (if d = 0 then w else if d = 1 then wE else if initRings then w else 0) := by
  have hl' : ∀ data ∈ dataset, ∃ comp, ringComplex g lib agg data.x data.edgeIndex data.edgeAttr data.numNodes
        data.y maxK down true initRings = .ok comp ∧ MatchesGraph data comp ∧ comp.dimension ≤ 2 ∧
      ∀ d, d ≤ comp.dimension → ∃ (c : Cochain F L), comp.cochains[d]? = some c ∧
        HasWidth width c.x (if d = 0 then w else if d = 1 then wE else if initRings then w else 0) := by
    intro data hm
    obtain ⟨x, h1, h2, h3, h4⟩ := hd data hm
    exact ring_widths g hg lib hl agg width w wE hagg maxK down initRings data x h1 h2 h3 h4
  obtain ⟨comps, h1, h1', h2⟩ : ∃ comps, List.Forall₂ (fun (data : GraphData F L) comp =>
        ringComplex g lib agg data.x data.edgeIndex data.edgeAttr data.numNodes data.y maxK down true initRings =
          .ok comp) dataset comps ∧ List.Forall₂ MatchesGraph dataset comps ∧
      ∀ comp ∈ comps, comp.dimension ≤ 2 ∧ ∀ d, d ≤ comp.dimension →
        ∃ (c : Cochain F L), comp.cochains[d]? = some c ∧
          HasWidth width c.x (if d = 0 then w else if d = 1 then wE else if initRings then w else 0) := by
    clear hd
    induction dataset with
    | nil => exact ⟨[], .nil, .nil, by simp⟩
    | cons data dataset ih =>
      obtain ⟨comp, h1, h1', h2⟩ := hl' data (by simp)
      obtain ⟨comps, h3, h3', h4⟩ := ih fun d hm => hl' d (by simp [hm])
      exact ⟨comp :: comps, .cons h1 h3, .cons h1' h3', List.forall_mem_cons.mpr ⟨h2, h4⟩⟩
  obtain ⟨m, nf, h3, h4⟩ := reports_of (comps := comps)
    (fun d => if d = 0 then w else if d = 1 then wE else if initRings then w else 0) fun comp hc => (h2 comp hc).2
  exact ⟨⟨comps, m, nf⟩, (C35_ring_conversion ..).mpr ⟨h1, h1', h3, fun comp hc => (h2 comp hc).1⟩,
    h1.length_eq.symm, h4⟩

/-- **C35** The checks of the ring conversion reject a dataset in which some graph has labels of the nodes
(two or more), and without edge features (`init_edges=False`) any dataset in which some graph has an edge. -/
theorem C35_ring_conversion_rejects (g : Gudhi) (hg : g.Ok) (lib : RingLib) (hl : lib.Ok) (agg : List F → F)
    (width : F → Nat) (maxK : Nat) (down initEdges initRings : Bool) (dataset : List (GraphData F L))
    (G : GraphData F L) (hG : G ∈ dataset) (x : List F) (hd : G.Ok x) (hn : NoLoops G.edgeIndex)
    (ha : EdgeInput G.edgeIndex G.edgeAttr)
    (h : (∃ l, G.y = some l ∧ l.length ≠ 1) ∨ (initEdges = false ∧ G.edgeIndex ≠ [])) :
    ∃ e, convertWithRings g lib agg width dataset maxK down initEdges initRings = .error e := by
  cases hres : convertWithRings g lib agg width dataset maxK down initEdges initRings with
  | error e => exact ⟨e, rfl⟩
  | ok res =>
    exfalso
    obtain ⟨h1, h2, -, -⟩ := (C35_ring_conversion ..).mp hres
    obtain ⟨comp, hm, hc, hs⟩ : ∃ comp ∈ res.complexes,
        ringComplex g lib agg G.x G.edgeIndex G.edgeAttr G.numNodes G.y maxK down initEdges initRings = .ok comp ∧
        MatchesGraph G comp := by
      exact forall₂_mem (R := fun D comp => ringComplex g lib agg D.x D.edgeIndex D.edgeAttr D.numNodes D.y maxK
        down initEdges initRings = .ok comp ∧ MatchesGraph D comp) (forall₂_both h1 h2) hG
    obtain ⟨t, comp', -, e2, -, -, -, -, ⟨-, e8, -⟩, -, e11, -⟩ := ring_lifted (agg := agg)
      (maxK := maxK) (down := down) (initEdges := initEdges) (initRings := initRings) (attr := G.edgeAttr)
      hg hl hd.edges hn hd.pos hd.rows hd.labels ha
    rw [hd.features, e2] at hc
    cases hc
    rcases h with ⟨l, hy, hlen⟩ | ⟨hi, hne⟩
    · have := hs.label
      rw [e8, hy] at this
      simp [complexLabel, hlen] at this
    · obtain ⟨⟨comp', f1, -, -, -, -, f2⟩, -⟩ := C28_ring_lifting_succeeds g hg lib hl agg x G.edgeIndex
        G.edgeAttr G.numNodes G.y maxK down initEdges initRings hd.edges hn hd.pos hd.rows hd.labels ha
      rw [e2] at f1
      cases f1
      have h1 : comp.dimension ≠ 0 := fun h0 => hne (f2.mp h0)
      obtain ⟨rows, h3, -⟩ := hs.edges (by omega)
      rw [e11 hi] at h3
      cases h3

end

/-! ### Examples -/

namespace Fixtures

/-- Rows of one column; combining adds them up. -/
def addRows (l : List (List Nat)) : List Nat := [(l.map List.sum).sum]

/-- A shed with edge features and a label. -/
def shedData : GraphData (List Nat) Nat :=
  { x := some [[1], [2], [3], [4], [5]], edgeIndex := shed, edgeAttr := some (shedAttr.map fun a => [a, 0]),
    numNodes := 5, y := some [7] }

/-- A graph with one node. -/
def dotData : GraphData (List Nat) Nat :=
  { x := some [[9]], edgeIndex := [], edgeAttr := some [], numNodes := 1, y := some [8] }

theorem shedData_ok : shedData.Ok [[1], [2], [3], [4], [5]] where
  features := rfl
  pos := by decide
  rows := rfl
  edges := shed_in
  labels := by intro l h; cases h; exact .inl rfl

theorem shedData_simple : shedData.Simple where
  nodup := by decide
  both := by decide
  noLoops := shed_noLoops
  label := by intro l h; cases h; rfl
  attr := by
    intro a h
    cases h
    refine ⟨rfl, ?_⟩
    intro i j e e' hi hj he
    have hi' : i < 12 := lt_of_get hi
    have hj' : j < 12 := lt_of_get hj
    have : ∀ i < 12, ∀ j < 12, (shed[i]? = shed[j]? ∨ shed[i]? = (shed[j]?).map Prod.swap) →
        (shedAttr.map fun a => [a, 0])[i]? = (shedAttr.map fun a => [a, 0])[j]? := by decide +kernel
    refine this i hi' j hj' ?_
    rw [show shed[i]? = some e from hi, show shed[j]? = some e' from hj]
    rcases he with rfl | rfl
    · exact .inl rfl
    · exact .inr rfl

theorem dotData_ok : dotData.Ok [[9]] where
  features := rfl
  pos := by decide
  rows := rfl
  edges := by intro e he; cases he
  labels := by intro l h; cases h; exact .inl rfl

theorem dotData_simple : dotData.Simple where
  nodup := by decide
  both := by decide
  noLoops := by intro e he; cases he
  label := by intro l h; cases h; rfl
  attr := by intro a h; cases h; exact ⟨rfl, by intro i j e e' hi; cases hi⟩

end Fixtures

open Fixtures in
/-- The hypotheses of `C35_ring_datasets_convert` are met by a dataset of two graphs, and the values are as
claimed. -/
example : (∀ l : List (List Nat), l ≠ [] → (∀ r ∈ l, r.length = 1) → (addRows l).length = 1) ∧
    (∀ data ∈ [dotData, shedData], ∃ x, data.Ok x ∧ data.Simple ∧ (∀ r ∈ x, r.length = 1) ∧
      ((data.edgeAttr = none ∧ 2 = 1) ∨ ∃ a, data.edgeAttr = some a ∧ ∀ r ∈ a, r.length = 2)) ∧
    (convertWithRings plainGudhi plainRings addRows List.length [dotData, shedData] 4).map
      (fun r => (r.dimension, r.numFeatures, r.complexes.map Complex.y)) =
      .ok (some 2, [some 1, some 2, some 0], [some [8], some [7]]) := by
  refine ⟨fun _ _ _ => rfl, ?_, by decide +kernel⟩
  intro data hd
  rcases List.mem_pair.mp hd with rfl | rfl
  · exact ⟨_, dotData_ok, dotData_simple, by decide, .inr ⟨_, rfl, by decide⟩⟩
  · exact ⟨_, shedData_ok, shedData_simple, by decide, .inr ⟨_, rfl, by decide⟩⟩

open Fixtures in
/-- The clique conversion of the same graphs, with different widths, and with expansion dimension 0. -/
example : (convertWithGudhi plainGudhi addRows List.length [dotData, shedData] 2).map
      (fun r => (r.dimension, r.numFeatures, r.complexes.map Complex.dimension)) =
      .ok (some 2, [some 1, some 1, some 1], [0, 2]) ∧
    (convertWithGudhi plainGudhi addRows List.length [{ dotData with x := some [[1, 2]] }, shedData] 2).map
      (fun r => r.dimension) = .error .assertion ∧
    (convertWithGudhi plainGudhi addRows List.length [dotData, shedData] 0).map
      (fun r => r.dimension) = .error .index := by
  refine ⟨?_, ?_, ?_⟩ <;> decide +kernel

open Fixtures in
/-- Node labels and missing edge features are rejected by the ring conversion. -/
example : (convertWithRings plainGudhi plainRings addRows List.length
      [{ shedData with y := some [1, 2, 3, 4, 5] }] 4).map (fun r => r.dimension) = .error .assertion ∧
    (convertWithRings plainGudhi plainRings addRows List.length [shedData] 4 false false).map
      (fun r => r.dimension) = .error .attribute := by
  refine ⟨?_, ?_⟩ <;> decide +kernel

/-! ### The theorems on concrete cases -/

section Cases
open Fixtures

example := C35_clique_conversion plainGudhi addRows List.length [dotData, shedData] 2 true

example := C35_clique_datasets_convert plainGudhi plainGudhi_ok addRows List.length 1 (fun _ _ _ => rfl)
  [dotData, shedData] 2 (by decide) true (by
    intro data hd
    rcases List.mem_pair.mp hd with rfl | rfl
    · exact ⟨_, dotData_ok, by decide⟩
    · exact ⟨_, shedData_ok, by decide⟩)

/-- Rows of one and of two columns. -/
example := C35_different_widths_are_rejected plainGudhi plainGudhi_ok addRows List.length
  [{ dotData with x := some [[1, 2]] }, shedData] 2 true { dotData with x := some [[1, 2]] } shedData
  (by simp) (by simp) [[1, 2]] _ [1, 2] [1] ⟨rfl, by decide, rfl, dotData_ok.edges, dotData_ok.labels⟩ shedData_ok rfl rfl (by decide)

example := C35_expansion_zero_is_rejected plainGudhi plainGudhi_ok addRows List.length [dotData, shedData] true shedData
  (by simp) _ shedData_ok 0 1 (by decide) (by decide)

example := C35_ring_conversion plainGudhi plainRings addRows List.length [dotData, shedData] 4 true true false

example := C35_ring_datasets_convert plainGudhi plainGudhi_ok plainRings plainRings_ok addRows List.length 1 2
  (fun _ _ _ => rfl) 4 true false [dotData, shedData] (by
    intro data hd
    rcases List.mem_pair.mp hd with rfl | rfl
    · exact ⟨_, dotData_ok, dotData_simple, by decide, .inr ⟨_, rfl, by decide⟩⟩
    · exact ⟨_, shedData_ok, shedData_simple, by decide, .inr ⟨_, rfl, by decide⟩⟩)

/-- Edges without features. -/
example := C35_ring_conversion_rejects plainGudhi plainGudhi_ok plainRings plainRings_ok addRows List.length 4 true false
  false [dotData, shedData] shedData (by simp) _ shedData_ok shed_noLoops shedData_simple.attr (.inr ⟨rfl, by decide⟩)

end Cases

end Verif
