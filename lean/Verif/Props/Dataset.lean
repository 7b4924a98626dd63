import Verif.Lemmas.Dataset
import Verif.Fixtures

/-! # Storing and reading complexes (C36-C39) -/

namespace Verif

variable {F L : Type}

/-! ### C36 -/

theorem collate_eq_ok {cs : List (Complex F L)} {maxDim : Nat} {st : Storage F L} :
    collate cs maxDim = .ok st ↔ (∀ c ∈ cs, ∀ l, c.y = some l → l.length = 1) ∧
      ∃ labels, packLabels (cs.map Complex.y) = .ok labels ∧
        st = { levels := (List.range (maxDim + 1)).map fun dim => collectDim (cs.map fun c => c.cochains[dim]?),
               labels := labels, dims := cs.map Complex.dimension } := by
  unfold collate
  have h1 : ∀ us, mapE checkOneLabel cs = .ok us → ∀ c ∈ cs, ∀ l, c.y = some l → l.length = 1 := by
    intro us h c hc l hl
    have hf := mapE_eq_ok_iff.mp h
    obtain ⟨i, hi⟩ := List.mem_iff_getElem?.mp hc
    have h2 := List.forall₂_iff_get.mp hf
    have hi' := lt_of_get hi
    have h3 := h2.2 i hi' (h2.1 ▸ hi')
    simp only [List.get_eq_getElem, (List.getElem?_eq_some_iff.mp hi).2] at h3
    unfold checkOneLabel at h3
    rw [hl] at h3
    simpa using pyAssert_eq_ok.mp h3
  constructor
  · intro h
    obtain ⟨us, h2, h⟩ := bind_eq_ok.mp h
    obtain ⟨labels, h3, h⟩ := bind_eq_ok.mp h
    exact ⟨h1 us h2, labels, h3, (ok_inj.mp h).symm⟩
  · rintro ⟨h2, labels, h3, rfl⟩
    have : mapE checkOneLabel cs = .ok (cs.map fun _ => ()) := by
      refine mapE_ok (g := fun _ => ()) fun c hc => ?_
      unfold checkOneLabel
      cases hy : c.y with
      | none => rfl
      | some l => simp [h2 c hc l hy, pyAssert]
    rw [this, ok_bind, h3, ok_bind]
    rfl

/-- **C36** Complexes can be stored iff there is at least one, every label has one row, and either the first
complex has no label or all have one. -/
theorem C36_storing_succeeds (cs : List (Complex F L)) (maxDim : Nat) :
    (∃ st, collate cs maxDim = .ok st) ↔
      cs ≠ [] ∧ (∀ c ∈ cs, ∀ l, c.y = some l → l.length = 1) ∧
      ((∃ c, cs.head? = some c ∧ c.y = none) ∨ ∀ c ∈ cs, c.y.isSome) := by
  simp only [collate_eq_ok]
  have h : (∃ labels, packLabels (cs.map Complex.y) = .ok labels) ↔
      cs ≠ [] ∧ ((∃ c, cs.head? = some c ∧ c.y = none) ∨ ∀ c ∈ cs, c.y.isSome) := by
    cases cs with
    | nil => simp [packLabels]
    | cons c cs =>
      cases hy : c.y with
      | none => simp [packLabels, hy]
      | some l =>
        simp only [List.map_cons, hy, packLabels]
        by_cases ha : (some l :: cs.map Complex.y).all Option.isSome = true
        · rw [if_pos ha]
          simp only [ok_inj, exists_eq', ne_eq, reduceCtorEq, not_false_eq_true, true_and, true_iff]
          right
          intro c' hc'
          rw [List.all_eq_true] at ha
          exact ha _ (by rw [← hy]; exact List.mem_map_of_mem (f := Complex.y) hc')
        · rw [if_neg ha]
          simp only [reduceCtorEq, exists_false, ne_eq, not_false_eq_true, true_and, false_iff, not_or]
          refine ⟨?_, ?_⟩
          · rintro ⟨c', h1, h2⟩
            simp only [List.head?_cons, Option.some.injEq] at h1
            subst h1
            rw [hy] at h2
            cases h2
          · intro h
            apply ha
            rw [List.all_eq_true]
            intro y hm
            rw [← hy, ← List.map_cons (f := Complex.y)] at hm
            obtain ⟨c', hc', rfl⟩ := List.mem_map.mp hm
            exact h c' hc'
  constructor
  · rintro ⟨st, h1, labels, h2, -⟩
    obtain ⟨h3, h4⟩ := h.mp ⟨labels, h2⟩
    exact ⟨h3, h1, h4⟩
  · rintro ⟨h1, h2, h3⟩
    obtain ⟨labels, h4⟩ := h.mpr ⟨h1, h3⟩
    exact ⟨_, h2, labels, h4, rfl⟩

theorem readLabel_ok {cs : List (Complex F L)} {labels : LabelStore L}
    (h1 : ∀ c ∈ cs, ∀ l, c.y = some l → l.length = 1) (h : packLabels (cs.map Complex.y) = .ok labels)
    {i : Nat} {comp : Complex F L} (hi : cs[i]? = some comp) (hy : ∀ c ∈ cs, c.y.isSome = comp.y.isSome) :
    readLabel labels i = .ok comp.y := by
  cases cs with
  | nil => simp at hi
  | cons c cs =>
    have hc := hy c (by simp)
    cases hcy : c.y with
    | none =>
      rw [List.map_cons, hcy] at h
      cases ok_inj.mp h
      simp only [readLabel]
      rw [hcy] at hc
      have hn : comp.y = none := by
        cases hyy : comp.y with
        | none => rfl
        | some l => rw [hyy] at hc; simp at hc
      have : getAt (none :: cs.map Complex.y) i = .ok comp.y := by
        rw [← hcy, ← List.map_cons (f := Complex.y), getAt_eq_ok, List.getElem?_map, hi]
        rfl
      rw [this, ok_bind, hn]
      rfl
    | some l =>
      rw [List.map_cons, hcy, packLabels] at h
      have hall : (some l :: cs.map Complex.y).all Option.isSome = true := by
        rw [← hcy, ← List.map_cons (f := Complex.y), List.all_eq_true]
        intro y hm
        obtain ⟨c', hc', rfl⟩ := List.mem_map.mp hm
        rw [hy c' hc', ← hc, hcy]
        rfl
      rw [if_pos hall] at h
      cases ok_inj.mp h
      simp only [readLabel, ok_inj]
      rw [← hcy, ← List.map_cons (f := Complex.y), List.map_map]
      obtain ⟨l', hl'⟩ : ∃ l', comp.y = some l' := by
        rw [← Option.isSome_iff_exists, ← hc, hcy]; rfl
      rw [hl']
      have hone : ∀ (cs : List (Complex F L)) (i : Nat), (∀ c ∈ cs, ∃ l, c.y = some l ∧ l.length = 1) →
          cs[i]? = some comp → ((cs.map ((fun v : Option (List L) => v.getD []) ∘ Complex.y)).flatten.drop i).take 1 =
            l' := by
        intro cs
        induction cs with
        | nil => intro i _ h; simp at h
        | cons c cs ih =>
          intro i hcs hget
          obtain ⟨l, h3, h4⟩ := hcs c (by simp)
          obtain ⟨a, rfl⟩ := List.length_eq_one_iff.mp h4
          cases i with
          | zero =>
            simp only [List.getElem?_cons_zero, Option.some.injEq] at hget
            subst hget
            rw [hl'] at h3
            cases h3
            simp [hl']
          | succ i =>
            simp only [List.map_cons, Function.comp_apply, h3, Option.getD_some, List.flatten_cons,
              List.singleton_append, List.drop_succ_cons]
            exact ih i (fun c hc => hcs c (by simp [hc])) (by simpa using hget)
      rw [hone (c :: cs) i ?_ hi]
      intro c' hc'
      obtain ⟨l'', hl''⟩ : ∃ l'', c'.y = some l'' := by
        rw [← Option.isSome_iff_exists, hy c' hc', hl']; rfl
      exact ⟨l'', hl'', h1 c' hc' l'' hl''⟩

/-- What the reading of item `i` gives before the complex is put together. -/
theorem retrieved_eq {cs : List (Complex F L)} {maxDim i : Nat} {comp : Complex F L} (hi : cs[i]? = some comp)
    (hlen : comp.cochains.length = comp.dimension + 1) (hd : comp.dimension ≤ maxDim)
    (hk : ∀ c ∈ comp.cochains, ∃ n, c.numCells = .ok (some n) ∧ (n ≠ 0 ∨ c.numCellsAttr.isSome)) :
    mapE (fun p => getCochain p.1 p.2 i)
        ((List.range (maxDim + 1)).map fun dim => collectDim (cs.map fun c => c.cochains[dim]?)).zipIdx =
      .ok (tab (maxDim + 1) fun d => (comp.cochains[d]?).map fun c => readBack d (some c)) ∧
    (tab (maxDim + 1) fun d => (comp.cochains[d]?).map fun c => readBack d (some c)).filterMap id =
      tab (comp.dimension + 1) fun d => readBack d comp.cochains[d]? := by
  constructor
  · rw [mapE_eq_ok_iff, List.forall₂_iff_get]
    refine ⟨by simp [tab_length], fun j h1 h2 => ?_⟩
    simp only [List.get_eq_getElem, List.getElem_zipIdx, List.getElem_map, List.getElem_range, Nat.zero_add]
    have hj : j < maxDim + 1 := by simpa [tab_length] using h2
    have hget : (tab (maxDim + 1) fun d => (comp.cochains[d]?).map fun c => readBack d (some c))[j]'h2 =
        (comp.cochains[j]?).map fun c => readBack j (some c) := by
      have := tab_get (fun d => (comp.cochains[d]?).map fun c => readBack d (some c)) hj
      exact (List.getElem?_eq_some_iff.mp this).2
    rw [hget]
    have hlev : (cs.map fun c => c.cochains[j]?)[i]? = some comp.cochains[j]? := by simp [hi]
    cases hc : comp.cochains[j]? with
    | none => rw [hc] at hlev; exact getCochain_none hlev
    | some c =>
      rw [hc] at hlev
      obtain ⟨n, h3, h4⟩ := hk c (List.mem_of_getElem? hc)
      exact getCochain_some hlev h3 h4
  · obtain ⟨k, hk⟩ : ∃ k, maxDim + 1 = comp.dimension + 1 + k := ⟨maxDim - comp.dimension, by omega⟩
    rw [hk]
    unfold tab
    rw [List.range_add, List.map_append, List.filterMap_append, List.map_map]
    have h1 : (List.map ((fun d => (comp.cochains[d]?).map fun c => readBack d (some c)) ∘
        (fun x => comp.dimension + 1 + x)) (List.range k)).filterMap id = [] := by
      rw [List.filterMap_eq_nil_iff]
      intro a ha
      obtain ⟨j, -, rfl⟩ := List.mem_map.mp ha
      simp only [Function.comp_apply, id]
      rw [List.getElem?_eq_none (by omega)]
      rfl
    rw [h1, List.append_nil, List.filterMap_map, ← List.filterMap_eq_map]
    refine List.filterMap_congr fun d hd' => ?_
    have hlt : d < comp.cochains.length := by rw [hlen]; exact List.mem_range.mp hd'
    simp only [Function.comp_apply, id, List.getElem?_eq_getElem hlt, Option.map_some]

/-- **C36** Reading item `i` of the storage gives complex `i`: the same dimension, labels, features,
adjacencies, incidences and counts, empty ones absent. The other complexes can be anything that has a label
exactly if this one has. -/
theorem C36_reading_gives_the_stored_complex (cs : List (Complex F L)) (maxDim : Nat) (st : Storage F L)
    (h : collate cs maxDim = .ok st) (i : Nat) (comp : Complex F L) (hi : cs[i]? = some comp)
    (hv : comp.Valid) (hc : comp.Counted) (hd : comp.dimension ≤ maxDim)
    (hy : ∀ c ∈ cs, c.y.isSome = comp.y.isSome) :
    ∃ comp', st.read i = .ok comp' ∧ SameComplex comp comp' := by
  obtain ⟨h1, labels, h2, rfl⟩ := collate_eq_ok.mp h
  have hk : ∀ c ∈ comp.cochains, ∃ n, c.numCells = .ok (some n) ∧ (n ≠ 0 ∨ c.numCellsAttr.isSome) := by
    intro c hm
    obtain ⟨n, hn⟩ := hv.known c hm
    refine ⟨n, hn, ?_⟩
    have := hc c hm
    rwa [count_of hn] at this
  obtain ⟨r1, r2⟩ := retrieved_eq hi hv.len hd hk
  have hdim : getAt (cs.map Complex.dimension) i = .ok comp.dimension := by
    rw [getAt_eq_ok, List.getElem?_map, hi]; rfl
  have hget : ∀ {d : Nat} {c : Cochain F L}, comp.cochains[d]? = some c →
      (tab (comp.dimension + 1) fun d => readBack d comp.cochains[d]?)[d]? = some (readBack d (some c)) := by
    intro d c hc
    have hlt := lt_of_get hc
    rw [hv.len] at hlt
    rw [tab_get _ hlt, hc]
  have hback : ∀ {d : Nat} {c : Cochain F L}, comp.cochains[d]? = some c →
      (readBack d (some c)).numCells = c.numCells := by
    intro d c hc
    obtain ⟨n, h3, h4⟩ := hk c (List.mem_of_getElem? hc)
    rw [h3, readBack_count h3 h4]
  refine ⟨{ dimension := comp.dimension,
            cochains := consolidated none (tab (comp.dimension + 1) fun d => readBack d comp.cochains[d]?),
            y := comp.y }, ?_, ?_⟩
  · unfold Storage.read
    simp only [r1, ok_bind, r2, readLabel_ok h1 h2 hi hy, hdim, tab_length, decide_true]
    simp only [pyAssert, if_true, ok_bind]
    rw [complexNew_eq_ok]
    simp only [Option.getD_none, tab_length, Nat.add_sub_cancel]
    refine ⟨?_, le_rfl, ?_, ?_, ?_⟩
    · intro h0
      have := congrArg List.length h0
      simp [tab_length] at this
    · intro j c hj hc
      rw [tab_get _ (by omega)] at hc
      cases hc
      rfl
    · intro _ j c hj hc
      rw [tab_get _ (by omega)] at hc
      cases hc
      have hlt : j < comp.cochains.length := by rw [hv.len]; omega
      rw [List.getElem?_eq_getElem hlt]
      obtain ⟨n, h3, h4⟩ := hk _ (List.getElem_mem hlt)
      exact ⟨n, readBack_count h3 h4⟩
    · rw [List.take_of_length_le (by rw [tab_length])]
  · refine ⟨rfl, rfl, by simp [consolidated_length, tab_length, hv.len], fun d c c' hc hc' => ?_⟩
    have hlt := lt_of_get hc
    rw [hv.len] at hlt
    rw [consolidated_get, hget hc] at hc'
    simp only [Option.map_some, Option.some.injEq] at hc'
    have hdd := hv.dim d c hc
    obtain ⟨n, h3, h4⟩ := hk c (List.mem_of_getElem? hc)
    subst hc'
    refine ⟨hdd.symm, rfl, rfl, rfl, rfl, rfl, rfl, rfl, rfl, rfl, rfl, rfl, rfl, ?_, ?_, ?_⟩
    · exact hback hc
    · -- the count below
      unfold Cochain.numCellsDown
      simp only [hdd]
      by_cases h0 : d = 0
      · subst h0
        rfl
      · have hb : (readBack d (some c)).dim = d := rfl
        rw [hb, if_neg h0, if_neg h0, if_neg h0]
        have hlt' : d - 1 < comp.cochains.length := by rw [hv.len]; omega
        have hcb : comp.cochains[d - 1]? = some comp.cochains[d - 1] := List.getElem?_eq_getElem hlt'
        rw [hget hcb]
        obtain ⟨n', h5, h6⟩ := hk _ (List.getElem_mem hlt')
        have hcoh := hv.down (d - 1) _ c hcb (by rw [Nat.sub_add_cancel (by omega)]; exact hc)
        unfold Cochain.numCellsDown at hcoh
        rw [hdd, if_neg h0] at hcoh
        rw [hcoh]
        simp only [recorded]
        rw [count_of (readBack_count h5 h6), h5]
    · -- the count above
      intro m hm
      by_cases htop : d = comp.dimension
      · subst htop
        have hnone : (tab (comp.dimension + 1) fun d => readBack d comp.cochains[d]?)[comp.dimension + 1]? = none :=
          tab_get_none _ le_rfl
        rw [hnone]
        obtain ⟨m', h5, h6⟩ := hv.top c hc
        rw [hm] at h5
        cases ok_inj.mp h5
        unfold Cochain.numCellsUp at hm ⊢
        simp only [recorded, readBack, countOf, Option.bind_some]
        cases hu : c.numCellsUpAttr with
        | some o =>
          rw [hu] at hm
          cases ok_inj.mp hm
          cases m with
          | some k => rfl
          | none =>
            simp only [Option.getD_some, countAttr, Option.map_none]
            have hvc := hv.valid _ c hc
            have hsc : nonEmpty c.sharedCoboundaries = none := by
              cases hs : c.sharedCoboundaries with
              | none => rfl
              | some s =>
                cases s with
                | nil => rfl
                | cons a s =>
                  have := hvc.shared a (by rw [hs]; simp)
                  unfold Complex.cellsIn at this
                  rw [List.getElem?_eq_none (by rw [hv.len])] at this
                  simp at this
            have huc : nonEmpty c.upperIndex = none := by
              have h7 := hvc.upperShared
              cases hs : c.upperIndex with
              | none => rfl
              | some s =>
                cases s with
                | nil => rfl
                | cons a s =>
                  rw [hs] at h7
                  cases hs' : c.sharedCoboundaries with
                  | none => rw [hs'] at h7; simp at h7
                  | some t =>
                    rw [hs'] at h7 hsc
                    cases t with
                    | nil => simp at h7
                    | cons b t => simp [nonEmpty] at hsc
            rw [hsc, huc]
            rfl
        | none =>
          rw [hu] at hm
          simp only [Option.getD_none, countAttr, Option.map_none]
          cases hs : c.sharedCoboundaries with
          | none =>
            rw [hs] at hm
            obtain ⟨_, h7, h8⟩ := bind_eq_ok.mp hm
            have h9 := pyAssert_eq_ok.mp h7
            have huc : c.upperIndex = none := by simpa using h9
            rw [huc]
            cases ok_inj.mp h8
            rfl
          | some s =>
            rw [hs] at hm
            obtain ⟨_, -, h8⟩ := bind_eq_ok.mp hm
            cases s with
            | nil => simp [Cochain.maxPlusOne] at h8
            | cons a s =>
              have hvc := hv.valid _ c hc
              have := hvc.shared a (by rw [hs]; simp)
              unfold Complex.cellsIn at this
              rw [List.getElem?_eq_none (by rw [hv.len])] at this
              simp at this
      · have hlt' : d + 1 < comp.cochains.length := by rw [hv.len]; omega
        have hca : comp.cochains[d + 1]? = some comp.cochains[d + 1] := List.getElem?_eq_getElem hlt'
        obtain ⟨n', h5, h6⟩ := hk _ (List.getElem_mem hlt')
        have hcoh := hv.up d c _ hc hca
        rw [hm, h5] at hcoh
        cases ok_inj.mp hcoh
        rw [hget hca]
        unfold Cochain.numCellsUp
        simp only [recorded]
        rw [count_of (readBack_count h5 h6)]
        rfl


theorem read_length {cs : List (Complex F L)} {maxDim : Nat} {st : Storage F L} (h : collate cs maxDim = .ok st)
    {i : Nat} {comp comp' : Complex F L} (hi : cs[i]? = some comp) (hr : st.read i = .ok comp') :
    ∃ out, mapE (fun p => getCochain p.1 p.2 i)
        ((List.range (maxDim + 1)).map fun dim => collectDim (cs.map fun c => c.cochains[dim]?)).zipIdx = .ok out ∧
      comp.dimension + 1 = (out.filterMap id).length := by
  obtain ⟨h1, labels, h2, rfl⟩ := collate_eq_ok.mp h
  unfold Storage.read at hr
  obtain ⟨out, h3, hr⟩ := bind_eq_ok.mp hr
  obtain ⟨_, -, hr⟩ := bind_eq_ok.mp hr
  obtain ⟨dim, h4, hr⟩ := bind_eq_ok.mp hr
  obtain ⟨_, h5, -⟩ := bind_eq_ok.mp hr
  rw [getAt_eq_ok, List.getElem?_map, hi] at h4
  simp only [Option.map_some, Option.some.injEq] at h4
  subst h4
  exact ⟨out, h3, by simpa using pyAssert_eq_ok.mp h5⟩

/-- **C36** A complex with more dimensions than are stored cannot be read. -/
theorem C36_larger_complexes_are_not_readable (cs : List (Complex F L)) (maxDim : Nat) (st : Storage F L)
    (h : collate cs maxDim = .ok st) (i : Nat) (comp : Complex F L) (hi : cs[i]? = some comp)
    (hd : maxDim < comp.dimension) : ∃ e, st.read i = .error e := by
  cases hr : st.read i with
  | error e => exact ⟨e, rfl⟩
  | ok comp' =>
    exfalso
    obtain ⟨out, h1, h2⟩ := read_length h hi hr
    have h3 := mapE_length h1
    have h4 : (out.filterMap id).length ≤ out.length := List.length_filterMap_le _ _
    simp at h3
    omega

/-- **C36** A complex with a dimension whose number of cells is only known from an empty feature matrix
cannot be read: the dimension is taken for a missing one. -/
theorem C36_dimensions_without_cells_are_not_readable (cs : List (Complex F L)) (maxDim : Nat) (st : Storage F L)
    (h : collate cs maxDim = .ok st) (i : Nat) (comp : Complex F L) (hi : cs[i]? = some comp)
    (hlen : comp.cochains.length = comp.dimension + 1) (d : Nat) (c : Cochain F L)
    (hc : comp.cochains[d]? = some c) (hx : c.x = some []) (hb : c.boundaryIndex = none)
    (hn : c.numCellsAttr = none) : ∃ e, st.read i = .error e := by
  cases hr : st.read i with
  | error e => exact ⟨e, rfl⟩
  | ok comp' =>
    exfalso
    obtain ⟨out, h1, h2⟩ := read_length h hi hr
    have h3 := mapE_eq_ok_iff.mp h1
    rw [List.forall₂_iff_get] at h3
    have hol : out.length = maxDim + 1 := by rw [← h3.1]; simp
    have hout : ∀ (j : Nat) (o : Option (Cochain F L)), out[j]? = some o →
        getCochain (collectDim (cs.map fun c => c.cochains[j]?)) j i = .ok o := by
      intro j o hj
      have hlt := lt_of_get hj
      have h4 := h3.2 j (by rw [h3.1]; exact hlt) hlt
      simp only [List.get_eq_getElem, List.getElem_zipIdx, List.getElem_map, List.getElem_range, Nat.zero_add] at h4
      rw [(List.getElem?_eq_some_iff.mp hj).2] at h4
      exact h4
    have hlev : ∀ j : Nat, (cs.map fun c => c.cochains[j]?)[i]? = some (comp.cochains[j]?) := fun j => by
      rw [List.getElem?_map, hi]; rfl
    -- nothing is read in the dimension `d` and above the top
    have hnone : ∀ (j : Nat) (o : Option (Cochain F L)), out[j]? = some o → (j = d ∨ comp.dimension < j) → o = none := by
      intro j o hj hjd
      have h4 := hout j o hj
      have h5 := hlev j
      rcases hjd with rfl | hjd
      · rw [hc] at h5
        unfold getCochain at h4
        rw [readCochain_ok h5, ok_bind] at h4
        have hnum : ∀ m, (readBack j (some c)).numCells = .ok m → m = none := by
          intro m hm
          unfold Cochain.numCells at hm
          simp only [readBack, countOf, Option.bind_some, hx, hb, hn, nonEmpty, countAttr, Option.getD_none,
            Option.map_none] at hm
          obtain ⟨_, -, hm⟩ := bind_eq_ok.mp hm
          exact (ok_inj.mp hm).symm
        obtain ⟨m, hm, h4⟩ := bind_eq_ok.mp h4
        rw [hnum m hm] at h4
        exact (ok_inj.mp h4).symm
      · rw [List.getElem?_eq_none (l := comp.cochains) (by omega)] at h5
        rw [getCochain_none h5] at h4
        exact (ok_inj.mp h4).symm
    have hdd : d ≤ comp.dimension := by have := lt_of_get hc; omega
    -- so at most `dimension` cochains are read
    have key : ∀ (l : List (Option (Cochain F L))) (s : Nat), (∀ (j : Nat) (o : Option (Cochain F L)),
        l[j]? = some o → (s + j = d ∨ comp.dimension < s + j) → o = none) →
        (l.filterMap id).length ≤ (comp.dimension + 1 - s) - (if s ≤ d ∧ d < s + l.length then 1 else 0) := by
      intro l
      induction l with
      | nil => intro s _; simp
      | cons o l ih =>
        intro s hl
        have hih := ih (s + 1) fun j o hj hjd => hl (j + 1) o (by simpa using hj) (by omega)
        cases o with
        | none =>
          rw [List.filterMap_cons_none rfl]
          simp only [List.length_cons]
          split at hih <;> split <;> omega
        | some c =>
          have h0 : ¬ (s = d ∨ comp.dimension < s) := fun hs => by
            have := hl 0 (some c) rfl (by simpa using hs)
            cases this
          have he : (some c :: l).filterMap id = c :: l.filterMap id := rfl
          rw [he]
          simp only [List.length_cons]
          split at hih <;> split <;> omega
    have hk := key out 0 (by simpa using hnone)
    by_cases hdm : d ≤ maxDim
    · rw [if_pos (by omega)] at hk
      omega
    · have h4 : (out.filterMap id).length ≤ out.length := List.length_filterMap_le _ _
      omega

/-- **C36** If the first complex has no label, the complexes that have one cannot be read. -/
theorem C36_late_labels_are_not_readable (cs : List (Complex F L)) (maxDim : Nat) (st : Storage F L)
    (h : collate cs maxDim = .ok st) (i : Nat) (comp first : Complex F L) (hi : cs[i]? = some comp)
    (hf : cs.head? = some first) (hn : first.y = none) (hy : comp.y.isSome) : ∃ e, st.read i = .error e := by
  cases hr : st.read i with
  | error e => exact ⟨e, rfl⟩
  | ok comp' =>
    exfalso
    obtain ⟨h1, labels, h2, rfl⟩ := collate_eq_ok.mp h
    unfold Storage.read at hr
    obtain ⟨out, h3, hr⟩ := bind_eq_ok.mp hr
    obtain ⟨_, h4, -⟩ := bind_eq_ok.mp hr
    cases cs with
    | nil => simp at hf
    | cons c cs =>
      simp only [List.head?_cons, Option.some.injEq] at hf
      subst hf
      rw [List.map_cons, hn] at h2
      cases ok_inj.mp h2
      simp only [readLabel] at h4
      obtain ⟨y, h5, h4⟩ := bind_eq_ok.mp h4
      obtain ⟨_, h6, -⟩ := bind_eq_ok.mp h4
      rw [← hn, ← List.map_cons (f := Complex.y), getAt_eq_ok, List.getElem?_map, hi] at h5
      simp only [Option.map_some, Option.some.injEq] at h5
      rw [h5] at hy
      have := pyAssert_eq_ok.mp h6
      cases y <;> simp_all

/-! ### C37 -/

theorem collectColumn_isSome {A : Type} {get : Cochain F L → Option (List A)} {level : List (Option (Cochain F L))} :
    (collectColumn get level).isSome ↔ ∃ c, some c ∈ level ∧ (get c).isSome := by
  unfold collectColumn
  by_cases h : level.any (fun c => (c.bind get).isSome) = true
  · rw [if_pos h]
    simp only [Option.isSome_some, true_iff]
    obtain ⟨c, h1, h2⟩ := List.any_eq_true.mp h
    cases c with
    | none => cases h2
    | some c => exact ⟨c, h1, h2⟩
  · rw [if_neg h]
    simp only [Option.isSome_none, Bool.false_eq_true, false_iff, not_exists, not_and]
    intro c h1 h2
    exact h (List.any_eq_true.mpr ⟨some c, h1, h2⟩)

theorem collectColumn_slices {A : Type} {get : Cochain F L → Option (List A)} {level : List (Option (Cochain F L))}
    {col : Column A} (h : collectColumn get level = some col) : col.slices.length = level.length + 1 := by
  unfold collectColumn at h
  split at h
  · cases h
    have := columns_eq (level.map fun c => c.bind get)
    rw [List.foldl_map] at this
    rw [this]
    simp [tab_length]
  · cases h

theorem allSlices_length {level : List (Option (Cochain F L))} {s : List Nat}
    (h : s ∈ (collectDim level).allSlices) : s.length = level.length + 1 := by
  unfold DimStore.allSlices at h
  simp only [collectDim, List.mem_filterMap, List.mem_cons, List.not_mem_nil, or_false, id, exists_eq_right] at h
  have key : ∀ {A : Type} (get : Cochain F L → Option (List A)),
      some s = (collectColumn get level).map (·.slices) → s.length = level.length + 1 := by
    intro A get hs
    obtain ⟨col, h1, rfl⟩ := Option.map_eq_some_iff.mp hs.symm
    exact collectColumn_slices h1
  rcases h with h | h | h | h | h | h | h | h | h | h | h | h <;> exact key _ h

theorem allSlices_ne_nil {level : List (Option (Cochain F L))} :
    (collectDim level).allSlices ≠ [] ↔ ∃ c, some c ∈ level ∧ c.keys ≠ [] := by
  have key : ∀ {A : Type} (get : Cochain F L → Option (List A)) (s : List Nat),
      (some s = (collectColumn get level).map (·.slices)) → ∃ c, some c ∈ level ∧ (get c).isSome := by
    intro A get s hs
    rw [← collectColumn_isSome]
    cases hc : collectColumn get level with
    | none => rw [hc] at hs; cases hs
    | some _ => rfl
  have key' : ∀ {A : Type} (get : Cochain F L → Option (List A)) (c : Cochain F L), some c ∈ level → (get c).isSome →
      ∃ s, some s = (collectColumn get level).map (·.slices) := by
    intro A get c h1 h2
    have := collectColumn_isSome.mpr ⟨c, h1, h2⟩
    obtain ⟨col, hcol⟩ := Option.isSome_iff_exists.mp this
    exact ⟨col.slices, by rw [hcol]; rfl⟩
  have hmem : ∀ s, s ∈ (collectDim level).allSlices ↔ some s ∈
      [(collectColumn Cochain.x level).map (·.slices), (collectColumn Cochain.upperIndex level).map (·.slices),
       (collectColumn Cochain.lowerIndex level).map (·.slices), (collectColumn Cochain.boundaryIndex level).map (·.slices),
       (collectColumn Cochain.y level).map (·.slices), (collectColumn Cochain.sharedBoundaries level).map (·.slices),
       (collectColumn Cochain.sharedCoboundaries level).map (·.slices),
       (collectColumn Cochain.upperOrient level).map (·.slices), (collectColumn Cochain.lowerOrient level).map (·.slices),
       (collectColumn Cochain.mask level).map (·.slices), (collectColumn Cochain.batch level).map (·.slices),
       (collectColumn Cochain.ptr level).map (·.slices)] := by
    intro s
    simp only [DimStore.allSlices, collectDim, List.mem_filterMap, id, exists_eq_right]
  constructor
  · intro h
    obtain ⟨s, hs⟩ := List.exists_mem_of_ne_nil _ h
    rw [hmem] at hs
    simp only [List.mem_cons, List.not_mem_nil, or_false] at hs
    rcases hs with h | h | h | h | h | h | h | h | h | h | h | h <;>
      (obtain ⟨c, h1, h2⟩ := key _ s h
       exact ⟨c, h1, by simp [Cochain.keys, h2]⟩)
  · rintro ⟨c, h1, h2⟩
    by_contra hnil
    apply h2
    have hno : ∀ {A : Type} (get : Cochain F L → Option (List A)), (∀ s, some s = (collectColumn get level).map
        (·.slices) → s ∈ (collectDim level).allSlices) → (get c).isSome = false := by
      intro A get hg
      cases hb : (get c).isSome with
      | false => rfl
      | true =>
        obtain ⟨s, hs⟩ := key' get c h1 hb
        have := hg s hs
        rw [hnil] at this
        cases this
    unfold Cochain.keys
    rw [hno Cochain.x fun s hs => (hmem s).mpr (by rw [hs]; simp),
      hno Cochain.upperIndex fun s hs => (hmem s).mpr (by rw [hs]; simp),
      hno Cochain.lowerIndex fun s hs => (hmem s).mpr (by rw [hs]; simp),
      hno Cochain.boundaryIndex fun s hs => (hmem s).mpr (by rw [hs]; simp),
      hno Cochain.y fun s hs => (hmem s).mpr (by rw [hs]; simp),
      hno Cochain.sharedBoundaries fun s hs => (hmem s).mpr (by rw [hs]; simp),
      hno Cochain.sharedCoboundaries fun s hs => (hmem s).mpr (by rw [hs]; simp),
      hno Cochain.upperOrient fun s hs => (hmem s).mpr (by rw [hs]; simp),
      hno Cochain.lowerOrient fun s hs => (hmem s).mpr (by rw [hs]; simp),
      hno Cochain.mask fun s hs => (hmem s).mpr (by rw [hs]; simp),
      hno Cochain.batch fun s hs => (hmem s).mpr (by rw [hs]; simp),
      hno Cochain.ptr fun s hs => (hmem s).mpr (by rw [hs]; simp)]
    rfl

/-- **C37** The length of the dataset is the number of complexes stored, in whatever order the slices are
looked at, provided some complex has some attribute in a stored dimension. Otherwise it is 0. -/
theorem C37_length_is_the_number_of_complexes (order : List (List Nat) → List (List Nat))
    (ho : ∀ l, (order l).Perm l) (cs : List (Complex F L)) (maxDim : Nat) (st : Storage F L)
    (h : collate cs maxDim = .ok st) :
    (HasAttribute cs maxDim → st.len order = cs.length) ∧ (¬ HasAttribute cs maxDim → st.len order = 0) := by
  obtain ⟨-, labels, -, rfl⟩ := collate_eq_ok.mp h
  have hmem : ∀ s ∈ ((List.range (maxDim + 1)).map fun dim =>
      collectDim (cs.map fun c => c.cochains[dim]?)).flatMap (fun s => order s.allSlices),
      s.length = cs.length + 1 := by
    intro s hs
    obtain ⟨ds, h1, h2⟩ := List.mem_flatMap.mp hs
    obtain ⟨d, -, rfl⟩ := List.mem_map.mp h1
    have := allSlices_length ((ho _).mem_iff.mp h2)
    simpa using this
  have hne : ((List.range (maxDim + 1)).map fun dim =>
      collectDim (cs.map fun c => c.cochains[dim]?)).flatMap (fun s => order s.allSlices) ≠ [] ↔
      HasAttribute cs maxDim := by
    rw [ne_eq, List.flatMap_eq_nil_iff]
    constructor
    · intro hn
      push Not at hn
      obtain ⟨ds, h1, h2⟩ := hn
      obtain ⟨d, hd, rfl⟩ := List.mem_map.mp h1
      have h3 : (collectDim (cs.map fun c => c.cochains[d]?)).allSlices ≠ [] := by
        intro h0
        apply h2
        have := ho (collectDim (cs.map fun c => c.cochains[d]?)).allSlices
        rw [h0] at this ⊢
        exact this.eq_nil
      obtain ⟨c, h4, h5⟩ := allSlices_ne_nil.mp h3
      obtain ⟨comp, h6, h7⟩ := List.mem_map.mp h4
      exact ⟨comp, h6, d, c, by simpa [Nat.lt_succ_iff] using hd, h7, h5⟩
    · rintro ⟨comp, h1, d, c, h2, h3, h4⟩ hn
      have h5 := hn (collectDim (cs.map fun c => c.cochains[d]?))
        (List.mem_map.mpr ⟨d, by simp; omega, rfl⟩)
      have h6 : (collectDim (cs.map fun c => c.cochains[d]?)).allSlices ≠ [] :=
        allSlices_ne_nil.mpr ⟨c, List.mem_map.mpr ⟨comp, h1, h3⟩, h4⟩
      apply h6
      have := ho (collectDim (cs.map fun c => c.cochains[d]?)).allSlices
      rw [h5] at this
      exact this.symm.eq_nil
  unfold Storage.len
  simp only
  cases hL : (((List.range (maxDim + 1)).map fun dim =>
      collectDim (cs.map fun c => c.cochains[dim]?)).flatMap (fun s => order s.allSlices)) with
  | nil =>
    rw [hL] at hne
    simp only [ne_eq, not_true_eq_false, false_iff] at hne
    exact ⟨fun h => absurd h hne, fun _ => rfl⟩
  | cons s l =>
    rw [hL] at hne hmem
    simp only [ne_eq, reduceCtorEq, not_false_eq_true, true_iff] at hne
    refine ⟨fun _ => ?_, fun h => absurd hne h⟩
    simp only [List.head?_cons]
    rw [hmem s (by simp)]
    rfl

/-! ### C38 -/

/-- A read beyond the end is an `IndexError`. -/
theorem read_range {cs : List (Complex F L)} {maxDim : Nat} {st : Storage F L} (h : collate cs maxDim = .ok st)
    {i : Nat} (hi : cs.length ≤ i) : st.read i = .error .index := by
  obtain ⟨-, labels, -, rfl⟩ := collate_eq_ok.mp h
  unfold Storage.read
  rw [List.range_succ_eq_map, List.map_cons, List.zipIdx_cons]
  have : getCochain (collectDim (cs.map fun c => c.cochains[0]?)) 0 i = .error .index := by
    unfold getCochain
    rw [readCochain_range (by simpa using hi)]
    rfl
  simp only [mapE, this, error_bind]

/-- What the cache may hold. -/
def CacheOk (st : Storage F L) (n : Nat) (cache : Option (List (Option (Complex F L)))) : Prop :=
  ∀ l, cache = some l → l.length = n ∧ ∀ (i : Nat) (comp : Complex F L), l[i]? = some (some comp) →
    st.read i = .ok comp

theorem get_ok {order : List (List Nat) → List (List Nat)} {ds : Dataset F L} {n : Nat}
    (hl : ds.storage.len order = n) (hr : ∀ i, n ≤ i → ds.storage.read i = .error .index)
    (hc : CacheOk ds.storage n ds.cache) (idx : Nat) :
    (ds.get order idx).2 = ds.storage.read idx ∧ (ds.get order idx).1.storage = ds.storage ∧
      CacheOk ds.storage n (ds.get order idx).1.cache := by
  have hread : ∀ cache : List (Option (Complex F L)), cache.length = n →
      (∀ (i : Nat) (comp : Complex F L), cache[i]? = some (some comp) → ds.storage.read i = .ok comp) →
      ∀ comp, ds.storage.read idx = .ok comp → ∃ cache', modifyAt cache idx (fun _ => some comp) = .ok cache' ∧
        cache'.length = n ∧
        ∀ (i : Nat) (comp : Complex F L), cache'[i]? = some (some comp) → ds.storage.read i = .ok comp := by
    intro cache h1 h2 comp hcomp
    have hlt : idx < cache.length := by
      by_contra hge
      rw [hr idx (by omega)] at hcomp
      cases hcomp
    refine ⟨cache.set idx (some comp), ?_, by simpa using h1, ?_⟩
    · unfold modifyAt
      rw [List.getElem?_eq_getElem hlt]
    · intro i c hi
      rw [List.getElem?_set] at hi
      by_cases hii : idx = i
      · subst hii
        rw [if_pos rfl, if_pos hlt] at hi
        cases hi
        exact hcomp
      · rw [if_neg hii] at hi
        exact h2 i c hi
  unfold Dataset.get Dataset.lookup
  cases hcache : ds.cache with
  | none =>
    simp only [hl]
    have hrep : ∀ (i : Nat) (comp : Complex F L), (List.replicate n (none : Option (Complex F L)))[i]? =
        some (some comp) → ds.storage.read i = .ok comp := by
      intro i comp hi
      rw [List.getElem?_replicate] at hi
      split at hi <;> cases hi
    cases hrd : ds.storage.read idx with
    | error e =>
      refine ⟨rfl, rfl, ?_⟩
      intro l hl'
      cases hl'
      exact ⟨by simp, hrep⟩
    | ok comp =>
      obtain ⟨cache', h1, h2, h3⟩ := hread _ (by simp) hrep comp hrd
      simp only [h1]
      refine ⟨trivial, trivial, ?_⟩
      intro l hl'
      cases hl'
      exact ⟨h2, h3⟩
  | some cache =>
    obtain ⟨hlen, hent⟩ := hc cache hcache
    simp only
    by_cases hlt : idx < cache.length
    · have hg : getAt cache idx = .ok cache[idx] := by
        rw [getAt_eq_ok]; exact List.getElem?_eq_getElem hlt
      simp only [hg, ok_bind, pure_eq_ok]
      cases hentry : cache[idx] with
      | some comp =>
        have := hent idx comp (by rw [List.getElem?_eq_getElem hlt, hentry])
        refine ⟨this.symm, rfl, ?_⟩
        intro l hl'
        cases hl'
        exact ⟨hlen, hent⟩
      | none =>
        simp only
        cases hrd : ds.storage.read idx with
        | error e =>
          refine ⟨rfl, rfl, ?_⟩
          intro l hl'
          cases hl'
          exact ⟨hlen, hent⟩
        | ok comp =>
          obtain ⟨cache', h1, h2, h3⟩ := hread _ hlen hent comp hrd
          simp only [h1]
          refine ⟨trivial, trivial, ?_⟩
          intro l hl'
          cases hl'
          exact ⟨h2, h3⟩
    · have hg : getAt cache idx = .error .index := by
        unfold getAt
        rw [List.getElem?_eq_none (by omega)]
      simp only [hg, error_bind]
      exact ⟨(hr idx (by omega)).symm, trivial, hcache ▸ hc⟩

/-- **C38** Any sequence of reads of a stored dataset, with repetitions and failing ones, in any order,
returns for each index what reading it without a cache returns. -/
theorem C38_reads_do_not_depend_on_the_cache (order : List (List Nat) → List (List Nat))
    (ho : ∀ l, (order l).Perm l) (cs : List (Complex F L)) (maxDim : Nat) (st : Storage F L)
    (h : collate cs maxDim = .ok st) (ha : HasAttribute cs maxDim) (idxs : List Nat) :
    Dataset.reads order { storage := st, cache := none } idxs = idxs.map st.read := by
  have hl := (C37_length_is_the_number_of_complexes order ho cs maxDim st h).1 ha
  have key : ∀ (idxs : List Nat) (ds : Dataset F L), ds.storage = st → CacheOk st cs.length ds.cache →
      Dataset.reads order ds idxs = idxs.map st.read := by
    intro idxs
    induction idxs with
    | nil => intros; rfl
    | cons idx idxs ih =>
      intro ds hs hc
      subst hs
      obtain ⟨h1, h2, h3⟩ := get_ok hl (fun i hi => read_range h hi) hc idx
      simp only [Dataset.reads, List.map_cons, h1, ih _ h2 h3]
  exact key idxs _ rfl (by intro l hl; cases hl)

/-- **C38** Without any attribute in the stored dimensions the cache has no room: every read fails, even of
a complex that can be read. -/
theorem C38_no_attributes_no_reads (order : List (List Nat) → List (List Nat))
    (ho : ∀ l, (order l).Perm l) (cs : List (Complex F L)) (maxDim : Nat) (st : Storage F L)
    (h : collate cs maxDim = .ok st) (ha : ¬ HasAttribute cs maxDim) (idx : Nat) :
    ∃ e, (Dataset.get order { storage := st, cache := none } idx).2 = .error e := by
  have hl := (C37_length_is_the_number_of_complexes order ho cs maxDim st h).2 ha
  unfold Dataset.get Dataset.lookup
  simp only [hl, List.replicate_zero]
  cases st.read idx with
  | error e => exact ⟨e, rfl⟩
  | ok comp => exact ⟨.index, rfl⟩

/-! ### C39 -/

/-- **C39** Copying a dataset never succeeds: if the selected complexes can be read it is a `TypeError`,
otherwise it is the error of the reading. -/
theorem C39_copy_always_fails (order : List (List Nat) → List (List Nat)) (ds : Dataset F L)
    (idx : Option (List Nat)) :
    (∀ comps, ds.getAll order (idx.getD (List.range (ds.storage.len order))) = .ok comps →
      ds.copy order idx = .error .type) ∧
    (∀ e, ds.getAll order (idx.getD (List.range (ds.storage.len order))) = .error e →
      ds.copy order idx = .error e) := by
  constructor
  · intro comps h
    unfold Dataset.copy
    rw [h]
    rfl
  · intro e h
    unfold Dataset.copy
    rw [h]
    rfl

/-- **C39** In particular copying stored complexes that can be read back is a `TypeError`. -/
theorem C39_copy_of_readable_complexes (order : List (List Nat) → List (List Nat))
    (ho : ∀ l, (order l).Perm l) (cs : List (Complex F L)) (maxDim : Nat) (st : Storage F L)
    (h : collate cs maxDim = .ok st) (ha : HasAttribute cs maxDim)
    (hr : ∀ i, i < cs.length → ∃ comp, st.read i = .ok comp) (idx : Option (List Nat))
    (hi : ∀ l, idx = some l → ∀ i ∈ l, i < cs.length) :
    Dataset.copy order { storage := st, cache := none } idx = .error .type := by
  have hl := (C37_length_is_the_number_of_complexes order ho cs maxDim st h).1 ha
  have key : ∀ (idxs : List Nat) (ds : Dataset F L), ds.storage = st → CacheOk st cs.length ds.cache →
      (∀ i ∈ idxs, i < cs.length) → ∃ comps, ds.getAll order idxs = .ok comps := by
    intro idxs
    induction idxs with
    | nil => intros; exact ⟨[], rfl⟩
    | cons i idxs ih =>
      intro ds hs hc hlt
      subst hs
      obtain ⟨h1, h2, h3⟩ := get_ok hl (fun i hi => read_range h hi) hc i
      obtain ⟨comp, hcomp⟩ := hr i (hlt i (by simp))
      obtain ⟨comps, hcomps⟩ := ih _ h2 h3 fun j hj => hlt j (by simp [hj])
      refine ⟨comp :: comps, ?_⟩
      simp only [Dataset.getAll, h1, hcomp, ok_bind, hcomps]
      rfl
  obtain ⟨comps, hc⟩ := key (idx.getD (List.range (st.len order))) { storage := st, cache := none } rfl
    (by intro l hl; cases hl) (by
      cases idx with
      | none => intro i hi'; rw [← hl]; simpa using hi'
      | some l => exact hi l rfl)
  exact (C39_copy_always_fails order { storage := st, cache := none } idx).1 comps hc

/-! ### Concrete cases -/

namespace Fixtures

/-- Three complexes of different dimensions, with labels. -/
def stock : List (Complex Nat Nat) := [seg, house, { dots with y := some [5] }]

/-- The slices of a dimension in the order of the model. -/
def asGiven (l : List (List Nat)) : List (List Nat) := l

end Fixtures

open Fixtures

example : ∃ st, collate stock 2 = .ok st :=
  (C36_storing_succeeds stock 2).mpr (by decide)

/-- The house is read back unchanged, with the counts of its cells. -/
example : (do let st ← collate stock 2; let comp ← st.read 1; pure (comp.cochains.map Cochain.x, comp.y)) =
    (.ok (house.cochains.map Cochain.x, house.y) : Py (List (Option (List Nat)) × Option (List Nat))) := by decide +kernel

example : ∃ st comp', collate stock 2 = .ok st ∧ st.read 1 = .ok comp' ∧ SameComplex house comp' := by
  obtain ⟨st, h⟩ := (C36_storing_succeeds stock 2).mpr (by decide)
  obtain ⟨comp', h1, h2⟩ := C36_reading_gives_the_stored_complex stock 2 st h 1 house rfl
    (validB_sound (by decide)) (by unfold Complex.Counted; decide) (by decide) (by decide)
  exact ⟨st, comp', h, h1, h2⟩

/-- Stored with dimension at most 1 the house cannot be read, the segment can. -/
example : (do let st ← collate stock 1; pure ((st.read 1).toOption.isNone, (st.read 0).toOption.isSome)) =
    (.ok (true, true) : Py (Bool × Bool)) := by decide +kernel

/-- The edges given without rows are lost and the complex cannot be read. -/
example : (do
    let st ← collate [({ dimension := 1, cochains := [dotsV, { dim := 1, x := some [] }] } : Complex Nat Nat)] 1
    st.read 0) = .error .assertion := by decide +kernel

/-- A label after an absent one is stored and cannot be read. -/
example : (do let st ← collate [{ dots with y := none }, seg] 1; st.read 1) = .error .assertion := by
  decide +kernel

example : HasAttribute stock 2 := ⟨seg, by decide, 0, { segV with numCellsUpAttr := some (some 1) }, by decide,
  rfl, by decide⟩

example : (collate stock 2).map (·.len asGiven) = .ok 3 := by decide +kernel

/-- Reads in any order, also failing ones. -/
example : (collate stock 2).map (fun st => (Dataset.reads asGiven { storage := st, cache := none } [1, 7, 1, 0]).map
    fun r => r.toOption.map (·.dimension)) = .ok [some 2, none, some 2, some 1] := by decide +kernel

/-- Vertices with a number and nothing else: the dataset is taken to be empty, and reading fails when the
complex is put in the cache. -/
example : (do
    let st ← collate [({ dimension := 0, cochains := [{ dim := 0, numCellsAttr := some (some 3) }] } :
      Complex Nat Nat)] 0
    pure ((st.len asGiven), (st.read 0).toOption.isSome,
      (Dataset.get asGiven { storage := st, cache := none } 0).2.toOption.isSome)) =
    (.ok (0, true, false) : Py (Nat × Bool × Bool)) := by decide +kernel

example : (do let st ← collate stock 2; Dataset.copy asGiven { storage := st, cache := none } (some [1])).map
    (fun _ => ()) = .error .type := by decide +kernel

end Verif
