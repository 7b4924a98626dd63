import Verif.Lemmas.Dummies
import Verif.Props.Loader
import Verif.Props.Perm
import Verif.Props.RingIso
import Verif.Props.TUDataset
import Verif.Props.Storage
import Verif.Props.Molecules
import Verif.Props.EdgeNet

/-! # The hand-made complexes and what is tested with them (C105) -/

namespace Verif

variable {F L R : Type}

theorem testing_built (num : Nat → F) : ∃ cs, testingComplexes num = .ok cs ∧ cs.length = 23 ∧
    (∀ c ∈ cs, Handmade num c ∧ c.dimension ≤ 3) ∧ ∀ k ≤ 3, ∃ c ∈ cs, c.dimension = k := by
  obtain ⟨ho, e1, d1, h1, -⟩ := house_built num
  obtain ⟨br, e2, d2, h2, -⟩ := bridged_built num
  obtain ⟨fs, e3, d3, h3, -⟩ := fullstop_built num
  obtain ⟨co, e4, d4, h4, -⟩ := colon_built num
  obtain ⟨sq, e5, d5, h5, -⟩ := square_built num
  obtain ⟨sd, e6, d6, h6, -⟩ := squareDot_built num
  obtain ⟨ki, e7, d7, h7, -⟩ := kite_built num
  obtain ⟨py, e8, d8, h8⟩ := pyramid_built num
  obtain ⟨fi, e9, d9, h9, -⟩ := filledSquare_built num
  obtain ⟨mo, e10, d10, h10, -⟩ := molecular_built num
  refine ⟨[fs, py, ho, ki, sq, sd, sq, fs, ho, ki, py, br, sd, co, fi, mo, fs, co, br, co, fs, fs, co], ?_, rfl, ?_, ?_⟩
  · unfold testingComplexes
    simp only [mapE_cons, mapE_nil, e1, e2, e3, e4, e5, e6, e7, e8, e9, e10, ok_bind]
  · intro c hc
    simp only [List.mem_cons, List.not_mem_nil, or_false] at hc
    have : c = ho ∨ c = br ∨ c = fs ∨ c = co ∨ c = sq ∨ c = sd ∨ c = ki ∨ c = py ∨ c = fi ∨ c = mo := by
      clear * - hc; tauto
    rcases this with rfl | rfl | rfl | rfl | rfl | rfl | rfl | rfl | rfl | rfl <;> refine ⟨by assumption, by omega⟩
  · intro k hk
    obtain rfl | rfl | rfl | rfl : k = 0 ∨ k = 1 ∨ k = 2 ∨ k = 3 := by omega
    · exact ⟨fs, by simp, d3⟩
    · exact ⟨sq, by simp, d5⟩
    · exact ⟨ho, by simp, d1⟩
    · exact ⟨py, by simp, d8⟩

theorem molTesting_built (num : Nat → F) : ∃ cs, molTestingComplexes num = .ok cs ∧ cs.length = 19 ∧
    (∀ c ∈ cs, Handmade num c ∧ c.dimension ≤ 2 ∧ (dropTwoFeatures c).validB = true) ∧
      ∀ k ≤ 2, ∃ c ∈ cs, c.dimension = k := by
  obtain ⟨ho, e1, d1, h1, v1⟩ := house_built num
  obtain ⟨br, e2, d2, h2, v2⟩ := bridged_built num
  obtain ⟨fs, e3, d3, h3, v3⟩ := fullstop_built num
  obtain ⟨co, e4, d4, h4, v4⟩ := colon_built num
  obtain ⟨sq, e5, d5, h5, v5⟩ := square_built num
  obtain ⟨sd, e6, d6, h6, v6⟩ := squareDot_built num
  obtain ⟨ki, e7, d7, h7, v7⟩ := kite_built num
  obtain ⟨fi, e9, d9, h9, v9⟩ := filledSquare_built num
  obtain ⟨mo, e10, d10, h10, v10⟩ := molecular_built num
  refine ⟨[ho, ki, sq, fs, br, sd, sq, fi, co, br, ki, sd, co, mo, br, fi, mo, fs, co], ?_, rfl, ?_, ?_⟩
  · unfold molTestingComplexes
    simp only [mapE_cons, mapE_nil, e1, e2, e3, e4, e5, e6, e7, e9, e10, ok_bind]
  · intro c hc
    simp only [List.mem_cons, List.not_mem_nil, or_false] at hc
    have : c = ho ∨ c = br ∨ c = fs ∨ c = co ∨ c = sq ∨ c = sd ∨ c = ki ∨ c = fi ∨ c = mo := by
      clear * - hc; tauto
    rcases this with rfl | rfl | rfl | rfl | rfl | rfl | rfl | rfl | rfl <;>
      refine ⟨by assumption, by omega, by assumption⟩
  · intro k hk
    obtain rfl | rfl | rfl : k = 0 ∨ k = 1 ∨ k = 2 := by omega
    · exact ⟨fs, by simp, d3⟩
    · exact ⟨sq, by simp, d5⟩
    · exact ⟨ho, by simp, d1⟩

/-- **C105** The hand-made complexes: the constructors accept all of them, and they are cell complexes whose neighbours are
the cells with a common face or coface, whose edges have two ends and whose boundaries are closed. There are 23 of all
dimensions up to 3, and 19 of all dimensions up to 2. -/
theorem C105_handmade_complexes (num : Nat → F) :
    (∃ cs, testingComplexes num = .ok cs ∧ cs.length = 23 ∧ (∀ c ∈ cs, Handmade num c ∧ c.dimension ≤ 3) ∧
      ∀ k ≤ 3, ∃ c ∈ cs, c.dimension = k) ∧
    ∃ cs, molTestingComplexes num = .ok cs ∧ cs.length = 19 ∧ (∀ c ∈ cs, Handmade num c ∧ c.dimension ≤ 2) ∧
      ∀ k ≤ 2, ∃ c ∈ cs, c.dimension = k := by
  refine ⟨testing_built num, ?_⟩
  obtain ⟨cs, h1, h2, h3, h4⟩ := molTesting_built num
  exact ⟨cs, h1, h2, fun c hc => ⟨(h3 c hc).1, (h3 c hc).2.1⟩, h4⟩

/-! ### The datasets -/

/-- The complexes of a dataset with alternating labels, as they are read from it. -/
theorem alternate_stored {cs : List (Complex F Int)} (hne : cs ≠ []) {m : Nat} (hv : ∀ c ∈ cs, c.Valid)
    (hfull : ∀ c ∈ cs, ∀ d ≤ c.dimension, 0 < c.cellsIn d) (hd : ∀ c ∈ cs, c.dimension ≤ m)
    (hx : ∀ c ∈ cs, (c.attr 0 Cochain.x).isSome) :
    ∃ st, collate (alternateLabels cs) m = .ok st ∧
      (∀ order : List (List Nat) → List (List Nat), (∀ l, (order l).Perm l) → st.len order = cs.length) ∧
      ∀ (i : Nat) (c : Complex F Int), cs[i]? = some c → ∃ c', st.read i = .ok c' ∧
        SameComplex { c with y := some [((i % 2 : Nat) : Int)] } c' := by
  have hmem : ∀ c ∈ alternateLabels cs, ∃ k ∈ cs, ∃ l : Int, c = { k with y := some [l] } := by
    intro c hc
    obtain ⟨⟨k, i⟩, hk, rfl⟩ := List.mem_map.mp hc
    exact ⟨k, List.mem_of_getElem? (mem_of_mem_zipIdx' hk), _, rfl⟩
  have hlen : (alternateLabels cs).length = cs.length := by simp [alternateLabels]
  obtain ⟨st, hst⟩ := (C36_storing_succeeds (alternateLabels cs) m).mpr ⟨by
      intro h
      rw [h] at hlen
      exact hne (List.length_eq_zero_iff.mp hlen.symm), fun c hc l hl => by
        obtain ⟨k, -, l', rfl⟩ := hmem c hc
        rw [← Option.some.inj hl]; rfl, .inr fun c hc => by
        obtain ⟨k, -, l', rfl⟩ := hmem c hc
        rfl⟩
  refine ⟨st, hst, fun order ho => ?_, fun i c hi => ?_⟩
  · rw [(C37_length_is_the_number_of_complexes order ho _ m st hst).1 ?_, hlen]
    obtain ⟨c, cs', rfl⟩ := List.exists_cons_of_ne_nil hne
    have h0 := hx c (by simp)
    unfold Complex.attr at h0
    cases h : c.cochains[0]? with
    | none => rw [h] at h0; cases h0
    | some k =>
      rw [h] at h0
      refine ⟨{ c with y := some [0] }, by simp [alternateLabels], 0, k, Nat.zero_le _, h, ?_⟩
      have h0 : k.x.isSome = true := h0
      unfold Cochain.keys
      rw [if_pos h0]
      simp
  · have hc := List.mem_of_getElem? hi
    have hvy : ({ c with y := some [((i % 2 : Nat) : Int)] } : Complex F Int).Valid := by
      have := hv c hc
      exact { len := this.len, dim := this.dim, up := this.up, down := this.down, known := this.known, top := this.top,
              valid := this.valid }
    exact C36_reading_gives_the_stored_complex (alternateLabels cs) m st hst i _
      (by simp [alternateLabels, hi]) hvy
      (fun k hk => .inl (by
        obtain ⟨d, hd'⟩ := List.mem_iff_getElem?.mp hk
        have hlt := lt_of_get hd'
        have hl := (hv c hc).len
        have := hfull c hc d (by
          have : d < c.cochains.length := hlt
          omega)
        unfold Complex.cellsIn at this
        have hd'' : c.cochains[d]? = some k := hd'
        rw [hd''] at this
        exact Nat.pos_iff_ne_zero.mp this)) (hd c hc)
      (fun k hk => by
        obtain ⟨k', -, l', rfl⟩ := hmem k hk
        rfl)


theorem handmade_stored {num : Nat → F} {cs : List (Complex F Int)} {m : Nat} (hne : cs ≠ [])
    (h : ∀ c ∈ cs, c.Valid ∧ (∀ d ≤ c.dimension, 0 < c.cellsIn d) ∧ (c.attr 0 Cochain.x).isSome ∧ c.dimension ≤ m) :
    ∃ st, collate (alternateLabels cs) m = .ok st ∧
      (∀ order : List (List Nat) → List (List Nat), (∀ l, (order l).Perm l) → st.len order = cs.length ∧
        dummySplits order st = ⟨some (List.range cs.length), some (List.range cs.length), some (List.range cs.length)⟩) ∧
      ∀ (i : Nat) (c : Complex F Int), cs[i]? = some c → ∃ c', st.read i = .ok c' ∧
        SameComplex { c with y := some [((i % 2 : Nat) : Int)] } c' := by
  obtain ⟨st, h1, h2, h3⟩ := alternate_stored hne (m := m) (fun c hc => (h c hc).1) (fun c hc => (h c hc).2.1)
    (fun c hc => (h c hc).2.2.2) (fun c hc => (h c hc).2.2.1)
  refine ⟨st, h1, fun order ho => ⟨h2 order ho, ?_⟩, h3⟩
  unfold dummySplits
  rw [h2 order ho]

theorem Handmade.stored {num : Nat → F} {c : Complex F Int} (h : Handmade num c) :
    c.Valid ∧ (∀ d ≤ c.dimension, 0 < c.cellsIn d) ∧ (c.attr 0 Cochain.x).isSome :=
  ⟨h.sound.ready.valid, h.sound.full, by rw [h.rows 0 (Nat.zero_le _)]; rfl⟩

theorem drop_get (c : Complex F L) (d : Nat) :
    (dropTwoFeatures c).cochains[d]? = (c.cochains[d]?).map fun k => if d = 2 then { k with x := none } else k := by
  unfold dropTwoFeatures
  simp only [List.getElem?_modify]
  cases c.cochains[d]? with
  | none => rfl
  | some k =>
    by_cases hd : d = 2
    · subst hd; rfl
    · simp [hd, Ne.symm hd]

theorem drop_attr {A : Type} (c : Complex F L) (d : Nat) (get : Cochain F L → Option A)
    (hg : ∀ k : Cochain F L, get { k with x := none } = get k) : (dropTwoFeatures c).attr d get = c.attr d get := by
  unfold Complex.attr
  rw [drop_get]
  cases c.cochains[d]? with
  | none => rfl
  | some k =>
    show get (if d = 2 then { k with x := none } else k) = get k
    split_ifs
    · exact hg k
    · rfl

theorem drop_x (c : Complex F L) (d : Nat) :
    (dropTwoFeatures c).attr d Cochain.x = if d = 2 then none else c.attr d Cochain.x := by
  unfold Complex.attr
  rw [drop_get]
  cases c.cochains[d]? with
  | none => simp
  | some k =>
    show (if d = 2 then { k with x := none } else k : Cochain F L).x = _
    split_ifs <;> rfl

theorem drop_cells {c : Complex F L} (hv : c.Valid) (hd : (dropTwoFeatures c).Valid) (d : Nat) :
    (dropTwoFeatures c).cellsIn d = c.cellsIn d := by
  by_cases h2 : d = 2
  · subst h2
    unfold Complex.cellsIn
    rw [drop_get]
    cases h : c.cochains[2]? with
    | none => rfl
    | some k =>
      obtain ⟨k1, hk1⟩ : ∃ k1, c.cochains[1]? = some k1 :=
        ⟨_, List.getElem?_eq_getElem (show 1 < c.cochains.length by have := lt_of_get h; omega)⟩
      have e1 := hv.up 1 k1 k hk1 h
      have e2 := hd.up 1 k1 { k with x := none } (by rw [drop_get, hk1]; rfl) (by rw [drop_get, h]; rfl)
      show Cochain.count _ = Cochain.count _
      unfold Cochain.count
      have : (if 2 = 2 then ({ k with x := none } : Cochain F L) else k).numCells = k.numCells := by
        rw [if_pos rfl, ← e1, e2]
      rw [this]
  · unfold Complex.cellsIn
    rw [drop_get]
    cases c.cochains[d]? with
    | none => rfl
    | some k => simp [h2]

theorem drop_stored {num : Nat → F} {c : Complex F Int} (h : Handmade num c) (hv : (dropTwoFeatures c).validB = true) :
    (dropTwoFeatures c).Valid ∧ (∀ d ≤ (dropTwoFeatures c).dimension, 0 < (dropTwoFeatures c).cellsIn d) ∧
      ((dropTwoFeatures c).attr 0 Cochain.x).isSome := by
  have hv := validB_sound hv
  refine ⟨hv, fun d hd => ?_, ?_⟩
  · rw [drop_cells h.sound.ready.valid hv]
    exact h.sound.full d hd
  · rw [drop_x, if_neg (by omega)]
    exact h.stored.2.2

/-- **C105** The dummy dataset, however often it has been constructed before: 23 complexes, each read as it was made, with the
labels 0 and 1 in turn, and all of them in each of the three splits. -/
theorem C105_dummy_dataset (num : Nat → F) (history : List (Attempt Unit)) (i : Nat) (a : Attempt Unit)
    (ha : history[i]? = some a) (hk : a.killed = none) :
    ∃ cs st, testingComplexes num = .ok cs ∧ cs.length = 23 ∧
      (openAll (Store.plain (fun _ : Unit => dummyPaths) fun _ _ => (dummyProcess num).map fun v => [v]) [] history).2[i]? =
        some (some (.ok [st])) ∧
      (∀ order : List (List Nat) → List (List Nat), (∀ l, (order l).Perm l) → st.len order = 23 ∧
        dummySplits order st = ⟨some (List.range 23), some (List.range 23), some (List.range 23)⟩) ∧
      ∀ (j : Nat) (c : Complex F Int), cs[j]? = some c → ∃ c', st.read j = .ok c' ∧
        SameComplex { c with y := some [((j % 2 : Nat) : Int)] } c' := by
  obtain ⟨cs, h1, h2, h3, -⟩ := testing_built num
  obtain ⟨st, s1, s2, s3⟩ := handmade_stored (num := num) (m := 3) (by rintro rfl; simp at h2)
    fun c hc => ⟨(h3 c hc).1.stored.1, (h3 c hc).1.stored.2.1, (h3 c hc).1.stored.2.2, (h3 c hc).2⟩
  have hp : dummyProcess num = .ok st := by
    unfold dummyProcess dummyFactory
    rw [h1]
    exact s1
  have hr : (Store.plain (fun _ : Unit => dummyPaths) fun _ _ => (dummyProcess num).map fun v => [v]).Regular :=
    Store.plain_regular (O := Unit) (fun _ => baseFolder false 3 "None") (names := ["DUMMY_complex_list.pt"]) (by simp)
      (by simp) fun _ _ vs h => by
        rw [hp] at h
        cases h
        rfl
  refine ⟨cs, st, h1, h2, ?_, by rw [h2] at s2; exact s2, s3⟩
  rw [C89_own_data hr history (fun a _ b _ _ => by rw [Store.plain_process, Store.plain_process]) i a ha hk,
    Store.plain_process, hp]
  rfl

/-- **C105** The dummy dataset of molecules, however often and with whatever options it has been constructed before:
19 complexes, each read as it was made, without features of the 2-cells if these are to be removed, and so on. -/
theorem C105_dummy_molecules (num : Nat → F) (history : List (Attempt Bool)) (i : Nat) (a : Attempt Bool)
    (ha : history[i]? = some a) (hk : a.killed = none) :
    ∃ cs st, molTestingComplexes num = .ok cs ∧ cs.length = 19 ∧
      (openAll (Store.plain dummyMolPaths fun o _ => (dummyMolProcess num o).map fun v => [v]) [] history).2[i]? =
        some (some (.ok [st])) ∧
      (∀ order : List (List Nat) → List (List Nat), (∀ l, (order l).Perm l) → st.len order = 19 ∧
        dummySplits order st = ⟨some (List.range 19), some (List.range 19), some (List.range 19)⟩) ∧
      ∀ (j : Nat) (c : Complex F Int), cs[j]? = some c → ∃ c', st.read j = .ok c' ∧ c'.dimension = c.dimension ∧
        c'.y = some [((j % 2 : Nat) : Int)] ∧ (∀ d, c'.cellsIn d = c.cellsIn d) ∧ c'.Valid ∧
        (∀ d, c'.view.up d = c.view.up d ∧ c'.view.down d = c.view.down d ∧ c'.view.bnd d = c.view.bnd d) ∧
        ∀ d, c'.attr d Cochain.x = if a.options = true ∧ d = 2 then none else c.attr d Cochain.x := by
  obtain ⟨cs, h1, h2, h3, -⟩ := molTesting_built num
  have key : ∃ st, dummyMolProcess num a.options = .ok st ∧
      (∀ order : List (List Nat) → List (List Nat), (∀ l, (order l).Perm l) → st.len order = 19 ∧
        dummySplits order st = ⟨some (List.range 19), some (List.range 19), some (List.range 19)⟩) ∧
      ∀ (j : Nat) (c : Complex F Int), cs[j]? = some c → ∃ c', st.read j = .ok c' ∧ c'.dimension = c.dimension ∧
        c'.y = some [((j % 2 : Nat) : Int)] ∧ (∀ d, c'.cellsIn d = c.cellsIn d) ∧ c'.Valid ∧
        (∀ d, c'.view.up d = c.view.up d ∧ c'.view.down d = c.view.down d ∧ c'.view.bnd d = c.view.bnd d) ∧
        ∀ d, c'.attr d Cochain.x = if a.options = true ∧ d = 2 then none else c.attr d Cochain.x := by
    unfold dummyMolProcess dummyMolFactory
    rw [h1]
    cases a.options with
    | false =>
      obtain ⟨st, s1, s2, s3⟩ := handmade_stored (num := num) (m := 2) (by rintro rfl; simp at h2)
        fun c hc => ⟨(h3 c hc).1.stored.1, (h3 c hc).1.stored.2.1, (h3 c hc).1.stored.2.2, (h3 c hc).2.1⟩
      rw [h2] at s2
      refine ⟨st, s1, s2, fun j c hj => ?_⟩
      obtain ⟨c', r1, r2⟩ := s3 j c hj
      obtain ⟨v1, v2, v3⟩ := (h3 c (List.mem_of_getElem? hj)).1.stored
      have vy : ({ c with y := some [((j % 2 : Nat) : Int)] } : Complex F Int).Valid :=
        { len := v1.len, dim := v1.dim, up := v1.up, down := v1.down, known := v1.known, top := v1.top, valid := v1.valid }
      refine ⟨c', r1, r2.dimension, r2.y, r2.cellsIn, r2.valid vy v2, fun d => by rw [r2.view]; exact ⟨rfl, rfl, rfl⟩,
        fun d => ?_⟩
      rw [r2.xs vy v2, if_neg (by simp)]
      rfl
    | true =>
      obtain ⟨st, s1, s2, s3⟩ := handmade_stored (num := num) (m := 2) (cs := cs.map dropTwoFeatures)
        (by intro h; rw [List.map_eq_nil_iff] at h; rw [h] at h2; simp at h2) (by
          intro c hc
          obtain ⟨k, hk, rfl⟩ := List.mem_map.mp hc
          obtain ⟨v1, v2, v3⟩ := drop_stored (h3 k hk).1 (h3 k hk).2.2
          exact ⟨v1, v2, v3, (h3 k hk).2.1⟩)
      rw [List.length_map, h2] at s2
      refine ⟨st, s1, s2, fun j c hj => ?_⟩
      obtain ⟨c', r1, r2⟩ := s3 j (dropTwoFeatures c) (by rw [List.getElem?_map, hj]; rfl)
      have hc := h3 c (List.mem_of_getElem? hj)
      obtain ⟨v1, v2, v3⟩ := drop_stored hc.1 hc.2.2
      have vy : ({ dropTwoFeatures c with y := some [((j % 2 : Nat) : Int)] } : Complex F Int).Valid :=
        { len := v1.len, dim := v1.dim, up := v1.up, down := v1.down, known := v1.known, top := v1.top, valid := v1.valid }
      refine ⟨c', r1, r2.dimension, r2.y, fun d => ?_, r2.valid vy v2, fun d => ?_, fun d => ?_⟩
      · rw [r2.cellsIn]
        exact drop_cells hc.1.sound.ready.valid v1 d
      · rw [r2.view]
        have u : ∀ d, (dropTwoFeatures c).view.up d = c.view.up d := fun d => by
          rw [valid_up v1, valid_up hc.1.sound.ready.valid, drop_attr _ _ _ fun k => rfl, drop_attr _ _ _ fun k => rfl]
        refine ⟨u d, ?_, ?_⟩
        · cases d with
          | zero => rfl
          | succ d =>
            show (((dropTwoFeatures c).attr (d + 1) Cochain.lowerIndex).getD []).zip
              (((dropTwoFeatures c).attr (d + 1) Cochain.sharedBoundaries).getD []) = _
            rw [drop_attr _ _ _ fun k => rfl, drop_attr _ _ _ fun k => rfl]
            rfl
        · cases d with
          | zero => rfl
          | succ d =>
            show ((dropTwoFeatures c).attr (d + 1) Cochain.boundaryIndex).getD [] = _
            rw [drop_attr _ _ _ fun k => rfl]
            rfl
      · rw [r2.xs vy v2]
        show (dropTwoFeatures c).attr d Cochain.x = _
        rw [drop_x]
        simp
  obtain ⟨st, k1, k2, k3⟩ := key
  refine ⟨cs, st, h1, h2, ?_, k2, k3⟩
  rw [C89_dummy_molecules (dummyMolProcess num) history i a ha hk, k1]
  rfl

/-! ### The tests -/

theorem batchingTest_ok [DecidableEq R] {forward : Complex R L → Py (List R)} {pred : Complex R L → R} {cs : List (Complex R L)}
    {m : Nat} (h : ∀ ds : List (Complex R L), ds ≠ [] → (∀ d ∈ ds, d ∈ cs) → (fromComplexList ds m >>= forward) = .ok (ds.map pred))
    (hne : cs ≠ []) {b : Nat} (hb : 0 < b) : batchingTest forward b m cs = .ok () := by
  obtain ⟨h1, h2, -, -⟩ := chunks_spec hb cs
  have hcne : chunks b cs ≠ [] := by
    intro e
    rw [e] at h1
    exact hne h1.symm
  have hall := infer_batches (collate := fun ds => fromComplexList ds m) h hcne (fun p hp => (h2 p hp).1)
    (by rw [h1]; exact fun _ h => h)
  rw [h1] at hall
  obtain ⟨batches, e1, e2⟩ := bind_eq_ok.mp hall
  have hone : mapE (fun comp => fromComplexList [comp] m >>= forward) cs = .ok (cs.map fun c => [pred c]) := by
    rw [mapE_eq_ok_iff, List.forall₂_map_right_iff, List.forall₂_same]
    intro c hc
    exact h [c] (by simp) (by simpa using hc)
  unfold batchingTest
  rw [if_neg (by omega), e1, ok_bind, e2, ok_bind, hone, ok_bind]
  have hcat : catRows (cs.map fun c => [pred c]) = .ok (cs.map pred) := by
    unfold catRows
    rw [if_neg (by simpa using hne)]
    congr 1
    clear * -
    induction cs with
    | nil => rfl
    | cons c cs ih => rw [List.map_cons, List.flatten_cons, ih]; rfl
  rw [hcat, ok_bind, pyAssert_eq_ok (u := ())]
  simp

section
variable {𝕜 : Type} [Field 𝕜] [AddCommGroup R] [Module 𝕜 R] [DecidableEq R]

/-- **C105** The tests of batching pass: for every network, every list of complexes with features and vertices, every size of
the batches and every dimension of them. -/
theorem C105_batching_test (cs : List (Complex R L)) (hne : cs ≠ []) (hr : ∀ c ∈ cs, c.Ready) (h0 : ∀ c ∈ cs, 0 < c.cellsIn 0)
    (b : Nat) (hb : 0 < b) (m : Nat) :
    (∀ forward : Complex R L → Py (List R), Network 𝕜 R L forward → batchingTest forward b m cs = .ok ()) ∧
    ∀ net : EdgeNet R (CINLevel 𝕜 R), net.Fits → batchingTest (net.forward 𝕜 CINLevel.forward) b m cs = .ok () := by
  constructor
  · intro forward hnet
    obtain ⟨pred, hp⟩ := hnet.all m
    exact batchingTest_ok (hp cs hr h0) hne hb
  · intro net hn
    exact batchingTest_ok (pred := fun c => net.predict (c.view.upTo m)) (fun ds hds hs =>
      EdgeNet.forward_all hn hds (fun c hc => hr c (hs c hc)) (fun c hc => h0 c (hs c hc)) m) hne hb

/-- **C105** In particular on the hand-made complexes. -/
theorem C105_batching_test_on_the_handmade_complexes (num : Nat → R) (b : Nat) (hb : 0 < b) (m : Nat) :
    ∃ cs, testingComplexes num = .ok cs ∧
      (∀ forward : Complex R Int → Py (List R), Network 𝕜 R Int forward → batchingTest forward b m cs = .ok ()) ∧
      ∀ net : EdgeNet R (CINLevel 𝕜 R), net.Fits → batchingTest (net.forward 𝕜 CINLevel.forward) b m cs = .ok () := by
  obtain ⟨cs, h1, h2, h3, -⟩ := testing_built num
  exact ⟨cs, h1, C105_batching_test cs (by rintro rfl; simp at h2) (fun c hc => (h3 c hc).1.sound.ready)
    (fun c hc => (h3 c hc).1.sound.full 0 (Nat.zero_le _)) b hb m⟩

theorem Complex.Sound.takes {comp : Complex R L} (h : comp.Sound) (hd : comp.dimension ≤ 2) {l : EmbedInit R}
    (he : l.eEmbed.isSome) : l.Takes comp where
  valid := h.ready.valid
  small := hd
  cells := h.full
  nodes := by
    have := h.full 0 (Nat.zero_le _)
    rw [← ready_X_length h.ready] at this
    cases hx : comp.attr 0 Cochain.x with
    | some x => rfl
    | none =>
      have hX : comp.view.X 0 = (comp.attr 0 Cochain.x).getD [] := rfl
      rw [hX, hx] at this
      exact absurd this (by simp)
  vertices := h.ready.vertices
  faces d c h1 hc := by
    obtain ⟨e, rfl⟩ : ∃ e, d = e + 1 := ⟨d - 1, by omega⟩
    obtain ⟨b, hb⟩ := h.covered e c hc
    exact ⟨(b, c), hb, rfl⟩
  edges _ := he

theorem drop_takes {num : Nat → R} {c : Complex R Int} (h : Handmade num c) (hd : c.dimension ≤ 2)
    (hv : (dropTwoFeatures c).validB = true) {l : EmbedInit R} (he : l.eEmbed.isSome) : l.Takes (dropTwoFeatures c) := by
  obtain ⟨v1, v2, v3⟩ := drop_stored h hv
  have ht := h.sound.takes hd he
  exact { valid := v1, small := hd, cells := v2, nodes := v3,
          vertices := by rw [drop_attr _ _ _ fun k => rfl]; exact ht.vertices
          faces := fun d k h1 hk => by
            unfold Complex.faces
            rw [drop_attr _ _ _ fun k => rfl]
            rw [drop_cells h.sound.ready.valid v1] at hk
            exact ht.faces d k h1 hk
          edges := fun _ => he }

/-- **C105** The networks that embed atoms and bonds pass the tests of batching on the molecular complexes, with and without
features of the 2-cells. -/
theorem C105_molecular_batching_test (num : Nat → R) (remove2feats : Bool) (b : Nat) (hb : 0 < b) (m : Nat) (hm : 1 ≤ m)
    (sparse : EmbedNet R (SparseLevel 𝕜 R)) (hs : sparse.net.Fits) (hsm : min 2 m ≤ sparse.net.maxDim)
    (hrs : ∀ l l' : List R, l.Perm l' → sparse.init.reduce l = sparse.init.reduce l') (hse : sparse.init.eEmbed.isSome)
    (pp : EmbedNet R (PPLevel 𝕜 R)) (hp : pp.net.Fits) (hpm : min 2 m ≤ pp.net.maxDim)
    (hrp : ∀ l l' : List R, l.Perm l' → pp.init.reduce l = pp.init.reduce l') (hpe : pp.init.eEmbed.isSome)
    (flat : EmbedNet R (SparseLevel 𝕜 R)) (hf : flat.flat.net.Fits)
    (hrf : ∀ l l' : List R, l.Perm l' → flat.init.reduce l = flat.init.reduce l') (hfe : flat.init.eEmbed.isSome)
    (gin : EmbedGIN 𝕜 R) (hg : gin.convs ≠ []) (hread : gin.readout = "sum" ∨ gin.readout = "mean")
    (hrg : ∀ l l' : List R, l.Perm l' → gin.init.reduce l = gin.init.reduce l') (hge : gin.init.eEmbed.isSome) :
    ∃ cs, dummyMolFactory num remove2feats = .ok cs ∧ cs.length = 19 ∧
      batchingTest (sparse.forward 𝕜 SparseLevel.forward) b m cs = .ok () ∧
      batchingTest (pp.forward 𝕜 PPLevel.forward) b m cs = .ok () ∧
      batchingTest (flat.forwardNoRings 𝕜 SparseLevel.forward) b m cs = .ok () ∧
      batchingTest gin.forward b m cs = .ok () := by
  obtain ⟨ks, h1, h2, h3, -⟩ := molTesting_built num
  obtain ⟨cs, hcs⟩ : ∃ cs, cs = alternateLabels (if remove2feats then ks.map dropTwoFeatures else ks) := ⟨_, rfl⟩
  have hlen : cs.length = 19 := by
    rw [hcs, ← h2]
    unfold alternateLabels
    split_ifs <;> simp
  have hmem : ∀ c ∈ cs, ∃ k ∈ ks, ∃ y : Int,
      c = { (if remove2feats then dropTwoFeatures k else k) with y := some [y] } := by
    intro c hc
    rw [hcs] at hc
    obtain ⟨⟨k, i⟩, hk, rfl⟩ := List.mem_map.mp hc
    have hk := List.mem_of_getElem? (mem_of_mem_zipIdx' hk)
    cases remove2feats with
    | false => exact ⟨k, hk, _, rfl⟩
    | true =>
      obtain ⟨k', hk', e⟩ := List.mem_map.mp (show k ∈ ks.map dropTwoFeatures from hk)
      exact ⟨k', hk', _, by rw [← e]; rfl⟩
  have hy : ∀ {l : EmbedInit R} {c : Complex R Int} (y : Int), l.Takes c → l.Takes { c with y := some [y] } := by
    intro l c y t
    exact { valid := { len := t.valid.len, dim := t.valid.dim, up := t.valid.up, down := t.valid.down,
                       known := t.valid.known, top := t.valid.top, valid := t.valid.valid }
            small := t.small, cells := t.cells, nodes := t.nodes, vertices := t.vertices, faces := t.faces, edges := t.edges }
  have ht : ∀ {l : EmbedInit R}, l.eEmbed.isSome → ∀ c ∈ cs, l.Takes c := by
    intro l he c hc
    obtain ⟨k, hk, y, rfl⟩ := hmem c hc
    obtain ⟨a1, a2, a3⟩ := h3 k hk
    refine hy y ?_
    split_ifs
    · exact drop_takes a1 a2 a3 he
    · exact a1.sound.takes a2 he
  have hdim : ∀ c ∈ cs, c.dimension ≤ 2 := fun c hc => (ht hse c hc).small
  have hx : ∀ k ∈ ks, ∀ d ≤ k.dimension, (k.attr d Cochain.x).isSome := fun k hk d hd => by
    rw [(h3 k hk).1.rows d hd]; rfl
  have hu : UniformFeatures cs := by
    intro d
    by_cases h : remove2feats = true ∧ d = 2
    · refine .inr fun c hc => ?_
      obtain ⟨k, hk, y, rfl⟩ := hmem c hc
      rw [if_pos h.1]
      show (dropTwoFeatures k).attr d Cochain.x = none
      rw [drop_x, if_pos h.2]
    · refine .inl fun c hc hd => ?_
      obtain ⟨k, hk, y, rfl⟩ := hmem c hc
      by_cases hr : remove2feats = true
      · rw [if_pos hr] at hd ⊢
        show ((dropTwoFeatures k).attr d Cochain.x).isSome
        rw [drop_x, if_neg fun e => h ⟨hr, e⟩]
        exact hx k hk d hd
      · rw [if_neg hr] at hd ⊢
        exact hx k hk d hd
  have husub : ∀ ds : List (Complex R Int), (∀ d ∈ ds, d ∈ cs) → UniformFeatures ds := fun ds h => hu.sub h
  have hne : cs ≠ [] := by
    rintro rfl
    simp at hlen
  refine ⟨cs, ?_, hlen, ?_, ?_, ?_, ?_⟩
  · unfold dummyMolFactory
    rw [h1, hcs]
    rfl
  · exact batchingTest_ok (fun ds hds h => EmbedNet.forward_all (realises_sparse false) hs hrs hds
      (fun c hc => ht hse c (h c hc)) (husub ds h) (fun c hc => by have := hdim c (h c hc); omega)) hne hb
  · exact batchingTest_ok (fun ds hds h => EmbedNet.forward_all (realises_pp false) hp hrp hds
      (fun c hc => ht hpe c (h c hc)) (husub ds h) (fun c hc => by have := hdim c (h c hc); omega)) hne hb
  · exact batchingTest_ok (fun ds hds h => EmbedNet.forwardNoRings_all sparse_ignoresAttr (realises_sparse false) hf hrf hds
      (fun c hc => ht hfe c (h c hc)) (husub ds h) hm) hne hb
  · exact batchingTest_ok (fun ds hds h => EmbedGIN.forward_all hg hread hrg hds
      (fun c hc => ht hge c (h c hc)) (husub ds h) hm) hne hb

theorem Complex.Sound.bare {comp : Complex R L} (h : comp.Sound) : ∃ graph, bareGraph comp = .ok graph ∧
    0 < graph.x.length ∧ graph.x.length = comp.cellsIn 0 ∧ EdgesIn graph.edges graph.x.length ∧ NoLoops graph.edges ∧
    graph.hasEdgeAttr = false := by
  have h0 := h.full 0 (Nat.zero_le _)
  obtain ⟨G, g1, g2, g3, g4, -⟩ := C56_graph_of_a_complex comp h.ready.valid h0
  have hl := ready_X_length h.ready 0
  have hX : comp.view.X 0 = (comp.attr 0 Cochain.x).getD [] := rfl
  cases hx : comp.attr 0 Cochain.x with
  | none => rw [hX, hx] at hl; rw [← hl] at h0; exact absurd h0 (by simp)
  | some x =>
    have hxl : x.length = comp.cellsIn 0 := by rw [← hl, hX, hx]; rfl
    have hup : ∀ e ∈ G.edgeIndex, ∃ s, (e, s) ∈ comp.view.up 0 := by
      intro e he
      rw [g4] at he
      obtain ⟨i, hi⟩ := List.mem_iff_getElem?.mp he
      have hlen : ((comp.attr 0 Cochain.sharedCoboundaries).getD []).length = ((comp.attr 0 Cochain.upperIndex).getD []).length := by
        cases hc : comp.cochains[0]? with
        | none => rw [attr_none hc, attr_none hc]; rfl
        | some c =>
          unfold Complex.attr
          rw [hc]
          exact (h.ready.valid.valid 0 c hc).upperShared
      obtain ⟨s, hs⟩ : ∃ s, ((comp.attr 0 Cochain.sharedCoboundaries).getD [])[i]? = some s :=
        ⟨_, List.getElem?_eq_getElem (by rw [hlen]; exact lt_of_get hi)⟩
      refine ⟨s, ?_⟩
      rw [valid_up h.ready.valid]
      exact List.mem_of_getElem? (i := i) (by rw [List.getElem?_zip_eq_some]; exact ⟨hi, hs⟩)
    refine ⟨⟨x, G.y, G.edgeIndex, false⟩, ?_, by rw [hxl]; exact h0, hxl, ?_, ?_, rfl⟩
    · unfold bareGraph
      rw [g1, ok_bind, g2, hx]
      rfl
    · intro e he
      obtain ⟨s, hs⟩ := hup e he
      have := (ready_inRange h.ready).up 0 _ hs
      rw [hl, ← hxl] at this
      exact ⟨this.1, this.2.1⟩
    · intro e he
      obtain ⟨s, hs⟩ := hup e he
      exact ((h.faces.up 0 e.1 e.2 s).mp hs).1

omit [DecidableEq R] in
theorem dimension_of_relabels {c c' : Complex R L} {b1 b2 : Bool} (h : RingFacts c b1 b2) (h' : RingFacts c' b1 b2)
    (hs : ∀ d, c'.cellsIn d = c.cellsIn d) : c'.dimension = c.dimension := by
  have key : ∀ {a b : Complex R L}, RingFacts a b1 b2 → RingFacts b b1 b2 → (∀ d, b.cellsIn d = a.cellsIn d) →
      b.dimension ≤ a.dimension := by
    intro a b ha hb hab
    by_contra hlt
    have h1 := hb.cells (a.dimension + 1) (by omega)
    rw [hab] at h1
    unfold Complex.cellsIn at h1
    rw [absent_of_gt ha.valid (by omega)] at h1
    exact absurd h1 (by simp)
  exact le_antisymm (key h h' hs) (key h' h fun d => (hs d).symm)

variable [AddCommGroup L]

/-- A graph and its permuted copy: both are lifted, and the network predicts the same for both. -/
theorem permuted_same {coo : CooLib} (hcoo : coo.Correct) {g : Gudhi} (hg : g.Ok) {lib : RingLib} (hlib : lib.Ok)
    {agg : List R → R} (hagg : ∀ l l' : List R, l.Perm l' → agg l = agg l') {forward : Complex R L → Py (List R)}
    (hnet : Network 𝕜 R L forward) {graph : PGraph R L} (hpos : 0 < graph.x.length)
    (he : EdgesIn graph.edges graph.x.length) (hl : NoLoops graph.edges) (ha : graph.hasEdgeAttr = false) {P : Mat}
    (hP : isValidPermutationMatrix P graph.x.length = .ok true) :
    ∃ p comp out comp', liftBare g lib agg graph = .ok comp ∧ embedAlone forward comp = .ok [p] ∧
      permuteGraph coo graph P = .ok out ∧ liftBare g lib agg out = .ok comp' ∧ embedAlone forward comp' = .ok [p] := by
  obtain ⟨σ, s1, s2, s3⟩ := (C50_valid_iff_permutation P graph.x.length).mp hP
  obtain ⟨out, o1, o2, -, -, -, -, -, o3⟩ := C51_permuted_graph coo hcoo graph P σ ha s1 s2 s3 he
  obtain ⟨hsz, π, hπ⟩ := C51_isomorphic coo hcoo graph P he out o1
  have okG : (⟨graph.x.length, graph.x, graph.edges, none, none⟩ : RGraph R L).Ok :=
    ⟨hpos, rfl, he, hl, (by intro a h; cases h), (by intro a h; cases h)⟩
  have okH : (⟨out.x.length, out.x, out.edges, none, none⟩ : RGraph R L).Ok :=
    ⟨by show 0 < out.x.length; omega, rfl, fun e h => by
        have := (o3 e.1 e.2).mp h
        show e.1 < out.x.length ∧ e.2 < out.x.length
        omega, fun e h => by
        have := (o3 e.1 e.2).mp h
        intro e'
        rw [e'] at this
        exact hl _ this.2.2 rfl, (by intro a h; cases h), (by intro a h; cases h)⟩
  obtain ⟨c', c, e1, e2, f1, f2, φ, hφ⟩ := ring_relabels (maxK := 7) (down := false) (initEdges := true)
    (initRings := true) hg hg hlib hlib hagg okH okG ⟨hsz, rfl, π, hπ, by intro a a' h; cases h⟩
  obtain ⟨p, t1, t2⟩ := hnet.invariant c'.dimension (relabels_of_cells f1.ready f2.ready hφ) f1.ready f2.ready
    (f1.cells 0 (Nat.zero_le _))
  refine ⟨p, c, out, c', e2, ?_, o1, e1, t1⟩
  unfold embedAlone
  rw [dimension_of_relabels f1 f2 hφ.size]
  exact t2

/-- **C105** The permutation test passes: for every network, every list of cell complexes and all permutations of their
vertices, however many for each. -/
theorem C105_permutation_test (coo : CooLib) (hcoo : coo.Correct) (g : Gudhi) (hg : g.Ok) (lib : RingLib) (hlib : lib.Ok)
    (agg : List R → R) (hagg : ∀ l l' : List R, l.Perm l' → agg l = agg l') (forward : Complex R L → Py (List R))
    (hnet : Network 𝕜 R L forward) (cs : List (Complex R L)) (hs : ∀ c ∈ cs, c.Sound) (perms : List (List Mat))
    (hperms : List.Forall₂ (fun c Ps => ∀ P ∈ Ps, isValidPermutationMatrix P (c.cellsIn 0) = .ok true) cs perms) :
    permutationTest coo g lib agg forward perms cs = .ok () := by
  have key : ∀ c ∈ cs, ∃ graph comp p, bareGraph c = .ok graph ∧ liftBare g lib agg graph = .ok comp ∧
      embedAlone forward comp = .ok [p] ∧ ∀ P, isValidPermutationMatrix P (c.cellsIn 0) = .ok true →
        ∃ out comp', permuteGraph coo graph P = .ok out ∧ liftBare g lib agg out = .ok comp' ∧
          embedAlone forward comp' = .ok [p] := by
    intro c hc
    obtain ⟨graph, b1, b2, b3, b4, b5, b6⟩ := (hs c hc).bare
    have okG : (⟨graph.x.length, graph.x, graph.edges, none, none⟩ : RGraph R L).Ok :=
      ⟨b2, rfl, b4, b5, (by intro a h; cases h), (by intro a h; cases h)⟩
    obtain ⟨comp, comp2, e1, -, f1, -, -⟩ := ring_relabels (maxK := 7) (down := false) (initEdges := true)
      (initRings := true) hg hg hlib hlib hagg okG okG ⟨rfl, rfl, id, ⟨fun _ h => h, fun _ _ _ _ h => h, fun _ _ _ _ => Iff.rfl,
        fun _ _ => rfl⟩, by intro a a' h; cases h⟩
    obtain ⟨pred, hp⟩ := hnet.all comp.dimension
    have hp := hp [comp] (by simpa using f1.ready) (by simpa using f1.cells 0 (Nat.zero_le _)) [comp] (by simp) (by simp)
    refine ⟨graph, comp, pred comp, b1, e1, hp, fun P hP => ?_⟩
    rw [← b3] at hP
    obtain ⟨p, comp', out, comp'', t1, t2, t3, t4, t5⟩ := permuted_same hcoo hg hlib hagg hnet b2 b4 b5 b6 hP
    have e1 : liftBare g lib agg graph = .ok comp := e1
    rw [e1] at t1
    cases t1
    have hp : embedAlone forward comp = .ok [pred comp] := hp
    rw [hp] at t2
    cases t2
    exact ⟨out, comp'', t3, t4, t5⟩
  have all : ∃ graphs comps embs, mapE bareGraph cs = .ok graphs ∧ mapE (liftBare g lib agg) graphs = .ok comps ∧
      mapE (embedAlone forward) comps = .ok embs ∧ ∃ us, mapE (fun (p : (List R × PGraph R L) × List Mat) => mapE (fun P => do
        let permuted ← permuteGraph coo p.1.2 P
        let comp ← liftBare g lib agg permuted
        let emb ← embedAlone forward comp
        pyAssert (decide (p.1.1 = emb))) p.2) ((embs.zip graphs).zip perms) = .ok us := by
    clear hs
    induction hperms with
    | nil => exact ⟨[], [], [], rfl, rfl, rfl, [], rfl⟩
    | @cons c Ps cs perms h _ ih =>
      obtain ⟨graphs, comps, embs, i1, i2, i3, us, i4⟩ := ih fun c hc => key c (by simp [hc])
      obtain ⟨graph, comp, p, k1, k2, k3, k4⟩ := key c (by simp)
      have hu : mapE (fun P => do
          let permuted ← permuteGraph coo graph P
          let comp ← liftBare g lib agg permuted
          let emb ← embedAlone forward comp
          pyAssert (decide ([p] = emb))) Ps = .ok (Ps.map fun _ => ()) := by
        rw [mapE_eq_ok_iff, List.forall₂_map_right_iff, List.forall₂_same]
        intro P hP
        obtain ⟨out, comp', o1, o2, o3⟩ := k4 P (h P hP)
        rw [o1, ok_bind, o2, ok_bind, o3, ok_bind, pyAssert_eq_ok (u := ())]
        simp
      refine ⟨graph :: graphs, comp :: comps, [p] :: embs, ?_, ?_, ?_, (Ps.map fun _ => ()) :: us, ?_⟩
      · rw [mapE_cons, k1, ok_bind, i1]; rfl
      · rw [mapE_cons, k2, ok_bind, i2]; rfl
      · rw [mapE_cons, k3, ok_bind, i3]; rfl
      · rw [List.zip_cons_cons, List.zip_cons_cons, mapE_cons]
        dsimp only
        rw [hu, ok_bind, i4]
        rfl
  obtain ⟨graphs, comps, embs, a1, a2, a3, us, a4⟩ := all
  unfold permutationTest
  rw [a1, ok_bind, a2, ok_bind, a3, ok_bind, a4]
  rfl

end

/-- **C105** In particular on the molecular complexes, with the matrices generated for each of them from whatever is drawn. -/
theorem C105_permutation_test_on_the_molecular_complexes {𝕜 : Type} [Field 𝕜] [AddCommGroup R] [Module 𝕜 R] [DecidableEq R]
    (num : Nat → R) (coo : CooLib) (hcoo : coo.Correct) (g : Gudhi) (hg : g.Ok)
    (lib : RingLib) (hlib : lib.Ok) (agg : List R → R) (hagg : ∀ l l' : List R, l.Perm l' → agg l = agg l')
    (forward : Complex R Int → Py (List R)) (hnet : Network 𝕜 R Int forward) (amount : Nat) (draws : List (List (List Nat)))
    (perms : List (List Mat)) :
    ∃ cs, molTestingComplexes num = .ok cs ∧
      ((∀ (i : Nat) (c : Complex R Int) (ds : List (List Nat)), cs[i]? = some c → draws[i]? = some ds →
          ∀ p ∈ ds, p.Perm (List.range (c.cellsIn 0))) →
        List.Forall₂ (fun (c : Complex R Int × List (List Nat)) Ps =>
          generatePermutationMatrices (c.1.cellsIn 0) amount c.2 [] = .ok (some Ps)) (cs.zip draws) perms →
        draws.length = cs.length → permutationTest coo g lib agg forward perms cs = .ok ()) := by
  obtain ⟨cs, h1, h2, h3, -⟩ := molTesting_built num
  refine ⟨cs, h1, fun hd hp hl => ?_⟩
  refine C105_permutation_test coo hcoo g hg lib hlib agg hagg forward hnet cs (fun c hc => (h3 c hc).1.sound) perms ?_
  rw [List.forall₂_iff_get] at hp ⊢
  obtain ⟨p1, p2⟩ := hp
  have hzl : (cs.zip draws).length = cs.length := by rw [List.length_zip, hl, min_self]
  refine ⟨by rw [← p1, hzl], fun i hi hi' => ?_⟩
  have := p2 i (by rw [hzl]; exact hi) hi'
  simp only [List.get_eq_getElem, List.getElem_zip] at this ⊢
  exact (C50_generated _ _ _ (hd i _ _ (List.getElem?_eq_getElem hi) (List.getElem?_eq_getElem (by omega))) _ this).2.2

/-! ### Examples -/

section Examples
open Fixtures

/-- The numbers of vertices, with the features as they are. -/
example : (testingComplexes fun n => (n : ℚ)).map (List.map fun c => (c.dimension, c.cellsIn 0)) =
    .ok [(0, 1), (3, 4), (2, 5), (2, 5), (1, 4), (1, 5), (1, 4), (0, 1), (2, 5), (2, 5), (3, 4), (2, 5), (1, 5), (0, 2),
      (2, 4), (2, 8), (0, 1), (0, 2), (2, 5), (0, 2), (0, 1), (0, 1), (0, 2)] := by
  decide +kernel

/-- The dataset after a construction that was killed and another one. -/
example := C105_dummy_dataset (fun n => (n : ℚ)) [⟨(), 0, some 0⟩, ⟨(), 5, none⟩, ⟨(), 7, none⟩] 2 ⟨(), 7, none⟩ rfl rfl

/-- Without features of the 2-cells after it was constructed with them. -/
example := C105_dummy_molecules (fun n => (n : ℚ)) [⟨false, 0, none⟩, ⟨true, 5, some 0⟩, ⟨true, 7, none⟩] 2 ⟨true, 7, none⟩ rfl rfl

/-- Two of the complexes of the molecular dataset: labels, and whether there are features in dimension 2. -/
example : (dummyMolProcess (fun n => (n : ℚ)) true >>= fun st => mapE st.read [0, 13]).map
    (List.map fun c => (c.y, c.cellsIn 2, (c.attr 2 Cochain.x).isSome)) =
      .ok [(some [0], 1, false), (some [1], 2, false)] := by
  decide +kernel

/-- Batches of five, cut off above the edges. -/
example : ∃ cs, testingComplexes (fun n => (n : ℚ)) = .ok cs ∧ batchingTest (sparseNetQ.forward ℚ SparseLevel.forward) 5 1 cs = .ok () := by
  obtain ⟨cs, h1, h2, -⟩ := C105_batching_test_on_the_handmade_complexes (𝕜 := ℚ) (fun n => (n : ℚ)) 5 (by omega) 1
  exact ⟨cs, h1, h2 _ (.sparse sparseNetQ sparseNetQ_fits)⟩

/-- The test does not pass with a network that adds up what it predicts for a batch. -/
example : batchingTest (fun B => (sparseNetQ.forward ℚ SparseLevel.forward B).map fun l => [l.sum]) 2 2 [segQ, houseQ] =
    .error .assertion := by
  decide +kernel

/-- The networks of the molecular test. -/
example := C105_molecular_batching_test (𝕜 := ℚ) (fun n => (n : ℚ)) true 4 (by omega) 2 (by omega)
  noRingsQ sparseNetQ_fits (by decide) initQ_reduce rfl embedPPQ ppNetQ_fits (by decide) initQ_reduce rfl
  flatQ ⟨by simp [EmbedNet.flat, flatQ, sparseNetQ], by simp [EmbedNet.flat, flatQ, sparseNetQ], rfl, .inr rfl, .inl rfl, by decide⟩
  initQ_reduce rfl ginQ (by decide) (by decide) initQ_reduce rfl

/-- Two permutations of the square. -/
example : ∃ c, squareComplex (fun n => (n : ℚ)) = .ok c ∧
    permutationTest rowMajor plainGudhi plainRings List.sum (sparseNetQ.forward ℚ SparseLevel.forward)
      [[eyeRows [1, 2, 3, 0] 4, eyeRows [3, 1, 2, 0] 4]] [c] = .ok () := by
  obtain ⟨c, h1, -, h2, -⟩ := square_built (fun n => (n : ℚ))
  refine ⟨c, h1, C105_permutation_test (𝕜 := ℚ) rowMajor rowMajor_correct plainGudhi plainGudhi_ok plainRings plainRings_ok
    List.sum (fun _ _ h => h.sum_eq) _ (.sparse sparseNetQ sparseNetQ_fits) [c] (by simpa using h2.sound) _ (.cons ?_ .nil)⟩
  have hc : c.cellsIn 0 = 4 := by
    have : (squareComplex (fun n => (n : ℚ))).map (fun c => c.cellsIn 0) = .ok 4 := by decide +kernel
    rw [h1] at this
    exact Except.ok.inj this
  rw [hc]
  decide +kernel

/-- It does not pass with a network that predicts the feature of the first vertex. -/
example : (squareComplex (fun n => (n : ℚ)) >>= fun c => permutationTest rowMajor plainGudhi plainRings List.sum
      (fun B => .ok ((B.view.X 0).take 1)) [[eyeRows [1, 2, 3, 0] 4]] [c]) = .error .assertion := by
  decide +kernel

/-- Two matrices for each of the molecular complexes; the identity is not used unless there is one vertex only. -/
example : ((molTestingComplexes fun n => (n : ℚ)) >>= fun cs => mapE (fun c => generatePermutationMatrices (c.cellsIn 0) 2
      [(List.range (c.cellsIn 0)).rotate 1, List.range (c.cellsIn 0), (List.range (c.cellsIn 0)).reverse] []) cs).map
        (List.map fun Ps => Ps.map List.length) = .ok (List.replicate 19 (some 2)) := by
  decide +kernel

end Examples

end Verif
