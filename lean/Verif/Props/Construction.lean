import Verif.Lemmas.ComplexBatch
import Verif.Fixtures

/-!
# Construction of complexes and feature access: properties C08, C09, C10, C11
-/

namespace Verif

variable {F L : Type}

/-- **C08** A constructed complex is coherent: every cochain carries its dimension and reports as
neighbouring counts what its neighbours report as their own counts. Construction keeps
everything else of each cochain, in particular its own number of cells, and the top cochain
keeps its report of the number of cells above. -/
theorem C08_construction_coherent (cs : List (Cochain F L)) (y : Option (List L))
    (k : Option Nat) (comp : Complex F L) (h : Complex.new cs y k = .ok comp) :
    comp.Coherent ∧ comp.y = y ∧
    ∀ d c, comp.cochains[d]? = some c → ∃ c0 u l, cs[d]? = some c0 ∧
      c = { c0 with numCellsUpAttr := u, numCellsDownAttr := l } ∧
      c.numCells = c0.numCells ∧ (d = comp.dimension → c.numCellsUp = c0.numCellsUp) :=
  new_coherent h

/-- The house: every count is coherent, and the triangle keeps reporting no cells above. -/
example : ∃ comp, Complex.new [Fixtures.houseV, Fixtures.houseE, Fixtures.houseT] none none = .ok comp ∧
    comp.cochains.map Cochain.numCellsUp = [.ok (some 6), .ok (some 1), .ok (some 0)] ∧
    comp.cochains.map Cochain.numCellsDown = [.ok none, .ok (some 5), .ok (some 6)] :=
  ⟨{ Fixtures.house with y := none }, by decide, by decide, by decide⟩

/-- **C08** Counts recorded on the cochains beforehand are never checked: whatever they are, the
construction succeeds and the cochains other than the top one end up with the same counts. -/
theorem C08_recorded_counts_overwritten (cs : List (Cochain F L)) (y : Option (List L))
    (k : Option Nat) (comp : Complex F L) (u l : Cochain F L → Option (Option Nat))
    (h : Complex.new cs y k = .ok comp) :
    ∃ comp', Complex.new (cs.map fun c => { c with numCellsUpAttr := u c, numCellsDownAttr := l c })
        y k = .ok comp' ∧ comp'.dimension = comp.dimension ∧
      ∀ d c c', comp.cochains[d]? = some c → comp'.cochains[d]? = some c' →
        c'.numCells = c.numCells ∧
        (d < comp.dimension → c'.numCellsUp = c.numCellsUp) ∧
        c'.numCellsDown = c.numCellsDown := by
  obtain ⟨hne, hlen, hdim, hk, hcomp⟩ := complexNew_eq_ok.mp h
  obtain ⟨comp', hok⟩ : ∃ comp', Complex.new (cs.map fun c =>
      { c with numCellsUpAttr := u c, numCellsDownAttr := l c }) y k = .ok comp' := by
    refine ⟨_, complexNew_eq_ok.mpr ⟨by simpa using hne, by simpa using hlen, ?_, ?_, rfl⟩⟩
    · intro i c hi hc
      rw [List.getElem?_map, Option.map_eq_some_iff] at hc
      obtain ⟨c0, h0, rfl⟩ := hc
      exact hdim i c0 (by simpa using hi) h0
    · intro h1 i c hi hc
      rw [List.getElem?_map, Option.map_eq_some_iff] at hc
      obtain ⟨c0, h0, rfl⟩ := hc
      exact hk (by simpa using h1) i c0 (by simpa using hi) h0
  have hdd : comp'.dimension = comp.dimension := by
    rw [(complexNew_eq_ok.mp hok).2.2.2.2, hcomp]; simp
  refine ⟨_, hok, hdd, ?_⟩
  have g1 := C08_construction_coherent _ _ _ _ h
  have g2 := C08_construction_coherent _ _ _ _ hok
  obtain ⟨co, -, s⟩ := g1
  obtain ⟨co', -, s'⟩ := g2
  have hnc : ∀ (d : Nat) (c c' : Cochain F L), comp.cochains[d]? = some c → comp'.cochains[d]? = some c' →
      c'.numCells = c.numCells := by
    intro d c c' hc hc'
    obtain ⟨c0, _, _, h0, -, e, -⟩ := s d c hc
    obtain ⟨c0', _, _, h0', -, e', -⟩ := s' d c' hc'
    rw [e, e']
    rw [List.getElem?_map, h0] at h0'
    cases h0'
    rfl
  have hex : ∀ (d : Nat) (c : Cochain F L), comp.cochains[d]? = some c → ∃ c', comp'.cochains[d]? = some c' := by
    intro d c hc
    have h1 := (List.getElem?_eq_some_iff.mp hc).1
    rw [co.len, ← hdd, ← co'.len] at h1
    exact ⟨_, List.getElem?_eq_getElem h1⟩
  intro d c c' hc hc'
  refine ⟨hnc d c c' hc hc', ?_, ?_⟩
  · intro hlt
    have h1 : d + 1 < comp.cochains.length := by rw [co.len]; omega
    have e1 := List.getElem?_eq_getElem h1
    obtain ⟨e, he⟩ := hex _ _ e1
    rw [co.up d c _ hc e1, co'.up d c' _ hc' he, hnc _ _ _ e1 he]
  · cases d with
    | zero => simp [Cochain.numCellsDown, co.dim 0 c hc, co'.dim 0 c' hc']
    | succ d =>
      have h1 : d < comp.cochains.length := by
        have := (List.getElem?_eq_some_iff.mp hc).1; omega
      have e1 := List.getElem?_eq_getElem h1
      obtain ⟨e, he⟩ := hex _ _ e1
      rw [co.down d _ c e1 hc, co'.down d _ c' he hc', hnc _ _ _ e1 he]

/-- Wrong recorded counts on the vertices of the house disappear silently. -/
example : (Complex.new [{ Fixtures.houseV with numCellsUpAttr := some (some 99) },
    Fixtures.houseE, Fixtures.houseT] none none).map
      (fun comp => comp.cochains.map Cochain.numCellsUp) =
    .ok [.ok (some 6), .ok (some 1), .ok (some 0)] := by decide

/-- **C09** Exact acceptance: at least one cochain, enough of them, each carrying its dimension,
and, as soon as there are neighbours, known numbers of cells. -/
theorem C09_constructor_accepts_iff (cs : List (Cochain F L)) (y : Option (List L))
    (k : Option Nat) :
    (∃ comp, Complex.new cs y k = .ok comp) ↔
      cs ≠ [] ∧ (∀ m, k = some m → m + 1 ≤ cs.length) ∧
      (∀ i c, i ≤ k.getD (cs.length - 1) → cs[i]? = some c → c.dim = i) ∧
      (1 ≤ k.getD (cs.length - 1) → ∀ i c, i ≤ k.getD (cs.length - 1) → cs[i]? = some c →
        ∃ n, c.numCells = .ok (some n)) := by
  constructor
  · rintro ⟨comp, h⟩
    obtain ⟨hne, hlen, hdim, hk, -⟩ := complexNew_eq_ok.mp h
    exact ⟨hne, fun m hm => by subst hm; exact hlen, hdim, hk⟩
  · rintro ⟨hne, hlen, hdim, hk⟩
    refine ⟨_, complexNew_eq_ok.mpr ⟨hne, ?_, hdim, hk, rfl⟩⟩
    cases k with
    | none =>
      have := List.length_pos_iff.mpr hne
      simp; omega
    | some m => exact hlen m rfl

/-- Vertices and edges in order, with the top dimension given. -/
example : ∃ comp, Complex.new [Fixtures.segV, Fixtures.segE] none (some 1) = .ok comp :=
  (C09_constructor_accepts_iff _ _ _).mpr ⟨by simp, by simp, by
    intro i c hi hc
    match i, hi with
    | 0, _ | 1, _ => cases hc; rfl, by
    intro _ i c hi hc
    match i, hi with
    | 0, _ => cases hc; exact ⟨3, by decide⟩
    | 1, _ => cases hc; exact ⟨1, by decide⟩⟩

theorem consolidateFrom_error {dim : Nat} {lower : Option (Cochain F L)}
    {cs : List (Cochain F L)} {e : PyErr} (h : consolidateFrom dim lower cs = .error e) :
    e = .assertion ∨ ∃ c, (c ∈ cs ∨ ∃ l, lower = some l ∧ l.numCells = c.numCells) ∧
      c.numCells = .error e := by
  induction cs generalizing dim lower with
  | nil => simp [consolidateFrom] at h
  | cons c rest ih =>
    unfold consolidateFrom at h
    by_cases hd : (c.dim == dim) = true
    · rw [hd, pyAssert_true, ok_bind] at h
      cases h1 : consolidateUp c rest.head? with
      | error e1 =>
        rw [h1, error_bind] at h
        cases h
        cases hr : rest.head? with
        | none => rw [hr] at h1; simp [consolidateUp] at h1
        | some u =>
          rw [hr] at h1
          simp only [consolidateUp, not_contains_up] at h1
          cases hu : u.numCells with
          | error e2 =>
            rw [hu, error_bind] at h1
            cases h1
            exact Or.inr ⟨u, Or.inl (by simp [List.mem_of_mem_head? hr]), hu⟩
          | ok n =>
            cases n with
            | none => rw [hu] at h1; simp at h1; exact Or.inl h1.symm
            | some n => rw [hu] at h1; simp at h1
      | ok c1 =>
        rw [h1, ok_bind] at h
        have hc1 : c1.numCells = c.numCells := by
          obtain ⟨-, rfl⟩ := consolidateUp_eq_ok.mp h1; rfl
        cases h2 : consolidateDown c1 lower with
        | error e2 =>
          rw [h2, error_bind] at h
          cases h
          cases lower with
          | none => simp [consolidateDown] at h2
          | some l =>
            simp only [consolidateDown, not_contains_down] at h2
            cases hu : l.numCells with
            | error e3 =>
              rw [hu, error_bind] at h2
              cases h2
              exact Or.inr ⟨l, Or.inr ⟨l, rfl, rfl⟩, hu⟩
            | ok n =>
              cases n with
              | none => rw [hu] at h2; simp at h2; exact Or.inl h2.symm
              | some n => rw [hu] at h2; simp at h2
        | ok c2 =>
          rw [h2, ok_bind] at h
          have hc2 : c2.numCells = c.numCells := by
            obtain ⟨-, rfl⟩ := consolidateDown_eq_ok.mp h2
            exact hc1
          cases h3 : consolidateFrom (dim + 1) (some c2) rest with
          | ok r => rw [h3] at h; simp at h
          | error e3 =>
            rw [h3, error_bind] at h
            cases h
            rcases ih h3 with h | ⟨d, hd | ⟨l, hl, hld⟩, he⟩
            · exact Or.inl h
            · exact Or.inr ⟨d, Or.inl (by simp [hd]), he⟩
            · cases hl
              exact Or.inr ⟨c, Or.inl (by simp), by rw [← hc2, hld, he]⟩
    · rw [Bool.not_eq_true] at hd
      rw [hd, pyAssert_false, error_bind] at h
      cases h; exact Or.inl rfl

/-- **C09** The errors: `ValueError` exactly when no or too few cochains are given; any other
failure is an assertion failure or the exception raised by asking a cochain for its size. -/
theorem C09_constructor_errors (cs : List (Cochain F L)) (y : Option (List L)) (k : Option Nat) :
    ((cs = [] ∨ ∃ m, k = some m ∧ cs.length < m + 1) → Complex.new cs y k = .error .value) ∧
    (∀ e, Complex.new cs y k = .error e →
      (e = .value ∧ (cs = [] ∨ ∃ m, k = some m ∧ cs.length < m + 1)) ∨
      (e = .assertion ∨ ∃ c ∈ cs, c.numCells = .error e)) := by
  constructor
  · rintro (rfl | ⟨m, rfl, h⟩)
    · rfl
    · unfold Complex.new
      by_cases h0 : cs.length = 0
      · rw [if_pos h0]
      · rw [if_neg h0]; exact if_pos h
  · intro e h
    unfold Complex.new at h
    by_cases h0 : cs.length = 0
    · rw [if_pos h0] at h
      cases h
      exact Or.inl ⟨rfl, Or.inl (List.length_eq_zero_iff.mp h0)⟩
    · rw [if_neg h0] at h
      dsimp only at h
      by_cases h1 : cs.length < k.getD (cs.length - 1) + 1
      · rw [if_pos h1] at h
        cases h
        refine Or.inl ⟨rfl, Or.inr ?_⟩
        cases k with
        | none => simp at h1; omega
        | some m => exact ⟨m, rfl, h1⟩
      · rw [if_neg h1] at h
        right
        cases h2 : consolidateFrom 0 none (cs.take (k.getD (cs.length - 1) + 1)) with
        | ok r => rw [h2] at h; simp at h
        | error e2 =>
          rw [h2, error_bind] at h
          cases h
          rcases consolidateFrom_error h2 with h | ⟨c, hc | ⟨l, hl, _⟩, he⟩
          · exact Or.inl h
          · exact Or.inr ⟨c, List.mem_of_mem_take hc, he⟩
          · simp at hl

example : ∃ comp, Complex.new [Fixtures.segV, Fixtures.segE] (some [1]) (some 1) = .ok comp :=
  ⟨{ Fixtures.seg with y := some [1] }, by decide⟩
example : Complex.new [Fixtures.segV, Fixtures.segE] none (some 2) = .error .value := by decide
example : Complex.new [Fixtures.segE, Fixtures.segV] none none = .error .assertion := by decide
/-- An edge cochain with an empty incidence and no features cannot tell its size. -/
example : Complex.new [Fixtures.segV, { dim := 1, boundaryIndex := some [] }] none none =
    .error .runtime := by decide

/-- **C10** Assigning a feature matrix succeeds iff it has one row per cell, and never changes
the number of cells; nothing but the features changes. -/
theorem C10_assign_features (c : Cochain F L) (rows : List F) (c' : Cochain F L) :
    (c.setX (some rows) = .ok c' ↔
      c.numCells = .ok (some rows.length) ∧ c' = { c with x := some rows }) ∧
    (c.setX (some rows) = .ok c' → c'.numCells = c.numCells) := by
  have h : c.setX (some rows) = .ok c' ↔
      c.numCells = .ok (some rows.length) ∧ c' = { c with x := some rows } := by
    unfold Cochain.setX
    cases hn : c.numCells with
    | error e => simp
    | ok n =>
      cases hb : (n == some rows.length) with
      | true =>
        have := eq_of_beq hb
        simp [this, eq_comm]
      | false =>
        have : n ≠ some rows.length := fun h => by simp [h] at hb
        simp [hb, this]
  refine ⟨h, fun ho => ?_⟩
  obtain ⟨hn, rfl⟩ := h.mp ho
  rw [hn]
  unfold Cochain.numCells at hn ⊢
  cases ha : c.numCellsAttr with
  | some n => simp only [ha] at hn ⊢; exact hn
  | none => simp [ha]

example : (Fixtures.houseE.setX (some [6, 5, 4, 3, 2, 1])).map Cochain.x =
    .ok (some [6, 5, 4, 3, 2, 1]) := by decide
example : Fixtures.houseE.setX (some [6, 5]) = .error .assertion := by decide

theorem setXsLoop_eq_ok {cs cs' : List (Cochain F L)} {xs : List (Option (List F))} :
    setXsLoop cs xs = .ok cs' ↔ xs.length ≤ cs.length ∧ cs'.length = cs.length ∧
      ∀ (i : Nat) (c : Cochain F L), cs[i]? = some c →
        match xs[i]? with
        | none => cs'[i]? = some c
        | some x => (∀ rows, x = some rows → c.numCells = .ok (some rows.length)) ∧
            cs'[i]? = some { c with x := x } := by
  induction xs generalizing cs cs' with
  | nil =>
    rw [show setXsLoop cs [] = .ok cs by cases cs <;> rfl, ok_inj]
    constructor
    · rintro rfl; simp
    · rintro ⟨_, hl, h⟩
      refine List.ext_getElem? fun i => ?_
      cases hc : cs[i]? with
      | some c => simpa using (h i c hc).symm
      | none =>
        rw [List.getElem?_eq_none_iff] at hc
        rw [List.getElem?_eq_none (by omega)]
  | cons x xs ih =>
    cases cs with
    | nil => simp [setXsLoop]
    | cons c cs =>
      unfold setXsLoop
      constructor
      · intro h
        obtain ⟨c1, h1, h⟩ := bind_eq_ok.mp h
        obtain ⟨r, hr, h⟩ := bind_eq_ok.mp h
        cases h
        obtain ⟨hl, hl', hi⟩ := ih.mp hr
        refine ⟨by simp; omega, by simp [hl'], ?_⟩
        intro i d hd
        cases i with
        | succ i => simpa using hi i d (by simpa using hd)
        | zero =>
          simp only [List.getElem?_cons_zero, Option.some.injEq] at hd ⊢
          subst hd
          cases x with
          | none => simp [Cochain.setX] at h1; simp [h1]
          | some rows =>
            obtain ⟨hn, rfl⟩ := (C10_assign_features c rows c1).1.mp h1
            exact ⟨fun rows' he => by cases he; exact hn, rfl⟩
      · rintro ⟨hl, hl', hi⟩
        cases cs' with
        | nil => simp at hl'
        | cons c1 r =>
          have h0 := hi 0 c rfl
          simp only [List.getElem?_cons_zero, Option.some.injEq] at h0
          have h1 : c.setX x = .ok c1 := by
            cases x with
            | none => rw [h0.2]; rfl
            | some rows => exact (C10_assign_features c rows c1).1.mpr ⟨h0.1 rows rfl, h0.2⟩
          rw [h1, ok_bind, ih.mpr ⟨by simpa using hl, by simpa using hl', ?_⟩]
          · rfl
          · intro i d hd
            exact hi (i + 1) d hd

/-- **C10** Setting the features of a complex succeeds iff there are at most `dimension + 1`
matrices and each has one row per cell of its dimension; exactly those dimensions change, and
only their features. -/
theorem C10_set_xs (comp : Complex F L) (hlen : comp.cochains.length = comp.dimension + 1)
    (xs : List (Option (List F))) (comp' : Complex F L) :
    comp.setXs xs = .ok comp' ↔
      xs.length ≤ comp.dimension + 1 ∧
      comp'.dimension = comp.dimension ∧ comp'.y = comp.y ∧ comp'.numComplexes = comp.numComplexes ∧
      comp'.cochains.length = comp.cochains.length ∧
      ∀ (d : Nat) (c : Cochain F L), comp.cochains[d]? = some c →
        match xs[d]? with
        | none => comp'.cochains[d]? = some c
        | some x => (∀ rows, x = some rows → c.numCells = .ok (some rows.length)) ∧
            comp'.cochains[d]? = some { c with x := x } := by
  unfold Complex.setXs
  by_cases hx : xs.length ≤ comp.dimension + 1
  · rw [show decide (xs.length ≤ comp.dimension + 1) = true by simpa using hx, pyAssert_true, ok_bind]
    constructor
    · intro h
      obtain ⟨cs', hcs, h⟩ := bind_eq_ok.mp h
      cases h
      obtain ⟨_, hl, hi⟩ := setXsLoop_eq_ok.mp hcs
      exact ⟨hx, rfl, rfl, rfl, hl, hi⟩
    · rintro ⟨_, h1, h2, h3, h4, h5⟩
      rw [setXsLoop_eq_ok.mpr ⟨by omega, h4, h5⟩]
      cases comp'; cases comp
      simp_all
  · rw [show decide (xs.length ≤ comp.dimension + 1) = false by simpa using hx]
    simp [hx]

example : (Fixtures.house.setXs [some [9, 9, 9, 9, 9], some [1, 1, 1, 1, 1, 0]]).map
      (fun c => c.cochains.map Cochain.x) =
    .ok [some [9, 9, 9, 9, 9], some [1, 1, 1, 1, 1, 0], some [1]] := by decide

theorem setXsState_go_get {cs : List (Cochain F L)} {xs : List (Option (List F))} {i : Nat}
    {e : PyErr} {c : Cochain F L} {x : Option (List F)} (hxs : xs.length ≤ cs.length)
    (hc : cs[i]? = some c) (hx : xs[i]? = some x) (hfail : c.setX x = .error e)
    (hbefore : ∀ j d z, j < i → cs[j]? = some d → xs[j]? = some z → ∃ d', d.setX z = .ok d') :
    (∀ j d z, j < i → cs[j]? = some d → xs[j]? = some z →
      (Complex.setXsState.go cs xs)[j]? = some { d with x := z }) ∧
    (∀ j, i ≤ j → (Complex.setXsState.go cs xs)[j]? = cs[j]?) := by
  induction i generalizing cs xs with
  | zero =>
    cases cs with
    | nil => simp at hc
    | cons d cs =>
      cases xs with
      | nil => simp at hx
      | cons z xs =>
        simp at hc hx; subst hc; subst hx
        constructor
        · intro j _ _ hj; omega
        · intro j _
          simp [Complex.setXsState.go, hfail]
  | succ i ih =>
    cases cs with
    | nil => simp at hc
    | cons d cs =>
      cases xs with
      | nil => simp at hx
      | cons z xs =>
        obtain ⟨d', hd'⟩ := hbefore 0 d z (by omega) rfl rfl
        have hd'' : d' = { d with x := z } := by
          cases z with
          | none => simp [Cochain.setX] at hd'; exact hd'.symm
          | some rows => exact ((C10_assign_features d rows d').1.mp hd').2
        obtain ⟨h1, h2⟩ := ih (cs := cs) (xs := xs) (by simpa using hxs) (by simpa using hc)
          (by simpa using hx)
          (fun j e z hj he hz => hbefore (j + 1) e z (by omega) (by simpa using he) (by simpa using hz))
        constructor
        · intro j e w hj he hw
          cases j with
          | zero =>
            simp at he hw; subst he; subst hw
            simp [Complex.setXsState.go, hd', hd'']
          | succ j =>
            simp only [Complex.setXsState.go, hd', List.getElem?_cons_succ]
            exact h1 j e w (by omega) (by simpa using he) (by simpa using hw)
        · intro j hj
          cases j with
          | zero => omega
          | succ j =>
            simp only [Complex.setXsState.go, hd', List.getElem?_cons_succ]
            exact h2 j (by omega)

/-- **C10** No roll-back: when the assignment of dimension `i` is the first to fail, `set_xs`
raises that exception, the dimensions before `i` stay overwritten, and the others are as before. -/
theorem C10_set_xs_failure_keeps_prefix (comp : Complex F L)
    (hlen : comp.cochains.length = comp.dimension + 1) (xs : List (Option (List F))) (i : Nat)
    (c : Cochain F L) (x : Option (List F)) (e : PyErr) (hxs : xs.length ≤ comp.dimension + 1)
    (hc : comp.cochains[i]? = some c) (hx : xs[i]? = some x) (hfail : c.setX x = .error e)
    (hbefore : ∀ j d z, j < i → comp.cochains[j]? = some d → xs[j]? = some z →
      ∃ d', d.setX z = .ok d') :
    comp.setXs xs = .error e ∧
    (∀ j d z, j < i → comp.cochains[j]? = some d → xs[j]? = some z →
      (comp.setXsState xs).cochains[j]? = some { d with x := z }) ∧
    (∀ j, i ≤ j → (comp.setXsState xs).cochains[j]? = comp.cochains[j]?) := by
  refine ⟨?_, ?_⟩
  · unfold Complex.setXs
    rw [show decide (xs.length ≤ comp.dimension + 1) = true by simpa using hxs, pyAssert_true, ok_bind]
    have : setXsLoop comp.cochains xs = .error e := by
      clear hlen hxs
      generalize comp.cochains = cs at *
      induction i generalizing cs xs with
      | zero =>
        cases cs with
        | nil => simp at hc
        | cons d cs =>
          cases xs with
          | nil => simp at hx
          | cons z xs =>
            simp at hc hx; subst hc; subst hx
            simp [setXsLoop, hfail]
      | succ i ih =>
        cases cs with
        | nil => simp at hc
        | cons d cs =>
          cases xs with
          | nil => simp at hx
          | cons z xs =>
            obtain ⟨d', hd'⟩ := hbefore 0 d z (by omega) rfl rfl
            have := ih xs (by simpa using hx) cs (by simpa using hc)
              (fun j e z hj he hz => hbefore (j + 1) e z (by omega) (by simpa using he)
                (by simpa using hz))
            simp [setXsLoop, hd', this]
    rw [this]; rfl
  · have := setXsState_go_get (by omega) hc hx hfail hbefore
    unfold Complex.setXsState
    rw [if_pos hxs]
    exact this

/-- The edges' matrix is too short: the vertices have been overwritten all the same. -/
example : Fixtures.house.setXs [some [9, 9, 9, 9, 9], some [1]] = .error .assertion ∧
    (Fixtures.house.setXsState [some [9, 9, 9, 9, 9], some [1]]).cochains.map Cochain.x =
      [some [9, 9, 9, 9, 9], some [1, 2, 3, 4, 5, 6], some [1]] := by decide

/-- **C10** Clearing the features (assigning `None`) is never refused, and can change the number
of cells: an edge not mentioned in the incidence is forgotten. -/
theorem C10_clearing_features_may_change_count :
    ∃ (c c' : Cochain Nat Nat), c.setX none = .ok c' ∧ c.numCells = .ok (some 2) ∧
      c'.numCells = .ok (some 1) :=
  ⟨{ dim := 1, x := some [5, 6], boundaryIndex := some [(0, 0), (1, 0)] },
   { dim := 1, x := none, boundaryIndex := some [(0, 0), (1, 0)] }, by decide, by decide, by decide⟩

/-- **C09** The constructor of a cochain never changes what it is given, and accepts it exactly when nothing lies
below vertices: a cochain of dimension 0 has neither lower adjacencies nor shared boundaries nor an incidence. -/
theorem C09_cochain_constructor (c r : Cochain F L) :
    (Cochain.mk? c = .ok r ↔ r = c ∧ (c.dim = 0 →
      c.lowerIndex = none ∧ c.sharedBoundaries = none ∧ c.boundaryIndex = none)) ∧
    ∀ e, Cochain.mk? c = .error e → e = .assertion := by
  unfold Cochain.mk?
  by_cases h : c.dim = 0
  · cases h1 : c.lowerIndex <;> cases h2 : c.sharedBoundaries <;> cases h3 : c.boundaryIndex <;>
      simp [h, pyAssert, eq_comm, ok_bind, error_bind]
  · simp [h, eq_comm]

/-- Vertices with and without something below them. -/
example : (Cochain.mk? Fixtures.houseV).isOk = true ∧
    Cochain.mk? { Fixtures.houseV with boundaryIndex := some [(0, 0)] } = .error .assertion ∧
    (Cochain.mk? Fixtures.houseE).isOk = true := by
  refine ⟨?_, ?_, ?_⟩ <;> decide

end Verif
