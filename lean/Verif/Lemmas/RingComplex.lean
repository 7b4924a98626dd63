import Verif.Lemmas.Rings

/-!
# Edge features and the whole ring lifting
-/

namespace Verif

variable {F L : Type}

/-! ### Edge features -/

/-- The cell of an edge of the input. -/
def canon (e : Nat × Nat) : List Nat := sortedNat [e.1, e.2]

theorem canon_eq_iff (e e' : Nat × Nat) : canon e = canon e' ↔ e = e' ∨ e = e'.swap := by
  obtain ⟨a, b⟩ := e
  obtain ⟨c, d⟩ := e'
  unfold canon
  simp only [sortedNat_pair, Prod.mk.injEq, Prod.swap]
  split <;> split <;> simp only [List.cons.injEq, and_true] <;> omega

theorem Dict.mem_keys {K V : Type} [DecidableEq K] {d : Dict K V} {k : K} :
    k ∈ d.map Prod.fst ↔ ∃ v, Dict.get? d k = some v := by
  induction d with
  | nil => simp
  | cons p d ih =>
    rw [List.map_cons, List.mem_cons, Dict.get?_cons, ih]
    by_cases h : p.1 = k
    · simp [h]
    · have h' : ¬ k = p.1 := fun e => h e.symm
      simp [h, h']

section

variable [DecidableEq F] {cells : List (List Nat)} {attr : List F}

/-- The dictionary holds the features of the columns seen so far. -/
def HoldsRows (cells : List (List Nat)) (attr : List F) (seen : List ((Nat × Nat) × Nat)) (ex : Dict Nat F) :
    Prop :=
  ∀ id r, Dict.get? ex id = some r ↔ ∃ col ∈ seen, placeOf cells (canon col.1) = id ∧ attr[col.2]? = some r

theorem edgeFeatureStep_cases {seen : List ((Nat × Nat) × Nat)} {ex : Dict Nat F}
    (h : HoldsRows cells attr seen ex) {col : (Nat × Nat) × Nat} (hc : canon col.1 ∈ cells)
    (hlt : col.2 < attr.length) :
    (∃ ex', edgeFeatureStep cells.zipIdx attr ex col = .ok ex' ∧ HoldsRows cells attr (seen ++ [col]) ex') ∨
    (edgeFeatureStep cells.zipIdx attr ex col = .error .assertion ∧
      ∃ col' ∈ seen, placeOf cells (canon col'.1) = placeOf cells (canon col.1) ∧
        attr[col'.2]? ≠ attr[col.2]?) := by
  have hg : Dict.get cells.zipIdx (sortedNat [col.1.1, col.1.2]) = .ok (placeOf cells (canon col.1)) :=
    Dict.get_zipIdx hc
  have ha : getAt attr col.2 = .ok attr[col.2] := getAt_eq_ok.mpr (List.getElem?_eq_getElem hlt)
  have ha' : attr[col.2]? = some attr[col.2] := List.getElem?_eq_getElem hlt
  unfold edgeFeatureStep
  rw [hg, ok_bind, ha, ok_bind]
  cases hex : Dict.get? ex (placeOf cells (canon col.1)) with
  | none =>
    left
    refine ⟨_, rfl, ?_⟩
    intro id r
    rw [Dict.get?_set]
    by_cases hid : placeOf cells (canon col.1) = id
    · subst hid
      rw [if_pos rfl]
      constructor
      · intro e
        exact ⟨col, by simp, rfl, ha'.trans e⟩
      · rintro ⟨col', hm, e1, e2⟩
        rcases List.mem_append.mp hm with hm | hm
        · have := (h _ r).mpr ⟨col', hm, e1, e2⟩
          rw [hex] at this
          exact absurd this (by simp)
        · rw [List.mem_singleton] at hm
          subst hm
          exact ha'.symm.trans e2
    · rw [if_neg hid, h]
      constructor
      · rintro ⟨col', hm, e⟩
        exact ⟨col', List.mem_append_left _ hm, e⟩
      · rintro ⟨col', hm, e1, e2⟩
        rcases List.mem_append.mp hm with hm | hm
        · exact ⟨col', hm, e1, e2⟩
        · rw [List.mem_singleton] at hm
          subst hm
          exact absurd e1 hid
  | some old =>
    obtain ⟨col0, hm0, e1, e2⟩ := (h _ old).mp hex
    by_cases heq : old = attr[col.2]
    · left
      refine ⟨ex, by simp [heq, pyAssert, ok_bind, pure_eq_ok], ?_⟩
      intro id r
      rw [h]
      constructor
      · rintro ⟨col', hm, e⟩
        exact ⟨col', List.mem_append_left _ hm, e⟩
      · rintro ⟨col', hm, e3, e4⟩
        rcases List.mem_append.mp hm with hm | hm
        · exact ⟨col', hm, e3, e4⟩
        · rw [List.mem_singleton] at hm
          subst hm
          refine ⟨col0, hm0, e1.trans e3, ?_⟩
          rw [e2, heq, ← e4, ha']
    · right
      refine ⟨by simp [heq, pyAssert, error_bind], col0, hm0, e1, ?_⟩
      rw [e2, ha']
      simpa using heq

theorem edgeFeatures_loop {seen : List ((Nat × Nat) × Nat)} {ex : Dict Nat F}
    (h : HoldsRows cells attr seen ex) (cols : List ((Nat × Nat) × Nat))
    (hc : ∀ col ∈ cols, canon col.1 ∈ cells) (hlt : ∀ col ∈ cols, col.2 < attr.length) :
    (∃ ex', foldE (edgeFeatureStep cells.zipIdx attr) ex cols = .ok ex' ∧
      HoldsRows cells attr (seen ++ cols) ex') ∨
    (foldE (edgeFeatureStep cells.zipIdx attr) ex cols = .error .assertion ∧
      ∃ a ∈ seen ++ cols, ∃ b ∈ seen ++ cols, placeOf cells (canon a.1) = placeOf cells (canon b.1) ∧
        attr[a.2]? ≠ attr[b.2]?) := by
  induction cols generalizing seen ex with
  | nil => exact .inl ⟨ex, rfl, by simpa using h⟩
  | cons col cols ih =>
    simp only [foldE]
    rcases edgeFeatureStep_cases h (hc col (by simp)) (hlt col (by simp)) with ⟨ex', e, h'⟩ |
      ⟨e, a, ha, hp, hne⟩
    · rw [e, ok_bind]
      have := ih h' (fun c hm => hc c (by simp [hm])) (fun c hm => hlt c (by simp [hm]))
      rwa [List.append_assoc] at this
    · rw [e, error_bind]
      exact .inr ⟨rfl, a, List.mem_append_left _ ha, col, by simp, hp, hne⟩

variable {edges : List (Nat × Nat)}

theorem edgeFeatures_ok (hn : cells.Nodup) (hne : cells ≠ []) (hE : ∀ e ∈ edges, canon e ∈ cells)
    (hK : ∀ f ∈ cells, ∃ e ∈ edges, canon e = f) (hlen : edges.length ≤ attr.length) (ha : Agree edges attr) :
    ∃ rows, edgeFeatures edges attr cells cells.zipIdx = .ok rows ∧ rows.length = cells.length ∧
      ∀ (i : Nat) (e : Nat × Nat) (c : Nat), edges[i]? = some e → cells[c]? = some (canon e) →
        rows[c]? = attr[i]? := by
  have hcols : ∀ col ∈ edges.zipIdx, edges[col.2]? = some col.1 := by
    rintro ⟨e, i⟩ hm
    exact List.mem_zipIdx_iff_getElem?.mp hm
  rcases edgeFeatures_loop (cells := cells) (attr := attr) (seen := []) (ex := [])
    (by intro id r; simp) edges.zipIdx
    (fun col hm => hE _ (List.mem_of_getElem? (hcols col hm)))
    (fun col hm => Nat.lt_of_lt_of_le (lt_of_get (hcols col hm)) hlen) with ⟨ex, e1, h⟩ | ⟨-, a, hma, b, hmb, hp, hx⟩
  · rw [List.nil_append] at h
    have hkeys : ∀ id, id ∈ ex.map Prod.fst ↔ id < cells.length := by
      intro id
      rw [Dict.mem_keys]
      constructor
      · rintro ⟨r, hr⟩
        obtain ⟨col, hm, rfl, -⟩ := (h id r).mp hr
        have := (idxOf_iff hn (hE _ (List.mem_of_getElem? (hcols col hm)))).mp rfl
        exact lt_of_get this
      · intro hid
        obtain ⟨e, he, hce⟩ := hK _ (List.getElem_mem hid)
        obtain ⟨i, hi⟩ := List.mem_iff_getElem?.mp he
        have hil : i < attr.length := Nat.lt_of_lt_of_le (lt_of_get hi) hlen
        refine ⟨attr[i], (h id _).mpr ⟨(e, i), List.mem_zipIdx_iff_getElem?.mpr hi, ?_,
          List.getElem?_eq_getElem hil⟩⟩
        rw [idxOf_iff hn (hE e he), hce]
        exact List.getElem?_eq_getElem hid
    have hpos : 0 < cells.length := List.length_pos_iff.mpr hne
    have hmax : (ex.map Prod.fst).max? = some (cells.length - 1) := by
      rw [List.max?_eq_some_iff]
      refine ⟨(hkeys _).mpr (by omega), fun b hb => ?_⟩
      have := (hkeys b).mp hb
      omega
    have hget : ∀ id, id < cells.length → ∃ r, Dict.get? ex id = some r := fun id hid =>
      Dict.mem_keys.mp ((hkeys id).mpr hid)
    haveI : Nonempty F := ⟨(hget 0 hpos).choose⟩
    choose! row hrow using hget
    refine ⟨(List.range cells.length).map row, ?_, by simp, ?_⟩
    · unfold edgeFeatures
      rw [e1, ok_bind, hmax]
      dsimp only
      rw [show cells.length - 1 + 1 = cells.length by omega,
        mapE_ok (g := row) (fun id hid => Dict.get_eq_ok.mpr (hrow id (List.mem_range.mp hid)))]
      simp [pyAssert, ok_bind, pure_eq_ok]
    · intro i e c hi hc
      have hcl := lt_of_get hc
      have hil : i < attr.length := Nat.lt_of_lt_of_le (lt_of_get hi) hlen
      rw [List.getElem?_map, List.getElem?_range hcl, Option.map_some, ← hrow c hcl,
        List.getElem?_eq_getElem hil]
      exact (h c _).mpr ⟨(e, i), List.mem_zipIdx_iff_getElem?.mpr hi,
        (idxOf_iff hn (hE e (List.mem_of_getElem? hi))).mpr hc, List.getElem?_eq_getElem hil⟩
  · exfalso
    rw [List.nil_append] at hma hmb
    have ea := hcols a hma
    have eb := hcols b hmb
    have : canon a.1 = canon b.1 := idxOf_inj_on (hE _ (List.mem_of_getElem? ea)) hp
    exact hx (ha a.2 b.2 a.1 b.1 ea eb ((canon_eq_iff _ _).mp this))

theorem edgeFeatures_fail (hE : ∀ e ∈ edges, canon e ∈ cells) (hlen : edges.length ≤ attr.length)
    (ha : ¬ Agree edges attr) :
    edgeFeatures edges attr cells cells.zipIdx = .error .assertion := by
  have hcols : ∀ col ∈ edges.zipIdx, edges[col.2]? = some col.1 := by
    rintro ⟨e, i⟩ hm
    exact List.mem_zipIdx_iff_getElem?.mp hm
  rcases edgeFeatures_loop (cells := cells) (attr := attr) (seen := []) (ex := [])
    (by intro id r; simp) edges.zipIdx
    (fun col hm => hE _ (List.mem_of_getElem? (hcols col hm)))
    (fun col hm => Nat.lt_of_lt_of_le (lt_of_get (hcols col hm)) hlen) with ⟨ex, e1, h⟩ | ⟨e, -⟩
  · exfalso
    apply ha
    rw [List.nil_append] at h
    intro i j e e' hi hj hee
    have hil : i < attr.length := Nat.lt_of_lt_of_le (lt_of_get hi) hlen
    have hjl : j < attr.length := Nat.lt_of_lt_of_le (lt_of_get hj) hlen
    have h1 := (h (placeOf cells (canon e)) attr[i]).mpr ⟨(e, i), List.mem_zipIdx_iff_getElem?.mpr hi, rfl,
      List.getElem?_eq_getElem hil⟩
    have h2 := (h (placeOf cells (canon e)) attr[j]).mpr ⟨(e', j), List.mem_zipIdx_iff_getElem?.mpr hj,
      by rw [(canon_eq_iff e e').mpr hee], List.getElem?_eq_getElem hjl⟩
    rw [List.getElem?_eq_getElem hil, List.getElem?_eq_getElem hjl, ← h1, ← h2]
  · unfold edgeFeatures
    rw [e, error_bind]

end

/-! ### The complex -/

/-- The features of a ring complex. -/
def ringXs (x : List F) (x1 x2 : Option (List F)) (d : Nat) : Option (List F) :=
  if d = 0 then some x else if d = 1 then x1 else if d = 2 then x2 else none

theorem generateCochains_three {xs : Nat → Option (List F)} {adj : Adjacency}
    {cells table : List (List (List Nat))} {dims : Nat} (hd : dims ≤ 3) {vy : Option (List L)} :
    generateCochains [xs 0, xs 1, xs 2] adj cells table dims vy =
      generateCochains (tab dims xs) adj cells table dims vy := by
  unfold generateCochains
  apply mapE_congr
  intro i hi
  have hi := List.mem_range.mp hi
  have h1 : getAt [xs 0, xs 1, xs 2] i = .ok (xs i) := by
    have : i = 0 ∨ i = 1 ∨ i = 2 := by omega
    rcases this with rfl | rfl | rfl <;> rfl
  rw [h1, getAt_tab _ hi]

section

variable [DecidableEq F] {g : Gudhi} {lib : RingLib} {edges : List (Nat × Nat)} {size : Nat}

theorem noLoops_joined (hn : NoLoops edges) {e : Nat × Nat} (he : e ∈ edges) : Joined edges e.1 e.2 :=
  ⟨hn e he, .inl he⟩

theorem canon_mem (hg : g.Ok) (he : EdgesIn edges size) (hn : NoLoops edges) {e : Nat × Nat} (hm : e ∈ edges) :
    canon e ∈ (g.inserted (insertions edges size)).cellsOf size 1 := by
  rw [mem_edgeCells hg he]
  have hj := noLoops_joined hn hm
  unfold canon
  rw [sortedNat_pair]
  split
  · exact ⟨_, _, Nat.lt_of_le_of_ne (by assumption) hj.1, rfl, hj⟩
  · exact ⟨_, _, by omega, rfl, hj.1.symm, hj.2.symm⟩

theorem canon_surj (hg : g.Ok) (he : EdgesIn edges size) {f : List Nat}
    (hf : f ∈ (g.inserted (insertions edges size)).cellsOf size 1) : ∃ e ∈ edges, canon e = f := by
  obtain ⟨u, v, huv, rfl, hj⟩ := (mem_edgeCells hg he).mp hf
  rcases hj.2 with h | h
  · exact ⟨_, h, by unfold canon; rw [sortedNat_pair, if_pos (by simp only; omega)]⟩
  · exact ⟨_, h, by unfold canon; rw [sortedNat_pair, if_neg (by simp only; omega)]⟩

/-- The ring lifting, up to the features of the edges. -/
theorem ringComplex_eq (hg : g.Ok) (hl : lib.Ok) {agg : List F → F} {x : List F}
    {attr : Option (List F)} {y : Option (List L)} {maxK : Nat} {down initEdges initRings : Bool}
    (he : EdgesIn edges size) (hn : NoLoops edges) (h0 : 0 < size) (hx : x.length = size)
    (hy : ∀ l, y = some l → l.length = 1 ∨ l.length = size) {st : SimplexTree}
    (hst : st = g.inserted (insertions edges size)) {rings : List (List Nat)}
    (hr : rings = getRings lib edges maxK) :
    ringComplex g lib agg (some x) edges attr size y maxK down initEdges initRings =
      (edgeRows edges attr initEdges st.dims
        ⟨tab (ringDims st rings) (ringCells st size rings),
          tab (ringDims st rings) fun d => (ringCells st size rings d).zipIdx⟩
        (tab (ringDims st rings) (liftedRows agg x (ringCells st size rings))) >>= fun x1 =>
      Complex.new (tab (ringDims st rings) (cochainOf (ringCells st size rings) (ringDims st rings) ringFaces
        (ringBd st) (ringCob st rings) down
        (ringXs x x1 (ringRows initRings (tab (ringDims st rings) (liftedRows agg x (ringCells st size rings)))))
        (vertexLabels y))) (complexLabel y) (some (ringDims st rings - 1))) := by
  subst hst hr
  have rd := ringData_of hg hl he h0 maxK
  have cd := rd.cellData
  have hlow := rd.low
  have hle := rd.dims_le
  obtain ⟨inc, i1, i2, i3, i4⟩ := extractIncidenceWithRings_ok rd
  have hone : (g.inserted (insertions edges size)).dims = 1 → edges = [] := by
    intro h1
    rw [List.eq_nil_iff_forall_not_mem]
    intro e hm
    have := (dims_inserted_two hg he h0).mpr ⟨_, _, noLoops_joined hn hm⟩
    omega
  have hverts : ∀ d, d < ringDims (g.inserted (insertions edges size)) (getRings lib edges maxK) →
      ∀ c ∈ ringCells (g.inserted (insertions edges size)) size (getRings lib edges maxK) d,
      ∀ v ∈ c, v < x.length := by
    intro d _ c hc v hv
    rw [hx]
    unfold ringCells at hc
    split at hc
    · have hring := (getRings_ring hl hc).1
      obtain ⟨i, hi⟩ := List.mem_iff_getElem?.mp hv
      obtain ⟨m, hm, hf⟩ := follows_exists (lt_of_get hi)
      have hj := (hring.joined i m v _ hi (List.getElem?_eq_getElem hm)).mpr (.inl hf)
      rcases hj.2 with h | h
      · exact (he _ h).1
      · exact (he _ h).2
    · exact ((mem_inserted hg he).mp ((mem_cellsOf rd.holds).mp hc).1).1.2.1 v hv
  have hcheck : ∀ b, ((g.inserted (insertions edges size)).dims = 1 → b = true) →
      checkNoEdges (g.inserted (insertions edges size)).dims b = .ok () := by
    intro b hb
    unfold checkNoEdges
    split
    · next h1 => rw [hb h1]; rfl
    · rfl
  unfold ringComplex
  dsimp only
  simp only [decide_eq_true hlow, pyAssert, if_true, ok_bind]
  rw [hcheck (edges.length == 0) (fun h1 => by rw [hone h1]; rfl)]
  unfold buildTablesWithRings
  rw [buildTables_ok rd.holds rd.pos, ok_bind, ok_bind, addRings_ok rd, ok_bind]
  simp only [tab_length, decide_eq_true hle, if_true, ok_bind]
  rw [i1, ok_bind, buildAdj_ok cd i3 i4, ok_bind, constructFeatures_ok cd.pos hverts, ok_bind, tab_length,
    hcheck _ (fun h1 => by
      have hnil : getRings lib edges maxK = [] := by
        by_contra hne
        have := rd.dims_two hne
        omega
      simp [ringDims, hnil, h1]), ok_bind]
  congr 1
  funext x1
  rw [extractLabels_ok hy, ok_bind, i2]
  dsimp only
  have := generateCochains_three (xs := ringXs x x1 (ringRows initRings
    (tab (ringDims (g.inserted (insertions edges size)) (getRings lib edges maxK))
      (liftedRows agg x (ringCells (g.inserted (insertions edges size)) size (getRings lib edges maxK))))))
    (adj := adjOf (ringDims (g.inserted (insertions edges size)) (getRings lib edges maxK))
      (upCols (ringCells (g.inserted (insertions edges size)) size (getRings lib edges maxK))
        (ringDims (g.inserted (insertions edges size)) (getRings lib edges maxK))
        (ringBd (g.inserted (insertions edges size))))
      (lowCols (ringCells (g.inserted (insertions edges size)) size (getRings lib edges maxK))
        (ringCob (g.inserted (insertions edges size)) (getRings lib edges maxK)) down))
    (cells := tab (ringDims (g.inserted (insertions edges size)) (getRings lib edges maxK))
      (ringCells (g.inserted (insertions edges size)) size (getRings lib edges maxK)))
    (table := tab (ringDims (g.inserted (insertions edges size)) (getRings lib edges maxK))
      (tableRow (ringCells (g.inserted (insertions edges size)) size (getRings lib edges maxK)) ringFaces))
    (vy := vertexLabels y) hle
  rw [generateCochains_ok cd] at this
  exact (congrArg (· >>= fun cochains => Complex.new cochains (complexLabel y)
    (some (ringDims (g.inserted (insertions edges size)) (getRings lib edges maxK) - 1))) this)

/-- The tables of the ring lifting. -/
theorem buildTablesWithRings_ok (hg : g.Ok) (hl : lib.Ok) (he : EdgesIn edges size) (h0 : 0 < size)
    (maxK : Nat) {st : SimplexTree} (hst : st = g.inserted (insertions edges size)) {rings : List (List Nat)}
    (hr : rings = getRings lib edges maxK) :
    buildTablesWithRings lib edges st size maxK =
      .ok ⟨tab (ringDims st rings) (ringCells st size rings),
        tab (ringDims st rings) fun d => (ringCells st size rings d).zipIdx⟩ := by
  subst hst hr
  have rd := ringData_of hg hl he h0 maxK
  unfold buildTablesWithRings
  rw [buildTables_ok rd.holds rd.pos, ok_bind, addRings_ok rd]

/-- The ring lifting, once the features of the edges are known. -/
theorem ringComplex_ok (hg : g.Ok) (hl : lib.Ok) {agg : List F → F} {x : List F}
    {attr : Option (List F)} {y : Option (List L)} {maxK : Nat} {down initEdges initRings : Bool}
    (he : EdgesIn edges size) (hn : NoLoops edges) (h0 : 0 < size) (hx : x.length = size)
    (hy : ∀ l, y = some l → l.length = 1 ∨ l.length = size) {st : SimplexTree}
    (hst : st = g.inserted (insertions edges size)) {rings : List (List Nat)}
    (hr : rings = getRings lib edges maxK) {x1 : Option (List F)}
    (h1 : edgeRows edges attr initEdges st.dims
        ⟨tab (ringDims st rings) (ringCells st size rings),
          tab (ringDims st rings) fun d => (ringCells st size rings d).zipIdx⟩
        (tab (ringDims st rings) (liftedRows agg x (ringCells st size rings))) = .ok x1)
    (hfit : ∀ rows, x1 = some rows → rows.length = (st.cellsOf size 1).length) :
    ringComplex g lib agg (some x) edges attr size y maxK down initEdges initRings =
      .ok (complexOf (ringCells st size rings) (ringDims st rings) ringFaces (ringBd st) (ringCob st rings) down
        (ringXs x x1 (ringRows initRings (tab (ringDims st rings) (liftedRows agg x (ringCells st size rings)))))
        (vertexLabels y) (complexLabel y)) ∧
    RowsFit (ringCells st size rings) (ringDims st rings)
      (ringXs x x1 (ringRows initRings (tab (ringDims st rings) (liftedRows agg x (ringCells st size rings))))) := by
  have rd : RingData st size edges rings := by subst hst hr; exact ringData_of hg hl he h0 maxK
  have hle := rd.dims_le
  have hfit' : RowsFit (ringCells st size rings) (ringDims st rings)
      (ringXs x x1 (ringRows initRings (tab (ringDims st rings) (liftedRows agg x (ringCells st size rings))))) := by
    constructor
    · intro d r hd hr
      have : d = 0 ∨ d = 1 ∨ d = 2 := by omega
      rcases this with rfl | rfl | rfl
      · have hr : some x = some r := hr
        rw [← Option.some.inj hr]
        simp [ringCells, SimplexTree.cellsOf, hx]
      · exact hfit r hr
      · have hr : ringRows initRings (tab (ringDims st rings) (liftedRows agg x (ringCells st size rings))) =
          some r := hr
        unfold ringRows at hr
        split at hr
        · rw [tab_get _ hd] at hr
          rw [← Option.some.inj hr]
          simp [liftedRows, combineRows]
        · exact absurd hr (by simp)
    · intro d hd hnone
      have : d = 0 ∨ d = 1 ∨ d = 2 := by omega
      rcases this with rfl | rfl | rfl
      · exact absurd hnone (by simp [ringXs])
      · refine ⟨by omega, fun e => ?_⟩
        have e : st.cellsOf size 1 = [] := e
        have h2 : st.dims = 2 := by
          have := rd.low
          unfold ringDims at hd
          split at hd
          · omega
          · exact rd.dims_two (by assumption)
        obtain ⟨s, hs, hsl⟩ := dims_attained (st := st) (by omega)
        have : s ∈ st.cellsOf size 1 := (mem_cellsOf rd.holds).mpr ⟨hs, by omega⟩
        rw [e] at this
        simp at this
      · refine ⟨by omega, fun e => ?_⟩
        have e : rings = [] := e
        have := rd.low
        unfold ringDims at hd
        rw [if_pos e] at hd
        omega
  refine ⟨?_, hfit'⟩
  rw [ringComplex_eq hg hl he hn h0 hx hy hst hr, h1, ok_bind]
  exact complexNew_ok rd.cellData hfit' _

/-- Without features of edges in the input. -/
theorem edgeRows_none {x : List F} {agg : List F → F} {initEdges : Bool} {st : SimplexTree}
    {rings : List (List Nat)} {dims : Nat} {t : Tables} (hd : st.dims ≤ dims) :
    edgeRows edges none initEdges st.dims t (tab dims (liftedRows agg x (ringCells st size rings))) =
      .ok (if initEdges = true ∧ 2 ≤ st.dims then some (combineRows agg x (st.cellsOf size 1)) else none) := by
  unfold edgeRows
  by_cases h : initEdges = true ∧ 2 ≤ st.dims
  · rw [if_pos (by simp [h]), if_pos h, getAt_tab _ (by omega), ok_bind]
    rfl
  · rw [if_neg (by simpa using h), if_neg h]

/-- With features of edges. -/
theorem edgeRows_some {constructed : List (List F)} {initEdges : Bool} {st : SimplexTree} {attr : List F}
    {rings : List (List Nat)} {dims : Nat} (hd : st.dims ≤ dims) :
    edgeRows edges (some attr) initEdges st.dims
        ⟨tab dims (ringCells st size rings), tab dims fun d => (ringCells st size rings d).zipIdx⟩ constructed =
      if initEdges = true ∧ 2 ≤ st.dims then
        (edgeFeatures edges attr (st.cellsOf size 1) (st.cellsOf size 1).zipIdx).map some
      else .ok none := by
  unfold edgeRows
  by_cases h : initEdges = true ∧ 2 ≤ st.dims
  · rw [if_pos (by simp [h]), if_pos h]
    dsimp only
    rw [getAt_tab _ (by omega), ok_bind, getAt_tab _ (by omega), ok_bind]
    simp only [ringCells, if_neg (show ¬ (1 = 2) by omega)]
    cases edgeFeatures edges attr (st.cellsOf size 1) (st.cellsOf size 1).zipIdx <;> rfl
  · rw [if_neg (by simpa using h), if_neg h]

theorem ringDims_ge {st : SimplexTree} {rings : List (List Nat)} (rd : RingData st size edges rings) : st.dims ≤ ringDims st rings := by
  unfold ringDims
  have := rd.low
  split <;> omega

end

end Verif
