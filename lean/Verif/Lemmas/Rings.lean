import Verif.Lemmas.Cycles

/-!
# The ring lifting builds the ring complex
-/

namespace Verif

variable {F L : Type}

/-! ### The graph -/

theorem mem_inserted {g : Gudhi} (hg : g.Ok) {edges : List (Nat × Nat)} {size : Nat}
    (he : EdgesIn edges size) {s : List Nat} :
    s ∈ (g.inserted (insertions edges size)).simplices ↔ IsClique edges size s ∧ s.length ≤ 2 := by
  rw [hg.mem]
  constructor
  · rintro ⟨hs, t, ht, hst⟩
    have hall : ∀ u ∈ s, ∀ v ∈ s, ∃ t ∈ insertions edges size, u ∈ t ∧ v ∈ t :=
      fun u hu v hv => ⟨t, ht, hst hu, hst hv⟩
    refine ⟨⟨hs, fun v hv => ((together_iff he).mp (hall v hv v hv)).1,
      fun u hu v hv => ((together_iff he).mp (hall u hu v hv)).2.2⟩, ?_⟩
    have := ((simplex_nodup hs).subperm hst).length_le
    rcases mem_insertions.mp ht with ⟨w, _, rfl⟩ | ⟨e, _, rfl⟩
    · simp only [List.length_singleton] at this
      omega
    · simp only [List.length_cons, List.length_nil] at this
      omega
  · rintro ⟨⟨hs, hv, hj⟩, hl⟩
    refine ⟨hs, ?_⟩
    have h0 := List.length_pos_iff.mpr hs.1
    by_cases h1 : s.length = 1
    · obtain ⟨v, rfl⟩ := List.length_eq_one_iff.mp h1
      exact ⟨[v], mem_insertions.mpr (.inl ⟨v, hv v (by simp), rfl⟩), fun _ h => h⟩
    · obtain ⟨u, v, rfl⟩ := List.length_eq_two.mp (by omega : s.length = 2)
      have huv : u < v := by
        have := hs.2
        simpa using this
      have := hj u (by simp) v (by simp) (by omega)
      rcases this.2 with h | h
      · exact ⟨[u, v], mem_insertions.mpr (.inr ⟨_, h, rfl⟩), fun _ h => h⟩
      · exact ⟨[v, u], mem_insertions.mpr (.inr ⟨_, h, rfl⟩), by simp⟩

theorem holds_inserted {g : Gudhi} (hg : g.Ok) {edges : List (Nat × Nat)} {size : Nat}
    (he : EdgesIn edges size) : (g.inserted (insertions edges size)).Holds size where
  nodup := hg.nodup _
  simplex := fun s hs => ((hg.mem _ s).mp hs).1
  closed := fun s hs f hf hfs => by
    obtain ⟨⟨hs1, hs2, hs3⟩, hl⟩ := (mem_inserted hg he).mp hs
    have hsub := hfs.1.subset
    refine (mem_inserted hg he).mpr ⟨⟨⟨hf, hs1.2.sublist hfs.1⟩, fun v hv => hs2 v (hsub hv),
      fun u hu v hv => hs3 u (hsub hu) v (hsub hv)⟩, ?_⟩
    have := hfs.2
    omega
  vertices := fun v => by
    rw [mem_inserted hg he]
    constructor
    · rintro ⟨⟨-, h, -⟩, -⟩
      exact h v (by simp)
    · intro h
      refine ⟨⟨⟨by simp, by simp⟩, by simpa using h, ?_⟩, by simp⟩
      intro u hu w hw hne
      rw [List.mem_singleton] at hu hw
      exact absurd (hu.trans hw.symm) hne
  cofacesNodup := hg.cofacesNodup _
  cofaces := hg.cofaces _

/-- The edge cells. -/
theorem mem_edgeCells {g : Gudhi} (hg : g.Ok) {edges : List (Nat × Nat)} {size : Nat}
    (he : EdgesIn edges size) {f : List Nat} :
    f ∈ (g.inserted (insertions edges size)).cellsOf size 1 ↔
      ∃ u v, u < v ∧ f = [u, v] ∧ Joined edges u v := by
  rw [mem_cellsOf (holds_inserted hg he), mem_inserted hg he]
  constructor
  · rintro ⟨⟨⟨hs, -, hj⟩, -⟩, hl⟩
    obtain ⟨u, v, rfl⟩ := List.length_eq_two.mp hl
    have huv : u < v := by
      have := hs.2
      simpa using this
    exact ⟨u, v, huv, rfl, hj u (by simp) v (by simp) (by omega)⟩
  · rintro ⟨u, v, huv, rfl, hj⟩
    refine ⟨⟨⟨⟨by simp, by simpa using huv⟩, ?_, ?_⟩, by simp⟩, rfl⟩
    · have h : u < size ∧ v < size := by
        rcases hj.2 with h | h
        · exact he _ h
        · exact (he _ h).symm
      simpa using h
    · intro a ha b hb hne
      simp only [List.mem_cons, List.not_mem_nil, or_false] at ha hb
      rcases ha with rfl | rfl <;> rcases hb with rfl | rfl
      · exact absurd rfl hne
      · exact hj
      · exact ⟨hj.1.symm, hj.2.symm⟩
      · exact absurd rfl hne

theorem dims_inserted_le {g : Gudhi} (hg : g.Ok) {edges : List (Nat × Nat)} {size : Nat}
    (he : EdgesIn edges size) (h0 : 0 < size) : (g.inserted (insertions edges size)).dims ≤ 2 := by
  obtain ⟨s, hs, e⟩ := dims_attained (dims_pos (holds_inserted hg he) h0)
  rw [← e]
  exact ((mem_inserted hg he).mp hs).2

theorem dims_inserted_two {g : Gudhi} (hg : g.Ok) {edges : List (Nat × Nat)} {size : Nat}
    (he : EdgesIn edges size) (h0 : 0 < size) :
    (g.inserted (insertions edges size)).dims = 2 ↔ ∃ u v, Joined edges u v := by
  constructor
  · intro hd
    obtain ⟨s, hs, e⟩ := dims_attained (dims_pos (holds_inserted hg he) h0)
    have : s ∈ (g.inserted (insertions edges size)).cellsOf size 1 :=
      (mem_cellsOf (holds_inserted hg he)).mpr ⟨hs, by omega⟩
    obtain ⟨u, v, -, -, hj⟩ := (mem_edgeCells hg he).mp this
    exact ⟨u, v, hj⟩
  · rintro ⟨u, v, hj⟩
    have h2 := dims_inserted_le hg he h0
    have : ∃ f, f ∈ (g.inserted (insertions edges size)).cellsOf size 1 := by
      rcases Nat.lt_or_ge u v with h | h
      · exact ⟨[u, v], (mem_edgeCells hg he).mpr ⟨u, v, h, rfl, hj⟩⟩
      · exact ⟨[v, u], (mem_edgeCells hg he).mpr ⟨v, u, by have := hj.1; omega, rfl, hj.1.symm, hj.2.symm⟩⟩
    obtain ⟨f, hf⟩ := this
    obtain ⟨h1, h3⟩ := (mem_cellsOf (holds_inserted hg he)).mp hf
    have := length_le_dims h1
    omega

/-! ### The cells -/

section

variable (st : SimplexTree) (size : Nat) (rings : List (List Nat))

/-- The cells of a ring complex. -/
def ringCells (d : Nat) : List (List Nat) := if d = 2 then rings else st.cellsOf size d

/-- The number of dimensions of a ring complex. -/
def ringDims : Nat := if rings = [] then st.dims else 3

/-- The faces for the incidence table. -/
def ringFaces (d : Nat) (c : List Nat) : List (List Nat) :=
  if d = 2 then getRingBoundaries c else getSimplexBoundaries c

/-- The faces in the dictionary. -/
def ringBd (d : Nat) (c : List Nat) : List (List Nat) :=
  if d = 2 then getRingBoundaries c else st.facesOf d c

/-- The cofaces in the dictionary. -/
def ringCob (d : Nat) (s : List Nat) : List (List Nat) :=
  if d = 1 then rings.filter fun c => decide (s ∈ getRingBoundaries c) else st.cofaces s

end

/-- What the tables of a ring lifting are made of. -/
structure RingData (st : SimplexTree) (size : Nat) (edges : List (Nat × Nat)) (rings : List (List Nat)) :
    Prop where
  holds : st.Holds size
  pos : 0 < size
  low : st.dims ≤ 2
  edge : ∀ f, f ∈ st.cellsOf size 1 ↔ ∃ u v, u < v ∧ f = [u, v] ∧ Joined edges u v
  ring : ∀ r ∈ rings, IsRing edges r
  nodup : rings.Nodup

theorem ringData_of {g : Gudhi} (hg : g.Ok) {lib : RingLib} (hl : lib.Ok) {edges : List (Nat × Nat)}
    {size : Nat} (he : EdgesIn edges size) (h0 : 0 < size) (maxK : Nat) :
    RingData (g.inserted (insertions edges size)) size edges (getRings lib edges maxK) where
  holds := holds_inserted hg he
  pos := h0
  low := dims_inserted_le hg he h0
  edge := fun _ => mem_edgeCells hg he
  ring := fun _ hr => (getRings_ring hl hr).1
  nodup := nodup_getRings hl edges maxK

section

variable {st : SimplexTree} {size : Nat} {edges : List (Nat × Nat)} {rings : List (List Nat)}
  (rd : RingData st size edges rings)
include rd

theorem RingData.dims_two (h : rings ≠ []) : st.dims = 2 := by
  obtain ⟨r, hr⟩ := List.exists_mem_of_ne_nil _ h
  have hring := rd.ring r hr
  obtain ⟨f, hf⟩ : ∃ f, f ∈ getRingBoundaries r := by
    apply List.exists_mem_of_length_pos
    rw [length_ringBoundaries]
    have := hring.long
    omega
  obtain ⟨u, v, h1, h2, -, -, h3⟩ := (mem_ringBoundaries hring).mp hf
  have := (mem_cellsOf rd.holds).mp ((rd.edge f).mpr ⟨u, v, h1, h2, h3⟩)
  have h4 := length_le_dims this.1
  have := rd.low
  omega

theorem RingData.dims_le : ringDims st rings ≤ 3 := by
  unfold ringDims
  have := rd.low
  split <;> omega

theorem RingData.dims_pos : 0 < ringDims st rings := by
  unfold ringDims
  split
  · exact Verif.dims_pos rd.holds rd.pos
  · omega

/-- The faces of a ring among the edge cells. -/
theorem RingData.ring_face {c : List Nat} (hc : c ∈ rings) (f : List Nat) :
    f ∈ getRingBoundaries c ↔ f ∈ st.cellsOf size 1 ∧ OnCell f c := by
  rw [mem_ringBoundaries (rd.ring c hc), rd.edge]
  unfold OnCell
  constructor
  · rintro ⟨u, v, h1, rfl, h2, h3, h4⟩
    exact ⟨⟨u, v, h1, rfl, h4⟩, by simp [h2, h3]⟩
  · rintro ⟨⟨u, v, h1, rfl, h4⟩, h⟩
    exact ⟨u, v, h1, rfl, h (by simp), h (by simp), h4⟩

/-- The faces of an edge among the vertex cells. -/
theorem RingData.vertex_face {c s : List Nat} (hc : c ∈ st.cellsOf size 1) (hs : s ∈ st.cellsOf size 0) :
    IsFacet s c ↔ OnCell s c := by
  obtain ⟨h1, h2⟩ := (mem_cellsOf rd.holds).mp hc
  obtain ⟨h3, h4⟩ := (mem_cellsOf rd.holds).mp hs
  rw [isFacet_iff_subset (rd.holds.simplex s h3).2 (rd.holds.simplex c h1).2]
  exact ⟨fun h => h.1, fun h => ⟨h, by omega⟩⟩

theorem RingData.cellData : CellData (ringCells st size rings) (ringDims st rings) OnCell ringFaces
    (ringBd st) (ringCob st rings) := by
  have cd := cellData_simplices rd.holds rd.pos
  have hle := rd.dims_le
  -- there are at most two steps between dimensions
  have hcase : ∀ d, d + 1 < ringDims st rings → (d = 0 ∧ 1 < st.dims) ∨ (d = 1 ∧ rings ≠ []) := by
    intro d hd
    unfold ringDims at hd
    have := rd.low
    split at hd
    · left; omega
    · next h =>
      have := rd.dims_two h
      have : d = 0 ∨ d = 1 := by omega
      rcases this with rfl | rfl
      · left; omega
      · exact .inr ⟨rfl, h⟩
  have k0 : ringCells st size rings 0 = st.cellsOf size 0 := rfl
  have k1 : ringCells st size rings 1 = st.cellsOf size 1 := rfl
  have k2 : ringCells st size rings 2 = rings := rfl
  refine { pos := rd.dims_pos, nodup := ?_, fsNodup := ?_, fs := ?_, bdNodup := ?_, two := ?_, bd := ?_,
           cobNodup := ?_, cob := ?_ }
  · intro d hd
    unfold ringCells
    split
    · exact rd.nodup
    · exact nodup_cellsOf rd.holds d
  · intro d c hd hc
    rcases hcase d hd with ⟨rfl, h⟩ | ⟨rfl, h⟩
    · exact cd.fsNodup 0 c (by omega) hc
    · exact nodup_ringBoundaries (rd.ring c hc)
  · intro d c hd hc f
    rcases hcase d hd with ⟨rfl, h⟩ | ⟨rfl, h⟩
    · have := cd.fs 0 c (by omega) hc f
      simp only [Nat.zero_add] at this hc ⊢
      rw [k1] at hc
      rw [k0]
      simp only [ringFaces, if_neg (show ¬ 1 = 2 by omega)]
      rw [this]
      exact and_congr_right fun hf => rd.vertex_face hc hf
    · exact rd.ring_face hc f
  · intro d c hd hc
    rcases hcase d hd with ⟨rfl, h⟩ | ⟨rfl, h⟩
    · exact cd.bdNodup 0 c (by omega) hc
    · exact nodup_ringBoundaries (rd.ring c hc)
  · intro d c hd hc
    rcases hcase d hd with ⟨rfl, h⟩ | ⟨rfl, h⟩
    · exact cd.two 0 c (by omega) hc
    · change 2 ≤ (getRingBoundaries c).length
      rw [length_ringBoundaries]
      have := (rd.ring c hc).long
      omega
  · intro d c hd hc f
    rcases hcase d hd with ⟨rfl, h⟩ | ⟨rfl, h⟩
    · have := cd.bd 0 c (by omega) hc f
      simp only [Nat.zero_add] at this hc ⊢
      rw [k1] at hc
      rw [k0]
      simp only [ringBd, if_neg (show ¬ 1 = 2 by omega)]
      rw [this]
      exact and_congr_right fun hf => rd.vertex_face hc hf
    · exact rd.ring_face hc f
  · intro d s hd hs
    rcases hcase d hd with ⟨rfl, h⟩ | ⟨rfl, h⟩
    · exact cd.cobNodup 0 s (by omega) hs
    · exact rd.nodup.filter _
  · intro d s hd hs t
    rcases hcase d hd with ⟨rfl, h⟩ | ⟨rfl, h⟩
    · have := cd.cob 0 s (by omega) hs t
      simp only [Nat.zero_add] at this ⊢
      rw [k1]
      simp only [ringCob, if_neg (show ¬ 0 = 1 by omega)]
      rw [this]
      exact and_congr_right fun ht => rd.vertex_face ht hs
    · simp only [ringCob, if_true]
      rw [List.mem_filter, decide_eq_true_eq]
      rw [k1] at hs
      refine and_congr_right fun ht => ?_
      rw [rd.ring_face ht]
      exact ⟨fun h => h.2, fun h => ⟨hs, h⟩⟩

/-! ### The tables -/

theorem addRings_ok : addRings ⟨tab st.dims (st.cellsOf size), tab st.dims fun d => (st.cellsOf size d).zipIdx⟩
      rings = .ok ⟨tab (ringDims st rings) (ringCells st size rings),
        tab (ringDims st rings) fun d => (ringCells st size rings d).zipIdx⟩ := by
  unfold addRings
  by_cases h : rings = []
  · subst h
    simp only [List.length_nil, Nat.lt_irrefl, if_false, ok_inj]
    have hd : ringDims st [] = st.dims := by simp [ringDims]
    rw [hd]
    have hlow := rd.low
    have hK : ∀ d, d < st.dims → st.cellsOf size d = ringCells st size [] d := by
      intro d hd
      unfold ringCells
      rw [if_neg (by omega)]
    congr 1
    · exact tab_congr hK
    · exact tab_congr fun d hd => by rw [hK d hd]
  · have hpos : 0 < rings.length := List.length_pos_iff.mpr h
    have hd2 := rd.dims_two h
    have hd3 : ringDims st rings = 3 := by simp [ringDims, h]
    rw [if_pos hpos, hd2, hd3]
    have e1 : tab 2 (st.cellsOf size) ++ [[]] = tab 3 fun d => if d = 2 then [] else st.cellsOf size d := rfl
    have e2 : tab 2 (fun d => (st.cellsOf size d).zipIdx) ++ [[]] =
        tab 3 fun d => if d = 2 then ([] : List (List Nat)).zipIdx else (st.cellsOf size d).zipIdx := rfl
    dsimp only
    rw [e1, e2]
    simp only [tab_length, BEq.rfl, pyAssert, if_true, ok_bind]
    obtain ⟨s', h1, h2⟩ := foldE_inv (f := ringTableStep) (l := rings)
      (s := ⟨tab 3 fun d => if d = 2 then [] else st.cellsOf size d,
        tab 3 fun d => if d = 2 then ([] : List (List Nat)).zipIdx else (st.cellsOf size d).zipIdx⟩)
      (fun pre t => t = ⟨tab 3 fun d => if d = 2 then pre else st.cellsOf size d,
        tab 3 fun d => if d = 2 then pre.zipIdx else (st.cellsOf size d).zipIdx⟩) rfl (by
        rintro pre c post s hl rfl
        have hnot : c ∉ pre := by
          have := rd.nodup
          rw [hl] at this
          exact fun hc => (List.nodup_append.mp this).2.2 c hc c (by simp) rfl
        refine ⟨_, by
          unfold ringTableStep
          rw [getAt_tab _ (by omega : 2 < 3), ok_bind, modifyAt_tab _ _ (by omega : 2 < 3), ok_bind,
            modifyAt_tab _ _ (by omega : 2 < 3), ok_bind, pure_eq_ok], ?_⟩
        congr 1
        · apply tab_congr
          intro d _
          by_cases hd : d = 2
          · simp only [hd, if_true]
            exact Dict.set_zipIdx hnot
          · simp [hd])
    rw [h1, h2, ok_inj]
    rfl

/-! ### The incidences -/

omit rd in
theorem foldE_congr {A S : Type} {f g : S → A → Py S} {l : List A} (h : ∀ s, ∀ a ∈ l, f s a = g s a) (s : S) :
    foldE f s l = foldE g s l := by
  induction l generalizing s with
  | nil => rfl
  | cons a l ih =>
    simp only [foldE, h s a (by simp)]
    cases g s a with
    | error e => rfl
    | ok s' => exact ih (fun s b hb => h s b (by simp [hb])) s'

/-- Reading the ids from the larger tables makes no difference. -/
theorem extractIncidence_ids :
    extractIncidence st (tab (ringDims st rings) fun d => (ringCells st size rings d).zipIdx) st.dims =
      extractIncidence st (tab st.dims fun d => (st.cellsOf size d).zipIdx) st.dims := by
  unfold extractIncidence
  apply foldE_congr
  intro s a ha
  have hlow := rd.low
  have ht : tableStep (tab (ringDims st rings) fun d => (ringCells st size rings d).zipIdx) s.table a =
      tableStep (tab st.dims fun d => (st.cellsOf size d).zipIdx) s.table a := by
    unfold tableStep
    dsimp only
    split
    · next hpos =>
      have hle := length_le_dims ha
      have h1 : a.length - 1 - 1 < st.dims := by omega
      have h2 : a.length - 1 - 1 < ringDims st rings := by
        unfold ringDims
        split <;> omega
      rw [getAt_tab _ h1, getAt_tab _ h2]
      unfold ringCells
      rw [if_neg (by omega)]
    · rfl
  unfold extractStep
  dsimp only
  rw [ht]

omit rd in
theorem ringBoundaries_loop {edgeCells : List (List Nat)} {cell : List Nat} {bs : List (List Nat)}
    (hn : bs.Nodup) (hsub : ∀ b ∈ bs, b ∈ edgeCells) (l2 l1 : Dict (List Nat) (List (List Nat)))
    (q : List (List Nat)) (hq : l2.get? cell = some q) (acc : List Nat) :
    ∃ l2' l1', foldE (ringBoundaryStep edgeCells.zipIdx cell) ((l2, l1), acc) bs =
        .ok ((l2', l1'), acc ++ bs.map (placeOf edgeCells)) ∧
      (∀ c, l2'.get? c = if cell = c then some (q ++ bs) else l2.get? c) ∧
      (∀ e, (l1'.get? e).getD [] = (l1.get? e).getD [] ++ if e ∈ bs then [cell] else []) := by
  induction bs generalizing l2 l1 q acc with
  | nil =>
    refine ⟨l2, l1, by simp [foldE], ?_, by simp⟩
    intro c
    by_cases hc : cell = c
    · subst hc; simp [hq]
    · simp [hc]
  | cons b bs ih =>
    have hb : b ∈ edgeCells := hsub b (by simp)
    have hstep : ringBoundaryStep edgeCells.zipIdx cell ((l2, l1), acc) b =
        .ok ((l2.push cell b, l1.push b cell), acc ++ [placeOf edgeCells b]) := by
      have hg := Dict.get_zipIdx hb
      have hg' := Dict.get_eq_ok.mp hg
      unfold ringBoundaryStep
      rw [hg', hg]
      rfl
    obtain ⟨l2', l1', h1, h2, h3⟩ := ih (List.nodup_cons.mp hn).2 (fun b' hb' => hsub b' (by simp [hb']))
      (l2.push cell b) (l1.push b cell) (q ++ [b]) (by rw [Dict.get?_push, if_pos rfl, hq]; rfl)
      (acc ++ [placeOf edgeCells b])
    refine ⟨l2', l1', ?_, ?_, ?_⟩
    · simp only [foldE, hstep, ok_bind, h1, List.map_cons, List.append_assoc, List.singleton_append]
    · intro c
      rw [h2, Dict.get?_push]
      by_cases hc : cell = c
      · simp [hc]
      · simp [hc]
    · intro e
      rw [h3, Dict.getD_push]
      have hnb := (List.nodup_cons.mp hn).1
      by_cases he : b = e
      · subst he
        simp [hnb]
      · have he' : ¬ e = b := fun h => he h.symm
        simp [he, he']

theorem extractIncidenceWithRings_ok :
    ∃ inc, extractIncidenceWithRings st (tab (ringDims st rings) fun d => (ringCells st size rings d).zipIdx) =
        .ok inc ∧
      inc.table = tab (ringDims st rings) (tableRow (ringCells st size rings) ringFaces) ∧
      (∀ d, d + 1 < ringDims st rings → ∃ level, inc.boundaries[d + 1]? = some level ∧
        ∀ c ∈ ringCells st size rings (d + 1), Dict.get? level c = some (ringBd st (d + 1) c)) ∧
      (∀ d, d + 1 < ringDims st rings → ∃ level, inc.coboundaries[d]? = some level ∧
        ∀ s ∈ ringCells st size rings d, (Dict.get? level s).getD [] = ringCob st rings d s) := by
  obtain ⟨inc, B, C, h1, h2, h3, h4, h5, h6⟩ := extractIncidence_ok rd.holds rd.pos
  have cd := cellData_simplices rd.holds rd.pos
  have hlow := rd.low
  have hle := rd.dims_le
  have hB : ∀ d, d + 1 < st.dims → ∀ c ∈ st.cellsOf size (d + 1), (B (d + 1)).get? c = some (st.facesOf (d + 1) c) := by
    intro d hd c hc
    have hlen := cd.two d c hd hc
    have := h5 (d + 1) c
    cases hg : (B (d + 1)).get? c with
    | some l => rw [hg] at this; simpa using this
    | none =>
      rw [hg] at this
      simp only [Option.getD_none] at this
      rw [← this] at hlen
      simp at hlen
  unfold extractIncidenceWithRings
  rw [extractIncidence_ids rd, h1]
  simp only [decide_eq_true hlow, pyAssert, if_true, ok_bind]
  unfold addRingIncidence
  rw [tab_length]
  simp only [decide_eq_true hle, pyAssert, if_true, ok_bind]
  by_cases h : rings = []
  · have hd : ringDims st rings = st.dims := by simp [ringDims, h]
    rw [hd, tab_get_none _ (by omega : st.dims ≤ 2)]
    refine ⟨inc, rfl, ?_, ?_, ?_⟩
    · rw [h2]
      apply tab_congr
      intro d hd
      unfold tableRow ringCells ringFaces
      rw [if_neg (show ¬ d = 2 by omega), if_neg (show ¬ d - 1 = 2 by omega)]
      simp only [if_neg (show ¬ d = 2 by omega)]
    · intro d hd
      refine ⟨B (d + 1), by rw [h3, tab_get _ (by omega)], ?_⟩
      intro c hc
      unfold ringCells at hc
      unfold ringBd
      rw [if_neg (by omega)] at hc ⊢
      exact hB d hd c hc
    · intro d hd
      refine ⟨C d, by rw [h4, tab_get _ (by omega)], ?_⟩
      intro s hs
      unfold ringCells at hs
      unfold ringCob
      rw [if_neg (by omega)] at hs ⊢
      exact h6 d s hs
  · have hd2 := rd.dims_two h
    have hd3 : ringDims st rings = 3 := by simp [ringDims, h]
    rw [hd3, tab_get _ (by omega : 2 < 3)]
    dsimp only
    rw [getAt_tab _ (by omega : 1 < 3), ok_bind]
    have hK1 : ringCells st size rings 1 = st.cellsOf size 1 := rfl
    have hK2 : ringCells st size rings 2 = rings := rfl
    rw [hK1, hK2]
    have hids : rings.zipIdx.map Prod.fst = rings := by rw [List.zipIdx_map_fst]
    rw [hids, h2, h3, h4, hd2]
    have e1 : tab 2 (tableRow (st.cellsOf size) fun _ c => getSimplexBoundaries c) ++ [[]] =
        tab 3 fun d => if d = 2 then [] else tableRow (st.cellsOf size) (fun _ c => getSimplexBoundaries c) d :=
      rfl
    have e2 : ∀ D : Nat → Dict (List Nat) (List (List Nat)), tab (2 + 1) D ++ [[]] =
        tab 4 fun d => if d = 3 then [] else D d := fun _ => rfl
    rw [e1, e2, e2]
    obtain ⟨s', g1, B2, C1, g2, g3, g4, g5, g6⟩ := foldE_inv (f := ringIncidenceStep (st.cellsOf size 1).zipIdx)
      (l := rings)
      (s := ⟨tab 3 fun d => if d = 2 then [] else
          tableRow (st.cellsOf size) (fun _ c => getSimplexBoundaries c) d,
        tab 4 fun d => if d = 3 then [] else B d, tab 4 fun d => if d = 3 then [] else C d⟩)
      (fun pre s => ∃ B2 C1 : Dict (List Nat) (List (List Nat)),
        s.table = (tab 3 fun d => if d = 2 then pre.map (fun c => (getRingBoundaries c).map
            (placeOf (st.cellsOf size 1))) else
          tableRow (st.cellsOf size) (fun _ c => getSimplexBoundaries c) d) ∧
        s.boundaries = (tab 4 fun d => if d = 2 then B2 else if d = 3 then [] else B d) ∧
        s.coboundaries = (tab 4 fun d => if d = 1 then C1 else if d = 3 then [] else C d) ∧
        (∀ c ∈ pre, Dict.get? B2 c = some (getRingBoundaries c)) ∧
        (∀ e, (Dict.get? C1 e).getD [] = (Dict.get? (C 1) e).getD [] ++
          pre.filter fun c => decide (e ∈ getRingBoundaries c)))
      ⟨B 2, C 1, rfl, rfl, rfl, by simp, by simp⟩ (by
        rintro pre c post s hl ⟨B2, C1, i1, i2, i3, i4, i5⟩
        have hc : c ∈ rings := by rw [hl]; simp
        have hnot : c ∉ pre := by
          have := rd.nodup
          rw [hl] at this
          exact fun hc => (List.nodup_append.mp this).2.2 c hc c (by simp) rfl
        obtain ⟨l2', l1', f1, f2, f3⟩ := ringBoundaries_loop (edgeCells := st.cellsOf size 1) (cell := c)
          (nodup_ringBoundaries (rd.ring c hc)) (fun b hb => ((rd.ring_face hc b).mp hb).1)
          (Dict.set B2 c []) C1 [] (by rw [Dict.get?_set, if_pos rfl]) []
        refine ⟨_, by
          unfold ringIncidenceStep
          rw [i1, i2, i3, getAt_tab _ (by omega : 2 < 4), ok_bind, getAt_tab _ (by omega : 1 < 4), ok_bind]
          simp only [if_true]
          rw [f1, ok_bind, modifyAt_tab _ _ (by omega : 2 < 3), ok_bind, pure_eq_ok], l2', l1', ?_, ?_, ?_,
          ?_, ?_⟩
        · apply tab_congr
          intro d _
          by_cases hd : d = 2 <;> simp [hd]
        · dsimp only
          rw [tab_set]
          apply tab_congr
          intro d _
          by_cases hd : d = 2 <;> simp [hd]
        · dsimp only
          rw [tab_set]
          apply tab_congr
          intro d _
          by_cases hd : d = 1 <;> simp [hd]
        · intro c' hc'
          rw [f2]
          by_cases hcc : c = c'
          · subst hcc; simp
          · rw [if_neg hcc, Dict.get?_set, if_neg hcc]
            rcases List.mem_append.mp hc' with h' | h'
            · exact i4 c' h'
            · rw [List.mem_singleton] at h'
              exact absurd h'.symm hcc
        · intro e
          rw [f3, i5, List.filter_append, List.append_assoc]
          congr 2
          by_cases he : e ∈ getRingBoundaries c <;> simp [he])
    refine ⟨s', g1, ?_, ?_, ?_⟩
    · rw [g2]
      apply tab_congr
      intro d hd
      have : d = 0 ∨ d = 1 ∨ d = 2 := by omega
      rcases this with rfl | rfl | rfl <;> rfl
    · intro d hd
      have : d = 0 ∨ d = 1 := by omega
      rcases this with rfl | rfl
      · exact ⟨B 1, by rw [g3, tab_get _ (by omega)]; rfl, fun c hc => hB 0 (by omega) c hc⟩
      · exact ⟨B2, by rw [g3, tab_get _ (by omega)]; rfl, fun c hc => g5 c hc⟩
    · intro d hd
      have : d = 0 ∨ d = 1 := by omega
      rcases this with rfl | rfl
      · exact ⟨C 0, by rw [g4, tab_get _ (by omega)]; rfl, fun s hs => h6 0 s hs⟩
      · refine ⟨C1, by rw [g4, tab_get _ (by omega)]; rfl, fun s hs => ?_⟩
        rw [g6, h6 1 s hs]
        have hnil : st.cofaces s = [] := by
          rw [List.eq_nil_iff_forall_not_mem]
          intro t ht
          obtain ⟨m1, m2⟩ := (mem_cellsOf (d := 1) rd.holds).mp hs
          obtain ⟨n1, n2⟩ := (rd.holds.cofaces s m1 t).mp ht
          have := length_le_dims n1
          have := n2.2
          omega
        rw [hnil]
        rfl

end

end Verif
