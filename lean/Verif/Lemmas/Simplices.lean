import Verif.Lemmas.Cochains
import Verif.Lemmas.Scatter

/-!
# Lemmas about the lifting of a simplex tree
-/

namespace Verif

variable {F L : Type}

/-- The cells of dimension `d` in the order of their ids. -/
def SimplexTree.cellsOf (st : SimplexTree) (size d : Nat) : List (List Nat) :=
  if d = 0 then (List.range size).map fun v => [v]
  else st.simplices.filter fun s => decide (s.length = d + 1)

/-- The faces of a cell of dimension `d` in the order of the dictionary. -/
def SimplexTree.facesOf (st : SimplexTree) (d : Nat) (c : List Nat) : List (List Nat) :=
  st.simplices.filter fun f => decide (f.length = d) && decide (c ∈ st.cofaces f)

section

variable {st : SimplexTree} {size : Nat}

theorem mem_cellsOf (h : st.Holds size) {d : Nat} {s : List Nat} :
    s ∈ st.cellsOf size d ↔ s ∈ st.simplices ∧ s.length = d + 1 := by
  unfold SimplexTree.cellsOf
  split
  · next hd =>
    subst hd
    simp only [List.mem_map, List.mem_range, Nat.zero_add]
    constructor
    · rintro ⟨v, hv, rfl⟩
      exact ⟨(h.vertices v).mpr hv, rfl⟩
    · rintro ⟨hs, hl⟩
      obtain ⟨v, rfl⟩ := List.length_eq_one_iff.mp hl
      exact ⟨v, (h.vertices v).mp hs, rfl⟩
  · simp

theorem nodup_cellsOf (h : st.Holds size) (d : Nat) : (st.cellsOf size d).Nodup := by
  unfold SimplexTree.cellsOf
  split
  · refine List.nodup_range.map ?_
    intro a b e
    exact (List.cons.inj e).1
  · exact h.nodup.filter _

theorem length_le_dims {s : List Nat} (hs : s ∈ st.simplices) : s.length ≤ st.dims := by
  unfold SimplexTree.dims
  cases hm : (st.simplices.map List.length).max? with
  | none =>
    rw [List.max?_eq_none_iff, List.map_eq_nil_iff] at hm
    rw [hm] at hs
    simp at hs
  | some m =>
    exact (List.max?_eq_some_iff.mp hm).2 _ (List.mem_map.mpr ⟨s, hs, rfl⟩)

theorem dims_attained (h : 0 < st.dims) : ∃ s ∈ st.simplices, s.length = st.dims := by
  unfold SimplexTree.dims at h ⊢
  cases hm : (st.simplices.map List.length).max? with
  | none => rw [hm] at h; simp at h
  | some m =>
    obtain ⟨s, hs, e⟩ := List.mem_map.mp (List.max?_eq_some_iff.mp hm).1
    exact ⟨s, hs, e⟩

theorem length_pos_of_holds (h : st.Holds size) {s : List Nat} (hs : s ∈ st.simplices) : 0 < s.length :=
  List.length_pos_iff.mpr (h.simplex s hs).1

theorem dims_pos (h : st.Holds size) (h0 : 0 < size) : 0 < st.dims :=
  Nat.lt_of_lt_of_le (by simp) (length_le_dims ((h.vertices 0).mpr h0))

theorem simplex_nodup {s : List Nat} (h : IsSimplex s) : s.Nodup := h.2.imp fun hab => Nat.ne_of_lt hab

theorem cellData_simplices (h : st.Holds size) (h0 : 0 < size) :
    CellData (st.cellsOf size) st.dims IsFacet (fun _ c => getSimplexBoundaries c) st.facesOf
      (fun _ s => st.cofaces s) := by
  have hfs : ∀ d c, c ∈ st.cellsOf size (d + 1) → ∀ f, f ∈ getSimplexBoundaries c ↔
      f ∈ st.cellsOf size d ∧ IsFacet f c := by
    intro d c hc f
    obtain ⟨hcs, hcl⟩ := (mem_cellsOf h).mp hc
    unfold getSimplexBoundaries
    rw [mem_combinations, mem_cellsOf h]
    constructor
    · rintro ⟨h1, h2⟩
      have hf : IsFacet f c := ⟨h1, by omega⟩
      exact ⟨⟨h.closed c hcs f (by rintro rfl; simp at h2; omega) hf, by omega⟩, hf⟩
    · rintro ⟨⟨-, h1⟩, h2⟩
      exact ⟨h2.1, by omega⟩
  have hbd : ∀ d c, c ∈ st.cellsOf size (d + 1) → ∀ f, f ∈ st.facesOf (d + 1) c ↔
      f ∈ st.cellsOf size d ∧ IsFacet f c := by
    intro d c hc f
    obtain ⟨hcs, hcl⟩ := (mem_cellsOf h).mp hc
    unfold SimplexTree.facesOf
    rw [List.mem_filter, mem_cellsOf h]
    simp only [Bool.and_eq_true, decide_eq_true_eq]
    constructor
    · rintro ⟨h1, h2, h3⟩
      exact ⟨⟨h1, h2⟩, ((h.cofaces f h1 c).mp h3).2⟩
    · rintro ⟨⟨h1, h2⟩, h3⟩
      exact ⟨h1, h2, (h.cofaces f h1 c).mpr ⟨hcs, h3⟩⟩
  have hfn : ∀ d c, c ∈ st.cellsOf size (d + 1) → (getSimplexBoundaries c).Nodup := fun d c hc =>
    nodup_combinations (simplex_nodup (h.simplex c ((mem_cellsOf h).mp hc).1)) _
  have hbn : ∀ d c, (st.facesOf d c).Nodup := fun d c => h.nodup.filter _
  refine { pos := dims_pos h h0, nodup := fun d _ => nodup_cellsOf h d,
           fsNodup := fun d c _ hc => hfn d c hc, fs := fun d c _ hc => hfs d c hc,
           bdNodup := fun d c _ _ => hbn _ c, bd := fun d c _ hc => hbd d c hc,
           cobNodup := ?_, cob := ?_, two := ?_ }
  · intro d c _ hc
    have hp : (st.facesOf (d + 1) c).Perm (getSimplexBoundaries c) :=
      (List.perm_ext_iff_of_nodup (hbn _ c) (hfn d c hc)).mpr fun f =>
        (hbd d c hc f).trans (hfs d c hc f).symm
    have hl := ((mem_cellsOf h).mp hc).2
    rw [hp.length_eq]
    unfold getSimplexBoundaries
    rw [length_combinations_pred (by rintro rfl; simp at hl)]
    omega
  · intro d s _ hs
    exact h.cofacesNodup s ((mem_cellsOf h).mp hs).1
  · intro d s _ hs t
    obtain ⟨h1, h2⟩ := (mem_cellsOf h).mp hs
    rw [h.cofaces s h1, mem_cellsOf h]
    constructor
    · rintro ⟨h3, h4⟩
      exact ⟨⟨h3, by have := h4.2; omega⟩, h4⟩
    · rintro ⟨⟨h3, -⟩, h4⟩
      exact ⟨h3, h4⟩

/-! ### build_tables -/

theorem vertices_zipIdx (size : Nat) :
    (List.range size).map (fun v => ([v], v)) = ((List.range size).map fun v => [v]).zipIdx := by
  apply List.ext_getElem?
  intro i
  by_cases h : i < size
  · simp [h]
  · rw [List.getElem?_eq_none (by simp; omega), List.getElem?_eq_none (by simp; omega)]

theorem buildTables_ok (h : st.Holds size) (h0 : 0 < size) :
    buildTables st size = .ok { cells := tab st.dims (st.cellsOf size),
                                ids := tab st.dims fun d => (st.cellsOf size d).zipIdx } := by
  have hpos := dims_pos h h0
  unfold buildTables
  rw [replicate_tab, modifyAt_tab _ _ hpos, ok_bind, replicate_tab, modifyAt_tab _ _ hpos, ok_bind]
  obtain ⟨s', h1, h2⟩ := foldE_inv (f := buildTablesStep) (l := st.simplices)
    (s := { cells := tab st.dims fun d => if d = 0 then (List.range size).map (fun v => [v]) else [],
            ids := tab st.dims fun d => if d = 0 then (List.range size).map (fun v => ([v], v)) else [] })
    (fun done t => t =
      { cells := tab st.dims fun d => if d = 0 then (List.range size).map (fun v => [v]) else
          done.filter fun s => decide (s.length = d + 1),
        ids := tab st.dims fun d => (if d = 0 then (List.range size).map (fun v => [v]) else
          done.filter fun s => decide (s.length = d + 1)).zipIdx })
    (by
      congr 1
      apply tab_congr
      intro d _
      split
      · exact vertices_zipIdx size
      · rfl)
    (by
      rintro done s post t hl rfl
      have hs : s ∈ st.simplices := by rw [hl]; simp
      have hlen := length_pos_of_holds h hs
      have hle := length_le_dims hs
      have hnew : s ∉ done := by
        have := h.nodup
        rw [hl] at this
        intro e
        exact (List.disjoint_of_nodup_append this) e (by simp)
      unfold buildTablesStep
      by_cases hd : s.length - 1 = 0
      · refine ⟨_, by rw [if_pos hd], ?_⟩
        congr 1 <;>
        · apply tab_congr
          intro d _
          split
          · rfl
          · rw [List.filter_append]
            simp only [List.filter_cons, List.filter_nil]
            rw [if_neg (by simp; omega), List.append_nil]
      · have hlt : s.length - 1 < st.dims := by omega
        refine ⟨_, by
          simp only [hd, if_false]
          rw [getAt_tab _ hlt, ok_bind, modifyAt_tab _ _ hlt, ok_bind, modifyAt_tab _ _ hlt, ok_bind,
            pure_eq_ok], ?_⟩
        congr 1
        · apply tab_congr
          intro d _
          by_cases hd0 : d = 0
          · subst hd0
            rw [if_neg (by omega)]
            simp
          · by_cases hds : d = s.length - 1
            · rw [if_pos hds, if_neg hd0, if_neg hd0, List.filter_append]
              simp only [List.filter_cons, List.filter_nil]
              rw [if_pos (by simp; omega)]
            · rw [if_neg hds, if_neg hd0, if_neg hd0, List.filter_append]
              simp only [List.filter_cons, List.filter_nil]
              rw [if_neg (by simp; omega), List.append_nil]
        · apply tab_congr
          intro d _
          by_cases hd0 : d = 0
          · subst hd0
            rw [if_neg (by omega)]
            simp
          · by_cases hds : d = s.length - 1
            · rw [if_pos hds, if_neg hd0, if_neg hd0, List.filter_append]
              simp only [List.filter_cons, List.filter_nil]
              rw [if_pos (by simp; omega : decide (s.length = d + 1) = true), ← hds, if_neg hd0]
              exact Dict.set_zipIdx fun e => hnew (List.mem_of_mem_filter e)
            · rw [if_neg hds, if_neg hd0, if_neg hd0, List.filter_append]
              simp only [List.filter_cons, List.filter_nil]
              rw [if_neg (by simp; omega), List.append_nil])
  rw [h1, h2]
  rfl

/-! ### extract_boundaries_and_coboundaries_from_simplex_tree -/

theorem Dict.getD_push {K V : Type} [DecidableEq K] (d : Dict K (List V)) (k k' : K) (v : V) :
    ((Dict.push d k v).get? k').getD [] = (d.get? k').getD [] ++ if k = k' then [v] else [] := by
  rw [Dict.get?_push]
  by_cases h : k = k'
  · subst h; simp
  · simp [h]

theorem cofaces_loop {s : List Nat} {cs : List (List Nat)} (hn : cs.Nodup)
    (hlen : ∀ c ∈ cs, c.length = s.length + 1) (l1 l2 : Dict (List Nat) (List (List Nat))) :
    ∃ l1' l2', foldE (cofaceStep s) (l1, l2) cs = .ok (l1', l2') ∧
      (∀ k, (l1'.get? k).getD [] = (l1.get? k).getD [] ++ if s = k then cs else []) ∧
      (∀ k, (l2'.get? k).getD [] = (l2.get? k).getD [] ++ if k ∈ cs then [s] else []) := by
  induction cs generalizing l1 l2 with
  | nil => exact ⟨l1, l2, rfl, by simp, by simp⟩
  | cons c cs ih =>
    have hn' := List.nodup_cons.mp hn
    obtain ⟨l1', l2', h1, h2, h3⟩ := ih hn'.2 (fun c hc => hlen c (by simp [hc])) (l1.push s c) (l2.push c s)
    refine ⟨l1', l2', ?_, ?_, ?_⟩
    · simp only [foldE, cofaceStep, hlen c (by simp), BEq.rfl, pyAssert_true, ok_bind, pure_eq_ok]
      exact h1
    · intro k
      rw [h2, Dict.getD_push]
      by_cases e : s = k <;> simp [e]
    · intro k
      rw [h3, Dict.getD_push]
      by_cases e : c = k
      · subst e; simp [hn'.1]
      · have e' : ¬ k = c := fun e' => e e'.symm
        simp [e, e']

theorem extractIncidence_ok (h : st.Holds size) (h0 : 0 < size) :
    ∃ inc B C, extractIncidence st (tab st.dims fun d => (st.cellsOf size d).zipIdx) st.dims = .ok inc ∧
      inc.table = tab st.dims (tableRow (st.cellsOf size) fun _ c => getSimplexBoundaries c) ∧
      inc.boundaries = tab (st.dims + 1) B ∧ inc.coboundaries = tab (st.dims + 1) C ∧
      (∀ d c, ((B d).get? c).getD [] = st.facesOf d c) ∧
      (∀ d s, s ∈ st.cellsOf size d → ((C d).get? s).getD [] = st.cofaces s) := by
  have cd := cellData_simplices h h0
  unfold extractIncidence
  obtain ⟨inc, h1, B, C, h2, h3, h4, h5, h6⟩ := foldE_inv
    (f := extractStep st (tab st.dims fun d => (st.cellsOf size d).zipIdx)) (l := st.simplices)
    (s := { table := List.replicate st.dims [], boundaries := List.replicate (st.dims + 1) [],
            coboundaries := List.replicate (st.dims + 1) [] })
    (fun done s => ∃ B C,
      s.table = tab st.dims (fun d => if d = 0 then [] else
        (done.filter fun s => decide (s.length = d + 1)).map fun c =>
          (getSimplexBoundaries c).map (placeOf (st.cellsOf size (d - 1)))) ∧
      s.boundaries = tab (st.dims + 1) B ∧ s.coboundaries = tab (st.dims + 1) C ∧
      (∀ d c, ((B d).get? c).getD [] =
        done.filter fun f => decide (f.length = d) && decide (c ∈ st.cofaces f)) ∧
      (∀ d s, ((C d).get? s).getD [] = if s ∈ done ∧ s.length = d + 1 then st.cofaces s else []))
    ⟨fun _ => [], fun _ => [], by simp [replicate_tab], replicate_tab _ _, replicate_tab _ _,
      by simp, by simp⟩
    (by
      rintro done s post inc hl ⟨B, C, ht, hB, hC, hBc, hCc⟩
      have hs : s ∈ st.simplices := by rw [hl]; simp
      have hlen := length_pos_of_holds h hs
      have hle := length_le_dims hs
      have hnew : s ∉ done := by
        have := h.nodup
        rw [hl] at this
        intro e
        exact (List.disjoint_of_nodup_append this) e (by simp)
      obtain ⟨l1, l2, hf, hl1, hl2⟩ := cofaces_loop (h.cofacesNodup s hs)
        (fun c hc => ((h.cofaces s hs c).mp hc).2.2.symm) (C (s.length - 1)) (B (s.length - 1 + 1))
      have htab : tableStep (tab st.dims fun d => (st.cellsOf size d).zipIdx) inc.table s = .ok (tab st.dims (fun d => if d = 0 then [] else
        ((done ++ [s]).filter fun s => decide (s.length = d + 1)).map fun c =>
          (getSimplexBoundaries c).map (placeOf (st.cellsOf size (d - 1))))) := by
        unfold tableStep
        dsimp only
        by_cases hd : 0 < s.length - 1
        · rw [if_pos hd, getAt_tab _ (by omega : s.length - 1 - 1 < st.dims), ok_bind,
            mapE_ok (g := placeOf (st.cellsOf size (s.length - 1 - 1))), ok_bind, ht,
            modifyAt_tab _ _ (by omega : s.length - 1 < st.dims), ok_inj]
          · apply tab_congr
            intro d _
            rw [List.filter_append]
            simp only [List.filter_cons, List.filter_nil]
            by_cases hds : d = s.length - 1
            · rw [if_pos hds, if_neg (by omega), if_neg (by omega),
                if_pos (by simp; omega : decide (s.length = d + 1) = true)]
              simp [hds]
            · rw [if_neg hds]
              split
              · rfl
              · rw [if_neg (by simp; omega), List.append_nil]
          · intro f hf
            refine Dict.get_zipIdx ?_
            have hlt : s.length - 1 - 1 + 1 < st.dims := by omega
            have hsc : s ∈ st.cellsOf size (s.length - 1 - 1 + 1) :=
              (mem_cellsOf h).mpr ⟨hs, by omega⟩
            exact ((cd.fs (s.length - 1 - 1) s hlt hsc f).mp hf).1
        · rw [if_neg hd, ht, ok_inj]
          apply tab_congr
          intro d _
          split
          · rfl
          · rw [List.filter_append]
            simp only [List.filter_cons, List.filter_nil]
            rw [if_neg (by simp; omega), List.append_nil]
      refine ⟨{ table := _, coboundaries := inc.coboundaries.set (s.length - 1) l1,
                boundaries := inc.boundaries.set (s.length - 1 + 1) l2 }, by
        unfold extractStep
        simp only
        rw [hC, getAt_tab _ (by omega), ok_bind, hB, getAt_tab _ (by omega), ok_bind]
        rw [htab, ok_bind, hf, ok_bind, pure_eq_ok], ?_⟩
      refine ⟨fun d => if d = s.length - 1 + 1 then l2 else B d,
        fun d => if d = s.length - 1 then l1 else C d, rfl, ?_, ?_, ?_, ?_⟩
      · simp only [hB, tab_set]
      · simp only [hC, tab_set]
      · intro d c
        rw [List.filter_append]
        simp only [List.filter_cons, List.filter_nil]
        by_cases hds : d = s.length - 1 + 1
        · simp only [hds, if_true, hl2, hBc]
          congr 1
          by_cases hc : c ∈ st.cofaces s
          · simp [hc]; omega
          · simp [hc]
        · simp only [hds, if_false, hBc]
          rw [if_neg, List.append_nil]
          simp only [Bool.and_eq_true, decide_eq_true_eq, not_and]
          intro e
          omega
      · intro d k
        by_cases hds : d = s.length - 1
        · simp only [hds, if_true, hl1, hCc]
          by_cases hk : s = k
          · subst hk
            rw [if_neg (fun e => hnew e.1), if_pos rfl, if_pos ⟨by simp, by omega⟩]
            rfl
          · rw [if_neg hk, List.append_nil]
            have hk' : ¬ k = s := fun e => hk e.symm
            simp [hk']
        · simp only [hds, if_false, hCc]
          by_cases hk : s = k
          · subst hk
            rw [if_neg (fun e => hnew e.1), if_neg (fun e => hds (by omega))]
          · have hk' : ¬ k = s := fun e => hk e.symm
            simp [hk'])
  refine ⟨inc, B, C, h1, ?_, h3, h4, h5, ?_⟩
  · rw [h2]
    apply tab_congr
    intro d _
    unfold tableRow
    split
    · rfl
    · next hd =>
      have : st.cellsOf size d = st.simplices.filter fun s => decide (s.length = d + 1) := by
        unfold SimplexTree.cellsOf; rw [if_neg hd]
      rw [this]
  · intro d s hs
    rw [h6, if_pos ((mem_cellsOf h).mp hs)]

/-! ### construct_features and the whole lifting -/

/-- The features of the cells of a table: the combined features of the vertices of every cell. -/
def combineRows (agg : List F → F) (x : List F) (cells : List (List Nat)) : List F :=
  cells.map fun c => agg (c.filterMap fun v => x[v]?)

theorem zip_filter_tagged {cells : List (List Nat)} {x : List F} (k : Nat) {f : Nat → F}
    (hf : ∀ c ∈ cells, ∀ v ∈ c, x[v]? = some (f v)) (i : Nat) :
    (((((cells.zipIdx k).flatMap fun ci => ci.1.map fun _ => ci.2)).zip (cells.flatten.map f)).filter
      (fun p => p.1 == i)).map Prod.snd = if h : k ≤ i ∧ i - k < cells.length then
        (cells[i - k]'h.2).map f else [] := by
  induction cells generalizing k with
  | nil => simp
  | cons c cells ih =>
    simp only [List.zipIdx_cons, List.flatMap_cons, List.flatten_cons, List.map_append]
    rw [List.zip_append (by simp), List.filter_append, List.map_append,
      ih (k + 1) fun c hc => hf c (by simp [hc])]
    have hz : ((c.map fun _ => k).zip (c.map f)) = c.map fun v => (k, f v) := by
      rw [List.zip_map']
    rw [hz]
    by_cases hik : k = i
    · subst hik
      have : (c.map fun v => (k, f v)).filter (fun p => p.1 == k) = c.map fun v => (k, f v) := by
        rw [List.filter_eq_self]
        intro p hp
        obtain ⟨v, _, rfl⟩ := List.mem_map.mp hp
        simp
      rw [this, dif_neg (by omega), dif_pos ⟨Nat.le_refl _, by simp⟩, List.append_nil, List.map_map]
      simp only [Nat.sub_self, List.getElem_cons_zero]
      rfl
    · have : (c.map fun v => (k, f v)).filter (fun p => p.1 == i) = [] := by
        rw [List.filter_eq_nil_iff]
        intro p hp
        obtain ⟨v, _, rfl⟩ := List.mem_map.mp hp
        simpa using hik
      rw [this]
      by_cases hi : k + 1 ≤ i ∧ i - (k + 1) < cells.length
      · rw [dif_pos hi, dif_pos ⟨by omega, by simp; omega⟩]
        have he : i - k = i - (k + 1) + 1 := by omega
        simp [he]
      · rw [dif_neg hi, dif_neg]
        · rfl
        · rintro ⟨h1, h2⟩
          simp only [List.length_cons] at h2
          exact hi ⟨by omega, by omega⟩

theorem cellFeatures_ok {agg : List F → F} {x : List F} {cells : List (List Nat)}
    (h : ∀ c ∈ cells, ∀ v ∈ c, v < x.length) :
    cellFeatures agg x cells = .ok (combineRows agg x cells) := by
  cases x with
  | nil =>
    have hnil : ∀ c ∈ cells, c = [] := by
      intro c hc
      rw [List.eq_nil_iff_forall_not_mem]
      intro v hv
      have := h c hc v hv
      simp at this
    have h1 : cells.flatten = [] := by
      rw [List.eq_nil_iff_forall_not_mem]
      intro v hv
      obtain ⟨c, hc, hv⟩ := List.mem_flatten.mp hv
      rw [hnil c hc] at hv
      simp at hv
    have h2 : (cells.zipIdx.flatMap fun ci => ci.1.map fun _ => ci.2) = [] := by
      rw [List.flatMap_eq_nil_iff]
      rintro ⟨c, i⟩ hc
      simp only [List.map_eq_nil_iff]
      exact hnil c (List.mem_of_getElem? (List.mem_zipIdx_iff_getElem?.mp hc))
    unfold cellFeatures
    rw [h1, h2]
    have h3 : indexSelect ([] : List F) [] = .ok [] := rfl
    rw [h3, ok_bind, scatter_ok (agg := agg) (n := cells.length) (idx := []) (src := ([] : List F)) rfl (by simp), ok_inj]
    unfold combineRows
    apply List.ext_getElem?
    intro i
    by_cases hi : i < cells.length
    · simp [hi]
    · simp [hi]
  | cons a x =>
    have hf : ∀ c ∈ cells, ∀ v ∈ c, (a :: x)[v]? = some ((a :: x)[v]?.getD a) := by
      intro c hc v hv
      rw [List.getElem?_eq_getElem (h c hc v hv)]
      rfl
    unfold cellFeatures
    have h3 : indexSelect (a :: x) cells.flatten =
        .ok (cells.flatten.map fun v => (a :: x)[v]?.getD a) := by
      unfold indexSelect
      refine mapE_ok fun v hv => ?_
      obtain ⟨c, hc, hv⟩ := List.mem_flatten.mp hv
      rw [hf c hc v hv]
      rfl
    rw [h3, ok_bind, scatter_ok, ok_inj]
    · unfold combineRows
      apply List.ext_getElem?
      intro i
      by_cases hi : i < cells.length
      · rw [List.getElem?_map, List.getElem?_range hi, Option.map_some, zip_filter_tagged 0 hf,
          dif_pos ⟨Nat.zero_le _, by simpa using hi⟩, List.getElem?_map, List.getElem?_eq_getElem hi]
        simp only [Nat.sub_zero, Option.map_some, Option.some.injEq]
        congr 1
        rw [← List.filterMap_eq_map]
        apply List.filterMap_congr
        intro v hv
        exact (hf _ (List.getElem_mem hi) v hv).symm
      · simp [hi]
    · simp only [List.length_flatMap, List.length_map, List.length_flatten]
      congr 1
      have := List.zipIdx_map_fst 0 cells
      conv_rhs => rw [← this]
      rw [List.map_map]
      rfl
    · intro i hi
      obtain ⟨⟨c, j⟩, hc, hj⟩ := List.mem_flatMap.mp hi
      obtain ⟨_, _, rfl⟩ := List.mem_map.mp hj
      exact lt_of_get (List.mem_zipIdx_iff_getElem?.mp hc)

/-- The features of every dimension of a lifted complex. -/
def liftedRows (agg : List F → F) (x : List F) (K : Nat → List (List Nat)) (d : Nat) : List F :=
  if d = 0 then x else combineRows agg x (K d)

theorem constructFeatures_ok {agg : List F → F} {x : List F} {K : Nat → List (List Nat)} {dims : Nat}
    (hd : 0 < dims) (h : ∀ d, d < dims → ∀ c ∈ K d, ∀ v ∈ c, v < x.length) :
    constructFeatures agg x (tab dims K) = .ok (tab dims (liftedRows agg x K)) := by
  obtain ⟨n, rfl⟩ : ∃ n, dims = n + 1 := ⟨dims - 1, by omega⟩
  unfold constructFeatures
  have h1 : (tab (n + 1) K).drop 1 = tab n fun d => K (d + 1) := by
    unfold tab
    rw [List.range_succ_eq_map, List.map_cons, List.drop_one, List.tail_cons, List.map_map]
    rfl
  rw [h1, mapE_ok (g := combineRows agg x)]
  · rw [ok_bind, pure_eq_ok, ok_inj, map_tab]
    unfold tab
    rw [List.range_succ_eq_map, List.map_cons, List.map_map]
    rfl
  · intro cells hc
    obtain ⟨d, hd, rfl⟩ := List.mem_map.mp hc
    exact cellFeatures_ok (h (d + 1) (by have := List.mem_range.mp hd; omega))

/-- The labels of the vertices: more than one label, or none. -/
def vertexLabels : Option (List L) → Option (List L)
  | none => none
  | some l => if l.length = 1 then none else some l

/-- The label of the complex: a single label. -/
def complexLabel : Option (List L) → Option (List L)
  | none => none
  | some l => if l.length = 1 then some l else none

theorem extractLabels_ok {y : Option (List L)} {size : Nat}
    (hy : ∀ l, y = some l → l.length = 1 ∨ l.length = size) :
    extractLabels y size = .ok (vertexLabels y, complexLabel y) := by
  unfold extractLabels
  cases y with
  | none => rfl
  | some l =>
    by_cases h : l.length = 1
    · simp [h, vertexLabels, complexLabel]
    · have := (hy l rfl).resolve_left h
      subst this
      simp [h, vertexLabels, complexLabel]

/-- The lifting of a simplex tree succeeds and gives the assembled complex. -/
theorem liftTree_ok {agg : List F → F} {x : List F} {y : Option (List L)} {down : Bool}
    (h : st.Holds size) (h0 : 0 < size) (hx : x.length = size)
    (hy : ∀ l, y = some l → l.length = 1 ∨ l.length = size) :
    liftTree agg x st size y down = .ok (complexOf (st.cellsOf size) st.dims
      (fun _ c => getSimplexBoundaries c) st.facesOf (fun _ s => st.cofaces s) down
      (fun d => some (liftedRows agg x (st.cellsOf size) d)) (vertexLabels y)
      (complexLabel y)) ∧
    RowsFit (st.cellsOf size) st.dims (fun d => some (liftedRows agg x (st.cellsOf size) d)) := by
  have cd := cellData_simplices h h0
  have hin : ∀ s ∈ st.simplices, ∀ v ∈ s, v < size := by
    have key : ∀ n, ∀ s ∈ st.simplices, s.length = n + 1 → ∀ v ∈ s, v < size := by
      intro n
      induction n with
      | zero =>
        intro s hs hl v hv
        obtain ⟨w, rfl⟩ := List.length_eq_one_iff.mp hl
        rw [List.mem_singleton] at hv
        subst hv
        exact (h.vertices v).mp hs
      | succ n ih =>
        intro s hs hl v hv
        obtain ⟨w, hw, hvw⟩ : ∃ w ∈ s, w ≠ v := by
          by_contra hcon
          push Not at hcon
          have hn := simplex_nodup (h.simplex s hs)
          match s, hl, hn with
          | a :: b :: r, _, hn =>
            have h1 := hcon a (by simp)
            have h2 := hcon b (by simp)
            rw [h1, h2] at hn
            simp at hn
        have hf : IsFacet (s.erase w) s := ⟨List.erase_sublist, by
          rw [List.length_erase_of_mem hw]; omega⟩
        refine ih (s.erase w) (h.closed s hs _ ?_ hf) ?_ v ?_
        · rw [← List.length_pos_iff, List.length_erase_of_mem hw]; omega
        · rw [List.length_erase_of_mem hw]; omega
        · exact (List.mem_erase_of_ne fun e => hvw e.symm).mpr hv
    intro s hs v hv
    have := length_pos_of_holds h hs
    exact key (s.length - 1) s hs (by omega) v hv
  have hfit : RowsFit (st.cellsOf size) st.dims
      (fun d => some (liftedRows agg x (st.cellsOf size) d)) := by
    refine ⟨?_, by simp⟩
    intro d r _ hr
    obtain rfl := Option.some.inj hr
    unfold liftedRows
    split
    · next hd => subst hd; simp [SimplexTree.cellsOf, hx]
    · simp [combineRows]
  refine ⟨?_, hfit⟩
  unfold liftTree
  obtain ⟨inc, B, C, h1, h2, h3, h4, h5, h6⟩ := extractIncidence_ok h h0
  rw [buildTables_ok h h0, ok_bind]
  dsimp only
  rw [h1, ok_bind, buildAdj_ok cd (boundaries := inc.boundaries) (coboundaries := inc.coboundaries),
    ok_bind, constructFeatures_ok (dims_pos h h0), ok_bind, extractLabels_ok hy, ok_bind, map_tab, h2,
    generateCochains_ok cd, ok_bind]
  · exact complexNew_ok cd hfit _
  · intro d _ c hc v hv
    rw [hx]
    exact hin c ((mem_cellsOf h).mp hc).1 v hv
  · intro d hd
    refine ⟨B (d + 1), by rw [h3, tab_get _ (by omega)], ?_⟩
    intro c hc
    have hlen := cd.two d c hd hc
    have := h5 (d + 1) c
    cases hg : (B (d + 1)).get? c with
    | some l => rw [hg] at this; simpa using this
    | none =>
      rw [hg] at this
      rw [← this] at hlen
      simp at hlen
  · intro d hd
    exact ⟨C d, by rw [h4, tab_get _ (by omega)], fun s hs => h6 d s hs⟩

end

end Verif
