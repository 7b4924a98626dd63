import Verif.Lemmas.FrameworkLib

/-!
# Sparse adjacencies
-/

namespace Verif

variable {R : Type}

/-! ## Segments of a sorted list -/

theorem countP_lt_eq_zero {l : List Nat} {k : Nat} (h : ∀ r ∈ l, k ≤ r) : l.countP (· < k) = 0 := by
  rw [List.countP_eq_zero]
  intro r hr
  have := h r hr
  simp only [decide_eq_true_eq]
  omega

theorem segment_eq_filter {row : List Nat} {src : List R} (hs : row.Pairwise (· ≤ ·))
    (hl : row.length = src.length) (k : Nat) :
    (src.take (row.countP (· < k + 1))).drop (row.countP (· < k)) =
      ((row.zip src).filter (fun p => p.1 == k)).map Prod.snd := by
  induction row generalizing src with
  | nil => simp
  | cons r row ih =>
    cases src with
    | nil => simp at hl
    | cons m src =>
      obtain ⟨hr, hs⟩ := List.pairwise_cons.mp hs
      have hl : row.length = src.length := by simpa using hl
      have ih := ih hs hl
      rcases Nat.lt_trichotomy r k with h | h | h
      · have h' : r < k + 1 := by omega
        have hne : ¬ r = k := by omega
        simp only [List.countP_cons, h, h', decide_true, if_true, List.take_succ_cons,
          List.drop_succ_cons, List.zip_cons_cons]
        rw [ih]
        simp [hne]
      · subst h
        have h0 : row.countP (· < r) = 0 := countP_lt_eq_zero hr
        have h' : r < r + 1 := by omega
        simp only [List.countP_cons, h', decide_true, if_true, List.take_succ_cons,
          lt_irrefl, decide_false, Bool.false_eq_true, if_false, Nat.add_zero, h0, List.drop_zero,
          List.zip_cons_cons]
        rw [h0, List.drop_zero] at ih
        rw [ih]
        simp
      · have h1 : ¬ r < k := by omega
        have h2 : ¬ r < k + 1 := by omega
        have hne : ¬ r = k := by omega
        have h0 : row.countP (· < k + 1) = 0 := countP_lt_eq_zero fun q hq => by
          have := hr q hq; omega
        have h0' : row.countP (· < k) = 0 := countP_lt_eq_zero fun q hq => by
          have := hr q hq; omega
        simp only [List.countP_cons, h1, h2, decide_false, Bool.false_eq_true, if_false, Nat.add_zero,
          h0, h0', List.take_zero, List.drop_nil, List.zip_cons_cons]
        rw [h0, h0'] at ih
        simp only [List.take_zero, List.drop_nil] at ih
        simp only [List.filter_cons, beq_iff_eq, hne, if_false]
        exact ih

theorem zip_tail_map_range {α : Type} (f : Nat → α) (n : Nat) :
    ((List.range (n + 1)).map f).zip ((List.range (n + 1)).map f).tail =
      (List.range n).map fun k => (f k, f (k + 1)) := by
  apply List.ext_getElem
  · simp
  · intro k h1 h2
    simp

theorem segmentCsr_rowptr (agg : List R → R) (t : SparseAdj R) (src : List R) :
    segmentCsr agg t.rowptr src = (List.range t.rows).map fun k =>
      agg ((src.take (t.row.countP (· < k + 1))).drop (t.row.countP (· < k))) := by
  unfold segmentCsr SparseAdj.rowptr
  rw [zip_tail_map_range, List.map_map]
  rfl

/-- Sorted segments and scattering are the same. -/
theorem segmentCsr_eq_scatter (agg : List R → R) {t : SparseAdj R} (ht : t.Valid) {src : List R}
    (hl : t.entries.length = src.length) :
    scatter agg t.rows t.row src = .ok (segmentCsr agg t.rowptr src) := by
  have hl' : t.row.length = src.length := by simpa [SparseAdj.row] using hl
  rw [scatter_ok hl' (by
    intro i hi
    obtain ⟨p, hp, rfl⟩ := List.mem_map.mp hi
    exact (ht.inRange p hp).1), segmentCsr_rowptr, ok_inj]
  apply List.map_congr_left
  intro k _
  rw [segment_eq_filter (row := t.row) ht.sorted hl' k]

/-! ## The parts of `propagate` -/

theorem edges_sender (t : SparseAdj R) : t.edges.map Flow.sourceToTarget.j = t.col := by
  simp [SparseAdj.edges, SparseAdj.col, Flow.j]

theorem edges_receiver (t : SparseAdj R) : t.edges.map Flow.sourceToTarget.i = t.row := by
  simp [SparseAdj.edges, SparseAdj.row, Flow.i]

theorem unfused_attr_sparse [Zero R] {cls : PyClass} {cfg : MPConfig R R R}
    (hflow : cfg.flow = .sourceToTarget) {kwargs : ArgDict R} {x : List R} {t : SparseAdj R}
    (ht : t.Valid) (hrows : t.rows = x.length) (hcols : t.cols = x.length) {a : AdjKind}
    {msg : Msg R R R} {agg : List R → R}
    (hm : (libraryObject cls cfg).message a = attrMessage msg a)
    (ha : (libraryObject cls cfg).aggregate a = baseAggregate agg a) (hab : a ≠ .boundary)
    (hc : ∃ d : List R → Sizes → ArgDict R,
      collect cfg.flow libraryArgs (.sparse t) (some t.cols, some t.rows) a kwargs = (do
        let s ← setSize (some t.cols, some t.rows) 0 (.tensor x)
        let xj ← lift x (.sparse t) cfg.flow.dims.2
        return (d xj s, s)) ∧
      ∀ xj s, LibraryDict cfg.flow (.sparse t) a kwargs xj s (d xj s)) :
    MPObject.messageAndAggregate.unfused (libraryObject cls cfg) libraryArgs (.sparse t) a
        (some t.cols, some t.rows) kwargs =
      (fun m => (.tensor m, (some t.cols, some t.rows))) <$>
        messageAndAggregate msg agg cfg.flow x.length x t.edges (some t.values) := by
  obtain ⟨d, hd, hD⟩ := hc
  unfold MPObject.messageAndAggregate.unfused messageAndAggregate
  have hs : setSize (R := R) (some t.cols, some t.rows) 0 (.tensor x) =
      .ok (some t.cols, some t.rows) := by
    simp [setSize, Sizes.get, hcols]
  rw [show (libraryObject cls cfg).flow = cfg.flow from rfl, hd, hs, ok_bind, hm, ha]
  have hlift : lift x (.sparse t) cfg.flow.dims.2 = indexSelect x t.col := by
    rw [hflow]; rfl
  rw [hlift, hflow, edges_sender, edges_receiver]
  simp only [map_eq_bind, bind_assoc, pure_bind]
  cases hxj : indexSelect x t.col with
  | error e => rfl
  | ok xj =>
    rw [ok_bind, ok_bind]
    have hlen : xj.length = t.entries.length := by
      have := mapE_length (show mapE _ _ = _ from hxj)
      simpa [SparseAdj.col] using this
    have h := hD xj (some t.cols, some t.rows)
    rw [hflow] at h
    have hn : pyOr (some t.rows) (some t.cols) = some x.length := by
      rw [hrows, hcols]; cases x.length <;> rfl
    have hptr : ptrOf (.sparse t) = .ids t.rowptr := rfl
    rw [distribute_agg h agg (idx := t.row) rfl hn hptr (.inr ⟨_, rfl⟩)]
    have hattr := h.attr hab
    simp only [attrOf] at hattr
    rw [distribute_attr msg h.xj hattr, ok_bind, attr_run]
    simp only [map_eq_bind, bind_assoc, ok_bind]
    cases hmsg : msg.apply xj t.values with
    | error e => rfl
    | ok msgs =>
      rw [ok_bind, ok_bind]
      have hl : t.entries.length = msgs.length := by rw [msg_apply_length hmsg, hlen]
      rw [← hrows, segmentCsr_eq_scatter agg ht hl]
      rfl

theorem library_propagate_sparse [Zero R] {cls : PyClass} (hc : cls ∈ libraryClasses)
    (cfg : MPConfig R R R) (hflow : cfg.flow = .sourceToTarget) {kwargs : ArgDict R} {x : List R}
    {upAttr downAttr : Option (Option (List R))} {boundaryAttr : Option (List R)}
    (hk : Passes kwargs x upAttr downAttr boundaryAttr) (up down : Option (SparseAdj R))
    (hu : ∀ t, up = some t → t.Valid ∧ t.rows = x.length ∧ t.cols = x.length)
    (hd : ∀ t, down = some t → t.Valid ∧ t.rows = x.length ∧ t.cols = x.length)
    (boundaryIndex : Option (List (Nat × Nat))) :
    (libraryObject cls cfg).propagate libraryArgs [] ["x"] (sparseOf up) (sparseOf down)
        (denseOf boundaryIndex) none none none kwargs =
      (fun r => (.tensor r.1, .tensor r.2.1, .tensor r.2.2)) <$>
        propagate cfg (up.map SparseAdj.edges) (down.map SparseAdj.edges) boundaryIndex (some x)
          (some (up.bind SparseAdj.values)) (some (down.bind SparseAdj.values)) boundaryAttr := by
  have hx : kwargs.get "x" = .tensor x := by simp [ArgDict.get, hk.x]
  have hf : (libraryObject cls cfg).flow = cfg.flow := rfl
  let sz : Option (SparseAdj R) → Sizes := fun t => (t.map SparseAdj.cols, t.map SparseAdj.rows)
  have hcheck : ∀ t : Option (SparseAdj R),
      checkSeparately cfg.flow (sparseOf t) none = .ok (sz t) := by
    intro t; rw [hflow]; cases t <;> rfl
  have hcheckb : checkSeparately (R := R) cfg.flow (denseOf boundaryIndex) none = .ok (none, none) := by
    cases boundaryIndex <;> rfl
  have hboth : checkTogether (sparseOf up) (sparseOf down) (sz up) (sz down) = .ok () := by
    unfold checkTogether
    cases up with
    | none => rfl
    | some t =>
      cases down with
      | none => rfl
      | some t' =>
        obtain ⟨-, h1, h2⟩ := hu t rfl
        obtain ⟨-, h3, h4⟩ := hd t' rfl
        simp [sparseOf, Adj.isNone, sz, h1, h2, h3, h4, pyAssert]
  have hup : SamePart x ((libraryObject cls cfg).part libraryArgs [] (!(sparseOf up).isNone)
      (sparseOf up) .up (sz up) kwargs)
      (aggregateOrZero cfg.msgUp cfg.aggUp cfg.flow x.length x (up.map SparseAdj.edges)
        (some (up.bind SparseAdj.values))) := by
    cases up with
    | none => exact samePart_none _
    | some t =>
      obtain ⟨h1, h2, h3⟩ := hu t rfl
      simp only [MPObject.part, MPObject.messageAndAggregate, library_fuse hc, sparseOf, Adj.isNone,
        Bool.not_false, if_true, Bool.false_eq_true, if_false, aggregateOrZero, sz, Option.map_some,
        Option.bind_some]
      rw [unfused_attr_sparse (cls := cls) hflow h1 h2 h3 rfl rfl (by simp)
        (collect_up _ _ _ rfl hx _)]
      exact samePart_map _ _
  have hdown : SamePart x ((libraryObject cls cfg).part libraryArgs []
      ((libraryObject cls cfg).useDown && !(sparseOf down).isNone)
      (sparseOf down) .down (sz down) kwargs)
      (aggregateOrZero cfg.msgDown cfg.aggDown cfg.flow x.length x
        (if cfg.useDown then down.map SparseAdj.edges else none)
        (some (down.bind SparseAdj.values))) := by
    rw [show (libraryObject cls cfg).useDown = cfg.useDown from rfl]
    cases cfg.useDown with
    | false => exact samePart_none _
    | true =>
      cases down with
      | none => exact samePart_none _
      | some t =>
        obtain ⟨h1, h2, h3⟩ := hd t rfl
        simp only [MPObject.part, MPObject.messageAndAggregate, library_fuse hc, sparseOf, Adj.isNone,
          Bool.not_false, Bool.and_self, if_true, Bool.false_eq_true, if_false, aggregateOrZero, sz,
          Option.map_some, Option.bind_some]
        rw [unfused_attr_sparse (cls := cls) hflow h1 h2 h3 rfl rfl (by simp)
          (collect_down _ _ _ rfl hx _)]
        exact samePart_map _ _
  have hbound := samePart_boundary hc cfg hk boundaryIndex
  unfold MPObject.propagate propagate
  rw [hf, hcheck, ok_bind, hcheck, ok_bind, hcheckb, ok_bind, hboth, ok_bind]
  exact library_finish hx hup hdown hbound

end Verif
