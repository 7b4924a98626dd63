import Verif.Spec.MessagePassing
import Verif.Lemmas.Scatter
import Mathlib.Algebra.BigOperators.Group.List.Lemmas
import Mathlib.Algebra.BigOperators.Intervals
import Mathlib.Data.List.Perm.Basic

/-!
# Propagation: properties C12 and C13
-/

namespace Verif

variable {F A M : Type}

theorem zip_filter_sum [AddCommMonoid M] (idx : List Nat) (src : List M)
    (hl : idx.length = src.length) (c : Nat) :
    (((idx.zip src).filter (fun p => p.1 == c)).map Prod.snd).sum =
      ∑ k ∈ (Finset.range idx.length).filter (fun k => idx[k]? = some c), src[k]?.getD 0 := by
  rw [Finset.sum_filter]
  induction idx generalizing src with
  | nil => simp
  | cons i idx ih =>
    cases src with
    | nil => simp at hl
    | cons m src =>
      rw [List.length_cons, Finset.sum_range_succ']
      simp only [List.getElem?_cons_succ, List.getElem?_cons_zero, Option.getD_some]
      rw [← ih src (by simpa using hl)]
      by_cases hic : i = c
      · simp [hic, add_comm]
      · simp [hic]

theorem indexSelect_get {rows : List F} {idx : List Nat} {out : List F}
    (h : indexSelect rows idx = .ok out) {k s : Nat} (hk : idx[k]? = some s) :
    ∃ r, rows[s]? = some r ∧ out[k]? = some r := by
  rw [indexSelect_eq_ok_iff] at h
  have := congrArg (·[k]?) h
  simp only [List.getElem?_map, hk, Option.map_some] at this
  cases ho : out[k]? with
  | none => rw [ho] at this; simp at this
  | some r => rw [ho] at this; exact ⟨r, by simpa using this, rfl⟩

theorem msg_apply_get {msg : Msg F A M} {xs : List F} {as : Option (List A)} {out : List M}
    (h : msg.apply xs as = .ok out) {k : Nat} {x : F} (hk : xs[k]? = some x) :
    ∃ m, out[k]? = some m ∧ msg.Builds x (as.bind (·[k]?)) m := by
  have hz : ∀ (f : F → A → M) (as : List A), Msg.zipAttr f xs as = .ok out →
      ∃ a, as[k]? = some a ∧ out[k]? = some (f x a) := by
    intro f as h
    unfold Msg.zipAttr at h
    split at h
    · rename_i hl
      cases h
      have hk' : k < as.length := by
        rw [← hl]; exact (List.getElem?_eq_some_iff.mp hk).1
      exact ⟨as[k], List.getElem?_eq_getElem hk', by
        rw [List.getElem?_zipWith, hk, List.getElem?_eq_getElem hk']⟩
    · simp at h
  cases msg with
  | plain f => cases h; exact ⟨f x, by simp [hk], .plain f x _⟩
  | withAttr f =>
    cases as with
    | none => simp [Msg.apply] at h
    | some as =>
      obtain ⟨a, ha, ho⟩ := hz f as h
      exact ⟨_, ho, by simp only [Option.bind_some, ha]; exact .withAttr f x a⟩
  | optAttr f g =>
    cases as with
    | none => cases h; exact ⟨f x, by simp [hk], .optNone f g x⟩
    | some as =>
      obtain ⟨a, ha, ho⟩ := hz g as h
      exact ⟨_, ho, by simp only [Option.bind_some, ha]; exact .optSome f g x a⟩

theorem messageAndAggregate_sums [AddCommMonoid M] {msg : Msg F A M} {n : Nat} {data : List F}
    {cols : List (Nat × Nat)} {attr : Option (Option (List A))} {out : List M}
    (h : messageAndAggregate msg aggAdd .sourceToTarget n data cols attr = .ok out) :
    ∃ a, attr = some a ∧ SumsMessages msg n data cols a out := by
  unfold messageAndAggregate at h
  obtain ⟨xj, hxj, h⟩ := bind_eq_ok.mp h
  cases attr with
  | none => simp at h
  | some a =>
    refine ⟨a, rfl, ?_⟩
    obtain ⟨msgs, hm, h⟩ := bind_eq_ok.mp h
    obtain ⟨hl, hlt⟩ := scatter_inv h
    rw [scatter_ok hl hlt, ok_inj] at h
    subst h
    refine ⟨by simp, fun k => msgs[k]?.getD 0, ?_, ?_⟩
    · intro k s t hk
      obtain ⟨x, hx, hxk⟩ := indexSelect_get hxj (k := k) (s := s) (by simp [hk, Flow.j])
      obtain ⟨m, hmk, hb⟩ := msg_apply_get hm hxk
      exact ⟨x, hx, by simpa [hmk] using hb⟩
    · intro c hc
      rw [List.getElem?_map, List.getElem?_range hc, Option.map_some, aggAdd,
        zip_filter_sum _ _ hl]
      simp only [List.length_map, List.getElem?_map]
      rfl

theorem allZero_zeroRows [Zero M] (n : Nat) : AllZero n (zeroRows n : List M) :=
  ⟨by simp [zeroRows], fun c hc => by simp [zeroRows, hc]⟩

/-- **C12** With sum aggregation and the library's message direction, `propagate` gives every cell the
sum of the messages along the upper (lower) columns that end at it, and the sum of the boundary
messages along the incidence columns of the cell. Without an adjacency (or with lower, resp. boundary
messages switched off) every cell gets exactly zero. -/
theorem C12_propagate_sums_messages [AddCommMonoid M] (cfg : MPConfig F A M)
    (hflow : cfg.flow = .sourceToTarget) (hup : cfg.aggUp = aggAdd) (hdown : cfg.aggDown = aggAdd)
    (hbnd : cfg.aggBoundary = aggAdd)
    (upIndex downIndex boundaryIndex : Option (List (Nat × Nat))) (x : List F)
    (upAttr downAttr : Option (Option (List A))) (boundaryAttr : Option (List F))
    (up down boundary : List M)
    (h : propagate cfg upIndex downIndex boundaryIndex (some x) upAttr downAttr boundaryAttr =
      .ok (up, down, boundary)) :
    (∀ cols, upIndex = some cols →
      ∃ a, upAttr = some a ∧ SumsMessages cfg.msgUp x.length x cols a up) ∧
    (upIndex = none → AllZero x.length up) ∧
    (∀ cols, downIndex = some cols → cfg.useDown = true →
      ∃ a, downAttr = some a ∧ SumsMessages cfg.msgDown x.length x cols a down) ∧
    ((downIndex = none ∨ cfg.useDown = false) → AllZero x.length down) ∧
    (∀ data, boundaryAttr = some data → cfg.useBoundary = true →
      ∃ cols, boundaryIndex = some cols ∧
        SumsMessages (A := Unit) (.plain cfg.msgBoundary) x.length data cols none boundary) ∧
    ((boundaryAttr = none ∨ cfg.useBoundary = false) → AllZero x.length boundary) := by
  unfold propagate at h
  dsimp only at h
  rw [hflow, hup, hdown, hbnd] at h
  obtain ⟨u, hu, h⟩ := bind_eq_ok.mp h
  obtain ⟨dn, hdn, h⟩ := bind_eq_ok.mp h
  obtain ⟨b, hb, h⟩ := bind_eq_ok.mp h
  simp only [pure_eq_ok, ok_inj, Prod.mk.injEq] at h
  obtain ⟨rfl, rfl, rfl⟩ := h
  refine ⟨?_, ?_, ?_, ?_, ?_, ?_⟩
  · rintro cols rfl
    exact messageAndAggregate_sums hu
  · rintro rfl
    cases hu
    exact allZero_zeroRows _
  · rintro cols rfl hd
    rw [if_pos hd] at hdn
    exact messageAndAggregate_sums hdn
  · intro hor
    have : (if cfg.useDown = true then downIndex else none) = none := by
      rcases hor with h | h <;> simp [h]
    rw [this] at hdn
    cases hdn
    exact allZero_zeroRows _
  · rintro data rfl hd
    rw [if_pos hd] at hb
    unfold aggregateBoundary at hb
    cases boundaryIndex with
    | none => simp at hb
    | some cols =>
      obtain ⟨a, ha, hs⟩ := messageAndAggregate_sums hb
      cases ha
      exact ⟨cols, rfl, hs⟩
  · intro hor
    have : (if cfg.useBoundary = true then boundaryAttr else none) = none := by
      rcases hor with h | h <;> simp [h]
    rw [this] at hb
    cases hb
    exact allZero_zeroRows _

/-- A message function that gets the attributes it needs: one row per column, and present when the
function cannot do without. -/
def Msg.Fits (msg : Msg F A M) (k : Nat) : Option (List A) → Prop
  | none => ∀ f, msg ≠ .withAttr f
  | some a => (∀ f, msg ≠ .plain f) → a.length = k

theorem msg_apply_ok {msg : Msg F A M} {xs : List F} {a : Option (List A)}
    (h : msg.Fits xs.length a) : ∃ out, msg.apply xs a = .ok out := by
  cases msg with
  | plain f => exact ⟨_, rfl⟩
  | withAttr f =>
    cases a with
    | none => exact absurd rfl (h f)
    | some a =>
      have hl := h (by simp)
      exact ⟨_, by rw [Msg.apply, Msg.zipAttr, if_pos hl.symm]⟩
  | optAttr f g =>
    cases a with
    | none => exact ⟨_, rfl⟩
    | some a =>
      have hl := h (by simp)
      exact ⟨_, by rw [Msg.apply, Msg.zipAttr, if_pos hl.symm]⟩

theorem indexSelect_succeeds {rows : List F} {idx : List Nat} (h : ∀ i ∈ idx, i < rows.length) :
    ∃ out, indexSelect rows idx = .ok out := by
  cases rows with
  | nil =>
    cases idx with
    | nil => exact ⟨[], rfl⟩
    | cons i idx => exact absurd (h i (by simp)) (by simp)
  | cons r rows => exact ⟨_, @indexSelect_ok _ ⟨r⟩ _ _ h⟩

theorem messageAndAggregate_ok {msg : Msg F A M} {agg : List M → M} {flow : Flow} {n : Nat}
    {data : List F} {cols : List (Nat × Nat)} {a : Option (List A)}
    (hj : ∀ p ∈ cols, flow.j p < data.length) (hi : ∀ p ∈ cols, flow.i p < n)
    (ha : msg.Fits cols.length a) :
    ∃ out, messageAndAggregate msg agg flow n data cols (some a) = .ok out := by
  obtain ⟨xj, hxj⟩ := indexSelect_succeeds (rows := data) (idx := cols.map flow.j)
    (List.forall_mem_map.mpr hj)
  have hxl : xj.length = cols.length := by
    have := mapE_length (show mapE _ _ = _ from hxj); simpa using this
  obtain ⟨ms, hms⟩ := msg_apply_ok (xs := xj) (msg := msg) (a := a) (by rw [hxl]; exact ha)
  have hl := msg_apply_length hms
  unfold messageAndAggregate
  rw [hxj, ok_bind]
  dsimp only
  rw [hms, ok_bind, scatter_ok (by simp [hl, hxl]) (List.forall_mem_map.mpr hi)]
  exact ⟨_, rfl⟩

/-- **C12** `propagate` succeeds when the indices are in range and the attributes fit. -/
theorem C12_propagate_defined [Zero M] (cfg : MPConfig F A M)
    (upIndex downIndex boundaryIndex : Option (List (Nat × Nat))) (x : List F)
    (upAttr downAttr : Option (List A)) (boundaryAttr : Option (List F))
    (hu : ∀ cols, upIndex = some cols → (∀ p ∈ cols, p.1 < x.length ∧ p.2 < x.length) ∧
      cfg.msgUp.Fits cols.length upAttr)
    (hd : ∀ cols, downIndex = some cols → (∀ p ∈ cols, p.1 < x.length ∧ p.2 < x.length) ∧
      cfg.msgDown.Fits cols.length downAttr)
    (hb : ∀ data, boundaryAttr = some data → ∃ cols, boundaryIndex = some cols ∧
      ∀ p ∈ cols, cfg.flow.j p < data.length ∧ cfg.flow.i p < x.length) :
    ∃ out, propagate cfg upIndex downIndex boundaryIndex (some x) (some upAttr) (some downAttr)
      boundaryAttr = .ok out := by
  have hij : ∀ (p : Nat × Nat), p.1 < x.length ∧ p.2 < x.length →
      cfg.flow.j p < x.length ∧ cfg.flow.i p < x.length := by
    intro p hp
    cases cfg.flow
    · exact hp
    · exact hp.symm
  obtain ⟨u, hu⟩ : ∃ u, aggregateOrZero cfg.msgUp cfg.aggUp cfg.flow x.length x upIndex
      (some upAttr) = .ok u := by
    cases upIndex with
    | none => exact ⟨_, rfl⟩
    | some cols =>
      obtain ⟨hr, hf⟩ := hu cols rfl
      exact messageAndAggregate_ok (fun p hp => (hij p (hr p hp)).1)
        (fun p hp => (hij p (hr p hp)).2) hf
  obtain ⟨dn, hdn⟩ : ∃ dn, aggregateOrZero cfg.msgDown cfg.aggDown cfg.flow x.length x
      (if cfg.useDown then downIndex else none) (some downAttr) = .ok dn := by
    cases cfg.useDown with
    | false => exact ⟨_, rfl⟩
    | true =>
      cases downIndex with
      | none => exact ⟨_, rfl⟩
      | some cols =>
        obtain ⟨hr, hf⟩ := hd cols rfl
        exact messageAndAggregate_ok (fun p hp => (hij p (hr p hp)).1)
          (fun p hp => (hij p (hr p hp)).2) hf
  obtain ⟨b, hb⟩ : ∃ b, aggregateBoundary cfg.msgBoundary cfg.aggBoundary cfg.flow x.length
      (if cfg.useBoundary then boundaryAttr else none) boundaryIndex = .ok b := by
    cases cfg.useBoundary with
    | false => exact ⟨_, rfl⟩
    | true =>
      cases boundaryAttr with
      | none => exact ⟨_, rfl⟩
      | some data =>
        obtain ⟨cols, rfl, hr⟩ := hb data rfl
        exact messageAndAggregate_ok (fun p hp => (hr p hp).1) (fun p hp => (hr p hp).2)
          (by intro f h; cases h)
  unfold propagate
  dsimp only
  rw [hu, ok_bind, hdn, ok_bind, hb, ok_bind]
  exact ⟨_, rfl⟩

/-- The columns of an adjacency together with their attributes. -/
def columnsWith (cols : List (Nat × Nat)) : Option (List A) → List ((Nat × Nat) × Option A)
  | none => cols.map fun p => (p, none)
  | some as => cols.zip (as.map some)

/-- Two adjacencies with attributes are the same up to the order of the columns. -/
structure SameColumns (cols cols' : List (Nat × Nat)) (a a' : Option (List A)) : Prop where
  both : a.isSome = a'.isSome
  fit : ∀ l, a = some l → l.length = cols.length
  fit' : ∀ l, a' = some l → l.length = cols'.length
  perm : (columnsWith cols a).Perm (columnsWith cols' a')

/-- The message for one column. -/
def Msg.row : Msg F A M → F → Option A → Py M
  | .plain f, x, _ => .ok (f x)
  | .withAttr _, _, none => .error .type
  | .withAttr f, x, some a => .ok (f x a)
  | .optAttr f _, x, none => .ok (f x)
  | .optAttr _ g, x, some a => .ok (g x a)

/-- The target and the message of one column. -/
def columnMsg (msg : Msg F A M) (flow : Flow) (data : List F) (e : (Nat × Nat) × Option A) :
    Py (Nat × M) :=
  match data[flow.j e.1]? with
  | none => .error .index
  | some x => do
    let m ← msg.row x e.2
    return (flow.i e.1, m)

theorem columnMsg_eq_ok {msg : Msg F A M} {flow : Flow} {data : List F}
    {e : (Nat × Nat) × Option A} {r : Nat × M} :
    columnMsg msg flow data e = .ok r ↔
      ∃ x, data[flow.j e.1]? = some x ∧ msg.row x e.2 = .ok r.2 ∧ r.1 = flow.i e.1 := by
  unfold columnMsg
  cases data[flow.j e.1]? with
  | none => simp
  | some x =>
    simp only [bind_eq_ok, pure_eq_ok, ok_inj, Option.some.injEq, exists_eq_left']
    constructor
    · rintro ⟨m, hm, rfl⟩; exact ⟨hm, rfl⟩
    · rintro ⟨hm, hi⟩; exact ⟨r.2, hm, by rw [← hi]⟩

theorem mapE_perm {α β : Type} {f : α → Py β} {l l' : List α} {r : List β} (hp : l.Perm l')
    (h : mapE f l = .ok r) : ∃ r', mapE f l' = .ok r' ∧ r.Perm r' := by
  rw [mapE_eq_ok_iff] at h
  obtain ⟨r', h1, h2⟩ := List.perm_comp_forall₂ hp.symm h
  exact ⟨r', mapE_eq_ok_iff.mpr h1, h2.symm⟩

theorem forall₂_of_get {α β : Type} {R : α → β → Prop} {l : List α} {r : List β}
    (hl : l.length = r.length) (h : ∀ (k : Nat) a b, l[k]? = some a → r[k]? = some b → R a b) :
    List.Forall₂ R l r := by
  induction l generalizing r with
  | nil => cases r with
    | nil => exact .nil
    | cons => simp at hl
  | cons a l ih =>
    cases r with
    | nil => simp at hl
    | cons b r =>
      exact .cons (h 0 a b rfl rfl) (ih (by simpa using hl) fun k a b ha hb => h (k + 1) a b ha hb)

theorem forall₂_get {α β : Type} {R : α → β → Prop} {l : List α} {r : List β}
    (h : List.Forall₂ R l r) (k : Nat) (a : α) (b : β) (ha : l[k]? = some a) (hb : r[k]? = some b) :
    R a b := by
  obtain ⟨h1, rfl⟩ := List.getElem?_eq_some_iff.mp ha
  obtain ⟨h2, rfl⟩ := List.getElem?_eq_some_iff.mp hb
  exact List.Forall₂.get h h1 h2

theorem columnsWith_length {cols : List (Nat × Nat)} {a : Option (List A)}
    (fit : ∀ l, a = some l → l.length = cols.length) : (columnsWith cols a).length = cols.length := by
  cases a with
  | none => simp [columnsWith]
  | some l => simp [columnsWith, fit l rfl]

theorem columnsWith_get {cols : List (Nat × Nat)} {a : Option (List A)}
    (fit : ∀ l, a = some l → l.length = cols.length) {k : Nat} {p : Nat × Nat}
    (hk : cols[k]? = some p) : (columnsWith cols a)[k]? = some (p, a.bind (·[k]?)) := by
  cases a with
  | none => simp [columnsWith, hk]
  | some l =>
    have hlt : k < l.length := by rw [fit l rfl]; exact (List.getElem?_eq_some_iff.mp hk).1
    simp [columnsWith, List.getElem?_zip_eq_some, hk, List.getElem?_eq_getElem hlt]

theorem msg_row_of_builds {msg : Msg F A M} {x : F} {a : Option A} {m : M}
    (h : msg.Builds x a m) : msg.row x a = .ok m := by
  cases h <;> rfl

/-- Message passing over one adjacency, column by column. -/
theorem messageAndAggregate_eq_ok {msg : Msg F A M} {agg : List M → M} {flow : Flow} {n : Nat}
    {data : List F} {cols : List (Nat × Nat)} {a : Option (List A)} {out : List M}
    (fit : ∀ l, a = some l → l.length = cols.length)
    (hne : (∃ f, msg = .withAttr f) → a.isSome) :
    messageAndAggregate msg agg flow n data cols (some a) = .ok out ↔
      ∃ pairs, mapE (columnMsg msg flow data) (columnsWith cols a) = .ok pairs ∧
        (∀ p ∈ pairs, p.1 < n) ∧
        out = (List.range n).map fun c => agg ((pairs.filter (fun p => p.1 == c)).map Prod.snd) := by
  constructor
  · intro h
    unfold messageAndAggregate at h
    obtain ⟨xj, hxj, h⟩ := bind_eq_ok.mp h
    dsimp only at h
    obtain ⟨msgs, hm, h⟩ := bind_eq_ok.mp h
    obtain ⟨hl, hlt⟩ := scatter_inv h
    rw [scatter_ok hl hlt, ok_inj] at h
    have hl' : msgs.length = cols.length := by simpa using hl.symm
    refine ⟨(cols.map flow.i).zip msgs, ?_, ?_, h.symm⟩
    · rw [mapE_eq_ok_iff]
      apply forall₂_of_get
      · rw [columnsWith_length fit]; simp [hl']
      · intro k e r he hr
        have hk : k < cols.length := by
          rw [← columnsWith_length fit]; exact (List.getElem?_eq_some_iff.mp he).1
        have hc := List.getElem?_eq_getElem hk
        rw [columnsWith_get fit hc] at he
        cases he
        rw [List.getElem?_zip_eq_some] at hr
        simp only [List.getElem?_map, hc, Option.map_some, Option.some.injEq] at hr
        obtain ⟨x, hx, hxk⟩ := indexSelect_get hxj (k := k) (s := flow.j cols[k])
          (by simp [hc])
        obtain ⟨m, hmk, hb⟩ := msg_apply_get hm hxk
        rw [hr.2] at hmk
        cases hmk
        exact columnMsg_eq_ok.mpr ⟨x, hx, msg_row_of_builds hb, hr.1.symm⟩
    · intro p hp
      exact hlt _ (List.of_mem_zip hp).1
  · rintro ⟨pairs, hp, hlt, rfl⟩
    have hlen : pairs.length = cols.length := by
      rw [mapE_length hp, columnsWith_length fit]
    rw [mapE_eq_ok_iff] at hp
    have hcol : ∀ (k : Nat) (p : Nat × Nat), cols[k]? = some p → ∃ r x, pairs[k]? = some r ∧
        data[flow.j p]? = some x ∧ msg.row x (a.bind (·[k]?)) = .ok r.2 ∧ r.1 = flow.i p := by
      intro k p hk
      have hk' : k < pairs.length := by
        rw [hlen]; exact (List.getElem?_eq_some_iff.mp hk).1
      have hr := List.getElem?_eq_getElem hk'
      obtain ⟨x, h1, h2, h3⟩ := columnMsg_eq_ok.mp (forall₂_get hp k _ _ (columnsWith_get fit hk) hr)
      exact ⟨_, x, hr, h1, h2, h3⟩
    have hin : ∀ p ∈ cols, flow.j p < data.length := by
      intro p hp'
      obtain ⟨k, hk⟩ := List.mem_iff_getElem?.mp hp'
      obtain ⟨r, x, -, hx, -, -⟩ := hcol k p hk
      exact (List.getElem?_eq_some_iff.mp hx).1
    have hin' : ∀ p ∈ cols, flow.i p < n := by
      intro p hp'
      obtain ⟨k, hk⟩ := List.mem_iff_getElem?.mp hp'
      obtain ⟨r, x, hr, -, -, hi⟩ := hcol k p hk
      rw [← hi]
      exact hlt r (List.mem_of_getElem? hr)
    obtain ⟨xj, hxj⟩ := indexSelect_succeeds (rows := data) (idx := cols.map flow.j)
      (List.forall_mem_map.mpr hin)
    have hxl : xj.length = cols.length := by
      have := mapE_length (show mapE _ _ = _ from hxj); simpa using this
    obtain ⟨ms, hms⟩ := msg_apply_ok (xs := xj) (msg := msg) (a := a) (by
      cases a with
      | none => intro f hf; simp [hf] at hne
      | some l => intro _; rw [hxl]; exact fit l rfl)
    have hml := msg_apply_length hms
    unfold messageAndAggregate
    rw [hxj, ok_bind]
    dsimp only
    rw [hms, ok_bind, scatter_ok (by simp [hml, hxl]) (List.forall_mem_map.mpr hin'), ok_inj]
    have : (cols.map flow.i).zip ms = pairs := by
      apply List.ext_getElem?
      intro k
      by_cases hk : k < cols.length
      · have hc := List.getElem?_eq_getElem hk
        obtain ⟨r, x, hr, hx, hrow, hi⟩ := hcol k _ hc
        rw [hr, List.getElem?_zip_eq_some]
        obtain ⟨x', hx', hxk⟩ := indexSelect_get hxj (k := k) (s := flow.j cols[k]) (by simp [hc])
        rw [hx] at hx'
        cases hx'
        obtain ⟨m, hmk, hb⟩ := msg_apply_get hms hxk
        rw [msg_row_of_builds hb] at hrow
        cases hrow
        exact ⟨by simp [hc, hi], hmk⟩
      · rw [List.getElem?_eq_none (by simp; omega), List.getElem?_eq_none (by omega)]
    rw [this]

theorem messageAndAggregate_perm {msg : Msg F A M} {agg : List M → M} {flow : Flow} {n : Nat}
    {data : List F} {cols cols' : List (Nat × Nat)} {a a' : Option (List A)} {out : List M}
    (hagg : ∀ l l' : List M, l.Perm l' → agg l = agg l') (hs : SameColumns cols cols' a a')
    (h : messageAndAggregate msg agg flow n data cols (some a) = .ok out) :
    messageAndAggregate msg agg flow n data cols' (some a') = .ok out := by
  have hne : (∃ f, msg = .withAttr f) → a.isSome := by
    rintro ⟨f, rfl⟩
    cases a with
    | some _ => rfl
    | none =>
      unfold messageAndAggregate at h
      obtain ⟨xj, hxj, h⟩ := bind_eq_ok.mp h
      simp [Msg.apply] at h
  obtain ⟨pairs, hp, hlt, rfl⟩ := (messageAndAggregate_eq_ok hs.fit hne).mp h
  obtain ⟨pairs', hp', hperm⟩ := mapE_perm hs.perm hp
  refine (messageAndAggregate_eq_ok hs.fit' (fun hf => hs.both ▸ hne hf)).mpr
    ⟨pairs', hp', fun p hp => hlt p (hperm.symm.subset hp), ?_⟩
  apply List.map_congr_left
  intro c _
  exact hagg _ _ ((hperm.filter _).map _)

/-- **C13** The order of the columns of an adjacency does not matter: permuting the columns of the
upper adjacency, of the lower adjacency (each together with its attributes) and of the incidence
leaves the result of `propagate` unchanged, for aggregations that do not depend on the order. -/
theorem C13_column_order_irrelevant [Zero M] (cfg : MPConfig F A M)
    (hup : ∀ l l' : List M, l.Perm l' → cfg.aggUp l = cfg.aggUp l')
    (hdown : ∀ l l' : List M, l.Perm l' → cfg.aggDown l = cfg.aggDown l')
    (hbnd : ∀ l l' : List M, l.Perm l' → cfg.aggBoundary l = cfg.aggBoundary l')
    (up up' down down' bnd bnd' : List (Nat × Nat)) (x : Option (List F))
    (ua ua' da da' : Option (List A)) (ba : Option (List F))
    (hu : SameColumns up up' ua ua') (hd : SameColumns down down' da da') (hb : bnd.Perm bnd')
    (useUp useDown useBnd : Bool) (out : List M × List M × List M) :
    propagate cfg (if useUp then some up else none) (if useDown then some down else none)
      (if useBnd then some bnd else none) x (some ua) (some da) ba = .ok out ↔
    propagate cfg (if useUp then some up' else none) (if useDown then some down' else none)
      (if useBnd then some bnd' else none) x (some ua') (some da') ba = .ok out := by
  have key : ∀ (up up' down down' bnd bnd' : List (Nat × Nat)) (ua ua' da da' : Option (List A)),
      SameColumns up up' ua ua' → SameColumns down down' da da' → bnd.Perm bnd' →
      propagate cfg (if useUp then some up else none) (if useDown then some down else none)
        (if useBnd then some bnd else none) x (some ua) (some da) ba = .ok out →
      propagate cfg (if useUp then some up' else none) (if useDown then some down' else none)
        (if useBnd then some bnd' else none) x (some ua') (some da') ba = .ok out := by
    intro up up' down down' bnd bnd' ua ua' da da' hu hd hb h
    cases x with
    | none => exact h
    | some x =>
      unfold propagate at h ⊢
      dsimp only at h ⊢
      obtain ⟨u, hu1, h⟩ := bind_eq_ok.mp h
      obtain ⟨dn, hd1, h⟩ := bind_eq_ok.mp h
      obtain ⟨b, hb1, h⟩ := bind_eq_ok.mp h
      have e1 : aggregateOrZero cfg.msgUp cfg.aggUp cfg.flow x.length x
          (if useUp then some up' else none) (some ua') = .ok u := by
        cases useUp
        · exact hu1
        · exact messageAndAggregate_perm hup hu hu1
      have e2 : aggregateOrZero cfg.msgDown cfg.aggDown cfg.flow x.length x
          (if cfg.useDown then (if useDown then some down' else none) else none) (some da') =
          .ok dn := by
        cases hcd : cfg.useDown
        · rw [hcd] at hd1; exact hd1
        · rw [hcd] at hd1
          cases useDown
          · exact hd1
          · exact messageAndAggregate_perm hdown hd hd1
      have e3 : aggregateBoundary cfg.msgBoundary cfg.aggBoundary cfg.flow x.length
          (if cfg.useBoundary then ba else none) (if useBnd then some bnd' else none) = .ok b := by
        cases hcb : cfg.useBoundary
        · rw [hcb] at hb1; exact hb1
        · rw [hcb] at hb1
          cases ba with
          | none => exact hb1
          | some data =>
            cases useBnd
            · exact hb1
            · exact messageAndAggregate_perm hbnd
                ⟨rfl, by simp, by simp, hb.map (fun p => (p, (none : Option Unit)))⟩ hb1
      rw [e1, ok_bind, e2, ok_bind, e3, ok_bind]
      exact h
  constructor
  · exact key _ _ _ _ _ _ _ _ _ _ hu hd hb
  · exact key _ _ _ _ _ _ _ _ _ _ ⟨hu.both.symm, hu.fit', hu.fit, hu.perm.symm⟩
      ⟨hd.both.symm, hd.fit', hd.fit, hd.perm.symm⟩ hb.symm

/-- **C13** The three aggregations of the library do not depend on the order. -/
theorem C13_aggregations_order_free (M 𝕜 : Type) :
    (∀ [AddCommMonoid M] (l l' : List M), l.Perm l' → aggAdd l = aggAdd l') ∧
    (∀ [Field 𝕜] [AddCommMonoid M] [Module 𝕜 M] (l l' : List M), l.Perm l' →
      aggMean (𝕜 := 𝕜) l = aggMean (𝕜 := 𝕜) l') ∧
    (∀ [Zero M] [SemilatticeSup M] (l l' : List M), l.Perm l' → aggMax l = aggMax l') := by
  refine ⟨fun l l' h => h.sum_eq, fun l l' h => by rw [aggMean, aggMean, h.sum_eq, h.length_eq],
    fun l l' h => ?_⟩
  have hf : ∀ (m : M) (l : List M) (c : M), l.foldl (· ⊔ ·) m ≤ c ↔ m ≤ c ∧ ∀ a ∈ l, a ≤ c := by
    intro m l c
    induction l generalizing m with
    | nil => simp
    | cons a l ih => simp [ih, and_assoc]
  cases l with
  | nil => rw [List.nil_perm.mp h]
  | cons m l =>
    cases l' with
    | nil => exact absurd (List.perm_nil.mp h) (by simp)
    | cons m' l' =>
      unfold aggMax
      apply le_antisymm
      · have := (hf m' l' _).mp le_rfl
        rw [hf]
        have hall : ∀ a ∈ m' :: l', a ≤ l'.foldl (· ⊔ ·) m' := by simpa using this
        have := fun a ha => hall a (h.subset ha)
        simpa using this
      · have := (hf m l _).mp le_rfl
        rw [hf]
        have hall : ∀ a ∈ m :: l, a ≤ l.foldl (· ⊔ ·) m := by simpa using this
        have := fun a ha => hall a (h.symm.subset ha)
        simpa using this

/-- The default messages: the row of the source cell. -/
def plainConfig : MPConfig Nat Nat Nat where
  msgUp := .withAttr (fun x a => x + 10 * a)
  msgDown := .plain id
  msgBoundary := id
  aggUp := aggAdd
  aggDown := aggAdd
  aggBoundary := aggAdd

/-- Three cells on a path, the third without upper neighbours; two boundary cells. -/
example : propagate plainConfig (some [(0, 1), (1, 0), (2, 1)]) none (some [(0, 0), (1, 0), (1, 2)])
    (some [1, 2, 3]) (some (some [5, 5, 6])) (some none) (some [7, 8]) =
    .ok ([52, 114, 0], [0, 0, 0], [15, 0, 8]) := by decide
/-- The same with the columns in another order. -/
example : propagate plainConfig (some [(2, 1), (0, 1), (1, 0)]) none (some [(1, 2), (0, 0), (1, 0)])
    (some [1, 2, 3]) (some (some [6, 5, 5])) (some none) (some [7, 8]) =
    .ok ([52, 114, 0], [0, 0, 0], [15, 0, 8]) := by decide
example : SameColumns [(0, 1), (1, 0), (2, 1)] [(2, 1), (0, 1), (1, 0)] (some [5, 5, 6])
    (some [6, 5, 5]) :=
  ⟨rfl, by simp, by simp, by unfold columnsWith; decide⟩
/-- Lower messages without the attribute argument raise `TypeError`. -/
example : propagate plainConfig none (some [(0, 1)]) none (some [1, 2]) (some none) none none =
    .error .type := by decide
/-- An index out of range raises an exception. -/
example : propagate plainConfig none (some [(0, 2)]) none (some [1, 2]) (some none) (some none) none =
    .error .index := by decide

/-! ### The theorems on concrete cases -/

section Cases
example := C12_propagate_sums_messages plainConfig rfl rfl rfl rfl (some [(0, 1), (1, 0), (2, 1)]) none
  (some [(0, 0), (1, 0), (1, 2)]) [1, 2, 3] (some (some [5, 5, 6])) (some none) (some [7, 8]) [52, 114, 0] [0, 0, 0]
  [15, 0, 8] (by decide)
example := C12_propagate_defined plainConfig (some [(0, 1), (1, 0), (2, 1)]) (some [(0, 2)])
  (some [(0, 0), (1, 0), (1, 2)]) [1, 2, 3] (some [5, 5, 6]) none (some [7, 8])
  (fun cols h => by cases h; exact ⟨by decide, fun _ => rfl⟩)
  (fun cols h => by cases h; exact ⟨by decide, fun f h => by cases h⟩)
  (fun data h => by cases h; exact ⟨_, rfl, by decide⟩)
example := C13_column_order_irrelevant plainConfig (fun _ _ h => h.sum_eq) (fun _ _ h => h.sum_eq) (fun _ _ h => h.sum_eq)
  [(0, 1), (1, 0), (2, 1)] [(2, 1), (0, 1), (1, 0)] [] [] [(0, 0), (1, 0), (1, 2)] [(1, 2), (0, 0), (1, 0)]
  (some [1, 2, 3]) (some [5, 5, 6]) (some [6, 5, 5]) none none (some [7, 8])
  ⟨rfl, by simp, by simp, by unfold columnsWith; decide⟩ ⟨rfl, by simp, by simp, by simp [columnsWith]⟩ (by decide)
  true false true ([52, 114, 0], [0, 0, 0], [15, 0, 8])
end Cases

end Verif
