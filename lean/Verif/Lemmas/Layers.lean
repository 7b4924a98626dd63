import Verif.Spec.Runs
import Verif.Lemmas.View
import Verif.Props.MessagePassing
import Verif.Props.Construction
import Verif.Props.Params

/-!
# The layers compute what their rules say
-/

namespace Verif

variable {R L : Type} [AddCommMonoid R]

/-- The parameters of dimension `d` are those of the view: `shared` says whether the features of the
shared cells above are passed, `down` whether lower structure is. -/
structure ParamsOf (v : View R) (d : Nat) (shared down : Bool) (p : MPParams R) : Prop where
  x : p.x = some (v.X d)
  upNone : p.upIndex = none → v.up d = []
  up : ∀ cols, p.upIndex = some cols → cols = (v.up d).map Prod.fst ∧
    p.upAttr = if shared then some ((v.up d).map fun q => rowOf (v.X (d + 1)) q.2) else none
  downNone : down = true → p.downIndex = none → v.down d = []
  down : down = true → ∀ cols, p.downIndex = some cols → cols = (v.down d).map Prod.fst ∧
    p.downAttr = some ((v.down d).map fun q => rowOf (v.below d) q.2)
  bndNone : p.boundaryAttr = none → v.bnd d = []
  bnd : ∀ data, p.boundaryAttr = some data → data = v.below d ∧ p.boundaryIndex = some (v.bnd d)

/-- `forward` computes `rule`, cell by cell. -/
def Realises {Lv : Type} (forward : Lv → MPParams R → Py (List R)) (rule : Lv → Rule R)
    (needs : Lv → Prop) (down : Bool) : Prop :=
  ∀ (l : Lv) (v : View R) (d : Nat) (shared : Bool) (p : MPParams R), v.InRange →
    ParamsOf v d shared down p → (needs l → shared = true) →
    forward l p = .ok ((List.range (v.X d).length).map (v.newRow (rule l) shared d))

theorem messageAndAggregate_cols {msg : Msg R R R} {f : R → Option R → R}
    {cols : List ((Nat × Nat) × Nat)} {data att : List R} {shared : Bool} {n : Nat}
    (hin : ∀ p ∈ cols, p.1.1 < data.length ∧ p.1.2 < n)
    (hf : ∀ x a, a.isSome = shared → msg.row x a = .ok (f x a)) :
    messageAndAggregate msg aggAdd .sourceToTarget n data (cols.map Prod.fst)
      (some (if shared then some (cols.map fun q => rowOf att q.2) else none)) =
    .ok ((List.range n).map fun c => ((cols.filter (fun p => p.1.2 == c)).map fun p =>
      f (rowOf data p.1.1) (if shared then some (rowOf att p.2) else none)).sum) := by
  rw [messageAndAggregate_eq_ok]
  · refine ⟨cols.map fun p => (p.1.2, f (rowOf data p.1.1)
      (if shared then some (rowOf att p.2) else none)), ?_, ?_, ?_⟩
    · have : columnsWith (cols.map Prod.fst)
          (if shared then some (cols.map fun q => rowOf att q.2) else none) =
          cols.map fun p => (p.1, if shared then some (rowOf att p.2) else none) := by
        cases shared
        · simp [columnsWith]
        · simp [columnsWith, List.zip_map']
      rw [this, mapE_map]
      apply mapE_ok
      intro p hp
      obtain ⟨h1, _⟩ := hin p hp
      rw [columnMsg_eq_ok]
      refine ⟨data[p.1.1], List.getElem?_eq_getElem h1, ?_, rfl⟩
      have : rowOf data p.1.1 = data[p.1.1] := by simp [rowOf, h1]
      simp only [this]
      apply hf
      cases shared <;> rfl
    · rw [List.forall_mem_map]
      intro p hp
      exact (hin p hp).2
    · apply List.map_congr_left
      intro c _
      rw [aggAdd, List.filter_map, List.map_map]
      rfl
  · intro l hl
    cases shared
    · simp at hl
    · simp at hl
      simp [← hl]
  · rintro ⟨g, rfl⟩
    cases shared
    · have := hf 0 none rfl
      simp [Msg.row] at this
    · rfl

omit [AddCommMonoid R] in
theorem msg_row_value [Zero R] {msg : Msg R R R} {shared : Bool} (hn : msg.NeedsAttr → shared = true)
    (x : R) (a : Option R) (ha : a.isSome = shared) : msg.row x a = .ok (msg.value x a) := by
  cases msg with
  | plain f => rfl
  | withAttr f =>
    have := hn ⟨f, rfl⟩
    subst this
    cases a with
    | none => simp at ha
    | some a => rfl
  | optAttr f g => cases a <;> rfl

theorem range_map_zero {v : List R} {n : Nat} (h : v = (List.range n).map fun _ => (0 : R)) :
    v = zeroRows n := by
  rw [h, zeroRows]
  simp

/-- Upper messages. -/
theorem ParamsOf.up_ok {v : View R} {d : Nat} {shared down : Bool} {p : MPParams R}
    (hp : ParamsOf v d shared down p) (hv : v.InRange) {msg : Msg R R R} {r : Rule R}
    (hf : ∀ x a, a.isSome = shared → msg.row x a = .ok (r.up x a)) :
    aggregateOrZero msg aggAdd .sourceToTarget (v.X d).length (v.X d) p.upIndex (some p.upAttr) =
      .ok ((List.range (v.X d).length).map (v.upSum r shared d)) := by
  cases hu : p.upIndex with
  | none =>
    rw [aggregateOrZero, ok_inj, eq_comm]
    apply range_map_zero
    apply List.map_congr_left
    intro c _
    simp [View.upSum, hp.upNone hu]
  | some cols =>
    obtain ⟨rfl, ha⟩ := hp.up cols hu
    rw [ha]
    exact messageAndAggregate_cols (fun q hq => ⟨(hv.up d q hq).1, (hv.up d q hq).2.1⟩) hf

/-- Lower messages. -/
theorem ParamsOf.down_ok {v : View R} {d : Nat} {shared : Bool} {p : MPParams R}
    (hp : ParamsOf v d shared true p) (hv : v.InRange) {r : Rule R} :
    aggregateOrZero (.withAttr r.down) aggAdd .sourceToTarget (v.X d).length (v.X d) p.downIndex
      (some p.downAttr) = .ok ((List.range (v.X d).length).map (v.downSum r d)) := by
  cases hu : p.downIndex with
  | none =>
    rw [aggregateOrZero, ok_inj, eq_comm]
    apply range_map_zero
    apply List.map_congr_left
    intro c _
    simp [View.downSum, hp.downNone rfl hu]
  | some cols =>
    obtain ⟨rfl, ha⟩ := hp.down rfl cols hu
    rw [ha]
    refine (messageAndAggregate_cols (shared := true) (f := fun x a => r.down x (a.getD 0))
      (fun q hq => ⟨(hv.down d q hq).1, (hv.down d q hq).2.1⟩) ?_).trans ?_
    · intro x a ha
      cases a with
      | none => simp at ha
      | some a => rfl
    · rfl

/-- Boundary messages. -/
theorem ParamsOf.bnd_ok {v : View R} {d : Nat} {shared down : Bool} {p : MPParams R}
    (hp : ParamsOf v d shared down p) (hv : v.InRange) {r : Rule R} :
    aggregateBoundary r.bnd aggAdd .sourceToTarget (v.X d).length p.boundaryAttr p.boundaryIndex =
      .ok ((List.range (v.X d).length).map (v.bndSum r d)) := by
  cases hu : p.boundaryAttr with
  | none =>
    rw [aggregateBoundary, ok_inj, eq_comm]
    apply range_map_zero
    apply List.map_congr_left
    intro c _
    simp [View.bndSum, hp.bndNone hu]
  | some data =>
    obtain ⟨rfl, hb⟩ := hp.bnd data hu
    rw [hb, aggregateBoundary, messageAndAggregate_eq_ok (by simp) (by simp)]
    refine ⟨(v.bnd d).map fun q => (q.2, r.bnd (rowOf (v.below d) q.1)), ?_, ?_, ?_⟩
    · rw [columnsWith, mapE_map]
      apply mapE_ok
      intro q hq
      have h1 := (hv.bnd d q hq).1
      rw [columnMsg_eq_ok]
      refine ⟨(v.below d)[q.1], List.getElem?_eq_getElem h1, ?_, rfl⟩
      simp [rowOf, h1, Msg.row]
    · rw [List.forall_mem_map]
      intro q hq
      exact (hv.bnd d q hq).2
    · apply List.map_congr_left
      intro c _
      rw [aggAdd, List.filter_map, List.map_map]
      rfl

omit [AddCommMonoid R] in
theorem zipRows_range {f : R → R → R} {n : Nat} (g h : Nat → R) :
    zipRows f ((List.range n).map g) ((List.range n).map h) =
      .ok ((List.range n).map fun c => f (g c) (h c)) := by
  unfold zipRows
  rw [if_pos (by simp), List.zipWith_map]
  simp [List.zipWith_self]

omit [AddCommMonoid R] in
theorem zipRowsWith_range {A B C : Type} {f : A → B → C} {n : Nat} (g : Nat → A) (h : Nat → B) :
    PPLevel.forward.zipRowsWith f ((List.range n).map g) ((List.range n).map h) =
      .ok ((List.range n).map fun c => f (g c) (h c)) := by
  unfold PPLevel.forward.zipRowsWith
  rw [if_pos (by simp), List.zipWith_map]
  simp [List.zipWith_self]

theorem rows_range (x : List R) : x = (List.range x.length).map (rowOf x) := by
  apply List.ext_getElem (by simp)
  intro i h1 h2
  simp [rowOf, h1]

theorem addScaled_range {𝕜 : Type} [Field 𝕜] [Module 𝕜 R] {eps : 𝕜} {x : List R} (g : Nat → R) :
    addScaled eps ((List.range x.length).map g) x =
      .ok ((List.range x.length).map fun c => g c + (1 + eps) • rowOf x c) := by
  unfold addScaled
  conv_lhs => rw [rows_range x]
  simp only [List.length_map, List.length_range]
  exact zipRows_range _ _

omit [AddCommMonoid R] in
theorem zeroRows_range [Zero R] (n : Nat) : (zeroRows n : List R) = (List.range n).map fun _ => 0 := by
  simp [zeroRows]

omit [AddCommMonoid R] in
theorem propagate_ok [Zero R] {cfg : MPConfig R R R}
    {upIndex downIndex boundaryIndex : Option (List (Nat × Nat))} {x : List R}
    {upAttr downAttr : Option (Option (List R))} {boundaryAttr : Option (List R)} {u dn b : List R}
    (hu : aggregateOrZero cfg.msgUp cfg.aggUp cfg.flow x.length x upIndex upAttr = .ok u)
    (hd : aggregateOrZero cfg.msgDown cfg.aggDown cfg.flow x.length x
      (if cfg.useDown then downIndex else none) downAttr = .ok dn)
    (hb : aggregateBoundary cfg.msgBoundary cfg.aggBoundary cfg.flow x.length
      (if cfg.useBoundary then boundaryAttr else none) boundaryIndex = .ok b) :
    propagate cfg upIndex downIndex boundaryIndex (some x) upAttr downAttr boundaryAttr =
      .ok (u, dn, b) := by
  unfold propagate
  dsimp only
  rw [hu, ok_bind, hd, ok_bind, hb, ok_bind]
  rfl

section
variable {𝕜 : Type} [Field 𝕜] [Module 𝕜 R]

theorem realises_cin : Realises (R := R) (CINLevel.forward (𝕜 := 𝕜)) CINLevel.rule
    (fun _ => False) true := by
  intro l v d shared p hv hp _
  unfold CINLevel.forward
  rw [hp.x, propagate_ok (cfg := l.cfg)
    (hp.up_ok hv (r := l.rule) (fun x a _ => by cases a <;> rfl)) (hp.down_ok hv (r := l.rule)) rfl,
    ok_bind]
  simp only [Option.getD_some]
  rw [addScaled_range, ok_bind, addScaled_range, ok_bind, zipRows_range, ok_bind, List.map_map]
  rfl

theorem realises_sparse (down : Bool) : Realises (R := R) (SparseLevel.forward (𝕜 := 𝕜))
    SparseLevel.rule (fun l => l.msgUp.NeedsAttr) down := by
  intro l v d shared p hv hp hn
  unfold SparseLevel.forward
  rw [hp.x, propagate_ok (cfg := l.cfg)
    (hp.up_ok hv (r := l.rule) (msg_row_value hn)) rfl (hp.bnd_ok hv (r := l.rule)), ok_bind]
  simp only [Option.getD_some]
  rw [addScaled_range, ok_bind, addScaled_range, ok_bind, List.map_map, List.map_map, zipRows_range]
  rfl

theorem realises_pp (down : Bool) : Realises (R := R) (PPLevel.forward (𝕜 := 𝕜)) PPLevel.rule
    (fun l => l.msgUp.NeedsAttr) down := by
  intro l v d shared p hv hp hn
  unfold PPLevel.forward
  rw [hp.x, propagate_ok (cfg := l.cfg)
    (hp.up_ok hv (r := l.rule) (msg_row_value hn)) rfl (hp.bnd_ok hv (r := l.rule)), ok_bind]
  simp only [Option.getD_some]
  rw [zeroRows_range, addScaled_range, ok_bind, addScaled_range, ok_bind, addScaled_range, ok_bind,
    List.map_map, List.map_map, List.map_map, zipRowsWith_range, ok_bind, zipRowsWith_range, ok_inj]
  apply List.map_congr_left
  intro c _
  simp [View.newRow, PPLevel.rule]

end

theorem realises_dummy : Realises (R := R) DummyLevel.forward DummyLevel.rule
    (fun _ => True) true := by
  intro l v d shared p hv hp hn
  have hn := hn trivial
  subst hn
  unfold DummyLevel.forward
  have e1 : aggregateOrZero (.withAttr (· + ·)) aggAdd .sourceToTarget (v.X d).length (v.X d)
      (if l.useDown then p.downIndex else none) (some p.downAttr) =
      .ok ((List.range (v.X d).length).map fun c => if l.useDown then v.downSum l.rule d c else 0) := by
    cases l.useDown
    · simp [aggregateOrZero, zeroRows]
    · exact hp.down_ok hv (r := l.rule)
  have e2 : aggregateBoundary id aggAdd .sourceToTarget (v.X d).length
      (if l.useBoundary then p.boundaryAttr else none) p.boundaryIndex =
      .ok ((List.range (v.X d).length).map fun c => if l.useBoundary then v.bndSum l.rule d c else 0) := by
    cases l.useBoundary
    · simp [aggregateBoundary, zeroRows]
    · exact hp.bnd_ok hv (r := l.rule)
  rw [hp.x, propagate_ok (cfg := l.cfg) (hp.up_ok hv (r := l.rule)
    (fun x a h => by cases a <;> first | rfl | simp at h)) e1 e2, ok_bind]
  simp only [Option.getD_some]
  conv_lhs => rw [rows_range (v.X d)]
  simp only [List.length_map, List.length_range]
  rw [zipRows_range, ok_bind, zipRows_range, ok_bind, zipRows_range]
  rfl

end Verif
