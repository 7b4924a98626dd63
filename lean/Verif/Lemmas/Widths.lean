import Verif.Spec.Widths
import Verif.Lemmas.Models
import Verif.Lemmas.Perm

/-!
# Helper lemmas for the widths
-/

namespace Verif

/-! ### Names -/

theorem getNonlinearity_ok {s : String} (h : okNonlinearity s) :
    getNonlinearity s = .ok .pointwise := by
  simp only [okNonlinearity, List.mem_cons, List.not_mem_nil, or_false] at h
  rcases h with h | h | h | h | h <;> subst h <;> decide

theorem getNonlinearity_error {s : String} (h : ¬ okNonlinearity s) :
    getNonlinearity s = .error .notImplemented := by
  simp only [okNonlinearity, List.mem_cons, List.not_mem_nil, or_false, not_or] at h
  simp [getNonlinearity, h]

theorem getPoolingFn_named {s : String} (h : okReadout s) : ∃ p, getPoolingFn s = .ok p := by
  simp only [okReadout, List.mem_cons, List.not_mem_nil, or_false] at h
  rcases h with h | h <;> subst h
  · exact ⟨.sum, by decide⟩
  · exact ⟨.mean, by decide⟩

theorem getPoolingFn_error {s : String} (h : ¬ okReadout s) :
    getPoolingFn s = .error .notImplemented := by
  simp only [okReadout, List.mem_cons, List.not_mem_nil, or_false, not_or] at h
  simp [getPoolingFn, h]

/-- A normalisation that takes its own size. -/
def NormOk (norm : Nat → Mod) : Prop := ∀ n, (norm n).out n = .ok n

theorem getGraphNorm_ok {s : String} (h : okNorm s) : ∃ n, getGraphNorm s = .ok n ∧ NormOk n := by
  simp only [okNorm, List.mem_cons, List.not_mem_nil, or_false] at h
  rcases h with h | h | h <;> subst h
  · exact ⟨.norm, rfl, fun n => by simp [Mod.out]⟩
  · exact ⟨.norm, rfl, fun n => by simp [Mod.out]⟩
  · exact ⟨fun _ => .pointwise, rfl, fun n => by simp [Mod.out]⟩

theorem getGraphNorm_error {s : String} (h : ¬ okNorm s) : getGraphNorm s = .error .value := by
  simp only [okNorm, List.mem_cons, List.not_mem_nil, or_false, not_or] at h
  simp [getGraphNorm, h]

/-- What jumping knowledge makes of `k` outputs with `h` columns. -/
def jumpWidth (mode : Option String) (k h : Nat) : Nat := if mode = some "cat" then k * h else h

theorem makeJump_error {mode : Option String} (h : ¬ okJump mode) :
    makeJump mode = .error .assertion := by
  simp only [okJump, List.mem_cons, List.not_mem_nil, or_false, not_or] at h
  cases mode with
  | none => simp at h
  | some m =>
    have h1 : m ≠ "cat" := fun e => h.2.1 (by rw [e])
    have h2 : m ≠ "max" := fun e => h.2.2 (by rw [e])
    simp [makeJump, jumpingKnowledge, h1, h2]

theorem makeJump_cases {mode : Option String} (h : okJump mode) :
    (mode = none ∧ makeJump mode = .ok none) ∨
      (mode = some "cat" ∧ makeJump mode = .ok (some .cat)) ∨
      (mode = some "max" ∧ makeJump mode = .ok (some .max)) := by
  simp only [okJump, List.mem_cons, List.not_mem_nil, or_false] at h
  rcases h with h | h | h <;> subst h
  · exact Or.inl ⟨rfl, rfl⟩
  · exact Or.inr (Or.inl ⟨rfl, rfl⟩)
  · exact Or.inr (Or.inr ⟨rfl, rfl⟩)

/-! ### Lists -/

theorem listGet_replicate {α : Type} {n i : Nat} {a : α} (h : i < n) :
    listGet (List.replicate n a) i = .ok a := by
  rw [listGet, List.getElem?_replicate, if_pos h]

/-! ### Modules -/

theorem seqOut_cons {m : Mod} {ms : List Mod} {w o : Nat} (h : m.out w = .ok o) :
    seqOut (m :: ms) w = seqOut ms o := by
  rw [seqOut, h, ok_bind]

theorem linear_out (i o : Nat) : (Mod.linear i o).out i = .ok o := by simp [Mod.out]

theorem updateNet_out {norm : Nat → Mod} (hn : NormOk norm) (w h : Nat) :
    seqOut (updateNet w h norm .pointwise) w = .ok h := by
  simp only [updateNet]
  rw [seqOut_cons (linear_out _ _), seqOut_cons (hn _), seqOut_cons (o := h) rfl,
    seqOut_cons (linear_out _ _), seqOut_cons (hn _), seqOut_cons (o := h) rfl]
  rfl

theorem combine_out {norm : Nat → Mod} (hn : NormOk norm) (i h : Nat) :
    seqOut [.linear i h, norm h, .pointwise] i = .ok h := by
  rw [seqOut_cons (linear_out _ _), seqOut_cons (hn _), seqOut_cons (o := h) rfl]
  rfl

theorem addInto_self (a : Nat) : addInto a a = .ok a := by simp [addInto]

theorem addWidths_self (a : Nat) : addWidths a a = .ok a := by simp [addWidths]

theorem addWidths_one (a : Nat) : addWidths a 1 = .ok a := by
  simp only [addWidths]; split_ifs <;> simp_all

/-! ### Batches with features of one size -/

/-- The first `n` dimensions get features with `w` columns. -/
def stamp : Nat → Nat → List LevelShape → List LevelShape
  | 0, _, data => data
  | _ + 1, _, [] => []
  | n + 1, w, l :: data => { l with x := some w } :: stamp n w data

theorem stamp_length (n w : Nat) (data : List LevelShape) : (stamp n w data).length = data.length := by
  induction data generalizing n with
  | nil => cases n <;> rfl
  | cons l data ih => cases n with
    | zero => rfl
    | succ n => simp [stamp, ih]

theorem stamp_lt {n w d : Nat} {data : List LevelShape} (h : d < n) :
    (stamp n w data)[d]? = (data[d]?).map fun l => { l with x := some w } := by
  induction data generalizing n d with
  | nil => cases n <;> simp [stamp]
  | cons l data ih =>
    cases n with
    | zero => omega
    | succ n =>
      cases d with
      | zero => simp [stamp]
      | succ d => simpa [stamp] using ih (by omega)

theorem stamp_ge {n w d : Nat} {data : List LevelShape} (h : n ≤ d) :
    (stamp n w data)[d]? = data[d]? := by
  induction data generalizing n d with
  | nil => cases n <;> simp [stamp]
  | cons l data ih =>
    cases n with
    | zero => rfl
    | succ n =>
      cases d with
      | zero => omega
      | succ d => simpa [stamp] using ih (by omega)

theorem stamp_self {n w : Nat} {data : List LevelShape}
    (h : ∀ (d : Nat), d < n → ∀ l : LevelShape, data[d]? = some l → l.x = some w) :
    stamp n w data = data := by
  apply List.ext_getElem?
  intro d
  by_cases hd : d < n
  · rw [stamp_lt hd]
    cases hl : data[d]? with
    | none => rfl
    | some l =>
      have hx := h d hd l hl
      cases l
      simp only at hx
      simp [hx]
  · rw [stamp_ge (by omega)]

theorem setWidths_stamp {n w h : Nat} {data : List LevelShape} (hn : n ≤ data.length) :
    setWidths (stamp n w data) (List.replicate n h) = .ok (stamp n h data) := by
  induction data generalizing n with
  | nil =>
    have : n = 0 := by simpa using hn
    subst this; rfl
  | cons l data ih =>
    cases n with
    | zero => rfl
    | succ n =>
      rw [stamp, List.replicate_succ, setWidths, ih (by simpa using hn), ok_bind]
      rfl

theorem setWidths_replicate {n h : Nat} {data : List LevelShape} (hn : n ≤ data.length) :
    setWidths data (List.replicate n h) = .ok (stamp n h data) := by
  induction data generalizing n with
  | nil =>
    have : n = 0 := by simpa using hn
    subst this; rfl
  | cons l data ih =>
    cases n with
    | zero => rfl
    | succ n =>
      rw [stamp, List.replicate_succ, setWidths, ih (by simpa using hn), ok_bind]
      rfl

/-- The number of dimensions that are processed. -/
def levelsOf (maxDim : Nat) (data : List LevelShape) : Nat := min maxDim (data.length - 1) + 1

theorem levelsOf_le {maxDim : Nat} {data : List LevelShape} (h : data ≠ []) :
    levelsOf maxDim data ≤ data.length := by
  have := List.length_pos_of_ne_nil h
  unfold levelsOf
  omega

/-- The cells of a dimension, a dummy beyond the end. -/
def levelAt (data : List LevelShape) (d : Nat) : LevelShape :=
  (data[d]?).getD { x := none, up := false, down := false, boundary := false }

theorem getElem?_levelAt {data : List LevelShape} {d : Nat} (h : d < data.length) :
    data[d]? = some (levelAt data d) := by
  simp [levelAt, List.getElem?_eq_getElem h]

theorem paramShapes_of {data : List LevelShape} {maxDim : Nat} {top down : Bool} (hne : data ≠ []) :
    paramShapes data maxDim top down = .ok ((List.range (levelsOf maxDim data)).map fun d =>
      levelParams data (levelAt data d) d maxDim top down) := by
  apply mapE_ok
  intro d hd
  have hd' : d < data.length := lt_of_lt_of_le (List.mem_range.1 hd) (levelsOf_le hne)
  rw [paramShape, getElem?_levelAt hd']

theorem levelsOf_stamp {n w maxDim : Nat} {data : List LevelShape} :
    levelsOf maxDim (stamp n w data) = levelsOf maxDim data := by
  simp [levelsOf, stamp_length]

theorem stamp_ne {n w : Nat} {data : List LevelShape} (h : data ≠ []) : stamp n w data ≠ [] := by
  intro e
  have := congrArg List.length e
  rw [stamp_length] at this
  exact h (List.length_eq_zero_iff.1 (by simpa using this))

theorem levelAt_stamp_lt {n w d : Nat} {data : List LevelShape} (hd : d < data.length) (h : d < n) :
    levelAt (stamp n w data) d = { levelAt data d with x := some w } := by
  rw [levelAt, stamp_lt h, getElem?_levelAt hd]; rfl

theorem belowWidth_stamp {n w d : Nat} {data : List LevelShape} (hd : d ≤ data.length) (h : d ≤ n) :
    belowWidth (stamp n w data) d = if d = 0 then none else some w := by
  cases d with
  | zero => rfl
  | succ d =>
    rw [belowWidth, stamp_lt (by omega), getElem?_levelAt (by omega)]
    simp

/-- Good parameters: features with `w` columns, boundary features with as many (if any, with the
incidence). -/
structure GoodParams (w : Nat) (p : ParamShape) : Prop where
  x : p.x = some w
  boundary : p.boundaryAttr = none ∨ (p.boundaryAttr = some w ∧ p.boundary = true)

/-- Upper neighbours come with features of the same size. -/
def GoodUp (w : Nat) (p : ParamShape) : Prop := p.up = true → p.upAttr = some w

/-- Lower neighbours come with features of the same size. -/
def GoodDown (w : Nat) (p : ParamShape) : Prop := p.down = true → p.downAttr = some w

theorem goodParams_stamp {data : List LevelShape} {maxDim w d : Nat} {top down : Bool} (hne : data ≠ [])
    (hd : d < levelsOf maxDim data) :
    GoodParams w (levelParams (stamp (levelsOf maxDim data) w data)
      (levelAt (stamp (levelsOf maxDim data) w data) d) d maxDim top down) := by
  have hlt : d < data.length := lt_of_lt_of_le hd (levelsOf_le hne)
  constructor
  · rw [levelParams, levelAt_stamp_lt hlt hd]
  · simp only [levelParams, levelAt_stamp_lt hlt hd, belowWidth_stamp hlt.le hd.le]
    cases (levelAt data d).boundary <;> by_cases h0 : d = 0 <;> simp [h0]

theorem goodUp_stamp' {data : List LevelShape} {maxDim n w d : Nat} {top down : Bool}
    (ht : d < maxDim ∨ top = true) (hlen : d + 1 < n ∨ data.length ≤ d + 1) :
    GoodUp w (levelParams (stamp n w data) (levelAt (stamp n w data) d) d maxDim top down) := by
  intro hup
  by_cases hd' : d + 1 < data.length
  · simp only [levelParams, upShape, stamp_lt (n := n) (d := d + 1) (by omega),
      getElem?_levelAt hd', Option.map_some] at hup ⊢
    have ht' : (decide (d < maxDim) || top) = true := by
      rcases ht with h | h <;> simp [h]
    revert hup
    cases (levelAt (stamp n w data) d).up <;> simp [ht']
  · have : (stamp n w data)[d + 1]? = none := by
      rw [List.getElem?_eq_none_iff, stamp_length]; omega
    simp only [levelParams, upShape, this] at hup
    revert hup
    cases (levelAt (stamp n w data) d).up <;> simp

theorem goodUp_stamp {data : List LevelShape} {maxDim w d : Nat} {down : Bool} (hne : data ≠ [])
    (hlen : data.length ≤ maxDim + 1) (hd : d < levelsOf maxDim data) :
    GoodUp w (levelParams (stamp (levelsOf maxDim data) w data)
      (levelAt (stamp (levelsOf maxDim data) w data) d) d maxDim true down) := by
  have hlt : d < data.length := lt_of_lt_of_le hd (levelsOf_le hne)
  have hn : levelsOf maxDim data = data.length := by
    have := List.length_pos_of_ne_nil hne
    unfold levelsOf; omega
  exact goodUp_stamp' (Or.inr rfl) (by omega)

theorem goodDown_stamp {data : List LevelShape} {maxDim w d : Nat} {top : Bool} (hne : data ≠ [])
    (hv : NoLowerVertices data) (hd : d < levelsOf maxDim data) :
    GoodDown w (levelParams (stamp (levelsOf maxDim data) w data)
      (levelAt (stamp (levelsOf maxDim data) w data) d) d maxDim top true) := by
  have hlt : d < data.length := lt_of_lt_of_le hd (levelsOf_le hne)
  intro hdn
  simp only [levelParams, levelAt_stamp_lt hlt hd, Bool.true_and] at hdn ⊢
  rw [hdn, if_pos rfl, belowWidth_stamp hlt.le hd.le, if_neg]
  rintro rfl
  rw [hv _ (getElem?_levelAt hlt)] at hdn
  cases hdn

/-! ### Layers -/

theorem widthLoop_cond {Lv : Type} {forward : Lv → ParamShape → Py Nat} {levels : List Lv}
    {ps : List ParamShape} {o : Nat} {bad : Prop} [Decidable bad] {e : PyErr}
    (hlen : ps.length ≤ levels.length) (hne : ps ≠ [])
    (h : ∀ (i : Nat) l p, levels[i]? = some l → ps[i]? = some p →
      forward l p = if i + 1 = ps.length ∧ bad then .error e else .ok o) :
    widthLoop forward levels ps = if bad then .error e else .ok (List.replicate ps.length o) := by
  induction ps generalizing levels with
  | nil => exact absurd rfl hne
  | cons p ps ih =>
    cases levels with
    | nil => simp at hlen
    | cons l levels =>
      have h0 := h 0 l p rfl rfl
      by_cases hps : ps = []
      · subst hps
        by_cases hb : bad
        · rw [if_pos hb]
          rw [if_pos ⟨rfl, hb⟩] at h0
          rw [widthLoop, h0]; rfl
        · rw [if_neg hb]
          rw [if_neg (fun hh => hb hh.2)] at h0
          rw [widthLoop, h0, ok_bind]
          cases levels <;> rfl
      · have hlen' : ps.length ≠ 0 := by simpa using hps
        rw [if_neg (by simp only [List.length_cons]; omega)] at h0
        rw [widthLoop, h0, ok_bind, ih (by simpa using hlen) hps]
        · by_cases hb : bad
          · rw [if_pos hb, if_pos hb]; rfl
          · rw [if_neg hb, if_neg hb]; rfl
        · intro i l p hl hp
          have := h (i + 1) l p (by simpa using hl) (by simpa using hp)
          simpa using this

theorem convWidths_cond {Lv : Type} {forward : Lv → ParamShape → Py Nat} {levels : List Lv}
    {ps : List ParamShape} {o : Nat} {bad : Prop} [Decidable bad] {e : PyErr}
    (hlen : ps.length ≤ levels.length) (hne : ps ≠ [])
    (h : ∀ (i : Nat) l p, levels[i]? = some l → ps[i]? = some p →
      forward l p = if i + 1 = ps.length ∧ bad then .error e else .ok o) :
    convWidths forward levels ps = if bad then .error e else .ok (List.replicate ps.length o) := by
  rw [convWidths, pyAssert, decide_eq_true hlen, if_pos rfl, ok_bind, widthLoop_cond hlen hne h]

/-- A run over layers that fit, up to the last level, which fails with `e` on features for which `bad`
holds. `conv w` is the layer for inputs with `w` columns. -/
theorem runWidths_cond {Lv : Type} {params : List LevelShape → Py (List ParamShape)}
    {forward : Lv → ParamShape → Py Nat} {data : List LevelShape} {n hidden : Nat}
    {conv : Nat → List Lv} {bad : Nat → Prop} [DecidablePred bad] {e : PyErr} (hn : n ≤ data.length)
    (h0 : n ≠ 0)
    (hp : ∀ w, ∃ ps, params (stamp n w data) = .ok ps ∧ ps.length = n ∧
      ∀ (i : Nat) l p, (conv w)[i]? = some l → ps[i]? = some p →
        forward l p = if i + 1 = n ∧ bad w then .error e else .ok hidden)
    (hc : ∀ w, n ≤ (conv w).length) :
    ∀ (k w : Nat), runWidths params forward (stamp n w data)
        ((List.range k).map fun i => conv (layerDim w hidden i)) =
      if k ≠ 0 ∧ (bad w ∨ (2 ≤ k ∧ bad hidden)) then .error e
      else .ok (stamp n (if k = 0 then w else hidden) data,
        List.replicate k (List.replicate n hidden)) := by
  intro k
  induction k with
  | zero => intro w; rfl
  | succ k ih =>
    intro w
    obtain ⟨ps, h1, h2, h3⟩ := hp w
    have htail : (List.range k).map (fun i => conv (layerDim w hidden (i + 1))) =
        (List.range k).map fun i => conv (layerDim hidden hidden i) := by
      apply List.map_congr_left
      intro i _
      simp [layerDim]
    rw [List.range_succ_eq_map, List.map_cons, List.map_map]
    have hl0 : layerDim w hidden 0 = w := rfl
    have hcomp : ((fun i => conv (layerDim w hidden i)) ∘ Nat.succ) =
        fun i => conv (layerDim w hidden (i + 1)) := rfl
    have hpne : ps ≠ [] := by
      rintro rfl
      exact h0 (by simpa using h2.symm)
    rw [hl0, runWidths, h1, ok_bind, convWidths_cond (bad := bad w) (e := e) (o := hidden)
      (by rw [h2]; exact hc w) hpne (by rw [h2]; exact h3)]
    by_cases hb : bad w
    · rw [if_pos hb, if_pos ⟨by simp, Or.inl hb⟩]; rfl
    · rw [if_neg hb, ok_bind, h2, setWidths_stamp hn, ok_bind, hcomp, htail, ih hidden]
      by_cases hk : k = 0
      · subst hk
        have c1 : ¬ (0 ≠ 0 ∧ (bad hidden ∨ (2 ≤ 0 ∧ bad hidden))) := by simp
        have c2 : ¬ (0 + 1 ≠ 0 ∧ (bad w ∨ (2 ≤ 0 + 1 ∧ bad hidden))) := by simp [hb]
        rw [if_neg c1, if_neg c2, ok_bind]
        rfl
      · by_cases hh : bad hidden
        · have c1 : k ≠ 0 ∧ (bad hidden ∨ (2 ≤ k ∧ bad hidden)) := ⟨hk, Or.inl hh⟩
          have c2 : k + 1 ≠ 0 ∧ (bad w ∨ (2 ≤ k + 1 ∧ bad hidden)) :=
            ⟨by simp, Or.inr ⟨by omega, hh⟩⟩
          rw [if_pos c1, if_pos c2]; rfl
        · have c1 : ¬ (k ≠ 0 ∧ (bad hidden ∨ (2 ≤ k ∧ bad hidden))) := by simp [hh]
          have c2 : ¬ (k + 1 ≠ 0 ∧ (bad w ∨ (2 ≤ k + 1 ∧ bad hidden))) := by simp [hb, hh]
          rw [if_neg c1, if_neg c2, ok_bind]
          simp [List.replicate_succ, pure, Except.pure]

/-- A run over layers that all fit. -/
theorem runWidths_const {Lv : Type} {params : List LevelShape → Py (List ParamShape)}
    {forward : Lv → ParamShape → Py Nat} {data : List LevelShape} {n hidden : Nat}
    {conv : Nat → List Lv} (hn : n ≤ data.length) (h0 : n ≠ 0)
    (hp : ∀ w, ∃ ps, params (stamp n w data) = .ok ps ∧ ps.length = n ∧
      ∀ (i : Nat) l p, (conv w)[i]? = some l → ps[i]? = some p → forward l p = .ok hidden)
    (hc : ∀ w, n ≤ (conv w).length) (k w : Nat) :
    runWidths params forward (stamp n w data)
        ((List.range k).map fun i => conv (layerDim w hidden i)) =
      .ok (stamp n (if k = 0 then w else hidden) data,
        List.replicate k (List.replicate n hidden)) := by
  have := runWidths_cond (bad := fun _ => False) (e := .runtime) (conv := conv) (forward := forward)
    (params := params) (hidden := hidden) hn h0
    (fun w => by
      obtain ⟨ps, h1, h2, h3⟩ := hp w
      exact ⟨ps, h1, h2, fun i l p hl hp => by rw [if_neg (by simp)]; exact h3 i l p hl hp⟩) hc k w
  rw [this, if_neg (by simp)]

/-! ### Jumping knowledge, pooling, readout -/

theorem finalWidths_none {start : Option (List Nat)} {k n h : Nat} (hk : k ≠ 0) :
    finalWidths none start (List.replicate k (List.replicate n h)) = .ok (List.replicate n h) := by
  obtain ⟨k, rfl⟩ := Nat.exists_eq_succ_of_ne_zero hk
  simp [finalWidths, List.getLast?_replicate]

theorem collectJump_replicate {k n h : Nat} (hk : k ≠ 0) :
    collectJump (List.replicate k (List.replicate n h)) =
      .ok (List.replicate n (List.replicate k h)) := by
  have := collectJump_map (List.replicate n ()) (vs := List.replicate k ())
    (by simpa using hk) (fun _ _ => h)
  simpa using this

theorem finalWidths_jump {mode : Option String} {start : Option (List Nat)} {k n h : Nat} (hk : k ≠ 0)
    (hm : okJump mode) : ∃ j, makeJump mode = .ok j ∧
      finalWidths j start (List.replicate k (List.replicate n h)) =
        .ok (List.replicate n (lin1Input mode k h)) := by
  rcases makeJump_cases hm with ⟨rfl, h1⟩ | ⟨rfl, h1⟩ | ⟨rfl, h1⟩
  · exact ⟨_, h1, by rw [finalWidths_none hk]; rfl⟩
  · refine ⟨_, h1, ?_⟩
    obtain ⟨k, rfl⟩ := Nat.exists_eq_succ_of_ne_zero hk
    rw [finalWidths, collectJump_replicate hk, ok_bind,
      mapE_map_ok (b := (k + 1) * h) (by
        intro a ha
        rw [List.eq_of_mem_replicate ha]
        simp only [List.replicate_succ, Jump.out, List.sum_cons, List.sum_replicate, smul_eq_mul]
        rw [Nat.succ_mul, Nat.add_comm])]
    simp [lin1Input]
  · refine ⟨_, h1, ?_⟩
    obtain ⟨k, rfl⟩ := Nat.exists_eq_succ_of_ne_zero hk
    rw [finalWidths, collectJump_replicate hk, ok_bind,
      mapE_map_ok (b := h) (by
        intro a ha
        rw [List.eq_of_mem_replicate ha, List.replicate_succ, Jump.out]
        simp)]
    simp [lin1Input]

theorem poolWidths_replicate {maxDim n h : Nat} (h0 : n ≠ 0) (hn : n ≤ maxDim + 1) :
    poolWidths maxDim (List.replicate n h) = .ok (List.replicate (maxDim + 1) h) := by
  obtain ⟨n, rfl⟩ := Nat.exists_eq_succ_of_ne_zero h0
  rw [List.replicate_succ, poolWidths, ← List.replicate_succ,
    mapE_map_ok (b := h) (by
      intro a ha
      have := List.eq_of_mem_replicate (List.mem_of_mem_take ha)
      rw [this, addInto_self]), ok_bind, if_neg (by simp; omega)]
  rfl

theorem stackWidths_replicate {final : String} {n h : Nat} (h0 : n ≠ 0) (hf : okReadout final) :
    stackWidths final (List.replicate n h) = .ok h := by
  obtain ⟨n, rfl⟩ := Nat.exists_eq_succ_of_ne_zero h0
  simp only [okReadout, List.mem_cons, List.not_mem_nil, or_false] at hf
  rcases hf with rfl | rfl <;> simp [List.replicate_succ, stackWidths]

theorem readsOut_dims {a : SparseArgs} (h : a.ReadsOut) : a.dims ≠ [] := by
  unfold SparseArgs.ReadsOut at h
  unfold SparseArgs.dims
  split at h
  · next hd => rw [hd]; simp
  · next dims hd =>
    rw [hd]
    obtain ⟨d, hd, hle⟩ := h
    exact List.ne_nil_of_mem (List.mem_filter.2 ⟨hd, by simpa using hle⟩)

theorem dims_le {a : SparseArgs} {d : Nat} (h : d ∈ a.dims) : d ≤ a.maxDim := by
  unfold SparseArgs.dims at h
  split at h
  · simpa using (List.mem_filter.1 h).2
  · have := List.mem_range.1 h; omega

theorem readoutWidths_ok {Lv : Type} {net : SparseNetWidths Lv} {n i m o : Nat} (h0 : n ≠ 0)
    (hn : n ≤ net.maxDim + 1) (hdims : net.dims ≠ []) (hle : ∀ d ∈ net.dims, d ≤ net.maxDim)
    (hact : net.act = .pointwise) (h1 : net.lin1s = List.replicate (net.maxDim + 1) (.linear i m))
    (hf : okReadout net.finalReadout) (h2 : net.lin2 = .linear m o) :
    net.readoutPart (List.replicate n i) = .ok o := by
  rw [SparseNetWidths.readoutPart, poolWidths_replicate h0 hn, ok_bind,
    mapE_map_ok (b := i) (fun d hd => listGet_replicate (by have := hle d hd; omega)), ok_bind,
    mapE_map_ok (b := m) (by
      rintro ⟨w, d⟩ hwd
      have hw : w = i := List.eq_of_mem_replicate (List.of_mem_zip hwd).1
      have hd := hle d (List.of_mem_zip hwd).2
      subst hw
      simp only [h1, listGet_replicate (show d < net.maxDim + 1 by omega), ok_bind, hact]
      rw [seqOut_cons (linear_out _ _), seqOut_cons (o := m) rfl]
      rfl), ok_bind,
    stackWidths_replicate (by simpa using hdims) hf, ok_bind, h2, linear_out]

/-! ### The levels of the constructors -/

theorem msgUp_ok {w : Nat} {p : ParamShape} {cob : Bool} (hu : cob = true → GoodUp w p) :
    (if p.up then msgUpOut (msgUpNet w .pointwise cob) w p.upAttr else .ok w) = .ok w := by
  by_cases hup : p.up = true
  · rw [if_pos hup]
    cases cob with
    | false => rfl
    | true =>
      rw [hu rfl hup]
      show seqOut [.linear (w * 2) w, .pointwise] (w + w) = _
      rw [← Nat.mul_two, seqOut_cons (linear_out _ _)]
      rfl
  · rw [if_neg hup]

theorem boundaryOut_ok {w : Nat} {p : ParamShape} (h : GoodParams w p) : boundaryOut w p = .ok w := by
  rcases h.boundary with hb | ⟨hb, hi⟩
  · rw [boundaryOut, hb]
  · rw [boundaryOut, hb]; simp [hi]

theorem sparse_level {maxDim w hidden : Nat} {norm : Nat → Mod} (hn : NormOk norm) {cob : Bool}
    {l : SparseWidths} (hl : l ∈ sparseCINConv maxDim w hidden norm .pointwise cob) {p : ParamShape}
    (hp : GoodParams w p) (hu : cob = true → GoodUp w p) : l.forward p = .ok hidden := by
  rw [List.eq_of_mem_replicate hl]
  simp only [SparseWidths.forward, hp.x, needX, ok_bind, SparseWidths.up, msgUp_ok hu,
    boundaryOut_ok hp, addInto_self, updateNet_out hn, ← Nat.mul_two, combine_out hn]

theorem pp_level {maxDim w hidden : Nat} {norm : Nat → Mod} (hn : NormOk norm) {cob : Bool}
    {l : PPWidths} (hl : l ∈ cinppConv maxDim w hidden norm .pointwise cob) {p : ParamShape}
    (hp : GoodParams w p) (hu : cob = true → GoodUp w p) : l.forward p = .ok hidden := by
  rw [List.eq_of_mem_replicate hl]
  have h3 : hidden + hidden + hidden = hidden * 3 := by omega
  simp only [PPWidths.forward, hp.x, needX, ok_bind, SparseWidths.up, msgUp_ok hu,
    boundaryOut_ok hp, addInto_self, updateNet_out hn, h3, combine_out hn]

/-- What the constructors of the convolutions and their levels need to have in common. -/
def ConvFits {Lv : Type} (level : Lv → ParamShape → Py Nat)
    (conv : Nat → (Nat → Mod) → Mod → List Lv) (maxDim hidden : Nat) (cob : Bool) : Prop :=
  ∀ (w : Nat) (norm : Nat → Mod), NormOk norm →
    (conv w norm .pointwise).length = maxDim + 1 ∧
    ∀ l ∈ conv w norm .pointwise, ∀ p, GoodParams w p → (cob = true → GoodUp w p) →
      level l p = .ok hidden

theorem sparse_fits (maxDim hidden : Nat) (cob : Bool) :
    ConvFits SparseWidths.forward (fun w norm act => sparseCINConv maxDim w hidden norm act cob)
      maxDim hidden cob :=
  fun _ _ hn => ⟨by simp [sparseCINConv], fun _ hl _ hp hu => sparse_level hn hl hp hu⟩

theorem pp_fits (maxDim hidden : Nat) (cob : Bool) :
    ConvFits PPWidths.forward (fun w norm act => cinppConv maxDim w hidden norm act cob)
      maxDim hidden cob :=
  fun _ _ hn => ⟨by simp [cinppConv], fun _ hl _ hp hu => pp_level hn hl hp hu⟩

theorem levelsOf_le_maxDim (maxDim : Nat) (data : List LevelShape) :
    levelsOf maxDim data ≤ maxDim + 1 := by unfold levelsOf; omega

theorem levelsOf_ne_zero (maxDim : Nat) (data : List LevelShape) : levelsOf maxDim data ≠ 0 := by
  unfold levelsOf; omega

/-- The parameters of a batch with uniform features. -/
theorem params_stamp {data : List LevelShape} {maxDim : Nat} {cob : Bool} (hne : data ≠ [])
    (hlen : cob = true → UpTo data maxDim) (w : Nat) :
    ∃ ps, paramShapes (stamp (levelsOf maxDim data) w data) maxDim true false = .ok ps ∧
      ps.length = levelsOf maxDim data ∧
      ∀ p ∈ ps, GoodParams w p ∧ (cob = true → GoodUp w p) := by
  refine ⟨_, paramShapes_of (stamp_ne hne), by simp [levelsOf_stamp], ?_⟩
  intro p hp
  obtain ⟨d, hd, rfl⟩ := List.mem_map.1 hp
  rw [levelsOf_stamp] at hd
  exact ⟨goodParams_stamp hne (List.mem_range.1 hd),
    fun hc => goodUp_stamp hne (hlen hc) (List.mem_range.1 hd)⟩

theorem run_fits {Lv : Type} {level : Lv → ParamShape → Py Nat}
    {conv : Nat → (Nat → Mod) → Mod → List Lv} {maxDim hidden : Nat} {cob : Bool}
    (hc : ConvFits level conv maxDim hidden cob) {norm : Nat → Mod} (hn : NormOk norm)
    {data : List LevelShape} (hne : data ≠ []) (hlen : cob = true → UpTo data maxDim) (k w : Nat) :
    runWidths (fun data => paramShapes data maxDim true false) level
        (stamp (levelsOf maxDim data) w data)
        ((List.range k).map fun i => conv (layerDim w hidden i) norm .pointwise) =
      .ok (stamp (levelsOf maxDim data) (if k = 0 then w else hidden) data,
        List.replicate k (List.replicate (levelsOf maxDim data) hidden)) :=
  runWidths_const (conv := fun w => conv w norm .pointwise) (levelsOf_le hne)
    (levelsOf_ne_zero _ _)
    (fun w => by
      obtain ⟨ps, h1, h2, h3⟩ := params_stamp hne hlen w
      exact ⟨ps, h1, h2, fun i l p hl hp =>
        (hc w norm hn).2 l (List.mem_of_getElem? hl) p (h3 p (List.mem_of_getElem? hp)).1
          (h3 p (List.mem_of_getElem? hp)).2⟩)
    (fun w => by rw [(hc w norm hn).1]; exact levelsOf_le_maxDim _ _) k w

theorem columns_stamp {data : List LevelShape} {maxDim w : Nat} (h : Columns data maxDim w) :
    stamp (levelsOf maxDim data) w data = data :=
  stamp_self fun d hd l hl => h.2 d (by
    have := levelsOf_le_maxDim maxDim data
    omega) l hl

theorem sparseBuild_ok {Lv : Type} {a : SparseArgs} (ha : a.Buildable)
    (conv : Nat → (Nat → Mod) → Mod → List Lv) : ∃ norm j, NormOk norm ∧ makeJump a.jumpMode = .ok j ∧
      a.build conv = .ok {
        convs := (List.range a.numLayers).map fun i =>
          conv (layerDim a.numInput a.hidden i) norm .pointwise
        maxDim := a.maxDim
        dims := a.dims
        jump := j
        act := .pointwise
        lin1s := List.replicate (a.maxDim + 1)
          (.linear (lin1Input a.jumpMode a.numLayers a.hidden) (a.multiplier * a.hidden))
        finalReadout := a.finalReadout
        lin2 := .linear (a.multiplier * a.hidden) a.numClasses } := by
  obtain ⟨p, hp⟩ := getPoolingFn_named ha.readout
  obtain ⟨norm, hn, hok⟩ := getGraphNorm_ok ha.norm
  have hj : ∃ j, makeJump a.jumpMode = .ok j := by
    rcases makeJump_cases ha.jump with ⟨_, h⟩ | ⟨_, h⟩ | ⟨_, h⟩ <;> exact ⟨_, h⟩
  obtain ⟨j, hj⟩ := hj
  refine ⟨norm, j, hok, hj, ?_⟩
  rw [SparseArgs.build, hp, ok_bind, hn, ok_bind, getNonlinearity_ok ha.nonlinearity, ok_bind, hj,
    ok_bind]
  rfl

theorem build_error {Lv : Type} {a : SparseArgs} (conv : Nat → (Nat → Mod) → Mod → List Lv)
    {e : PyErr} (h : a.nameError = some e) : a.build conv = .error e := by
  unfold SparseArgs.nameError at h
  unfold SparseArgs.build
  by_cases h1 : okReadout a.readout
  · rw [if_neg (not_not.2 h1)] at h
    obtain ⟨p, hp⟩ := getPoolingFn_named h1
    rw [hp, ok_bind]
    by_cases h2 : okNorm a.graphNorm
    · rw [if_neg (not_not.2 h2)] at h
      obtain ⟨norm, hn, _⟩ := getGraphNorm_ok h2
      rw [hn, ok_bind]
      by_cases h3 : okNonlinearity a.nonlinearity
      · rw [if_neg (not_not.2 h3)] at h
        rw [getNonlinearity_ok h3, ok_bind]
        by_cases h4 : okJump a.jumpMode
        · rw [if_neg (not_not.2 h4)] at h; cases h
        · rw [if_pos h4] at h; cases h
          rw [makeJump_error h4]; rfl
      · rw [if_pos h3] at h; cases h
        rw [getNonlinearity_error h3]; rfl
    · rw [if_pos h2] at h; cases h
      rw [getGraphNorm_error h2]; rfl
  · rw [if_pos h1] at h; cases h
    rw [getPoolingFn_error h1]; rfl

theorem buildable_of {a : SparseArgs} (h : a.nameError = none) : a.Buildable := by
  unfold SparseArgs.nameError at h
  split_ifs at h with h1 h2 h3 h4
  exact ⟨h1, h2, h3, h4⟩

/-- The common part of the theorems on `SparseCIN` and `CINpp`: up to the readout. -/
theorem sparse_net_run {Lv : Type} {level : Lv → ParamShape → Py Nat} {a : SparseArgs}
    (ha : a.Buildable) (hk : a.numLayers ≠ 0) {conv : Nat → (Nat → Mod) → Mod → List Lv}
    (hc : ConvFits level conv a.maxDim a.hidden a.useCoboundaries)
    {data : List LevelShape} (hd : Columns data a.maxDim a.numInput)
    (hu : a.useCoboundaries = true → UpTo data a.maxDim) :
    ∃ net, a.build conv = .ok net ∧ net.forward level data =
        net.readoutPart (List.replicate (levelsOf a.maxDim data)
          (lin1Input a.jumpMode a.numLayers a.hidden)) ∧
      net.maxDim = a.maxDim ∧ net.dims = a.dims ∧ net.act = .pointwise ∧
      net.lin1s = List.replicate (net.maxDim + 1)
        (.linear (lin1Input a.jumpMode a.numLayers a.hidden) (a.multiplier * a.hidden)) ∧
      net.finalReadout = a.finalReadout ∧ net.lin2 = .linear (a.multiplier * a.hidden) a.numClasses := by
  obtain ⟨norm, j, hn, hj, hb⟩ := sparseBuild_ok ha conv
  refine ⟨_, hb, ?_, rfl, rfl, rfl, rfl, rfl, rfl⟩
  obtain ⟨j', hj', hfin⟩ := finalWidths_jump (start := none) (n := levelsOf a.maxDim data)
    (h := a.hidden) hk ha.jump
  cases (hj.symm.trans hj' : Except.ok j = Except.ok j')
  have hrun := run_fits hc hn hd.1 hu a.numLayers a.numInput
  rw [columns_stamp hd] at hrun
  simp only [SparseNetWidths.forward]
  rw [hrun, ok_bind, hfin, ok_bind]

/-- The common part of the theorems on `SparseCIN` and `CINpp`. -/
theorem sparse_net_ok {Lv : Type} {level : Lv → ParamShape → Py Nat} {a : SparseArgs} (ha : a.Named)
    (hr : a.ReadsOut) (hk : a.numLayers ≠ 0) {conv : Nat → (Nat → Mod) → Mod → List Lv}
    (hc : ConvFits level conv a.maxDim a.hidden a.useCoboundaries)
    {data : List LevelShape} (hd : Columns data a.maxDim a.numInput)
    (hu : a.useCoboundaries = true → UpTo data a.maxDim) :
    ∃ net, a.build conv = .ok net ∧ net.forward level data = .ok a.numClasses := by
  obtain ⟨net, hb, hf, h1, h2, h3, h4, h5, h6⟩ := sparse_net_run ha.toBuildable hk hc hd hu
  refine ⟨net, hb, ?_⟩
  rw [hf]
  refine readoutWidths_ok (levelsOf_ne_zero _ _) (h1 ▸ levelsOf_le_maxDim _ _) (h2 ▸ readsOut_dims hr)
    (fun d hd => ?_) h3 h4 (h5 ▸ ha.final) h6
  rw [h2] at hd
  rw [h1]
  exact dims_le hd

/-- Nothing is read out. -/
theorem readout_nothing {Lv : Type} {net : SparseNetWidths Lv} {n i : Nat} (h0 : n ≠ 0)
    (hn : n ≤ net.maxDim + 1) (hdims : net.dims = []) :
    net.readoutPart (List.replicate n i) = .error .runtime := by
  rw [SparseNetWidths.readoutPart, poolWidths_replicate h0 hn, ok_bind, hdims]
  rfl

/-- The final readout has an unknown name. -/
theorem readout_unnamed {Lv : Type} {net : SparseNetWidths Lv} {n i m : Nat} (h0 : n ≠ 0)
    (hn : n ≤ net.maxDim + 1) (hdims : net.dims ≠ []) (hle : ∀ d ∈ net.dims, d ≤ net.maxDim)
    (hact : net.act = .pointwise) (h1 : net.lin1s = List.replicate (net.maxDim + 1) (.linear i m))
    (hf : ¬ okReadout net.finalReadout) :
    net.readoutPart (List.replicate n i) = .error .notImplemented := by
  rw [SparseNetWidths.readoutPart, poolWidths_replicate h0 hn, ok_bind,
    mapE_map_ok (b := i) (fun d hd => listGet_replicate (by have := hle d hd; omega)), ok_bind,
    mapE_map_ok (b := m) (by
      rintro ⟨w, d⟩ hwd
      have hw := List.eq_of_mem_replicate (List.of_mem_zip hwd).1
      have hd := hle d (List.of_mem_zip hwd).2
      simp only at hw ⊢
      subst hw
      rw [h1, listGet_replicate (by omega), ok_bind, hact]
      simp [seqOut, Mod.out, ok_bind]), ok_bind]
  have hlen : (((List.replicate net.dims.length i).zip net.dims).length) ≠ 0 := by
    simpa using hdims
  obtain ⟨k, hk⟩ := Nat.exists_eq_succ_of_ne_zero hlen
  simp only [okReadout, List.mem_cons, List.not_mem_nil, or_false, not_or] at hf
  rw [hk, List.replicate_succ, stackWidths]
  simp [hf.1, hf.2]

end Verif
