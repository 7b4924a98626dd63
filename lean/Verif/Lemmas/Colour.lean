import Verif.Spec.Colour
import Verif.Lemmas.Predict

/-!
# Rows are determined by colours
-/

namespace Verif

variable {R L A B C : Type}

/-! ### Pairing off -/

theorem Matched.mono {rel rel' : A → B → Prop} {l : List A} {m : List B} (h : Matched rel l m)
    (himp : ∀ a ∈ l, ∀ b ∈ m, rel a b → rel' a b) : Matched rel' l m := by
  obtain ⟨m', hp, hf⟩ := h
  refine ⟨m', hp, ?_⟩
  have : ∀ b ∈ m', b ∈ m := fun b hb => hp.mem_iff.mp hb
  clear hp
  induction hf with
  | nil => exact .nil
  | @cons a b l m' hab _ ih =>
    exact .cons (himp a (by simp) b (this b (by simp)) hab)
      (ih (fun a ha => himp a (by simp [ha])) fun b hb => this b (by simp [hb]))

theorem Matched.nil (rel : A → B → Prop) : Matched rel [] [] := ⟨[], .refl _, .nil⟩

theorem Matched.map_perm {rel : A → B → Prop} {l : List A} {m : List B} (h : Matched rel l m)
    {f : A → C} {g : B → C} (hfg : ∀ a ∈ l, ∀ b ∈ m, rel a b → f a = g b) :
    (l.map f).Perm (m.map g) := by
  obtain ⟨m', hp, hf⟩ := h
  have hm : ∀ b ∈ m', b ∈ m := fun b hb => hp.mem_iff.mp hb
  refine List.Perm.trans ?_ (hp.map g)
  apply List.Perm.of_eq
  clear hp
  induction hf with
  | nil => rfl
  | @cons a b l m' hab _ ih =>
    rw [List.map_cons, List.map_cons, hfg a (by simp) b (hm b (by simp)) hab,
      ih (fun a ha => hfg a (by simp [ha])) fun b hb => hm b (by simp [hb])]

theorem matched_length {rel : A → B → Prop} {l : List A} {m : List B} (h : Matched rel l m) :
    l.length = m.length := by
  obtain ⟨m', hp, hf⟩ := h
  rw [← hp.length_eq, hf.length_eq]

/-- Conversely, lists whose images agree as multisets can be paired off. -/
theorem matched_of_map_perm {l : List A} {m : List B} {f : A → C} {g : B → C}
    (h : (l.map f).Perm (m.map g)) : Matched (fun a b => f a = g b) l m := by
  induction l generalizing m with
  | nil =>
    have : m = [] := by simpa using h.length_eq.symm
    rw [this]
    exact .nil _
  | cons a l ih =>
    have hmem : f a ∈ m.map g := h.mem_iff.mp (by simp)
    obtain ⟨b, hb, e⟩ := List.mem_map.mp hmem
    obtain ⟨m1, m2, rfl⟩ := List.append_of_mem hb
    have hp : (m1 ++ b :: m2).Perm (b :: (m1 ++ m2)) := List.perm_middle
    have h2 : (l.map f).Perm ((m1 ++ m2).map g) := by
      have := h.trans (hp.map g)
      rw [List.map_cons, List.map_cons, e] at this
      exact List.Perm.cons_inv this
    obtain ⟨m', hp', hf'⟩ := ih h2
    exact ⟨b :: m', (hp'.cons b).trans hp.symm, .cons e.symm hf'⟩

/-! ### One layer is one round -/

theorem SameColour.zero {lower : Bool} {v w : View R} {n d c e : Nat} (h : SameColour lower v w n d c e) :
    ∃ x, (v.X d)[c]? = some x ∧ (w.X d)[e]? = some x := by
  induction n generalizing d c e with
  | zero => exact h
  | succ n ih => exact ih h.1

theorem SameColour.lt {lower : Bool} {v w : View R} {n d c e : Nat} (h : SameColour lower v w n d c e) :
    c < (v.X d).length ∧ e < (w.X d).length := by
  obtain ⟨x, h1, h2⟩ := h.zero
  exact ⟨(List.getElem?_eq_some_iff.mp h1).1, (List.getElem?_eq_some_iff.mp h2).1⟩

theorem SameColour.le {lower : Bool} {v w : View R} {n k d c e : Nat} (h : SameColour lower v w n d c e)
    (hk : k ≤ n) : SameColour lower v w k d c e := by
  induction n with
  | zero => rw [Nat.le_zero.mp hk]; exact h
  | succ n ih =>
    by_cases hkn : k = n + 1
    · rw [hkn]; exact h
    · exact ih h.1 (by omega)

section
variable [AddCommMonoid R]

theorem SameColour.row {lower : Bool} {v w : View R} {n d c e : Nat} (h : SameColour lower v w n d c e) :
    rowOf (v.X d) c = rowOf (w.X d) e := by
  obtain ⟨x, h1, h2⟩ := h.zero
  unfold rowOf
  rw [h1, h2]

theorem SameColour.rowBelow {lower : Bool} {v w : View R} {n d c e : Nat}
    (h : SameColour lower v w n (d - 1) c e) : rowOf (v.below d) c = rowOf (w.below d) e := by
  cases d with
  | zero => simp [View.below, rowOf]
  | succ d => exact h.row

/-- The rule does not look at lower messages. -/
def Rule.NoLower (r : Rule R) : Prop := ∀ x u s t b, r.new x u s b = r.new x u t b

theorem SameColour.newRow {lower : Bool} {v w : View R} {n d c e : Nat} {r : Rule R} {shared : Bool}
    (hr : lower = true ∨ r.NoLower) (h : SameColour lower v w (n + 1) d c e) :
    v.newRow r shared d c = w.newRow r shared d e := by
  obtain ⟨h0, hu, hd, hb⟩ := h
  have eu : v.upSum r shared d c = w.upSum r shared d e := by
    refine (hu.map_perm fun p _ q _ hpq => ?_).sum_eq
    rw [hpq.1.row, hpq.2.row]
  have eb : v.bndSum r d c = w.bndSum r d e := by
    refine (hb.map_perm fun p _ q _ hpq => ?_).sum_eq
    rw [hpq.rowBelow]
  unfold View.newRow
  rw [h0.row, eu, eb]
  rcases hr with hr | hr
  · have ed : v.downSum r d c = w.downSum r d e := by
      refine ((hd hr).map_perm fun p _ q _ hpq => ?_).sum_eq
      rw [hpq.1.row, hpq.2.rowBelow]
    rw [ed]
  · exact hr _ _ _ _ _

/-- Cells with the same colour after one more round have the same colour in the updated views. -/
theorem SameColour.layer {lower : Bool} {v w : View R} {rules : Nat → Rule R}
    (hr : lower = true ∨ ∀ d, (rules d).NoLower) (m : Nat) (top : Bool) {n d c e : Nat}
    (h : SameColour lower v w (n + 1) d c e) :
    SameColour lower (v.layer rules m top) (w.layer rules m top) n d c e := by
  induction n generalizing d c e with
  | zero =>
    have hrow := h.newRow (shared := decide (d < m) || top) (r := rules d) (hr.imp_right fun h => h d)
    obtain ⟨hc, he⟩ := h.lt
    by_cases hd : d ≤ m
    · refine ⟨v.newRow (rules d) (decide (d < m) || top) d c, ?_, ?_⟩
      · simp only [View.layer, if_pos hd]
        rw [List.getElem?_map, List.getElem?_range hc]
        rfl
      · simp only [View.layer, if_pos hd]
        rw [List.getElem?_map, List.getElem?_range he, hrow]
        rfl
    · simp only [SameColour, View.layer, if_neg hd]
      exact h.zero
  | succ n ih =>
    obtain ⟨h0, hu, hdn, hb⟩ := h
    refine ⟨ih h0, ?_, fun hl => ?_, ?_⟩
    · exact hu.mono fun p _ q _ hpq => ⟨ih hpq.1, ih hpq.2⟩
    · exact (hdn hl).mono fun p _ q _ hpq => ⟨ih hpq.1, ih hpq.2⟩
    · exact hb.mono fun p _ q _ hpq => ih hpq

/-- Rows after each of the layers. -/
theorem SameColour.run {lower : Bool} {v w : View R} {layers : List (Nat → Rule R)}
    (hr : lower = true ∨ ∀ rules ∈ layers, ∀ d, (rules d).NoLower) (m : Nat) (top : Bool) {n d c e : Nat}
    (hn : layers.length ≤ n) (h : SameColour lower v w n d c e) :
    (v.run m top layers).map (fun u => rowOf (u.X d) c) =
      (w.run m top layers).map (fun u => rowOf (u.X d) e) := by
  induction layers generalizing v w n with
  | nil => rfl
  | cons rules layers ih =>
    simp only [List.length_cons] at hn
    obtain ⟨n, rfl⟩ : ∃ k, n = k + 1 := ⟨n - 1, by omega⟩
    have hl := h.layer (rules := rules) (hr.imp_right fun h => h rules (by simp)) m top
    simp only [View.run, List.map_cons]
    rw [hl.row, ih (hr.imp_right fun h r hr' => h r (by simp [hr'])) (by omega) hl]

theorem finalRow_of_rows {jump : Option (List R → R)} {vs ws : List (View R)} {d c e : Nat}
    (h : vs.map (fun u => rowOf (u.X d) c) = ws.map fun u => rowOf (u.X d) e) :
    finalRow jump vs d c = finalRow jump ws d e := by
  unfold finalRow
  cases jump with
  | none =>
    have := congrArg List.getLast? h
    rw [List.getLast?_map, List.getLast?_map] at this
    simp only [this]
  | some f => simp only [h]

theorem SameColours.final {lower : Bool} {v w : View R} {layers : List (Nat → Rule R)}
    (hr : lower = true ∨ ∀ rules ∈ layers, ∀ d, (rules d).NoLower) (m : Nat) (top : Bool) {n : Nat}
    (hn : layers.length ≤ n) (h : SameColours lower v w n) (jump : Option (List R → R)) (d : Nat) :
    (v.final jump (v.run m top layers) d).Perm (w.final jump (w.run m top layers) d) :=
  (h d).map_perm fun _ _ _ _ hce => finalRow_of_rows (hce.run hr m top hn)

end

/-! ### Cutting off -/

theorem SameColour.upTo {lower : Bool} {v w : View R} {n d c e : Nat} (h : SameColour lower v w n d c e)
    {m : Nat} (hd : d ≤ m) : SameColour lower (v.upTo m) (w.upTo m) n d c e := by
  induction n generalizing d c e with
  | zero => simpa only [SameColour, View.upTo, if_pos hd] using h
  | succ n ih =>
    obtain ⟨h0, hu, hdn, hb⟩ := h
    refine ⟨ih h0 hd, ?_, fun hl => ?_, ?_⟩
    · simp only [View.upTo]
      split
      · next hd' => exact hu.mono fun p _ q _ hpq => ⟨ih hpq.1 hd, ih hpq.2 hd'⟩
      · exact .nil _
    · simp only [View.upTo, if_pos hd]
      exact (hdn hl).mono fun p _ q _ hpq => ⟨ih hpq.1 hd, ih hpq.2 (by omega)⟩
    · simp only [View.upTo, if_pos hd]
      exact hb.mono fun p _ q _ hpq => ih hpq (by omega)

theorem SameColours.upTo {lower : Bool} {v w : View R} {n : Nat} (h : SameColours lower v w n) (m : Nat) :
    SameColours lower (v.upTo m) (w.upTo m) n := by
  intro d
  by_cases hd : d ≤ m
  · have := (h d).mono (rel' := SameColour lower (v.upTo m) (w.upTo m) n d) fun c _ e _ hce => hce.upTo hd
    simpa only [View.upTo, if_pos hd] using this
  · simp only [View.upTo, if_neg hd]
    exact .nil _

/-! ### Networks -/

section
variable {𝕜 : Type} [Field 𝕜] [AddCommGroup R] [Module 𝕜 R]

theorem rulesOf_noLower {Lv : Type} {rule : Lv → Rule R} (h : ∀ l, (rule l).NoLower) (levels : List Lv)
    (d : Nat) : (rulesOf rule levels d).NoLower := by
  unfold rulesOf
  split
  · exact h _
  · intro _ _ _ _ _; rfl

theorem sparse_noLower (l : SparseLevel 𝕜 R) : l.rule.NoLower := fun _ _ _ _ _ => rfl

theorem pp_noLower (l : PPLevel 𝕜 R) : l.rule.NoLower := fun _ _ _ _ _ => rfl

theorem SparseNet.predict_colours {Lv : Type} {rule : Lv → Rule R} (net : SparseNet R Lv) {lower : Bool}
    (hr : lower = true ∨ ∀ l, (rule l).NoLower) {v w : View R} {n : Nat} (hn : net.convs.length ≤ n)
    (h : SameColours lower v w n) : net.predict 𝕜 rule v = net.predict 𝕜 rule w := by
  unfold SparseNet.predict
  congr 2
  apply List.map_congr_left
  intro d _
  rw [poolOf_perm _ (h.final (layers := net.convs.map (rulesOf rule)) ?_ net.maxDim true
    (by simpa using hn) net.jump d)]
  refine hr.imp_right fun h rules hrules d => ?_
  obtain ⟨levels, -, rfl⟩ := List.mem_map.mp hrules
  exact rulesOf_noLower h levels d

theorem CINNet.predict_colours {Lv : Type} {rule : Lv → Rule R} (net : CINNet R Lv) {v w : View R} {n : Nat}
    (hn : net.convs.length ≤ n) (h : SameColours true v w n) :
    net.predict 𝕜 rule v = net.predict 𝕜 rule w := by
  unfold CINNet.predict
  congr 4
  apply List.map_congr_left
  intro d _
  exact poolOf_perm _ (h.final (layers := net.convs.map (rulesOf rule)) (.inl rfl) net.maxDim true
    (by simpa using hn) net.jump d)

end

end Verif
