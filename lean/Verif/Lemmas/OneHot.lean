import Verif.Lemmas.Colour
import Mathlib.Data.Finsupp.SMul
import Mathlib.Data.Finsupp.Encodable
import Mathlib.Data.Rat.Encodable
import Mathlib.Algebra.Field.Rat
import Mathlib.Algebra.Module.Rat
import Mathlib.Data.List.Count
import Mathlib.Tactic.Linarith

/-!
# Rows that determine colours

A SparseCIN network whose messages and updates lose nothing: features are one-hot vectors over the
natural numbers, messages and updates are encoded into one-hot vectors.
-/

namespace Verif

/-- Vectors with countably many coordinates. -/
abbrev Vec := ℕ →₀ ℚ

/-- One-hot vectors. -/
def IsHot (x : Vec) : Prop := ∃ k, x = Finsupp.single k 1

theorem hot_list {l : List Vec} (h : ∀ x ∈ l, IsHot x) :
    ∃ ks : List ℕ, l = ks.map fun k => Finsupp.single k 1 := by
  induction l with
  | nil => exact ⟨[], rfl⟩
  | cons x l ih =>
    obtain ⟨k, rfl⟩ := h x (by simp)
    obtain ⟨ks, rfl⟩ := ih fun y hy => h y (by simp [hy])
    exact ⟨k :: ks, rfl⟩

theorem hot_sum (ks : List ℕ) (k : ℕ) :
    ((ks.map fun k => (Finsupp.single k 1 : Vec)).sum) k = (ks.count k : ℚ) := by
  induction ks with
  | nil => simp
  | cons a ks ih =>
    rw [List.map_cons, List.sum_cons, Finsupp.add_apply, ih, List.count_cons, Finsupp.single_apply]
    by_cases h : a = k
    · subst h; simp [add_comm]
    · simp [h]

/-- One-hot vectors with the same sum are the same, up to order. -/
theorem hot_perm {l m : List Vec} (hl : ∀ x ∈ l, IsHot x) (hm : ∀ x ∈ m, IsHot x) (h : l.sum = m.sum) :
    l.Perm m := by
  obtain ⟨ks, rfl⟩ := hot_list hl
  obtain ⟨js, rfl⟩ := hot_list hm
  apply List.Perm.map
  rw [List.perm_iff_count]
  intro k
  have := congrArg (fun f : Vec => f k) h
  simp only [hot_sum] at this
  exact_mod_cast this

/-- A sum of one-hot vectors plus half a one-hot vector determines both. -/
theorem hot_half {l m : List Vec} (hl : ∀ x ∈ l, IsHot x) (hm : ∀ x ∈ m, IsHot x) {x y : Vec}
    (hx : IsHot x) (hy : IsHot y) (h : l.sum + (1 / 2 : ℚ) • x = m.sum + (1 / 2 : ℚ) • y) :
    x = y ∧ l.Perm m := by
  obtain ⟨ks, rfl⟩ := hot_list hl
  obtain ⟨js, rfl⟩ := hot_list hm
  obtain ⟨a, rfl⟩ := hx
  obtain ⟨b, rfl⟩ := hy
  have hab : a = b := by
    by_contra hab
    have := congrArg (fun f : Vec => f a) h
    simp only [Finsupp.add_apply, hot_sum, Finsupp.smul_apply, Finsupp.single_eq_same,
      Finsupp.single_apply, if_neg (Ne.symm hab)] at this
    have h2 : ((2 * ks.count a + 1 : ℕ) : ℚ) = ((2 * js.count a : ℕ) : ℚ) := by
      push_cast
      simp only [smul_eq_mul] at this
      linarith
    have h3 : 2 * ks.count a + 1 = 2 * js.count a := by exact_mod_cast h2
    omega
  subst hab
  exact ⟨rfl, hot_perm hl hm (add_right_cancel h)⟩

/-- A number for every value. -/
noncomputable def code {A : Type} [Countable A] : A → ℕ := Classical.choose (exists_injective_nat A)

theorem code_inj {A : Type} [Countable A] {a b : A} (h : code a = code b) : a = b :=
  Classical.choose_spec (exists_injective_nat A) h

/-- A one-hot vector for every value. -/
noncomputable def hot {A : Type} [Countable A] (a : A) : Vec := Finsupp.single (code a) 1

theorem hot_isHot {A : Type} [Countable A] (a : A) : IsHot (hot a) := ⟨_, rfl⟩

theorem hot_inj {A : Type} [Countable A] {a b : A} (h : hot a = hot b) : a = b := by
  apply code_inj
  have := (Finsupp.single_left_inj (b := (1 : ℚ)) one_ne_zero).mp h
  exact this

/-- Messages and updates that lose nothing. -/
noncomputable def hotLevel : SparseLevel ℚ Vec where
  msgUp := .withAttr fun x a => hot (x, a)
  msgBoundary := fun x => hot x
  updateUp := id
  updateBoundary := id
  combine := fun a b => hot (a, b)
  eps1 := -1 / 2
  eps2 := -1 / 2

/-- A network of `n` such layers up to dimension `m`. -/
noncomputable def hotNet (n m : Nat) : SparseNet Vec (SparseLevel ℚ Vec) where
  convs := List.replicate n (List.replicate (m + 1) hotLevel)
  maxDim := m
  readoutDims := none
  act := id
  lin1s := (List.range (m + 1)).map fun d h => hot (d, h)
  lin2 := id

/-! ### Rows determine colours -/

/-- All rows are one-hot vectors. -/
def View.Hot (v : View Vec) : Prop := ∀ d, ∀ x ∈ v.X d, IsHot x

theorem View.Hot.row {v : View Vec} (h : v.Hot) {d c : Nat} (hc : c < (v.X d).length) :
    IsHot (rowOf (v.X d) c) := by
  unfold rowOf
  rw [List.getElem?_eq_getElem hc]
  exact h d _ (List.getElem_mem hc)

theorem rowOf_some {R : Type} [AddCommMonoid R] {l : List R} {c : Nat} (hc : c < l.length) :
    l[c]? = some (rowOf l c) := by
  unfold rowOf
  rw [List.getElem?_eq_getElem hc]
  rfl

theorem hotLevel_row (v : View Vec) (d c : Nat) : v.newRow hotLevel.rule true d c =
    hot ((((v.up d).filter fun p => p.1.2 == c).map fun p =>
        hot (rowOf (v.X d) p.1.1, rowOf (v.X (d + 1)) p.2)).sum + (1 / 2 : ℚ) • rowOf (v.X d) c,
      (((v.bnd d).filter fun p => p.2 == c).map fun p => hot (rowOf (v.below d) p.1)).sum +
        (1 / 2 : ℚ) • rowOf (v.X d) c) := by
  have half : (1 / 2 : ℚ) = 1 + (-1 / 2) := by norm_num
  rw [half]
  rfl

theorem hotLevel_newRow {v w : View Vec} (hv : v.Hot) (hw : w.Hot) {d c e : Nat}
    (hc : c < (v.X d).length) (he : e < (w.X d).length)
    (h : v.newRow hotLevel.rule true d c = w.newRow hotLevel.rule true d e) :
    rowOf (v.X d) c = rowOf (w.X d) e ∧
    Matched (fun p q => rowOf (v.X d) p.1.1 = rowOf (w.X d) q.1.1 ∧
        rowOf (v.X (d + 1)) p.2 = rowOf (w.X (d + 1)) q.2)
      ((v.up d).filter fun p => p.1.2 == c) ((w.up d).filter fun q => q.1.2 == e) ∧
    Matched (fun p q => rowOf (v.below d) p.1 = rowOf (w.below d) q.1)
      ((v.bnd d).filter fun p => p.2 == c) ((w.bnd d).filter fun q => q.2 == e) := by
  rw [hotLevel_row, hotLevel_row] at h
  have h' := hot_inj h
  rw [Prod.mk.injEq] at h'
  obtain ⟨hu, hb⟩ := h'
  obtain ⟨hx, hu⟩ := hot_half
    (by simp only [List.mem_map]; rintro x ⟨p, -, rfl⟩; exact hot_isHot _)
    (by simp only [List.mem_map]; rintro x ⟨p, -, rfl⟩; exact hot_isHot _)
    (hv.row hc) (hw.row he) hu
  obtain ⟨-, hb⟩ := hot_half
    (by simp only [List.mem_map]; rintro x ⟨p, -, rfl⟩; exact hot_isHot _)
    (by simp only [List.mem_map]; rintro x ⟨p, -, rfl⟩; exact hot_isHot _)
    (hv.row hc) (hw.row he) hb
  refine ⟨hx, (matched_of_map_perm hu).mono fun p _ q _ hpq => ?_,
    (matched_of_map_perm hb).mono fun p _ q _ hpq => hot_inj hpq⟩
  have := hot_inj hpq
  exact ⟨congrArg Prod.fst this, congrArg Prod.snd this⟩

/-- What is needed of the views. -/
structure View.Plain (v : View Vec) (m : Nat) : Prop where
  hot : v.Hot
  inRange : v.InRange
  small : ∀ d, m < d → v.X d = []

theorem rulesOf_hot {m d : Nat} (hd : d ≤ m) :
    rulesOf (SparseLevel.rule (𝕜 := ℚ)) (List.replicate (m + 1) hotLevel) d = hotLevel.rule := by
  unfold rulesOf
  rw [List.getElem?_replicate, if_pos (by omega)]

theorem View.Plain.layer {v : View Vec} {m : Nat} (h : v.Plain m) :
    (v.layer (rulesOf (SparseLevel.rule (𝕜 := ℚ)) (List.replicate (m + 1) hotLevel)) m true).Plain m := by
  refine ⟨?_, layer_inRange h.inRange _ _ _, ?_⟩
  · intro d x hx
    by_cases hd : d ≤ m
    · simp only [View.layer, if_pos hd, rulesOf_hot hd, List.mem_map] at hx
      obtain ⟨c, -, rfl⟩ := hx
      exact hot_isHot _
    · simp only [View.layer, if_neg hd] at hx
      exact h.hot d x hx
  · intro d hd
    rw [List.eq_nil_iff_length_eq_zero, layer_X_length, h.small d hd]
    rfl

theorem hot_layer {v w : View Vec} {m : Nat} (hv : v.Plain m) (hw : w.Plain m) {n d c e : Nat}
    (h : SameColour false
      (v.layer (rulesOf (SparseLevel.rule (𝕜 := ℚ)) (List.replicate (m + 1) hotLevel)) m true)
      (w.layer (rulesOf (SparseLevel.rule (𝕜 := ℚ)) (List.replicate (m + 1) hotLevel)) m true) n d c e) :
    SameColour false v w (n + 1) d c e := by
  induction n generalizing d c e with
  | zero =>
    have hlt := h.lt
    rw [layer_X_length, layer_X_length] at hlt
    obtain ⟨hc, he⟩ := hlt
    have hd : d ≤ m := by
      by_contra hd
      rw [hv.small d (by omega)] at hc
      simp at hc
    have hrow : v.newRow hotLevel.rule true d c = w.newRow hotLevel.rule true d e := by
      obtain ⟨x, h1, h2⟩ := h
      simp only [View.layer, if_pos hd, rulesOf_hot hd, Bool.or_true, List.getElem?_map,
        List.getElem?_range hc, List.getElem?_range he, Option.map_some, Option.some.injEq] at h1 h2
      rw [h1, h2]
    obtain ⟨hx, hu, hb⟩ := hotLevel_newRow hv.hot hw.hot hc he hrow
    refine ⟨⟨_, rowOf_some hc, by rw [hx]; exact rowOf_some he⟩, ?_, by simp, ?_⟩
    · refine hu.mono fun p hp q hq hpq => ?_
      have h1 := hv.inRange.up d p (List.mem_of_mem_filter hp)
      have h2 := hw.inRange.up d q (List.mem_of_mem_filter hq)
      exact ⟨⟨_, rowOf_some h1.1, by rw [hpq.1]; exact rowOf_some h2.1⟩,
        ⟨_, rowOf_some h1.2.2, by rw [hpq.2]; exact rowOf_some h2.2.2⟩⟩
    · refine hb.mono fun p hp q hq hpq => ?_
      have h1 := (hv.inRange.bnd d p (List.mem_of_mem_filter hp)).1
      have h2 := (hw.inRange.bnd d q (List.mem_of_mem_filter hq)).1
      cases d with
      | zero => simp [View.below] at h1
      | succ d => exact ⟨_, rowOf_some h1, by rw [show rowOf (v.X (d + 1 - 1)) p.1 = _ from hpq]; exact rowOf_some h2⟩
  | succ n ih =>
    obtain ⟨h0, hu, -, hb⟩ := h
    refine ⟨ih h0, ?_, by simp, ?_⟩
    · exact hu.mono fun p _ q _ hpq => ⟨ih hpq.1, ih hpq.2⟩
    · exact hb.mono fun p _ q _ hpq => ih hpq

/-- Equal rows after `n` layers: the same colour after `n` rounds. -/
theorem hot_run {v w : View Vec} {m : Nat} (hv : v.Plain m) (hw : w.Plain m) {n d c e : Nat}
    (hc : c < (v.X d).length) (he : e < (w.X d).length) (hn : n ≠ 0)
    (h : finalRow none (v.run m true (List.replicate n
        (rulesOf (SparseLevel.rule (𝕜 := ℚ)) (List.replicate (m + 1) hotLevel)))) d c =
      finalRow none (w.run m true (List.replicate n
        (rulesOf (SparseLevel.rule (𝕜 := ℚ)) (List.replicate (m + 1) hotLevel)))) d e) :
    SameColour false v w n d c e := by
  induction n generalizing v w with
  | zero => exact absurd rfl hn
  | succ n ih =>
    apply hot_layer hv hw
    cases n with
    | zero =>
      refine ⟨_, rowOf_some (by rw [layer_X_length]; exact hc), ?_⟩
      have h : rowOf ((v.layer _ m true).X d) c = rowOf ((w.layer _ m true).X d) e := h
      rw [h]
      exact rowOf_some (by rw [layer_X_length]; exact he)
    | succ n =>
      apply ih hv.layer hw.layer (by rw [layer_X_length]; exact hc) (by rw [layer_X_length]; exact he)
        (by omega)
      simpa only [finalRow, List.replicate_succ, View.run, List.getLast?_cons_cons] using h

theorem hot_dims {m : Nat} {f g : Nat → Vec}
    (h : ((List.range (m + 1)).map fun d => hot (d, f d)).sum =
      ((List.range (m + 1)).map fun d => hot (d, g d)).sum) {d : Nat} (hd : d ≤ m) : f d = g d := by
  have hp := hot_perm (by simp only [List.mem_map]; rintro x ⟨p, -, rfl⟩; exact hot_isHot _)
    (by simp only [List.mem_map]; rintro x ⟨p, -, rfl⟩; exact hot_isHot _) h
  have hmem : hot (d, f d) ∈ (List.range (m + 1)).map fun d => hot (d, g d) :=
    hp.mem_iff.mp (List.mem_map.mpr ⟨d, by simpa using (by omega), rfl⟩)
  obtain ⟨e, -, he⟩ := List.mem_map.mp hmem
  have := hot_inj he
  have h1 : e = d := congrArg Prod.fst this
  have h2 : g e = f d := congrArg Prod.snd this
  rw [← h2, h1]

theorem hotNet_final {v : View Vec} {n m : Nat} (hv : v.Plain m) (hn : n ≠ 0) {d : Nat} :
    ∀ x ∈ v.final none (v.run m true (List.replicate n
        (rulesOf (SparseLevel.rule (𝕜 := ℚ)) (List.replicate (m + 1) hotLevel)))) d, IsHot x := by
  intro x hx
  obtain ⟨c, hc, rfl⟩ := List.mem_map.mp hx
  rw [List.mem_range] at hc
  clear hx
  induction n generalizing v with
  | zero => exact absurd rfl hn
  | succ n ih =>
    cases n with
    | zero => exact hv.layer.hot.row (by rw [layer_X_length]; exact hc)
    | succ n =>
      have := ih hv.layer (by omega) (by rw [layer_X_length]; exact hc)
      simpa only [finalRow, List.replicate_succ, View.run, List.getLast?_cons_cons] using this

theorem hotNet_predict {v w : View Vec} {n m : Nat} (hv : v.Plain m) (hw : w.Plain m) (hn : n ≠ 0)
    (h : (hotNet n m).predict ℚ SparseLevel.rule v = (hotNet n m).predict ℚ SparseLevel.rule w) :
    SameColours false v w n := by
  intro d
  by_cases hd : d ≤ m
  · have key : ∀ v : View Vec, (hotNet n m).predict ℚ SparseLevel.rule v =
        ((List.range (m + 1)).map fun d => hot (d, (v.final none (v.run m true (List.replicate n
          (rulesOf (SparseLevel.rule (𝕜 := ℚ)) (List.replicate (m + 1) hotLevel)))) d).sum)).sum := by
      intro v
      unfold SparseNet.predict
      have hdims : (hotNet n m).dims = List.range (m + 1) := rfl
      rw [hdims]
      simp only [hotNet, id, poolOf, List.map_replicate]
      rw [if_neg (by decide)]
      congr 1
      apply List.map_congr_left
      intro d hd
      rw [List.getElem?_map, List.getElem?_range (by simpa using hd)]
      rfl
    rw [key, key] at h
    have hs := hot_dims h hd
    have hp := hot_perm (hotNet_final hv hn) (hotNet_final hw hn) hs
    refine (matched_of_map_perm hp).mono fun c hc e he hce => ?_
    exact hot_run hv hw (by simpa using hc) (by simpa using he) hn hce
  · rw [hv.small d (by omega), hw.small d (by omega)]
    exact .nil _

end Verif
