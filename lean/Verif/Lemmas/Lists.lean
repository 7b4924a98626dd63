import Verif.Model.Lifting
import Mathlib.Data.List.Nodup
import Mathlib.Data.List.Sublists

/-!
# Lemmas on dictionaries, tabulated lists, combinations and pairs
-/

namespace Verif

variable {A B K V S : Type}

/-! ### Dictionaries -/

/-- The first place of a member of a list. -/
def placeOf [DecidableEq K] (l : List K) (k : K) : Nat := l.idxOf k

section Dict
variable [DecidableEq K]

@[simp] theorem Dict.get?_nil (k : K) : Dict.get? ([] : Dict K V) k = none := rfl

theorem Dict.get?_cons (p : K × V) (d : Dict K V) (k : K) :
    Dict.get? (p :: d : List (K × V)) k = if p.1 = k then some p.2 else Dict.get? d k := by
  obtain ⟨a, b⟩ := p
  rfl

theorem Dict.get?_set (d : Dict K V) (k k' : K) (v : V) :
    Dict.get? (Dict.set d k v) k' = if k = k' then some v else Dict.get? d k' := by
  induction d with
  | nil => simp [Dict.set, Dict.get?]
  | cons p d ih =>
    obtain ⟨a, b⟩ := p
    unfold Dict.set
    by_cases h : a = k
    · subst h
      simp only [if_true, Dict.get?_cons]
      split <;> rfl
    · simp only [h, if_false, Dict.get?_cons, ih]
      by_cases h1 : a = k'
      · subst h1
        rw [if_pos rfl, if_neg (fun e => h e.symm), if_pos rfl]
      · simp only [h1, if_false]

theorem Dict.get?_push (d : Dict K (List V)) (k k' : K) (v : V) :
    Dict.get? (Dict.push d k v) k' =
      if k = k' then some ((Dict.get? d k).getD [] ++ [v]) else Dict.get? d k' := by
  unfold Dict.push
  rw [Dict.get?_set]

theorem Dict.set_of_absent {d : Dict K V} {k : K} {v : V} (h : ∀ p ∈ d, p.1 ≠ k) :
    Dict.set d k v = d ++ [(k, v)] := by
  induction d with
  | nil => rfl
  | cons p d ih =>
    obtain ⟨a, b⟩ := p
    unfold Dict.set
    have : a ≠ k := h (a, b) (by simp)
    rw [if_neg this, ih (fun p hp => h p (by simp [hp]))]
    rfl

theorem Dict.get_eq_ok {d : Dict K V} {k : K} {v : V} : Dict.get d k = .ok v ↔ Dict.get? d k = some v := by
  unfold Dict.get
  cases Dict.get? d k <;> simp

theorem Dict.get?_zipIdx (l : List K) (n : Nat) (k : K) :
    Dict.get? (l.zipIdx n) k = if k ∈ l then some (l.idxOf k + n) else none := by
  induction l generalizing n with
  | nil => simp
  | cons a l ih =>
    rw [List.zipIdx_cons, Dict.get?_cons, ih]
    by_cases h : a = k
    · subst h
      simp [List.idxOf_cons_self]
    · simp only [h, if_false, List.mem_cons]
      rw [List.idxOf_cons_ne _ h]
      by_cases h1 : k ∈ l
      · simp only [h1, or_true, if_true]
        congr 1
        omega
      · simp only [h1, or_false, if_false, fun e : k = a => h e.symm]
        rw [if_neg (fun e => h e.symm)]

theorem Dict.get_zipIdx {l : List K} {k : K} (h : k ∈ l) : Dict.get l.zipIdx k = .ok (placeOf l k) := by
  unfold placeOf
  rw [Dict.get_eq_ok, Dict.get?_zipIdx, if_pos h, Nat.add_zero]

theorem Dict.set_zipIdx {l : List K} {k : K} (h : k ∉ l) :
    Dict.set l.zipIdx k l.length = (l ++ [k]).zipIdx := by
  rw [Dict.set_of_absent]
  · rw [List.zipIdx_append]
    simp
  · intro p hp e
    have := List.mem_of_getElem? (List.mem_zipIdx_iff_getElem?.mp hp)
    rw [e] at this
    exact h this

end Dict

/-! ### Tabulated lists -/

/-- The list of the values of `f` below `n`. -/
def tab (n : Nat) (f : Nat → A) : List A := (List.range n).map f

@[simp] theorem tab_length (n : Nat) (f : Nat → A) : (tab n f).length = n := by simp [tab]

theorem tab_get {n i : Nat} (f : Nat → A) (h : i < n) : (tab n f)[i]? = some (f i) := by
  simp [tab, h]

theorem tab_get_none {n i : Nat} (f : Nat → A) (h : n ≤ i) : (tab n f)[i]? = none := by
  rw [List.getElem?_eq_none_iff]; simpa using h

theorem tab_congr {n : Nat} {f g : Nat → A} (h : ∀ i, i < n → f i = g i) : tab n f = tab n g :=
  List.map_congr_left fun i hi => h i (List.mem_range.mp hi)

theorem replicate_tab (n : Nat) (a : A) : List.replicate n a = tab n fun _ => a := by
  unfold tab
  rw [List.map_const', List.length_range]

theorem tab_set (n i : Nat) (f : Nat → A) (a : A) :
    (tab n f).set i a = tab n fun d => if d = i then a else f d := by
  apply List.ext_getElem?
  intro k
  rw [List.getElem?_set]
  by_cases hk : k < n
  · rw [tab_get _ hk, tab_get _ hk]
    by_cases h : i = k
    · subst h; simp [hk]
    · rw [if_neg h, if_neg (fun e => h e.symm)]
  · rw [tab_get_none _ (by omega), tab_get_none _ (by omega)]
    split
    · simp; omega
    · rfl

theorem getAt_tab {n i : Nat} (f : Nat → A) (h : i < n) : getAt (tab n f) i = .ok (f i) := by
  unfold getAt; rw [tab_get f h]

theorem getAt_eq_ok {l : List A} {i : Nat} {a : A} : getAt l i = .ok a ↔ l[i]? = some a := by
  unfold getAt; cases l[i]? <;> simp

theorem modifyAt_tab {n i : Nat} (f : Nat → A) (g : A → A) (h : i < n) :
    modifyAt (tab n f) i g = .ok (tab n fun d => if d = i then g (f d) else f d) := by
  unfold modifyAt
  rw [tab_get f h]
  simp only [ok_inj]
  rw [tab_set]
  apply tab_congr
  intro d _
  split
  · next e => subst e; rfl
  · rfl

theorem map_tab (n : Nat) (f : Nat → A) (g : A → B) : (tab n f).map g = tab n fun d => g (f d) := by
  unfold tab; rw [List.map_map]; rfl

/-! ### Loops -/

theorem foldE_ok {f : S → A → Py S} {g : S → A → S} {l : List A} (P : S → Prop) {s : S} (hs : P s)
    (h : ∀ s, P s → ∀ a ∈ l, f s a = .ok (g s a) ∧ P (g s a)) :
    foldE f s l = .ok (l.foldl g s) ∧ P (l.foldl g s) := by
  induction l generalizing s with
  | nil => exact ⟨rfl, hs⟩
  | cons a l ih =>
    obtain ⟨h1, h2⟩ := h s hs a (by simp)
    simp only [foldE, h1, ok_bind, List.foldl_cons]
    exact ih h2 fun s hs b hb => h s hs b (by simp [hb])

/-- A loop keeps an invariant on the items done so far. -/
theorem foldE_inv {f : S → A → Py S} (I : List A → S → Prop) {l : List A} {s : S} (h0 : I [] s)
    (h : ∀ pre a post s, l = pre ++ a :: post → I pre s → ∃ s', f s a = .ok s' ∧ I (pre ++ [a]) s') :
    ∃ s', foldE f s l = .ok s' ∧ I l s' := by
  have key : ∀ (post pre : List A) (s : S), l = pre ++ post → I pre s →
      ∃ s', foldE f s post = .ok s' ∧ I l s' := by
    intro post
    induction post with
    | nil =>
      intro pre s hl hs
      rw [List.append_nil] at hl
      subst hl
      exact ⟨s, rfl, hs⟩
    | cons a post ih =>
      intro pre s hl hs
      obtain ⟨s1, h1, h2⟩ := h pre a post s hl hs
      obtain ⟨s2, h3, h4⟩ := ih (pre ++ [a]) s1 (by rw [hl, List.append_assoc]; rfl) h2
      exact ⟨s2, by simp only [foldE, h1, ok_bind, h3], h4⟩
  exact key l [] s rfl h0

/-! ### Combinations -/

theorem mem_combinations {l s : List A} {k : Nat} :
    s ∈ combinations l k ↔ s.Sublist l ∧ s.length = k := by
  induction l generalizing k s with
  | nil =>
    cases k with
    | zero => simp [combinations]
    | succ k =>
      simp only [combinations, List.not_mem_nil, List.sublist_nil, false_iff]
      rintro ⟨rfl, h⟩
      simp at h
  | cons a l ih =>
    cases k with
    | zero =>
      simp only [combinations, List.mem_singleton]
      constructor
      · rintro rfl; simp
      · rintro ⟨-, h⟩; exact List.length_eq_zero_iff.mp h
    | succ k =>
      simp only [combinations, List.mem_append, List.mem_map, ih]
      constructor
      · rintro (⟨t, ⟨ht, hl⟩, rfl⟩ | ⟨ht, hl⟩)
        · exact ⟨ht.cons_cons a, by simp [hl]⟩
        · exact ⟨ht.cons a, hl⟩
      · rintro ⟨ht, hl⟩
        cases ht with
        | cons _ ht => exact .inr ⟨ht, hl⟩
        | cons_cons _ ht => exact .inl ⟨_, ⟨ht, by simpa using hl⟩, rfl⟩

theorem nodup_combinations {l : List A} (h : l.Nodup) (k : Nat) : (combinations l k).Nodup := by
  induction l generalizing k with
  | nil => cases k <;> simp [combinations]
  | cons a l ih =>
    cases k with
    | zero => simp [combinations]
    | succ k =>
      have hd := List.nodup_cons.mp h
      simp only [combinations]
      refine List.Nodup.append ((ih hd.2 k).map ?_) (ih hd.2 (k + 1)) ?_
      · intro s t e; exact (List.cons.inj e).2
      · intro s h1 h2
        obtain ⟨t, -, rfl⟩ := List.mem_map.mp h1
        exact hd.1 ((mem_combinations.mp h2).1.subset (by simp))

theorem combinations_full (l : List A) : combinations l l.length = [l] := by
  induction l with
  | nil => rfl
  | cons a l ih =>
    simp only [List.length_cons, combinations, ih]
    have : combinations l (l.length + 1) = [] := by
      rw [List.eq_nil_iff_forall_not_mem]
      intro s hs
      obtain ⟨h1, h2⟩ := mem_combinations.mp hs
      have := h1.length_le
      omega
    rw [this]
    rfl

theorem length_combinations_pred {l : List A} (h : l ≠ []) :
    (combinations l (l.length - 1)).length = l.length := by
  induction l with
  | nil => exact absurd rfl h
  | cons a l ih =>
    cases l with
    | nil => rfl
    | cons b l =>
      have := ih (by simp)
      simp only [List.length_cons, Nat.add_sub_cancel] at this ⊢
      rw [combinations, List.length_append, List.length_map, this]
      have hf := combinations_full (b :: l)
      rw [List.length_cons] at hf
      rw [hf]
      rfl

/-! ### Pairs -/

/-- All pairs of two different places of a list, both ways round, in the order of the code. -/
def bothWays (l : List A) : List (A × A) := (pairsOf l).flatMap fun p => [(p.1, p.2), (p.2, p.1)]

theorem bothWays_cons (a : A) (l : List A) :
    bothWays (a :: l) = (l.flatMap fun b => [(a, b), (b, a)]) ++ bothWays l := by
  unfold bothWays
  rw [pairsOf, List.flatMap_append, List.flatMap_map]

theorem mem_bothWays {l : List A} (h : l.Nodup) {p : A × A} :
    p ∈ bothWays l ↔ p.1 ∈ l ∧ p.2 ∈ l ∧ p.1 ≠ p.2 := by
  induction l with
  | nil => simp [bothWays, pairsOf]
  | cons a l ih =>
    have hd := List.nodup_cons.mp h
    obtain ⟨x, y⟩ := p
    rw [bothWays_cons, List.mem_append, ih hd.2, List.mem_flatMap]
    simp only [List.mem_cons, List.not_mem_nil, or_false, Prod.mk.injEq]
    constructor
    · rintro (⟨b, hb, ⟨rfl, rfl⟩ | ⟨rfl, rfl⟩⟩ | ⟨h1, h2, h3⟩)
      · exact ⟨.inl rfl, .inr hb, fun e => hd.1 (e ▸ hb)⟩
      · exact ⟨.inr hb, .inl rfl, fun e => hd.1 (e ▸ hb)⟩
      · exact ⟨.inr h1, .inr h2, h3⟩
    · rintro ⟨h1 | h1, h2 | h2, h3⟩
      · exact absurd (h1.trans h2.symm) h3
      · exact .inl ⟨y, h2, .inl ⟨h1, rfl⟩⟩
      · exact .inl ⟨x, h1, .inr ⟨rfl, h2⟩⟩
      · exact .inr ⟨h1, h2, h3⟩

theorem nodup_bothWays {l : List A} (h : l.Nodup) : (bothWays l).Nodup := by
  induction l with
  | nil => simp [bothWays, pairsOf]
  | cons a l ih =>
    have hd := List.nodup_cons.mp h
    rw [bothWays_cons]
    refine List.Nodup.append ?_ (ih hd.2) ?_
    · rw [List.nodup_flatMap]
      refine ⟨?_, ?_⟩
      · intro b hb
        have : a ≠ b := fun e => hd.1 (e ▸ hb)
        simp [this]
      · refine hd.2.imp_of_mem ?_
        intro b c hb hc hbc p hp1 hp2
        simp only [List.mem_cons, List.not_mem_nil, or_false] at hp1 hp2
        rcases hp1 with rfl | rfl <;> rcases hp2 with e | e <;> injection e with e1 e2
        · exact hbc e2
        · exact hd.1 (e1 ▸ hc)
        · exact hd.1 (e1 ▸ hb)
        · exact hbc e1
    · intro p hp1 hp2
      obtain ⟨b, hb, hp⟩ := List.mem_flatMap.mp hp1
      simp only [List.mem_cons, List.not_mem_nil, or_false] at hp
      have := (mem_bothWays hd.2).mp hp2
      rcases hp with rfl | rfl
      · exact hd.1 this.1
      · exact hd.1 this.2.1

end Verif
