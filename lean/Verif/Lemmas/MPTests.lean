import Verif.Model.MPTests
import Verif.Spec.MPTests
import Verif.Lemmas.Lower
import Verif.Lemmas.BatchTests
import Mathlib.Algebra.BigOperators.Group.List.Basic
import Mathlib.Algebra.Order.BigOperators.Group.List

/-! # Messages along the boundaries -/

namespace Verif

variable {R L : Type} [AddCommMonoid R]

/-- The rule of the messages of the class itself. -/
def baseRule : Rule R where
  up x _ := x
  down x _ := x
  bnd := id
  new x _ _ _ := x

theorem sum_map_flatMap {A B : Type} (l : List A) (k : A → List B) (g : B → R) :
    ((l.flatMap k).map g).sum = (l.map fun a => ((k a).map g).sum).sum := by
  induction l with
  | nil => rfl
  | cons a l ih => simp [ih]

theorem overFaces_eq (v : View R) (d c : Nat) (g : Nat → R) : v.overFaces d c g = ((v.facesAt d c).map g).sum := by
  unfold View.overFaces View.facesAt
  rw [List.map_map]; rfl

theorem overCofaces_eq (v : View R) (d c : Nat) (g : Nat → R) :
    v.overCofaces (d + 1) c g = ((v.cofacesAt d c).map g).sum := by
  unfold View.overCofaces View.cofacesAt
  rw [List.map_map]; rfl

theorem overOtherFaces_eq (v : View R) (d c f : Nat) (g : Nat → R) :
    v.overOtherFaces d c f g = (((v.facesAt d c).filter (· ≠ f)).map g).sum := by
  unfold View.overOtherFaces View.facesAt
  rw [List.filter_map, List.filter_filter, List.map_map]
  congr 2
  apply List.filter_congr
  intro p _
  by_cases h1 : p.2 = c <;> by_cases h2 : p.1 = f <;> simp [h1, h2]

theorem overOtherCofaces_eq (v : View R) (d c f : Nat) (g : Nat → R) :
    v.overOtherCofaces (d + 1) f c g = (((v.cofacesAt d f).filter (· ≠ c)).map g).sum := by
  unfold View.overOtherCofaces View.cofacesAt
  rw [List.filter_map, List.filter_filter, List.map_map]
  congr 2
  apply List.filter_congr
  intro p _
  by_cases h1 : p.2 = c <;> by_cases h2 : p.1 = f <;> simp [h1, h2]

theorem faceCount_eq (v : View R) (d c : Nat) : v.faceCount d c = (v.facesAt d c).length := by
  unfold View.faceCount View.facesAt
  rw [List.countP_eq_length_filter, List.length_map]

theorem cofaceCount_eq (v : View R) (d c : Nat) : v.cofaceCount (d + 1) c = (v.cofacesAt d c).length := by
  unfold View.cofaceCount View.cofacesAt
  rw [List.countP_eq_length_filter, List.length_map]

namespace View.FromFaces

variable {v : View R}

theorem upSum_eq (h : v.FromFaces) (r : Rule R) (d c : Nat) :
    v.upSum r true d c = v.overCofaces (d + 1) c fun t => v.overOtherFaces (d + 1) t c fun f =>
      r.up (rowOf (v.X d) f) (some (rowOf (v.X (d + 1)) t)) := by
  unfold View.upSum
  rw [((h.up_perm d c).map _).sum_eq, sum_map_flatMap, overCofaces_eq]
  congr 1
  refine List.map_congr_left fun t _ => ?_
  rw [overOtherFaces_eq, List.map_map]
  rfl

theorem downSum_eq (h : v.FromFaces) (r : Rule R) (d c : Nat) :
    v.downSum r (d + 1) c = v.overFaces (d + 1) c fun f => v.overOtherCofaces (d + 1) f c fun t =>
      r.down (rowOf (v.X (d + 1)) t) (rowOf (v.X d) f) := by
  unfold View.downSum
  rw [((h.down_perm d c).map _).sum_eq, sum_map_flatMap, overFaces_eq]
  congr 1
  refine List.map_congr_left fun t _ => ?_
  rw [overOtherCofaces_eq, List.map_map]
  rfl

theorem down_zero (h : v.FromFaces) (hb : v.bnd 0 = []) : v.down 0 = [] := by
  rw [List.eq_nil_iff_forall_not_mem]
  rintro ⟨⟨a, b⟩, c⟩ hm
  have := ((h.down 0 a b c).mp hm).2.1
  rw [hb] at this
  exact absurd this List.not_mem_nil

theorem other_faces_add (h : v.FromFaces) {d t c : Nat} (hc : (c, t) ∈ v.bnd d) (g : Nat → R) :
    v.overOtherFaces d t c g + g c = v.overFaces d t g := by
  rw [overOtherFaces_eq, overFaces_eq,
    ((perm_cons_filter (h.facesNodup d t) (mem_facesAt.mpr hc)).map g).sum_eq, List.map_cons, List.sum_cons, add_comm]

theorem other_cofaces_add (h : v.FromFaces) {d t c : Nat} (hc : (c, t) ∈ v.bnd (d + 1)) (g : Nat → R) :
    v.overOtherCofaces (d + 1) c t g + g t = v.overCofaces (d + 1) c g := by
  rw [overOtherCofaces_eq, overCofaces_eq,
    ((perm_cons_filter (h.cofacesNodup d c) (mem_cofacesAt.mpr hc)).map g).sum_eq, List.map_cons, List.sum_cons, add_comm]

end View.FromFaces

theorem sum_map_add_const {A : Type} (l : List A) (g : A → R) (x : R) :
    (l.map g).sum + l.length • x = (l.map fun a => g a + x).sum := by
  induction l with
  | nil => simp
  | cons a l ih =>
    simp only [List.map_cons, List.sum_cons, List.length_cons, succ_nsmul, ← ih]
    rw [add_comm (l.length • x) x, add_add_add_comm]

/-- A sum over a list, collected by a number. -/
theorem sum_by_number {A : Type} (k : A → Nat) (g : Nat → R) (n : Nat) : ∀ l : List A, (∀ a ∈ l, k a < n) →
    (l.map fun a => g (k a)).sum = ((List.range n).map fun b => (l.countP fun a => k a == b) • g b).sum
  | [], _ => by simp
  | a :: l, h => by
    rw [List.map_cons, List.sum_cons, sum_by_number k g n l fun x hx => h x (by simp [hx])]
    have h1 : k a ∈ List.range n := List.mem_range.mpr (h a (by simp))
    have e : ∀ r : List Nat, r.Nodup → (r.map fun b => ((a :: l).countP fun x => k x == b) • g b).sum =
        (if k a ∈ r then g (k a) else 0) + (r.map fun b => (l.countP fun x => k x == b) • g b).sum := by
      intro r
      induction r with
      | nil => simp
      | cons b r ih =>
        intro hn
        rw [List.nodup_cons] at hn
        rw [List.map_cons, List.sum_cons, ih hn.2, List.map_cons, List.sum_cons, List.countP_cons]
        by_cases hb : k a = b
        · subst hb
          rw [if_neg hn.1]
          simp only [beq_self_eq_true, if_true, succ_nsmul, List.mem_cons_self, zero_add]
          rw [add_comm (List.countP _ l • g (k a)), add_assoc]
        · have h2 : (k a ∈ b :: r) ↔ k a ∈ r := by simp [hb]
          simp only [h2, beq_iff_eq, hb, if_false, Nat.add_zero]
          rw [add_left_comm]
    rw [e _ List.nodup_range, if_pos h1]

/-- A sum over a list, number by number. -/
theorem sum_by_target {A : Type} (k : A → Nat) (g : A → R) (n : Nat) : ∀ l : List A, (∀ a ∈ l, k a < n) →
    ((List.range n).map fun b => ((l.filter fun a => k a == b).map g).sum).sum = (l.map g).sum
  | [], _ => by simp
  | a :: l, h => by
    rw [List.map_cons, List.sum_cons, ← sum_by_target k g n l fun x hx => h x (by simp [hx])]
    have h1 : k a ∈ List.range n := List.mem_range.mpr (h a (by simp))
    have e : ∀ r : List Nat, r.Nodup → (r.map fun b => (((a :: l).filter fun x => k x == b).map g).sum).sum =
        (if k a ∈ r then g a else 0) + (r.map fun b => ((l.filter fun x => k x == b).map g).sum).sum := by
      intro r
      induction r with
      | nil => simp
      | cons b r ih =>
        intro hn
        rw [List.nodup_cons] at hn
        rw [List.map_cons, List.sum_cons, ih hn.2, List.map_cons, List.sum_cons]
        by_cases hb : k a = b
        · subst hb
          rw [if_neg hn.1]
          simp [add_assoc]
        · have h2 : (k a ∈ b :: r) ↔ k a ∈ r := by simp [hb]
          rw [List.filter_cons_of_neg (by simpa using hb)]
          simp only [h2]
          rw [add_left_comm]
    rw [e _ List.nodup_range, if_pos h1]

namespace View.FromFaces

variable {v : View R}

omit [AddCommMonoid R] in
theorem common_up (h : v.FromFaces) {d b c : Nat} (hbc : b ≠ c) :
    ((v.up d).filter fun p => p.1.2 == c).countP (fun p => p.1.1 == b) = v.commonCofaces (d + 1) b c := by
  rw [List.countP_filter, List.countP_eq_length_filter]
  have hp : ((v.up d).filter fun p => p.1.1 == b && p.1.2 == c).Perm
      (((v.bnd (d + 1)).filter fun p => p.1 == b && (v.bnd (d + 1)).contains (c, p.2)).map fun p => ((b, c), p.2)) := by
    rw [List.perm_ext_iff_of_nodup ((h.upNodup d).filter _)]
    · rintro ⟨⟨a, b'⟩, t⟩
      simp only [List.mem_filter, Bool.and_eq_true, beq_iff_eq, h.up, List.mem_map, List.contains_iff_mem, Prod.mk.injEq,
        Prod.exists]
      constructor
      · rintro ⟨⟨h1, h2, h3⟩, rfl, rfl⟩
        exact ⟨a, t, ⟨h2, rfl, h3⟩, ⟨rfl, rfl⟩, rfl⟩
      · rintro ⟨a', t', ⟨h2, rfl, h3⟩, ⟨rfl, rfl⟩, rfl⟩
        exact ⟨⟨hbc, h2, h3⟩, rfl, rfl⟩
    · refine List.Nodup.map_on ?_ ((h.bndNodup (d + 1)).filter _)
      rintro ⟨x, y⟩ hx ⟨x', y'⟩ hx' e
      simp only [List.mem_filter, Bool.and_eq_true, beq_iff_eq] at hx hx'
      simp only [Prod.mk.injEq, true_and] at e
      rw [hx.2.1, hx'.2.1, e]
  rw [hp.length_eq, List.length_map, View.commonCofaces, List.countP_eq_length_filter]

omit [AddCommMonoid R] in
theorem common_down (h : v.FromFaces) {d b c : Nat} (hbc : b ≠ c) :
    ((v.down d).filter fun p => p.1.2 == c).countP (fun p => p.1.1 == b) = v.commonFaces d b c := by
  rw [List.countP_filter, List.countP_eq_length_filter]
  have hp : ((v.down d).filter fun p => p.1.1 == b && p.1.2 == c).Perm
      (((v.bnd d).filter fun p => p.2 == b && (v.bnd d).contains (p.1, c)).map fun p => ((b, c), p.1)) := by
    rw [List.perm_ext_iff_of_nodup ((h.downNodup d).filter _)]
    · rintro ⟨⟨a, b'⟩, t⟩
      simp only [List.mem_filter, Bool.and_eq_true, beq_iff_eq, h.down, List.mem_map, List.contains_iff_mem, Prod.mk.injEq,
        Prod.exists]
      constructor
      · rintro ⟨⟨h1, h2, h3⟩, rfl, rfl⟩
        exact ⟨t, a, ⟨h2, rfl, h3⟩, ⟨rfl, rfl⟩, rfl⟩
      · rintro ⟨t', a', ⟨h2, rfl, h3⟩, ⟨rfl, rfl⟩, rfl⟩
        exact ⟨⟨hbc, h2, h3⟩, rfl, rfl⟩
    · refine List.Nodup.map_on ?_ ((h.bndNodup d).filter _)
      rintro ⟨x, y⟩ hx ⟨x', y'⟩ hx' e
      simp only [List.mem_filter, Bool.and_eq_true, beq_iff_eq] at hx hx'
      simp only [Prod.mk.injEq, true_and] at e
      rw [hx.2.1, hx'.2.1, e]
  rw [hp.length_eq, List.length_map, View.commonFaces, List.countP_eq_length_filter]

theorem upSum_counts (h : v.FromFaces) (d c : Nat) :
    v.upSum baseRule true d c = ((List.range (v.X d).length).map fun b =>
      if b = c then 0 else v.commonCofaces (d + 1) b c • rowOf (v.X d) b).sum := by
  show (((v.up d).filter fun p => p.1.2 == c).map fun p => rowOf (v.X d) p.1.1).sum = _
  rw [sum_by_number (fun p : (Nat × Nat) × Nat => p.1.1) (rowOf (v.X d)) (v.X d).length _
    fun p hp => (h.inRange.up d p (List.mem_filter.mp hp).1).1]
  congr 1
  refine List.map_congr_left fun b _ => ?_
  by_cases hb : b = c
  · subst hb
    rw [if_pos rfl]
    have : ((v.up d).filter fun p => p.1.2 == b).countP (fun p => p.1.1 == b) = 0 := by
      rw [List.countP_eq_zero]
      rintro ⟨⟨a, b'⟩, t⟩ hm
      simp only [List.mem_filter, beq_iff_eq] at hm ⊢
      have := ((h.up d a b' t).mp hm.1).1
      rw [← hm.2]
      exact this
    rw [this, zero_nsmul]
  · rw [if_neg hb, h.common_up hb]

theorem downSum_counts (h : v.FromFaces) (d c : Nat) :
    v.downSum baseRule d c = ((List.range (v.X d).length).map fun b =>
      if b = c then 0 else v.commonFaces d b c • rowOf (v.X d) b).sum := by
  show (((v.down d).filter fun p => p.1.2 == c).map fun p => rowOf (v.X d) p.1.1).sum = _
  rw [sum_by_number (fun p : (Nat × Nat) × Nat => p.1.1) (rowOf (v.X d)) (v.X d).length _
    fun p hp => (h.inRange.down d p (List.mem_filter.mp hp).1).1]
  congr 1
  refine List.map_congr_left fun b _ => ?_
  by_cases hb : b = c
  · subst hb
    rw [if_pos rfl]
    have : ((v.down d).filter fun p => p.1.2 == b).countP (fun p => p.1.1 == b) = 0 := by
      rw [List.countP_eq_zero]
      rintro ⟨⟨a, b'⟩, t⟩ hm
      simp only [List.mem_filter, beq_iff_eq] at hm ⊢
      have := ((h.down d a b' t).mp hm.1).1
      rw [← hm.2]
      exact this
    rw [this, zero_nsmul]
  · rw [if_neg hb, h.common_down hb]

end View.FromFaces

/-- The messages of the class itself, on the parameters of a complex. -/
theorem base_ok {v : View R} {d : Nat} {p : MPParams R} (hv : v.InRange) (hp : ParamsOf v d true true p) :
    baseMessages p = .ok ((List.range (v.X d).length).map (v.upSum baseRule true d),
      (List.range (v.X d).length).map (v.downSum baseRule d), (List.range (v.X d).length).map (v.bndSum baseRule d)) := by
  unfold baseMessages
  rw [hp.x]
  refine propagate_ok (cfg := baseConfig) (hp.up_ok hv (r := baseRule) (fun x a _ => rfl)) ?_ (hp.bnd_ok hv (r := baseRule))
  show aggregateOrZero (.plain id) aggAdd .sourceToTarget (v.X d).length (v.X d) p.downIndex (some p.downAttr) = _
  cases hu : p.downIndex with
  | none =>
    rw [aggregateOrZero, ok_inj, eq_comm]
    apply range_map_zero
    apply List.map_congr_left
    intro c _
    simp [View.downSum, hp.downNone rfl hu]
  | some cols =>
    obtain ⟨rfl, ha⟩ := hp.down rfl cols hu
    rw [ha]
    refine (messageAndAggregate_cols (shared := true) (f := fun x _ => x)
      (fun q hq => ⟨(hv.down d q hq).1, (hv.down d q hq).2.1⟩) ?_).trans ?_
    · intro x a ha
      rfl
    · rfl

omit [AddCommMonoid R] in
/-- The upper adjacency among the parameters. -/
theorem params_upIndex {comp : Complex R L} {d : Nat} {p : MPParams R} (hp : comp.getCochainParams d = .ok p) :
    p.upIndex = if (comp.cochains[d + 1]?).isSome then comp.attr d Cochain.upperIndex else none := by
  unfold Complex.getCochainParams at hp
  cases hc : comp.cochains[d]? with
  | none => rw [hc] at hp; cases hp
  | some c =>
    rw [hc] at hp
    dsimp only at hp
    obtain ⟨up, hup, hp⟩ := bind_eq_ok.mp hp
    obtain ⟨dn, hdn, hp⟩ := bind_eq_ok.mp hp
    cases hp
    rw [attr_of hc]
    dsimp only
    unfold upParams at hup
    cases ha : comp.cochains[d + 1]? with
    | none =>
      rw [ha] at hup
      cases hui : c.upperIndex <;> rw [hui] at hup <;> cases hup <;> simp
    | some a =>
      rw [ha] at hup
      cases hui : c.upperIndex with
      | none => rw [hui] at hup; cases hup; simp
      | some ui =>
        rw [hui] at hup
        dsimp only at hup
        cases hx : a.x with
        | none => rw [hx] at hup; cases hup; simp
        | some x =>
          rw [hx] at hup
          dsimp only at hup
          rw [if_pos (by simp)] at hup
          obtain ⟨f, hf, hup⟩ := bind_eq_ok.mp hup
          cases hup
          simp

/-- The messages from above alone. -/
theorem up_only_ok {v : View R} {d : Nat} {p : MPParams R} (hv : v.InRange) (hp : ParamsOf v d true true p) :
    upMessagesOnly p = .ok (pygPropagate (p.upIndex.getD []) (v.X d), zeroRows (v.X d).length, zeroRows (v.X d).length) := by
  unfold upMessagesOnly
  rw [hp.x]
  refine propagate_ok (cfg := baseConfig) ?_ rfl rfl
  show aggregateOrZero (.plain id) aggAdd .sourceToTarget (v.X d).length (v.X d) p.upIndex (some none) = _
  cases hu : p.upIndex with
  | none =>
    rw [aggregateOrZero, ok_inj, eq_comm]
    apply range_map_zero
    apply List.map_congr_left
    intro c _
    rfl
  | some cols =>
    obtain ⟨rfl, -⟩ := hp.up cols hu
    refine (messageAndAggregate_cols (shared := false) (att := []) (f := fun x _ => x)
      (fun q hq => ⟨(hv.up d q hq).1, (hv.up d q hq).2.1⟩) ?_).trans ?_
    · intro x a ha
      rfl
    · rw [ok_inj]
      refine List.map_congr_left fun c _ => ?_
      rw [Option.getD_some, List.filter_map, List.map_map]
      rfl

end Verif
