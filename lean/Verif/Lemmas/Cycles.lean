import Verif.Spec.Rings
import Verif.Lemmas.GraphIso
import Mathlib.Data.List.Rotate

/-!
# Lemmas about rings and their boundaries
-/

namespace Verif

theorem sortedNat_perm (l : List Nat) : (sortedNat l).Perm l := List.perm_insertionSort _ _

theorem sortedNat_pair (a b : Nat) : sortedNat [a, b] = if a ≤ b then [a, b] else [b, a] := by
  unfold sortedNat
  simp [List.insertionSort, List.orderedInsert]

theorem sortedNat_eq_iff (l m : List Nat) : sortedNat l = sortedNat m ↔ l.Perm m := by
  constructor
  · intro h
    exact (sortedNat_perm l).symm.trans (h ▸ sortedNat_perm m)
  · intro h
    refine ((sortedNat_perm l).trans (h.trans (sortedNat_perm m).symm)).eq_of_pairwise'
      (List.pairwise_insertionSort _ _) (List.pairwise_insertionSort _ _)

theorem sortedNat_comm (a b : Nat) : sortedNat [a, b] = sortedNat [b, a] :=
  (sortedNat_eq_iff _ _).mpr (List.Perm.swap _ _ _)

/-- The pair of neighbours at place `n`. -/
def sideAt (r : List Nat) (n : Nat) : List Nat :=
  sortedNat [r.getD n 0, r.getD (if n + 1 = r.length then 0 else n + 1) 0]

theorem ringBoundaries_perm (r : List Nat) :
    (getRingBoundaries r).Perm ((List.range r.length).map (sideAt r)) :=
  List.perm_insertionSort _ _

theorem sideAt_of {r : List Nat} {n u v : Nat} {m : Nat} (hu : r[n]? = some u) (hv : r[m]? = some v)
    (hf : Follows r.length n m) : sideAt r n = sortedNat [u, v] := by
  have hm : m = if n + 1 = r.length then 0 else n + 1 := by
    unfold Follows at hf
    have h1 : n < r.length := by
      rw [List.getElem?_eq_some_iff] at hu
      exact hu.1
    have h2 : m < r.length := by
      rw [List.getElem?_eq_some_iff] at hv
      exact hv.1
    split <;> omega
  unfold sideAt
  rw [← hm]
  simp [List.getD_eq_getElem?_getD, hu, hv]

theorem follows_exists {r : List Nat} {n : Nat} (hn : n < r.length) :
    ∃ m, m < r.length ∧ Follows r.length n m := by
  unfold Follows
  by_cases h : n + 1 = r.length
  · exact ⟨0, by omega, .inr ⟨h, rfl⟩⟩
  · exact ⟨n + 1, by omega, .inl rfl⟩

section

variable {edges : List (Nat × Nat)} {r : List Nat}

theorem ring_place (h : IsRing edges r) {i j u : Nat} (hi : r[i]? = some u) (hj : r[j]? = some u) : i = j := by
  obtain ⟨h1, e1⟩ := List.getElem?_eq_some_iff.mp hi
  obtain ⟨h2, e2⟩ := List.getElem?_eq_some_iff.mp hj
  exact (List.Nodup.getElem_inj_iff h.nodup).mp (e1.trans e2.symm)

/-- The boundary of a ring: the edges of the graph with both ends on it. -/
theorem mem_ringBoundaries (h : IsRing edges r) {f : List Nat} :
    f ∈ getRingBoundaries r ↔ ∃ u v, u < v ∧ f = [u, v] ∧ u ∈ r ∧ v ∈ r ∧ Joined edges u v := by
  rw [(ringBoundaries_perm r).mem_iff, List.mem_map]
  constructor
  · rintro ⟨n, hn, rfl⟩
    have hn := List.mem_range.mp hn
    obtain ⟨m, hm, hf⟩ := follows_exists hn
    have e1 := List.getElem?_eq_getElem hn
    have e2 := List.getElem?_eq_getElem hm
    have hj := (h.joined n m _ _ e1 e2).mpr (.inl hf)
    rw [sideAt_of e1 e2 hf, sortedNat_pair]
    split
    · next hle =>
      exact ⟨_, _, Nat.lt_of_le_of_ne hle hj.1, rfl, List.getElem_mem _, List.getElem_mem _, hj⟩
    · next hle =>
      exact ⟨_, _, by omega, rfl, List.getElem_mem _, List.getElem_mem _, hj.1.symm, hj.2.symm⟩
  · rintro ⟨u, v, huv, rfl, hu, hv, hj⟩
    obtain ⟨i, hi⟩ := List.mem_iff_getElem?.mp hu
    obtain ⟨j, hj'⟩ := List.mem_iff_getElem?.mp hv
    have hil := (List.getElem?_eq_some_iff.mp hi).1
    have hjl := (List.getElem?_eq_some_iff.mp hj').1
    have hs : sortedNat [u, v] = [u, v] := by rw [sortedNat_pair, if_pos (by omega)]
    rcases (h.joined i j u v hi hj').mp hj with hf | hf
    · exact ⟨i, List.mem_range.mpr hil, by rw [sideAt_of hi hj' hf, hs]⟩
    · exact ⟨j, List.mem_range.mpr hjl, by rw [sideAt_of hj' hi hf, sortedNat_comm, hs]⟩

theorem nodup_ringBoundaries (h : IsRing edges r) : (getRingBoundaries r).Nodup := by
  rw [(ringBoundaries_perm r).nodup_iff]
  refine List.Nodup.map_on ?_ List.nodup_range
  intro n hn m hm e
  have hn := List.mem_range.mp hn
  have hm := List.mem_range.mp hm
  obtain ⟨n', hn', fn⟩ := follows_exists hn
  obtain ⟨m', hm', fm⟩ := follows_exists hm
  have a1 := List.getElem?_eq_getElem hn
  have a2 := List.getElem?_eq_getElem hn'
  have b1 := List.getElem?_eq_getElem hm
  have b2 := List.getElem?_eq_getElem hm'
  rw [sideAt_of a1 a2 fn, sideAt_of b1 b2 fm, sortedNat_eq_iff] at e
  have h1 : r[n] ∈ [r[m], r[m']] := e.subset (by simp)
  have h2 : r[n'] ∈ [r[m], r[m']] := e.subset (by simp)
  simp only [List.mem_cons, List.not_mem_nil, or_false, List.Nodup.getElem_inj_iff h.nodup] at h1 h2
  have hl := h.long
  unfold Follows at fn fm
  omega

theorem length_ringBoundaries (r : List Nat) : (getRingBoundaries r).length = r.length := by
  rw [(ringBoundaries_perm r).length_eq]
  simp

/-- Every vertex of a ring is on exactly two of its edges. -/
theorem ringBoundaries_at (h : IsRing edges r) {v : Nat} (hv : v ∈ r) :
    ((getRingBoundaries r).filter fun f => decide (v ∈ f)).length = 2 := by
  rw [((ringBoundaries_perm r).filter _).length_eq, List.filter_map, List.length_map]
  obtain ⟨i, hi⟩ := List.mem_iff_getElem?.mp hv
  have hil := (List.getElem?_eq_some_iff.mp hi).1
  have hl := h.long
  obtain ⟨p, hp, hpi⟩ : ∃ p, p < r.length ∧ Follows r.length p i := by
    unfold Follows
    by_cases h0 : i = 0
    · exact ⟨r.length - 1, by omega, .inr ⟨by omega, h0⟩⟩
    · exact ⟨i - 1, by omega, .inl (by omega)⟩
  have hperm : ((List.range r.length).filter ((fun f => decide (v ∈ f)) ∘ sideAt r)).Perm [i, p] := by
    rw [List.perm_ext_iff_of_nodup (List.nodup_range.filter _)]
    · intro n
      simp only [List.mem_filter, List.mem_range, Function.comp_apply, decide_eq_true_eq, List.mem_cons,
        List.not_mem_nil, or_false]
      constructor
      · rintro ⟨hn, hmem⟩
        obtain ⟨m, hm, hf⟩ := follows_exists hn
        rw [sideAt_of (List.getElem?_eq_getElem hn) (List.getElem?_eq_getElem hm) hf,
          (sortedNat_perm _).mem_iff] at hmem
        simp only [List.mem_cons, List.not_mem_nil, or_false] at hmem
        rcases hmem with e | e
        · left
          exact ring_place h (by rw [e]; exact List.getElem?_eq_getElem hn) hi
        · have : m = i := ring_place h (by rw [e]; exact List.getElem?_eq_getElem hm) hi
          unfold Follows at hf hpi
          omega
      · rintro (rfl | rfl)
        · obtain ⟨m, hm, hf⟩ := follows_exists hil
          rw [sideAt_of hi (List.getElem?_eq_getElem hm) hf, (sortedNat_perm _).mem_iff]
          exact ⟨hil, by simp⟩
        · rw [sideAt_of (List.getElem?_eq_getElem hp) hi hpi, (sortedNat_perm _).mem_iff]
          exact ⟨hp, by simp⟩
    · unfold Follows at hpi
      simp only [List.nodup_cons, List.mem_singleton, List.not_mem_nil, not_false_eq_true,
        List.nodup_nil, and_true]
      omega
  rw [hperm.length_eq]
  rfl

end

/-! ### get_rings -/

/-- What the loops keep: the rings seen so far, one for every vertex set. -/
structure RingsOf (seen : List (List Nat)) (s : List (List Nat) × List (List Nat)) : Prop where
  sets : s.2 = s.1.map sortedNat
  nodup : s.2.Nodup
  sub : s.1 ⊆ seen
  all : ∀ r ∈ seen, sortedNat r ∈ s.2

theorem ringStep_keeps {seen : List (List Nat)} {s : List (List Nat) × List (List Nat)} (h : RingsOf seen s)
    (iso : List Nat) : RingsOf (seen ++ [iso]) (ringStep s iso) := by
  unfold ringStep
  by_cases hin : sortedNat iso ∈ s.2
  · rw [if_pos hin]
    refine ⟨h.sets, h.nodup, fun r hr => by simp [h.sub hr], ?_⟩
    intro r hr
    rcases List.mem_append.mp hr with hr | hr
    · exact h.all r hr
    · rw [List.mem_singleton] at hr
      rw [hr]; exact hin
  · rw [if_neg hin]
    have hnot : iso ∉ s.1 := by
      intro hmem
      apply hin
      rw [h.sets]
      exact List.mem_map.mpr ⟨iso, hmem, rfl⟩
    rw [if_neg hnot]
    refine ⟨by simp [h.sets], ?_, ?_, ?_⟩
    · rw [List.nodup_append]
      refine ⟨h.nodup, by simp, ?_⟩
      intro a ha b hb e
      rw [List.mem_singleton] at hb
      subst hb e
      exact hin ha
    · intro r hr
      rcases List.mem_append.mp hr with hr | hr
      · exact List.mem_append_left _ (h.sub hr)
      · exact List.mem_append_right _ hr
    · intro r hr
      rcases List.mem_append.mp hr with hr | hr
      · exact List.mem_append_left _ (h.all r hr)
      · rw [List.mem_singleton] at hr
        subst hr
        simp

theorem ringFold_keeps {seen : List (List Nat)} {s : List (List Nat) × List (List Nat)} (h : RingsOf seen s)
    (l : List (List Nat)) : RingsOf (seen ++ l) (l.foldl ringStep s) := by
  induction l generalizing seen s with
  | nil => simpa using h
  | cons a l ih =>
    have := ih (ringStep_keeps h a)
    rwa [List.append_assoc] at this

theorem ringsFold_keeps (isos : Nat → List (List Nat)) {seen : List (List Nat)}
    {s : List (List Nat) × List (List Nat)} (h : RingsOf seen s) (ks : List Nat) :
    RingsOf (seen ++ ks.flatMap isos) (ks.foldl (fun s k => (isos k).foldl ringStep s) s) := by
  induction ks generalizing seen s with
  | nil => simpa using h
  | cons k ks ih =>
    have := ih (ringFold_keeps h (isos k))
    rwa [List.append_assoc] at this

/-- The isomorphisms looked at. -/
def reported (lib : RingLib) (edges : List (Nat × Nat)) (maxK : Nat) : List (List Nat) :=
  (List.range' 3 (maxK - 2)).flatMap (lib.isos edges)

theorem getRings_keeps (lib : RingLib) (edges : List (Nat × Nat)) (maxK : Nat) :
    ∃ s, getRings lib edges maxK = lib.order s.1 ∧ RingsOf (reported lib edges maxK) s := by
  refine ⟨_, rfl, ?_⟩
  have := ringsFold_keeps (lib.isos edges) (seen := []) (s := ([], [])) ⟨rfl, by simp, by simp, by simp⟩
    (List.range' 3 (maxK - 2))
  simpa [reported] using this

/-- One ring for every vertex set of a reported cycle. -/
theorem getRings_spec (lib : RingLib) (ho : ∀ l, (lib.order l).Perm l) (edges : List (Nat × Nat)) (maxK : Nat) :
    (∀ r ∈ getRings lib edges maxK, r ∈ reported lib edges maxK) ∧
    (∀ r ∈ reported lib edges maxK, ∃ r' ∈ getRings lib edges maxK, r'.Perm r) ∧
    (getRings lib edges maxK).Pairwise (fun a b => ¬ a.Perm b) := by
  obtain ⟨s, hs, h⟩ := getRings_keeps lib edges maxK
  rw [hs]
  refine ⟨?_, ?_, ?_⟩
  · intro r hr
    exact h.sub ((ho s.1).mem_iff.mp hr)
  · intro r hr
    have := h.all r hr
    rw [h.sets] at this
    obtain ⟨r', hr', e⟩ := List.mem_map.mp this
    exact ⟨r', (ho s.1).mem_iff.mpr hr', (sortedNat_eq_iff _ _).mp e⟩
  · have h1 : ((lib.order s.1).map sortedNat).Nodup := by
      rw [((ho s.1).map sortedNat).nodup_iff, ← h.sets]
      exact h.nodup
    rw [List.Nodup, List.pairwise_map] at h1
    exact h1.imp fun hne hp => hne ((sortedNat_eq_iff _ _).mpr hp)

theorem mem_reported {lib : RingLib} (hl : lib.Ok) {edges : List (Nat × Nat)} {maxK : Nat} {r : List Nat} :
    r ∈ reported lib edges maxK ↔ IsRing edges r ∧ r.length ≤ maxK := by
  unfold reported
  rw [List.mem_flatMap]
  constructor
  · rintro ⟨k, hk, hr⟩
    have hk := List.mem_range'_1.mp hk
    obtain ⟨h1, h2⟩ := (hl.isos edges k r hk.1).mp hr
    exact ⟨h2, by omega⟩
  · rintro ⟨h1, h2⟩
    have := h1.long
    exact ⟨r.length, List.mem_range'_1.mpr ⟨h1.long, by omega⟩, (hl.isos edges _ r h1.long).mpr ⟨rfl, h1⟩⟩

theorem getRings_ring {lib : RingLib} (hl : lib.Ok) {edges : List (Nat × Nat)} {maxK : Nat} {r : List Nat}
    (h : r ∈ getRings lib edges maxK) : IsRing edges r ∧ r.length ≤ maxK :=
  (mem_reported hl).mp ((getRings_spec lib hl.order edges maxK).1 r h)

theorem nodup_getRings {lib : RingLib} (hl : lib.Ok) (edges : List (Nat × Nat)) (maxK : Nat) :
    (getRings lib edges maxK).Nodup :=
  (getRings_spec lib hl.order edges maxK).2.2.imp fun h e => h (List.Perm.of_eq e)

/-! ### Induced cycles with the same vertices -/

section

variable {edges : List (Nat × Nat)} {r r' : List Nat}

/-- Two induced cycles with the same vertices and the same first two vertices are the same list. -/
theorem ring_step (h : IsRing edges r) (h' : IsRing edges r') (hp : r.Perm r')
    (h0 : r[0]? = r'[0]?) (h1 : r[1]? = r'[1]?) : r = r' := by
  have hlen := hp.length_eq
  have hl := h.long
  have key : ∀ n, n + 1 < r.length → r[n]? = r'[n]? ∧ r[n+1]? = r'[n+1]? := by
    intro n
    induction n with
    | zero => intro _; exact ⟨h0, h1⟩
    | succ n ih =>
      intro hn
      obtain ⟨e0, e1⟩ := ih (by omega)
      refine ⟨e1, ?_⟩
      obtain ⟨w, hw⟩ : ∃ w, r'[n+2]? = some w := ⟨_, List.getElem?_eq_getElem (by omega)⟩
      obtain ⟨u, hu⟩ : ∃ u, r[n+1]? = some u := ⟨_, List.getElem?_eq_getElem (by omega)⟩
      have hj : Joined edges u w := (h'.joined (n+1) (n+2) u w (e1 ▸ hu) hw).mpr (.inl (.inl rfl))
      have hwr : w ∈ r := hp.mem_iff.mpr (List.mem_of_getElem? hw)
      obtain ⟨j, hjw⟩ := List.mem_iff_getElem?.mp hwr
      have hf := (h.joined (n+1) j u w hu hjw).mp hj
      have hjl := lt_of_get hjw
      have : j = n + 2 ∨ j = n := by
        rcases hf with (hf | hf) | (hf | hf) <;> omega
      rcases this with rfl | rfl
      · rw [hw]; exact hjw
      · exfalso
        have := ring_place h' (hw) (e0 ▸ hjw)
        omega
  apply List.ext_getElem?
  intro n
  by_cases hn : n + 1 < r.length
  · exact (key n hn).1
  · by_cases hn' : n + 1 = r.length
    · have := (key (n-1) (by omega)).2
      rwa [show n - 1 + 1 = n by omega] at this
    · rw [List.getElem?_eq_none (by omega), List.getElem?_eq_none (by omega)]

theorem isRing_rotate (h : IsRing edges r) (k : Nat) : IsRing edges (r.rotate k) := by
  have hl := h.long
  refine ⟨by simpa using h.long, List.nodup_rotate.mpr h.nodup, ?_⟩
  intro i j u v hi hj
  rw [List.length_rotate]
  have hil : i < r.length := by simpa using lt_of_get hi
  have hjl : j < r.length := by simpa using lt_of_get hj
  rw [List.getElem?_rotate hil] at hi
  rw [List.getElem?_rotate hjl] at hj
  rw [h.joined _ _ u v hi hj]
  have key : ∀ i j, i < r.length → j < r.length →
      (Follows r.length ((i + k) % r.length) ((j + k) % r.length) ↔ Follows r.length i j) := by
    intro i j hil hjl
    unfold Follows
    rw [Nat.add_mod i, Nat.add_mod j]
    have hk : k % r.length < r.length := Nat.mod_lt _ (by omega)
    rw [Nat.mod_eq_of_lt hil, Nat.mod_eq_of_lt hjl]
    generalize k % r.length = m at hk
    have e : ∀ a, a < r.length → (a + m) % r.length = if a + m < r.length then a + m else a + m - r.length := by
      intro a ha
      split
      · exact Nat.mod_eq_of_lt (by assumption)
      · rw [Nat.mod_eq_sub_mod (by omega), Nat.mod_eq_of_lt (by omega)]
    rw [e i hil, e j hjl]
    split <;> split <;> omega
  rw [key i j hil hjl, key j i hjl hil]

theorem isRing_reverse (h : IsRing edges r) : IsRing edges r.reverse := by
  have hl := h.long
  refine ⟨by simpa using h.long, List.nodup_reverse.mpr h.nodup, ?_⟩
  intro i j u v hi hj
  rw [List.length_reverse]
  have hil : i < r.length := by simpa using lt_of_get hi
  have hjl : j < r.length := by simpa using lt_of_get hj
  rw [List.getElem?_reverse hil] at hi
  rw [List.getElem?_reverse hjl] at hj
  rw [h.joined _ _ u v hi hj]
  unfold Follows
  omega

/-- The vertex set of an induced cycle determines it up to its start and direction. -/
theorem ring_determined (h : IsRing edges r) (h' : IsRing edges r') (hp : r.Perm r') :
    ∃ k, r' = r.rotate k ∨ r' = r.reverse.rotate k := by
  have hl := h.long
  have hlen := hp.length_eq
  obtain ⟨a, ha⟩ : ∃ a, r'[0]? = some a := ⟨_, List.getElem?_eq_getElem (by omega)⟩
  obtain ⟨b, hb⟩ : ∃ b, r'[1]? = some b := ⟨_, List.getElem?_eq_getElem (by omega)⟩
  have hab : Joined edges a b := (h'.joined 0 1 a b ha hb).mpr (.inl (.inl rfl))
  obtain ⟨i, hi⟩ := List.mem_iff_getElem?.mp (hp.mem_iff.mpr (List.mem_of_getElem? ha))
  obtain ⟨j, hj⟩ := List.mem_iff_getElem?.mp (hp.mem_iff.mpr (List.mem_of_getElem? hb))
  have hil := lt_of_get hi
  have hjl := lt_of_get hj
  rcases (h.joined i j a b hi hj).mp hab with hf | hf
  · refine ⟨i, .inl ?_⟩
    symm
    refine ring_step (isRing_rotate h i) h' ((List.rotate_perm r i).trans hp) ?_ ?_
    · rw [List.getElem?_rotate (by omega), ha, Nat.zero_add, Nat.mod_eq_of_lt hil, hi]
    · rw [List.getElem?_rotate (by omega), hb, ← hj]
      congr 1
      rcases hf with rfl | ⟨e, rfl⟩
      · rw [Nat.add_comm, Nat.mod_eq_of_lt hjl]
      · rw [Nat.add_comm, e, Nat.mod_self]
  · refine ⟨r.length - 1 - i, .inr ?_⟩
    symm
    have hrev : ∀ m, m < r.length → r.reverse[m]? = r[r.length - 1 - m]? := fun m hm => List.getElem?_reverse hm
    refine ring_step (isRing_rotate (isRing_reverse h) _) h'
      ((List.rotate_perm _ _).trans ((List.reverse_perm r).trans hp)) ?_ ?_
    · rw [List.getElem?_rotate (by simp; omega), List.length_reverse, ha, Nat.zero_add, Nat.mod_eq_of_lt (by omega),
        hrev _ (by omega), ← hi]
      congr 1
      omega
    · rw [List.getElem?_rotate (by simp; omega), List.length_reverse, hb]
      rcases hf with rfl | ⟨e, rfl⟩
      · rw [Nat.mod_eq_of_lt (by omega), hrev _ (by omega), ← hj]
        congr 1
        omega
      · rw [show 1 + (r.length - 1 - 0) = r.length by omega, Nat.mod_self, hrev _ (by omega), ← hj]
        congr 1
        omega

end

end Verif
