import Verif.Model.Magnitude
import Verif.Spec.Regular
import Verif.Props.SR
import Verif.Props.Baselines
import Mathlib.Tactic.IntervalCases

/-!
# Lemmas on the embeddings of strongly regular graphs
-/

namespace Verif

/-! ### Parts of lists -/

theorem chunks_map {A B : Type} (f : A → B) (b : Nat) (l : List A) :
    chunks b (l.map f) = (chunks b l).map (List.map f) := by
  have : ∀ (fuel : Nat) (l : List A), chunksFrom b fuel (l.map f) = (chunksFrom b fuel l).map (List.map f) := by
    intro fuel
    induction fuel with
    | zero => intro l; rfl
    | succ fuel ih =>
      intro l
      cases l with
      | nil => rfl
      | cons a l =>
        show (List.map f (a :: l)).take b :: chunksFrom b fuel ((List.map f (a :: l)).drop b) = _
        rw [← List.map_drop, ih, ← List.map_take]
        rfl
  unfold chunks
  rw [List.length_map]
  exact this _ _

theorem chunks_forall₂ {A B : Type} {P : A → B → Prop} {l : List A} {l' : List B} (h : List.Forall₂ P l l') (b : Nat) :
    List.Forall₂ (List.Forall₂ P) (chunks b l) (chunks b l') := by
  have : ∀ (fuel : Nat) (l : List A) (l' : List B), List.Forall₂ P l l' →
      List.Forall₂ (List.Forall₂ P) (chunksFrom b fuel l) (chunksFrom b fuel l') := by
    intro fuel
    induction fuel with
    | zero => intro l l' _; exact .nil
    | succ fuel ih =>
      intro l l' h
      cases h with
      | nil => exact .nil
      | cons h t =>
        exact .cons (List.forall₂_take b (.cons h t)) (ih _ _ (List.forall₂_drop b (.cons h t)))
  unfold chunks
  rw [h.length_eq]
  exact this _ _ _ h

/-! ### Batches in double precision -/

section
variable {R L : Type}

theorem inDouble_ok {B : Complex R L} (h : B.Runs) {d : Nat} (hd : d ≤ B.dimension) : inDouble B d = .ok () := by
  have hlt : d < B.cochains.length := by rw [h.len]; omega
  obtain ⟨x, hx, -⟩ := h.feat d _ (List.getElem?_eq_getElem hlt)
  unfold inDouble
  rw [List.getElem?_eq_getElem hlt]
  dsimp only
  rw [hx]

theorem inDouble_error {B : Complex R L} (h : B.Runs) {d : Nat} (hd : B.dimension < d) :
    inDouble B d = .error .attribute := by
  unfold inDouble
  rw [List.getElem?_eq_none_iff.mpr (by rw [h.len]; omega)]

variable [AddCommMonoid R]

/-- A batch of complexes, in double precision: it needs a two-cell. -/
theorem embedBatch_eq (forward : Complex R L → Py (List R)) {cs : List (Complex R L)} (hr : ∀ c ∈ cs, c.Ready)
    {B : Complex R L} (hB : fromComplexList cs 2 = .ok B) :
    ((∃ c ∈ cs, 2 ≤ c.dimension) → embedBatch forward B = forward B) ∧
      ((∀ c ∈ cs, c.dimension < 2) → embedBatch forward B = .error .attribute) := by
  have run := batch_runs hB hr
  obtain ⟨hle, top, htop, hd⟩ := batch_dim_le hB
  unfold embedBatch
  rw [inDouble_ok run (Nat.zero_le _), ok_bind]
  constructor
  · rintro ⟨c, hc, h2⟩
    have := batch_dim_ge hB hc
    rw [inDouble_ok run (by omega), ok_bind, inDouble_ok run (by omega), ok_bind]
  · intro h
    have := h top htop
    by_cases h1 : 1 ≤ B.dimension
    · rw [inDouble_ok run h1, ok_bind, inDouble_error run (by omega)]
      rfl
    · rw [inDouble_error run (by omega)]
      rfl

/-- All batches of a list of complexes. -/
theorem infer_double {forward : Complex R L → Py (List R)} {p : Complex R L → R} :
    ∀ {parts : List (List (Complex R L))},
    (∀ ds ∈ parts, ds ≠ [] ∧ (∀ c ∈ ds, c.Ready) ∧ (fromComplexList ds 2 >>= forward) = .ok (ds.map p)) → parts ≠ [] →
    ((∀ ds ∈ parts, ∃ c ∈ ds, 2 ≤ c.dimension) →
      (mapE (fun ds => fromComplexList ds 2) parts >>= infer (embedBatch forward)) = .ok (parts.flatten.map p)) ∧
    ((∃ ds ∈ parts, ∀ c ∈ ds, c.dimension < 2) →
      (mapE (fun ds => fromComplexList ds 2) parts >>= infer (embedBatch forward)) = .error .attribute) := by
  intro parts h hne
  have key : ∀ parts : List (List (Complex R L)), (∀ ds ∈ parts, ds ≠ [] ∧ (∀ c ∈ ds, c.Ready) ∧
      (fromComplexList ds 2 >>= forward) = .ok (ds.map p)) → ∃ batches, mapE (fun ds => fromComplexList ds 2) parts = .ok batches ∧
      batches.length = parts.length ∧
      ((∀ ds ∈ parts, ∃ c ∈ ds, 2 ≤ c.dimension) → mapE (embedBatch forward) batches = .ok (parts.map fun ds => ds.map p)) ∧
      ((∃ ds ∈ parts, ∀ c ∈ ds, c.dimension < 2) → mapE (embedBatch forward) batches = .error .attribute) := by
    intro parts
    induction parts with
    | nil => exact fun _ => ⟨[], rfl, rfl, fun _ => rfl, by simp⟩
    | cons ds parts ih =>
      intro h
      obtain ⟨batches, e1, e2, e3, e4⟩ := ih fun d hd => h d (by simp [hd])
      obtain ⟨-, hr, hf⟩ := h ds (by simp)
      obtain ⟨B, f1, f2⟩ := bind_eq_ok.mp hf
      obtain ⟨k1, k2⟩ := embedBatch_eq forward hr f1
      refine ⟨B :: batches, ?_, by simp [e2], ?_, ?_⟩
      · rw [mapE_cons, f1, ok_bind, e1, ok_bind]
      · intro hall
        rw [mapE_cons, k1 (hall ds (by simp)), f2, ok_bind, e3 fun d hd => hall d (by simp [hd]), ok_bind]
        rfl
      · intro hex
        rw [mapE_cons]
        by_cases h2 : ∃ c ∈ ds, 2 ≤ c.dimension
        · rw [k1 h2, f2, ok_bind, e4 ?_]
          · rfl
          · obtain ⟨d, hd, hlow⟩ := hex
            rcases List.mem_cons.mp hd with rfl | hd
            · obtain ⟨c, hc, hc2⟩ := h2
              have := hlow c hc
              omega
            · exact ⟨d, hd, hlow⟩
        · rw [k2 fun c hc => by
            by_contra hlt
            exact h2 ⟨c, hc, by omega⟩]
          rfl
  obtain ⟨batches, e1, e2, e3, e4⟩ := key parts h
  have hbn : batches ≠ [] := by
    rintro rfl
    exact hne (List.length_eq_zero_iff.mp e2.symm)
  rw [e1, ok_bind]
  unfold infer
  constructor
  · intro hall
    rw [e3 hall, ok_bind]
    unfold catRows
    rw [if_neg (by simpa using hne), ok_inj]
    rw [List.map_flatten]
  · intro hex
    rw [e4 hex]
    rfl

/-- The loader of a whole dataset, as the batches of what is read. -/
theorem wholeLoader_eq {order : List (List Nat) → List (List Nat)} (ho : ∀ l, (order l).Perm l)
    {cs : List (Complex R L)} (hne : cs ≠ []) {maxDim : Nat} (hs : Storable cs maxDim) {st : Storage R L}
    (hst : collate cs maxDim = .ok st) : ∃ cs', List.Forall₂ (fun c c' => c'.view = c.view ∧ c'.Ready ∧ 0 < c'.cellsIn 0 ∧
      c'.dimension = c.dimension) cs cs' ∧
      wholeLoader order ⟨st, none⟩ = mapE (fun ds => fromComplexList ds 2) (chunks 8 cs') := by
  have hl := (C37_length_is_the_number_of_complexes order ho cs maxDim st hst).1 (hs.hasAttribute hne)
  have hrr : ∀ i, cs.length ≤ i → st.read i = .error .index := fun i hi => read_range hst hi
  have hreads : ∀ (i : Nat) (c : Complex R L), cs[i]? = some c → ∃ c', st.read i = .ok c' ∧ c'.view = c.view ∧ c'.Ready ∧
      0 < c'.cellsIn 0 ∧ c'.dimension = c.dimension := by
    intro i c hi
    have hm := List.mem_of_getElem? hi
    have hr := hs.ready c hm
    have hf := hs.full c hm
    obtain ⟨c', h1, h2⟩ := C36_reading_gives_the_stored_complex cs maxDim st hst i c hi hr.valid (by
      intro k hk
      obtain ⟨d, hd⟩ := List.mem_iff_getElem?.mp hk
      left
      have hlt := (List.getElem?_eq_some_iff.mp hd).1
      rw [hr.valid.len] at hlt
      have := hf d (by omega)
      rw [count_of (count_of_valid hr.valid hd)]
      omega) (hs.small c hm) (fun a ha => hs.labels a ha c hm)
    refine ⟨c', h1, h2.view, h2.ready hr hf, ?_, ?_⟩
    · rw [h2.cellsIn]
      exact hf 0 (Nat.zero_le _)
    · have l1 := (h2.ready hr hf).valid.len
      have l2 := hr.valid.len
      have l3 := h2.len
      omega
  have hex : ∀ i, ∃ c' : Complex R L, i < cs.length → st.read i = .ok c' ∧ ∃ c, cs[i]? = some c ∧ c'.view = c.view ∧
      c'.Ready ∧ 0 < c'.cellsIn 0 ∧ c'.dimension = c.dimension := by
    intro i
    by_cases hi : i < cs.length
    · obtain ⟨c', h1, h2⟩ := hreads i _ (List.getElem?_eq_getElem hi)
      exact ⟨c', fun _ => ⟨h1, _, List.getElem?_eq_getElem hi, h2⟩⟩
    · exact ⟨cs.head hne, fun h => absurd h hi⟩
  choose rd hrd using hex
  refine ⟨(List.range cs.length).map rd, ?_, ?_⟩
  · rw [List.forall₂_iff_get]
    refine ⟨by simp, fun i hi hi' => ?_⟩
    obtain ⟨-, c, h1, h2⟩ := hrd i hi
    simp only [List.get_eq_getElem, List.getElem_map, List.getElem_range]
    rw [(List.getElem?_eq_some_iff.mp h1).2]
    exact h2
  · unfold wholeLoader
    show Dataset.load order 2 ⟨st, none⟩ (chunks 8 (List.range (st.len order))) = _
    rw [hl, loads_ok hl hrr _ _ rfl (by intro l hl; cases hl), chunks_map, mapE_map]
    refine mapE_congr fun p hp => ?_
    have hread : mapE st.read p = .ok (p.map rd) := by
      rw [mapE_eq_ok_iff, List.forall₂_map_right_iff, List.forall₂_same]
      intro i hi
      refine (hrd i (List.mem_range.mp ?_)).1
      rw [← (chunks_spec (by omega : 0 < 8) (List.range cs.length)).1]
      exact List.mem_flatten.mpr ⟨p, hp, hi⟩
    rw [hread, ok_bind]

end

/-! ### Rings in strongly regular graphs -/

theorem not_joined_self {edges : List (Nat × Nat)} (u : Nat) : ¬ Joined edges u u := fun h => h.1 rfl

theorem joined_iff_symm {edges : List (Nat × Nat)} {u v : Nat} : Joined edges u v ↔ Joined edges v u :=
  ⟨joined_comm, joined_comm⟩

theorem triangle_isRing {edges : List (Nat × Nat)} {a b c : Nat} (ab : Joined edges a b) (bc : Joined edges b c)
    (ca : Joined edges c a) : IsRing edges [a, b, c] where
  long := by simp
  nodup := by simp [ab.1, bc.1, ca.1.symm]
  joined := by
    have ba := joined_comm ab
    have cb := joined_comm bc
    have ac := joined_comm ca
    intro i j u v hu hv
    have hi : i < 3 := by simpa using lt_of_get hu
    have hj : j < 3 := by simpa using lt_of_get hv
    interval_cases i <;> interval_cases j <;> simp at hu hv <;> subst hu <;> subst hv <;>
      simp [Follows, not_joined_self, *]

theorem square_isRing {edges : List (Nat × Nat)} {a b c d : Nat} (ab : Joined edges a b) (bc : Joined edges b c)
    (cd : Joined edges c d) (da : Joined edges d a) (ac : ¬ Joined edges a c) (bd : ¬ Joined edges b d) (hac : a ≠ c)
    (hbd : b ≠ d) : IsRing edges [a, b, c, d] where
  long := by simp
  nodup := by simp [ab.1, bc.1, cd.1, da.1.symm, hac, hbd]
  joined := by
    have ba := joined_comm ab
    have cb := joined_comm bc
    have dc := joined_comm cd
    have ad := joined_comm da
    have ca : ¬ Joined edges c a := fun h => ac (joined_comm h)
    have db : ¬ Joined edges d b := fun h => bd (joined_comm h)
    intro i j u v hu hv
    have hi : i < 4 := by simpa using lt_of_get hu
    have hj : j < 4 := by simpa using lt_of_get hv
    interval_cases i <;> interval_cases j <;> simp at hu hv <;> subst hu <;> subst hv <;>
      simp [Follows, not_joined_self, *]

theorem pentagon_isRing {edges : List (Nat × Nat)} {a b c d e : Nat} (ab : Joined edges a b) (bc : Joined edges b c)
    (cd : Joined edges c d) (de : Joined edges d e) (ea : Joined edges e a) (ac : ¬ Joined edges a c)
    (ad : ¬ Joined edges a d) (bd : ¬ Joined edges b d) (be : ¬ Joined edges b e) (ce : ¬ Joined edges c e)
    (hac : a ≠ c) (had : a ≠ d) (hbd : b ≠ d) (hbe : b ≠ e) (hce : c ≠ e) : IsRing edges [a, b, c, d, e] where
  long := by simp
  nodup := by simp [ab.1, bc.1, cd.1, de.1, ea.1.symm, *]
  joined := by
    have ba := joined_comm ab
    have cb := joined_comm bc
    have dc := joined_comm cd
    have ed := joined_comm de
    have ae := joined_comm ea
    have ca : ¬ Joined edges c a := fun h => ac (joined_comm h)
    have da : ¬ Joined edges d a := fun h => ad (joined_comm h)
    have db : ¬ Joined edges d b := fun h => bd (joined_comm h)
    have eb : ¬ Joined edges e b := fun h => be (joined_comm h)
    have ec : ¬ Joined edges e c := fun h => ce (joined_comm h)
    intro i j u v hu hv
    have hi : i < 5 := by simpa using lt_of_get hu
    have hj : j < 5 := by simpa using lt_of_get hv
    interval_cases i <;> interval_cases j <;> simp at hu hv <;> subst hu <;> subst hv <;>
      simp [Follows, not_joined_self, *]

theorem mem_common {edges : List (Nat × Nat)} {size u v w : Nat} :
    w ∈ commonNeighbours edges size {u, v} ↔ w < size ∧ Joined edges u w ∧ Joined edges v w := by
  simp [commonNeighbours]

theorem mem_common_one {edges : List (Nat × Nat)} {size u w : Nat} :
    w ∈ commonNeighbours edges size {u} ↔ w < size ∧ Joined edges u w := by
  simp [commonNeighbours]

/-- A strongly regular graph whose nodes have at least two neighbours has an induced cycle of at most five nodes. -/
theorem regular_ring {edges : List (Nat × Nat)} {size k l m : Nat} (h : StronglyRegular edges size k l m)
    (hsize : 0 < size) (hk : 2 ≤ k) : ∃ r, IsRing edges r ∧ r.length ≤ 5 := by
  have two : ∀ u < size, ∀ a, ∃ b, b < size ∧ Joined edges u b ∧ b ≠ a := by
    intro u hu a
    have hcard := h.degree u hu
    obtain ⟨b, hb, hne⟩ := Finset.exists_mem_ne (s := commonNeighbours edges size {u}) (by omega) a
    obtain ⟨h1, h2⟩ := mem_common_one.mp hb
    exact ⟨b, h1, h2, hne⟩
  obtain ⟨a, ha, ua, -⟩ := two 0 hsize 0
  obtain ⟨b, hb, ub, hab⟩ := two 0 hsize a
  generalize hu : (0 : Nat) = u at *
  have hus : u < size := by omega
  by_cases hl : ∃ x y z, Joined edges x y ∧ Joined edges y z ∧ Joined edges z x
  · obtain ⟨x, y, z, h1, h2, h3⟩ := hl
    exact ⟨_, triangle_isRing h1 h2 h3, by simp⟩
  have none : ∀ {x y z}, Joined edges x y → Joined edges y z → ¬ Joined edges z x :=
    fun h1 h2 h3 => hl ⟨_, _, _, h1, h2, h3⟩
  have nab : ¬ Joined edges a b := fun h' => none ua h' (joined_comm ub)
  have cab := h.apart a ha b hb hab.symm nab
  by_cases hm : 2 ≤ m
  · obtain ⟨v, hv, hne⟩ := Finset.exists_mem_ne (s := commonNeighbours edges size {a, b}) (by omega) u
    obtain ⟨-, av, bv⟩ := mem_common.mp hv
    refine ⟨_, square_isRing ua av (joined_comm bv) (joined_comm ub) (fun h' => none ua av (joined_comm h')) nab hne.symm
      hab.symm, by simp⟩
  · obtain ⟨c, hc, ac, hcu⟩ := two a ha u
    have hcb : c ≠ b := by
      rintro rfl
      exact nab ac
    have ncb : ¬ Joined edges c b := by
      intro h'
      have : 1 < (commonNeighbours edges size {a, b}).card :=
        Finset.one_lt_card.mpr ⟨u, mem_common.mpr ⟨hus, joined_comm ua, joined_comm ub⟩, c,
          mem_common.mpr ⟨hc, ac, joined_comm h'⟩, hcu.symm⟩
      omega
    have hpos : 0 < m := by
      rw [← cab]
      exact Finset.card_pos.mpr ⟨u, mem_common.mpr ⟨hus, joined_comm ua, joined_comm ub⟩⟩
    obtain ⟨d, hd⟩ := Finset.card_pos.mp (by rw [h.apart c hc b hb hcb ncb]; exact hpos)
    obtain ⟨-, cd, bd⟩ := mem_common.mp hd
    have nuc : ¬ Joined edges u c := fun h' => none ua ac (joined_comm h')
    have nad : ¬ Joined edges a d := fun h' => none ac cd (joined_comm h')
    have nud : ¬ Joined edges u d := fun h' => none ub bd (joined_comm h')
    refine ⟨_, pentagon_isRing ua ac cd (joined_comm bd) (joined_comm ub) nuc nud nad nab ncb hcu.symm ?_ ?_ hab.symm hcb,
      by simp⟩
    · rintro rfl
      exact nuc (joined_comm cd)
    · rintro rfl
      exact nab (joined_comm bd)

end Verif
