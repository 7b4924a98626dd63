import Verif.Spec.Lower
import Verif.Props.Colour
import Verif.Props.CellNet

/-!
# What lower neighbours show is seen without them
-/

namespace Verif

variable {R L A B C : Type}

/-! ### Pairing off is an equivalence -/

theorem Matched.symm {rel : A → B → Prop} {l : List A} {m : List B} (h : Matched rel l m) :
    Matched (fun b a => rel a b) m l := by
  obtain ⟨m', hp, hf⟩ := h
  have hf2 : List.Forall₂ (fun b a => rel a b) m' l := by
    clear hp
    induction hf with
    | nil => exact .nil
    | cons h _ ih => exact .cons h ih
  obtain ⟨l', h1, h2⟩ := List.perm_comp_forall₂ hp.symm hf2
  exact ⟨l', h2, h1⟩

theorem Matched.trans {rel : A → B → Prop} {rel' : B → C → Prop} {l : List A} {m : List B} {k : List C}
    (h : Matched rel l m) (h' : Matched rel' m k) : Matched (fun a c => ∃ b, rel a b ∧ rel' b c) l k := by
  obtain ⟨m', hp, hf⟩ := h
  obtain ⟨k', hk, hf'⟩ := h'
  obtain ⟨k2, h1, h2⟩ := List.perm_comp_forall₂ hp hf'
  refine ⟨k2, h2.trans hk, ?_⟩
  clear hp hf' h2 hk
  induction hf generalizing k2 with
  | nil => cases h1; exact .nil
  | cons h _ ih =>
    cases h1 with
    | cons h' t => exact .cons ⟨_, h, h'⟩ (ih _ t)

theorem Matched.same {rel : A → A → Prop} {l : List A} (h : ∀ a ∈ l, rel a a) : Matched rel l l :=
  ⟨l, .refl l, List.forall₂_same.mpr h⟩

theorem Matched.flatMap {A' B' : Type} {rel : A → B → Prop} {rel' : A' → B' → Prop} {l : List A} {m : List B}
    {f : A → List A'} {g : B → List B'} (h : Matched rel l m)
    (hfg : ∀ a ∈ l, ∀ b ∈ m, rel a b → Matched rel' (f a) (g b)) : Matched rel' (l.flatMap f) (m.flatMap g) := by
  obtain ⟨m', hp, hf⟩ := h
  have hm : ∀ b ∈ m', b ∈ m := fun b hb => hp.mem_iff.mp hb
  obtain ⟨k, h1, h2⟩ : Matched rel' (l.flatMap f) (m'.flatMap g) := by
    clear hp
    induction hf with
    | nil => exact .nil _
    | @cons a b l m' hab _ ih =>
      obtain ⟨k1, h1, h2⟩ := hfg a (by simp) b (hm b (by simp)) hab
      obtain ⟨k2, h3, h4⟩ := ih (fun a ha => hfg a (by simp [ha])) fun b hb => hm b (by simp [hb])
      rw [List.flatMap_cons, List.flatMap_cons]
      exact ⟨k1 ++ k2, h1.append h3, List.rel_append h2 h4⟩
  exact ⟨k, h1.trans (hp.flatMap_right g), h2⟩

theorem Matched.perm {rel : A → B → Prop} {l l' : List A} {m m' : List B} (h : Matched rel l m)
    (hl : l'.Perm l) (hm : m.Perm m') : Matched rel l' m' := by
  obtain ⟨k, h1, h2⟩ := h
  obtain ⟨k', h3, h4⟩ := List.perm_comp_forall₂ hl h2
  exact ⟨k', (h4.trans h1).trans hm, h3⟩

theorem Matched.map {A' B' : Type} {rel : A' → B' → Prop} {l : List A} {m : List B} {f : A → A'} {g : B → B'}
    (h : Matched (fun a b => rel (f a) (g b)) l m) : Matched rel (l.map f) (m.map g) := by
  obtain ⟨k, h1, h2⟩ := h
  exact ⟨k.map g, h1.map g, by rw [List.forall₂_map_left_iff, List.forall₂_map_right_iff]; exact h2⟩

/-! ### Having the same colour is an equivalence -/

theorem SameColour.symm {lower : Bool} {v w : View R} {n d c e : Nat} (h : SameColour lower v w n d c e) :
    SameColour lower w v n d e c := by
  induction n generalizing d c e with
  | zero => obtain ⟨x, h1, h2⟩ := h; exact ⟨x, h2, h1⟩
  | succ n ih =>
    obtain ⟨h0, hu, hd, hb⟩ := h
    exact ⟨ih h0, hu.symm.mono fun _ _ _ _ h => ⟨ih h.1, ih h.2⟩,
      fun e => (hd e).symm.mono fun _ _ _ _ h => ⟨ih h.1, ih h.2⟩, hb.symm.mono fun _ _ _ _ h => ih h⟩

theorem SameColour.trans {lower : Bool} {u v w : View R} {n d a c e : Nat} (h : SameColour lower u v n d a c)
    (h' : SameColour lower v w n d c e) : SameColour lower u w n d a e := by
  induction n generalizing d a c e with
  | zero =>
    obtain ⟨x, h1, h2⟩ := h
    obtain ⟨y, h3, h4⟩ := h'
    have : x = y := by simpa [h2] using h3
    exact ⟨x, h1, this ▸ h4⟩
  | succ n ih =>
    obtain ⟨h0, hu, hd, hb⟩ := h
    obtain ⟨h0', hu', hd', hb'⟩ := h'
    exact ⟨ih h0 h0', (hu.trans hu').mono fun _ _ _ _ ⟨_, h, h'⟩ => ⟨ih h.1 h'.1, ih h.2 h'.2⟩,
      fun e => ((hd e).trans (hd' e)).mono fun _ _ _ _ ⟨_, h, h'⟩ => ⟨ih h.1 h'.1, ih h.2 h'.2⟩,
      (hb.trans hb').mono fun _ _ _ _ ⟨_, h, h'⟩ => ih h h'⟩

theorem SameColour.refl (lower : Bool) {v : View R} (hv : v.InRange) (n : Nat) {d c : Nat}
    (hc : c < (v.X d).length) : SameColour lower v v n d c c := by
  induction n generalizing d c with
  | zero => exact ⟨(v.X d)[c], List.getElem?_eq_getElem hc, List.getElem?_eq_getElem hc⟩
  | succ n ih =>
    refine ⟨ih hc, .same fun p hp => ?_, fun _ => .same fun p hp => ?_, .same fun p hp => ?_⟩
    · have := hv.up d p (List.mem_of_mem_filter hp)
      exact ⟨ih this.1, ih this.2.2⟩
    · have := hv.down d p (List.mem_of_mem_filter hp)
      refine ⟨ih this.1, ih ?_⟩
      cases d with
      | zero => simp [View.below] at this
      | succ d => exact this.2.2
    · have := (hv.bnd d p (List.mem_of_mem_filter hp)).1
      apply ih
      cases d with
      | zero => simp [View.below] at this
      | succ d => exact this

/-- The colour of a cell after `n` rounds without lower neighbours: the cells that have it. -/
def colourOf (n d : Nat) (v : View R) (c : Nat) : Set (View R × Nat) := {q | SameColour false v q.1 n d c q.2}

theorem colourOf_eq {v w : View R} {n d c e : Nat} (h : SameColour false v w n d c e) :
    colourOf n d v c = colourOf n d w e := by
  ext q
  exact ⟨fun hq => h.symm.trans hq, fun hq => h.trans hq⟩

theorem sameColour_of_eq {v w : View R} {n d c e : Nat} (hw : w.InRange) (he : e < (w.X d).length)
    (h : colourOf n d v c = colourOf n d w e) : SameColour false v w n d c e := by
  have : (w, e) ∈ colourOf n d w e := SameColour.refl false hw n he
  rw [← h] at this
  exact this

/-! ### Faces and cofaces -/

/-- The faces of cell `c` of dimension `d`. -/
def View.facesAt (v : View R) (d c : Nat) : List Nat := ((v.bnd d).filter fun p => p.2 == c).map Prod.fst

/-- The cells of dimension `d + 1` that have cell `b` as a face. -/
def View.cofacesAt (v : View R) (d b : Nat) : List Nat := ((v.bnd (d + 1)).filter fun p => p.1 == b).map Prod.snd

theorem mem_facesAt {v : View R} {d c b : Nat} : b ∈ v.facesAt d c ↔ (b, c) ∈ v.bnd d := by
  unfold View.facesAt
  simp only [List.mem_map, List.mem_filter, beq_iff_eq, Prod.exists, exists_and_right, exists_eq_right]

theorem mem_cofacesAt {v : View R} {d b p : Nat} : p ∈ v.cofacesAt d b ↔ (b, p) ∈ v.bnd (d + 1) := by
  unfold View.cofacesAt
  simp only [List.mem_map, List.mem_filter, beq_iff_eq, Prod.exists, exists_eq_right]

namespace View.FromFaces

variable {v w : View R}

theorem facesNodup (h : v.FromFaces) (d c : Nat) : (v.facesAt d c).Nodup := by
  refine List.Nodup.map_on ?_ ((h.bndNodup d).filter _)
  rintro ⟨a, p⟩ ha ⟨b, q⟩ hb e
  simp only [List.mem_filter, beq_iff_eq] at ha hb
  simp only at e
  rw [e, ha.2, hb.2]

theorem cofacesNodup (h : v.FromFaces) (d b : Nat) : (v.cofacesAt d b).Nodup := by
  refine List.Nodup.map_on ?_ ((h.bndNodup (d + 1)).filter _)
  rintro ⟨a, p⟩ ha ⟨b, q⟩ hb e
  simp only [List.mem_filter, beq_iff_eq] at ha hb
  simp only at e
  rw [e, ha.2, hb.2]

/-- The upper neighbours of a cell: for each coface, the other faces of it. -/
theorem up_perm (h : v.FromFaces) (d b : Nat) : ((v.up d).filter fun p => p.1.2 == b).Perm
    ((v.cofacesAt d b).flatMap fun c => ((v.facesAt (d + 1) c).filter (· ≠ b)).map fun a => ((a, b), c)) := by
  rw [List.perm_ext_iff_of_nodup ((h.upNodup d).filter _)]
  · rintro ⟨⟨a, b'⟩, c⟩
    simp only [List.mem_filter, beq_iff_eq, h.up, List.mem_flatMap, List.mem_map, mem_cofacesAt, mem_facesAt,
      decide_eq_true_eq, Prod.mk.injEq]
    constructor
    · rintro ⟨⟨h1, h2, h3⟩, rfl⟩
      exact ⟨c, h3, a, ⟨h2, h1⟩, ⟨rfl, rfl⟩, rfl⟩
    · rintro ⟨c', h3, a', ⟨h2, h1⟩, ⟨rfl, rfl⟩, rfl⟩
      exact ⟨⟨h1, h2, h3⟩, rfl⟩
  · rw [List.nodup_flatMap]
    refine ⟨fun c _ => (((h.facesNodup (d + 1) c).filter _).map fun a a' e => ?_), ?_⟩
    · simpa using e
    · refine (h.cofacesNodup d b).imp ?_
      intro c c' hne
      simp only [Function.onFun]
      intro q h1 h2
      obtain ⟨x, -, rfl⟩ := List.mem_map.mp h1
      obtain ⟨y, -, e⟩ := List.mem_map.mp h2
      simp only [Prod.mk.injEq] at e
      exact hne e.2.symm

/-- The lower neighbours of a cell: for each face, the other cofaces of it. -/
theorem down_perm (h : v.FromFaces) (d c : Nat) : ((v.down (d + 1)).filter fun p => p.1.2 == c).Perm
    ((v.facesAt (d + 1) c).flatMap fun b => ((v.cofacesAt d b).filter (· ≠ c)).map fun a => ((a, c), b)) := by
  rw [List.perm_ext_iff_of_nodup ((h.downNodup (d + 1)).filter _)]
  · rintro ⟨⟨a, c'⟩, b⟩
    simp only [List.mem_filter, beq_iff_eq, h.down, List.mem_flatMap, List.mem_map, mem_cofacesAt, mem_facesAt,
      decide_eq_true_eq, Prod.mk.injEq]
    constructor
    · rintro ⟨⟨h1, h2, h3⟩, rfl⟩
      exact ⟨b, h3, a, ⟨h2, h1⟩, ⟨rfl, rfl⟩, rfl⟩
    · rintro ⟨b', h3, a', ⟨h2, h1⟩, ⟨rfl, rfl⟩, rfl⟩
      exact ⟨⟨h1, h2, h3⟩, rfl⟩
  · rw [List.nodup_flatMap]
    refine ⟨fun b _ => (((h.cofacesNodup d b).filter _).map fun a a' e => ?_), ?_⟩
    · simpa using e
    · refine (h.facesNodup (d + 1) c).imp ?_
      intro b b' hne
      simp only [Function.onFun]
      intro q h1 h2
      obtain ⟨x, -, rfl⟩ := List.mem_map.mp h1
      obtain ⟨y, -, e⟩ := List.mem_map.mp h2
      simp only [Prod.mk.injEq] at e
      exact hne e.2.symm

theorem perm_cons_filter {l : List Nat} (hn : l.Nodup) {a : Nat} (ha : a ∈ l) :
    l.Perm (a :: l.filter (· ≠ a)) := by
  have h1 := List.perm_cons_erase ha
  rw [hn.erase_eq_filter] at h1
  have e : (fun x => x != a) = fun x : Nat => decide (x ≠ a) := by
    funext x
    by_cases hx : x = a <;> simp [hx]
  rwa [e] at h1

theorem others_length (h : v.FromFaces) {d b c : Nat} (hb : (b, c) ∈ v.bnd d) :
    ((v.facesAt d c).filter (· ≠ b)).length + 1 = (v.facesAt d c).length := by
  have := (perm_cons_filter (h.facesNodup d c) (mem_facesAt.mpr hb)).length_eq
  simpa using this.symm

theorem others_pos (h : v.FromFaces) {d b c : Nat} (hb : (b, c) ∈ v.bnd d) :
    0 < ((v.facesAt d c).filter (· ≠ b)).length := by
  obtain ⟨b', h1, h2⟩ := h.two d b c hb
  exact List.length_pos_of_mem (List.mem_filter.mpr ⟨mem_facesAt.mpr h2, by simpa using h1⟩)

/-- How many upper neighbours of a cell come with a shared cell of colour `K`. -/
theorem count_up [DecidableEq C] (h : v.FromFaces) (d b : Nat) (col : Nat → C) (K : C) :
    (((v.up d).filter fun p => p.1.2 == b).map fun p => col p.2).count K =
      ((v.cofacesAt d b).map fun c =>
        if col c = K then ((v.facesAt (d + 1) c).filter (· ≠ b)).length else 0).sum := by
  rw [((h.up_perm d b).map _).count_eq, List.map_flatMap, List.count_flatMap]
  congr 1
  refine List.map_congr_left fun c _ => ?_
  simp only [Function.comp_apply, List.map_map]
  rw [show ((fun p : (Nat × Nat) × Nat => col p.2) ∘ fun a => ((a, b), c)) = fun _ => col c from rfl,
    List.map_const', List.count_replicate]
  by_cases hK : col c = K <;> simp [hK]

end View.FromFaces

theorem sum_same {A : Type} {l : List A} {p : A → Prop} [DecidablePred p] {f : A → Nat} {k : Nat}
    (h : ∀ a ∈ l, p a → f a = k) : (l.map fun a => if p a then f a else 0).sum = l.countP (fun a => p a) * k := by
  induction l with
  | nil => simp
  | cons a l ih =>
    rw [List.map_cons, List.sum_cons, ih fun b hb => h b (by simp [hb]), List.countP_cons]
    by_cases ha : p a
    · rw [if_pos ha, h a (by simp) ha]; simp [ha]; ring
    · simp [ha]

/-- Cells of the same colour have cofaces of the same colours, with multiplicities: a coface is counted once for
each of its other faces, and its colour says how many it has. -/
theorem cofaces_matched {v w : View R} (hv : v.FromFaces) (hw : w.FromFaces) {m d b b' : Nat}
    (hk : ∀ p p', SameColour false v w m (d + 1) p p' →
      (v.facesAt (d + 1) p).length = (w.facesAt (d + 1) p').length)
    (hkv : ∀ p p', SameColour false v v m (d + 1) p p' →
      (v.facesAt (d + 1) p).length = (v.facesAt (d + 1) p').length)
    (hkw : ∀ p p', SameColour false w w m (d + 1) p p' →
      (w.facesAt (d + 1) p).length = (w.facesAt (d + 1) p').length)
    (h : SameColour false v w (m + 1) d b b') :
    ((v.cofacesAt d b).map (colourOf m (d + 1) v)).Perm ((w.cofacesAt d b').map (colourOf m (d + 1) w)) := by
  classical
  have hup : (((v.up d).filter fun p => p.1.2 == b).map fun p => colourOf m (d + 1) v p.2).Perm
      (((w.up d).filter fun p => p.1.2 == b').map fun p => colourOf m (d + 1) w p.2) :=
    h.2.1.map_perm fun p _ q _ hpq => colourOf_eq hpq.2
  have ltv : ∀ p, (b, p) ∈ v.bnd (d + 1) → p < (v.X (d + 1)).length := fun p hp => (hv.inRange.bnd _ _ hp).2
  have ltw : ∀ p, (b', p) ∈ w.bnd (d + 1) → p < (w.X (d + 1)).length := fun p hp => (hw.inRange.bnd _ _ hp).2
  rw [List.perm_iff_count]
  intro K
  have hcount := hup.count_eq K
  rw [hv.count_up d b (colourOf m (d + 1) v) K, hw.count_up d b' (colourOf m (d + 1) w) K] at hcount
  -- all cofaces of colour `K` have the same number of other faces
  have key : ∃ k, 0 < k ∧ (∀ p ∈ v.cofacesAt d b, colourOf m (d + 1) v p = K →
      ((v.facesAt (d + 1) p).filter (· ≠ b)).length = k) ∧
      ∀ p ∈ w.cofacesAt d b', colourOf m (d + 1) w p = K → ((w.facesAt (d + 1) p).filter (· ≠ b')).length = k := by
    by_cases h1 : ∃ p ∈ v.cofacesAt d b, colourOf m (d + 1) v p = K
    · obtain ⟨p, hp, hK⟩ := h1
      have hp' := mem_cofacesAt.mp hp
      refine ⟨_, hv.others_pos hp', fun q hq hKq => ?_, fun q hq hKq => ?_⟩
      · have hq' := mem_cofacesAt.mp hq
        have := hkv q p (sameColour_of_eq hv.inRange (ltv p hp') (hKq.trans hK.symm))
        have e1 := hv.others_length hp'
        have e2 := hv.others_length hq'
        omega
      · have hq' := mem_cofacesAt.mp hq
        have := hk p q (sameColour_of_eq hw.inRange (ltw q hq') (hK.trans hKq.symm))
        have e1 := hv.others_length hp'
        have e2 := hw.others_length hq'
        omega
    · by_cases h2 : ∃ p ∈ w.cofacesAt d b', colourOf m (d + 1) w p = K
      · obtain ⟨p, hp, hK⟩ := h2
        have hp' := mem_cofacesAt.mp hp
        refine ⟨_, hw.others_pos hp', fun q hq hKq => (h1 ⟨q, hq, hKq⟩).elim, fun q hq hKq => ?_⟩
        have hq' := mem_cofacesAt.mp hq
        have := hkw q p (sameColour_of_eq hw.inRange (ltw p hp') (hKq.trans hK.symm))
        have e1 := hw.others_length hp'
        have e2 := hw.others_length hq'
        omega
      · exact ⟨1, Nat.one_pos, fun q hq hKq => (h1 ⟨q, hq, hKq⟩).elim, fun q hq hKq => (h2 ⟨q, hq, hKq⟩).elim⟩
  obtain ⟨k, hk0, hkv', hkw'⟩ := key
  rw [sum_same hkv', sum_same hkw'] at hcount
  have := Nat.eq_of_mul_eq_mul_right hk0 hcount
  rw [List.count_eq_countP, List.count_eq_countP, List.countP_map, List.countP_map]
  convert this using 2 <;>
  · funext x
    exact Bool.beq_eq_decide_eq _ _

theorem faces_length {lower : Bool} {v w : View R} {m d p q : Nat} (h : SameColour lower v w (m + 1) d p q) :
    (v.facesAt d p).length = (w.facesAt d q).length := by
  unfold View.facesAt
  rw [List.length_map, List.length_map]
  exact matched_length h.2.2.2

/-- Lower neighbours are seen two rounds later without looking at them. -/
theorem SameColour.raise_aux {v w : View R} (hv : v.FromFaces) (hw : w.FromFaces) (s : Nat)
    (hk : ∀ (u u' : View R), (u = v ∨ u = w) → (u' = v ∨ u' = w) → ∀ d p p', SameColour false u u' s (d + 1) p p' →
      (u.facesAt (d + 1) p).length = (u'.facesAt (d + 1) p').length) {n d c e : Nat}
    (h : SameColour false v w (2 * n + s) d c e) : SameColour true v w n d c e := by
  induction n generalizing d c e with
  | zero => exact h.zero
  | succ n ih =>
    have e1 : 2 * (n + 1) + s = (2 * n + s + 1) + 1 := by ring
    rw [e1] at h
    obtain ⟨h0, hu, -, hb⟩ := h
    refine ⟨ih (h0.le (by omega)), hu.mono fun _ _ _ _ h => ⟨ih (h.1.le (by omega)), ih (h.2.le (by omega))⟩, fun _ => ?_,
      hb.mono fun _ _ _ _ h => ih (h.le (by omega))⟩
    cases d with
    | zero =>
      have hn : ∀ u : View R, u.FromFaces → u.down 0 = [] := by
        intro u hu
        rw [List.eq_nil_iff_forall_not_mem]
        intro p hp
        have := (hu.inRange.down 0 p hp).2.2
        simp [View.below] at this
      rw [hn v hv, hn w hw]
      exact .nil _
    | succ d =>
      refine Matched.perm ?_ (hv.down_perm d c) (hw.down_perm d e).symm
      have hb' : Matched (SameColour false v w (2 * n + s + 1) d) (v.facesAt (d + 1) c) (w.facesAt (d + 1) e) :=
        Matched.map hb
      refine hb'.flatMap fun b hbm b' hbm' hbb => Matched.map ?_
      have hle : ∀ {u u' : View R} {p p' : Nat}, SameColour false u u' (2 * n + s) (d + 1) p p' →
          SameColour false u u' s (d + 1) p p' := fun h => h.le (by omega)
      have hp := cofaces_matched hv hw (fun p p' h => hk v w (.inl rfl) (.inr rfl) d p p' (hle h))
        (fun p p' h => hk v v (.inl rfl) (.inl rfl) d p p' (hle h))
        (fun p p' h => hk w w (.inr rfl) (.inr rfl) d p p' (hle h)) hbb
      have hc := mem_cofacesAt.mpr (mem_facesAt.mp hbm)
      have he := mem_cofacesAt.mpr (mem_facesAt.mp hbm')
      have p1 := View.FromFaces.perm_cons_filter (hv.cofacesNodup d b) hc
      have p2 := View.FromFaces.perm_cons_filter (hw.cofacesNodup d b') he
      have hce : colourOf (2 * n + s) (d + 1) v c = colourOf (2 * n + s) (d + 1) w e :=
        colourOf_eq (h0.le (by omega))
      have hp2 := ((p1.map (colourOf (2 * n + s) (d + 1) v)).symm.trans hp).trans (p2.map _)
      rw [List.map_cons, List.map_cons, hce] at hp2
      refine (matched_of_map_perm hp2.cons_inv).mono fun a _ a' ha' haa => ?_
      have ha2 := (hw.inRange.bnd _ _ (mem_cofacesAt.mp (List.mem_of_mem_filter ha'))).2
      exact ⟨ih (sameColour_of_eq hw.inRange ha2 haa), ih (hbb.le (by omega))⟩

/-- Without lower neighbours and with one round more than twice as many, the refinement sees what it sees with
them. -/
theorem SameColour.raise {v w : View R} (hv : v.FromFaces) (hw : w.FromFaces) {n d c e : Nat}
    (h : SameColour false v w (2 * n + 1) d c e) : SameColour true v w n d c e :=
  h.raise_aux hv hw 1 fun _ _ _ _ _ _ _ h => faces_length h

/-! ### Lifted graphs -/

theorem fromFaces_of_upTo {v : View R} (h : ∀ m, (v.upTo m).FromFaces) : v.FromFaces := by
  have hX : ∀ d m, d ≤ m → (v.upTo m).X d = v.X d := fun d m hd => if_pos hd
  have hu : ∀ d, (v.upTo (d + 1)).up d = v.up d := fun d => if_pos (Nat.le_refl _)
  have hd : ∀ d m, d ≤ m → (v.upTo m).down d = v.down d := fun d m hd => if_pos hd
  have hb : ∀ d m, d ≤ m → (v.upTo m).bnd d = v.bnd d := fun d m hd => if_pos hd
  have hbel : ∀ d m, d ≤ m → (v.upTo m).below d = v.below d := by
    intro d m hdm
    cases d with
    | zero => rfl
    | succ d => exact hX d m (by omega)
  constructor
  · constructor
    · intro d p hp
      rw [← hu d] at hp
      have := (h (d + 1)).inRange.up d p hp
      rwa [hX d _ (by omega), hX (d + 1) _ (by omega)] at this
    · intro d p hp
      rw [← hd d d (by omega)] at hp
      have := (h d).inRange.down d p hp
      rwa [hX d _ (by omega), hbel d _ (by omega)] at this
    · intro d p hp
      rw [← hb d d (by omega)] at hp
      have := (h d).inRange.bnd d p hp
      rwa [hX d _ (by omega), hbel d _ (by omega)] at this
  · intro d
    rw [← hb d d (by omega)]
    exact (h d).bndNodup d
  · intro d
    rw [← hu d]
    exact (h (d + 1)).upNodup d
  · intro d a b c
    rw [← hu d, ← hb (d + 1) (d + 1) (by omega)]
    exact (h (d + 1)).up d a b c
  · intro d
    rw [← hd d d (by omega)]
    exact (h d).downNodup d
  · intro d a b c
    rw [← hd d d (by omega), ← hb d d (by omega)]
    exact (h d).down d a b c
  · intro d b c
    rw [← hb d d (by omega)]
    exact (h d).two d b c

/-- Every cell that has a face has another one. -/
def Cells.TwoFaces (K : Cells) : Prop :=
  ∀ d, ∀ t ∈ K (d + 1), ∀ s ∈ K d, s ⊆ t → ∃ s' ∈ K d, s' ≠ s ∧ s' ⊆ t

theorem Cells.TwoFaces.upTo {K : Cells} (h : K.TwoFaces) (m : Nat) : (K.upTo m).TwoFaces := by
  intro d t ht s hs hst
  unfold Cells.upTo at ht hs ⊢
  split at ht
  · next hd =>
    rw [if_pos (by omega)] at hs ⊢
    exact h d t ht s hs hst
  · simp at ht

theorem Shows.fromFaces [AddCommMonoid R] {v : View R} {cells : Nat → List (Finset Nat)} {h : Nat → Finset Nat → R}
    (hv : Shows v true cells h) (htwo : (setsOf cells).TwoFaces) : v.FromFaces := by
  have hX : ∀ (d a : Nat) (s : Finset Nat), (cells d)[a]? = some s → a < (v.X d).length := by
    intro d a s e
    rw [hv.X, List.length_map]
    exact (List.getElem?_eq_some_iff.mp e).1
  refine ⟨⟨?_, ?_, ?_⟩, hv.bndNodup, hv.upNodup, ?_, hv.downNodup, ?_, ?_⟩
  · rintro d ⟨⟨a, b⟩, c⟩ hp
    obtain ⟨-, s, t, u, e1, e2, e3, -⟩ := (hv.up d a b c).mp hp
    exact ⟨hX d a s e1, hX d b t e2, hX (d + 1) c u e3⟩
  · rintro d ⟨⟨a, b⟩, c⟩ hp
    cases d with
    | zero => rw [hv.down0] at hp; simp at hp
    | succ d =>
      obtain ⟨-, -, s, t, u, e1, e2, e3, -⟩ := (hv.down d a b c).mp hp
      exact ⟨hX (d + 1) a s e1, hX (d + 1) b t e2, hX d c u e3⟩
  · rintro d ⟨a, c⟩ hp
    cases d with
    | zero => rw [hv.bnd0] at hp; simp at hp
    | succ d =>
      obtain ⟨s, t, e1, e2, -⟩ := (hv.bnd d a c).mp hp
      exact ⟨hX d a s e1, hX (d + 1) c t e2⟩
  · intro d a b c
    rw [hv.up, hv.bnd, hv.bnd]
    constructor
    · rintro ⟨hne, s, t, u, e1, e2, e3, f1, f2⟩
      exact ⟨hne, ⟨s, u, e1, e3, f1⟩, t, u, e2, e3, f2⟩
    · rintro ⟨hne, ⟨s, u, e1, e3, f1⟩, t, u', e2, e3', f2⟩
      have : u = u' := by simpa [e3] using e3'
      subst this
      exact ⟨hne, s, t, u, e1, e2, e3, f1, f2⟩
  · intro d a b c
    cases d with
    | zero => rw [hv.down0, hv.bnd0]; simp
    | succ d =>
      rw [hv.down, hv.bnd, hv.bnd]
      constructor
      · rintro ⟨-, hne, s, t, u, e1, e2, e3, f1, f2⟩
        exact ⟨hne, ⟨u, s, e3, e1, f1⟩, u, t, e3, e2, f2⟩
      · rintro ⟨hne, ⟨u, s, e3, e1, f1⟩, u', t, e3', e2, f2⟩
        have : u = u' := by simpa [e3] using e3'
        subst this
        exact ⟨rfl, hne, s, t, u, e1, e2, e3, f1, f2⟩
  · intro d b c hp
    cases d with
    | zero => rw [hv.bnd0] at hp; simp at hp
    | succ d =>
      obtain ⟨s, t, e1, e2, f⟩ := (hv.bnd d b c).mp hp
      obtain ⟨s', m1, hne, f'⟩ := htwo d t (mem_setsOf.mpr ⟨c, e2⟩) s (mem_setsOf.mpr ⟨b, e1⟩) f
      obtain ⟨b', e3⟩ := mem_setsOf.mp m1
      refine ⟨b', ?_, (hv.bnd d b' c).mpr ⟨s', t, e3, e2, f'⟩⟩
      rintro rfl
      exact hne (by simpa [e3] using e1)

theorem twoFaces_cliques (edges : List (Nat × Nat)) (size k : Nat) : (cliqueSets edges size k).TwoFaces := by
  classical
  intro d t ht s hs hst
  unfold cliqueSets at ht hs ⊢
  split at ht
  · next hd =>
    rw [if_pos (by omega)] at hs ⊢
    rw [Finset.mem_filter, Finset.mem_powersetCard] at ht hs
    obtain ⟨a, ha⟩ : s.Nonempty := by rw [← Finset.card_pos]; omega
    obtain ⟨b, hb, hbs⟩ : ∃ b ∈ t, b ∉ s := by
      by_contra hcon
      push Not at hcon
      have := Finset.card_le_card (show t ⊆ s from hcon)
      omega
    refine ⟨t.erase a, Finset.mem_filter.mpr ⟨Finset.mem_powersetCard.mpr ⟨(Finset.erase_subset _ _).trans ht.1.1, ?_⟩,
      fun u hu v hv => ht.2 u (Finset.mem_of_mem_erase hu) v (Finset.mem_of_mem_erase hv)⟩, ?_, Finset.erase_subset _ _⟩
    · rw [Finset.card_erase_of_mem (hst ha)]
      omega
    · intro e
      rw [← e] at hbs
      exact hbs (Finset.mem_erase.mpr ⟨fun h => (e ▸ hbs) (h ▸ ha), hb⟩)
  · simp at ht

theorem twoFaces_rings {edges : List (Nat × Nat)} {size : Nat} (he : EdgesIn edges size) (maxK : Nat) :
    (ringSets edges size maxK).TwoFaces := by
  classical
  obtain ⟨-, h1, h2⟩ := C85_neighbourhoods edges size maxK he
  intro d t ht s hs hst
  match d with
  | 0 =>
    simp only [ringSets, Finset.mem_filter, Finset.mem_powerset] at ht
    obtain ⟨-, u, v, hj, rfl⟩ := ht
    have hf := (h1 u v hj).2
    have hm : ∀ f, f ∈ ringSets edges size maxK 0 ∧ f ⊆ {u, v} ↔ f = {u} ∨ f = {v} := by
      intro f
      have : f ∈ (ringSets edges size maxK).facesOf 1 {u, v} ↔ f ∈ ({{u}, {v}} : Finset (Finset Nat)) := by rw [hf]
      simpa [Cells.facesOf] using this
    have huv : ({u} : Finset Nat) ≠ {v} := fun e => hj.1 (Finset.singleton_inj.mp e)
    rcases (hm s).mp ⟨hs, hst⟩ with rfl | rfl
    · obtain ⟨a, b⟩ := (hm {v}).mpr (.inr rfl)
      exact ⟨{v}, a, huv.symm, b⟩
    · obtain ⟨a, b⟩ := (hm {u}).mpr (.inl rfl)
      exact ⟨{u}, a, huv, b⟩
  | 1 =>
    simp only [ringSets, Finset.mem_filter, Finset.mem_powerset] at ht
    obtain ⟨-, r, hr, hle, rfl⟩ := ht
    have hm := (h2 r hr hle).2
    have hlen := hr.long
    have e0 := List.getElem?_eq_getElem (l := r) (i := 0) (by omega)
    have e1 := List.getElem?_eq_getElem (l := r) (i := 1) (by omega)
    have e2 := List.getElem?_eq_getElem (l := r) (i := 2) (by omega)
    have m1 := (hm {r[0], r[1]}).mpr ⟨0, 1, _, _, .inl rfl, e0, e1, rfl⟩
    have m2 := (hm {r[1], r[2]}).mpr ⟨1, 2, _, _, .inl rfl, e1, e2, rfl⟩
    have hne : ({r[0], r[1]} : Finset Nat) ≠ {r[1], r[2]} := by
      intro e
      have h0 : r[0] ∈ ({r[1], r[2]} : Finset Nat) := e ▸ Finset.mem_insert_self _ _
      rw [Finset.mem_insert, Finset.mem_singleton] at h0
      rcases h0 with h | h
      · have := (List.Nodup.getElem_inj_iff hr.nodup).mp h
        omega
      · have := (List.Nodup.getElem_inj_iff hr.nodup).mp h
        omega
    simp only [Cells.facesOf, Finset.mem_filter] at m1 m2
    by_cases hs1 : ({r[0], r[1]} : Finset Nat) = s
    · exact ⟨_, m2.1, fun e => hne (hs1.trans e.symm), m2.2⟩
    · exact ⟨_, m1.1, hs1, m1.2⟩
  | d + 2 => simp [ringSets] at ht

section
variable [AddCommMonoid R]

omit [AddCommMonoid R] in
theorem shown_length {v : View R} {cells : Nat → List (Finset Nat)} {h : Nat → Finset Nat → R} {K : Cells} {m : Nat}
    {b : Bool} (hv : Shows (v.upTo m) b cells h) (hK : setsOf cells = K.upTo m) {d : Nat} (hd : d ≤ m)
    (he : K d = ∅) : (v.X d).length = 0 := by
  have h1 : (v.upTo m).X d = v.X d := if_pos hd
  rw [← h1, hv.X, List.length_map]
  have h2 : setsOf cells d = ∅ := by
    rw [hK]
    unfold Cells.upTo
    rw [if_pos hd, he]
  unfold setsOf at h2
  rw [List.toFinset_eq_empty_iff] at h2
  rw [h2]
  rfl

/-- What the clique lift returns, when lower adjacencies are asked for. -/
theorem clique_fromFaces {g : Gudhi} (hg : g.Ok) {agg : List R → R}
    (hagg : ∀ l l' : List R, l.Perm l' → agg l = agg l') (k : Nat) {G : FGraph R L} (hG : G.Ok) :
    ∃ comp, G.lift g agg k true = .ok comp ∧ comp.Ready ∧ 0 < comp.cellsIn 0 ∧ comp.view.FromFaces ∧
      (∀ d p, p < (comp.view.X (d + 1)).length → (comp.view.facesAt (d + 1) p).length = d + 2) ∧
      ∀ d, max k 1 < d → comp.cellsIn d = 0 := by
  classical
  obtain ⟨comp, e, hr, h0, -⟩ := clique_shows hg hagg hG.edges hG.pos hG.rows k hG.labels true 0
  have hsh : ∀ m, ∃ cells, Shows (comp.view.upTo m) true cells (cliqueFeatures agg G.x) ∧
      setsOf cells = (cliqueSets G.edges G.size k).upTo m := by
    intro m
    obtain ⟨comp', e', -, -, h⟩ := clique_shows hg hagg hG.edges hG.pos hG.rows k hG.labels true m
    rw [e, ok_inj] at e'
    rw [e']
    exact h
  refine ⟨comp, e, hr, h0, fromFaces_of_upTo fun m => ?_, fun d p hp => ?_, fun d hd => ?_⟩
  · obtain ⟨cells, h1, h2⟩ := hsh m
    exact h1.fromFaces (by rw [h2]; exact (twoFaces_cliques _ _ _).upTo m)
  · obtain ⟨cells, h1, h2⟩ := hsh (d + 1)
    have hX : (comp.view.upTo (d + 1)).X (d + 1) = comp.view.X (d + 1) := if_pos (Nat.le_refl _)
    have hb : (comp.view.upTo (d + 1)).bnd (d + 1) = comp.view.bnd (d + 1) := if_pos (Nat.le_refl _)
    rw [← hX, h1.X, List.length_map] at hp
    obtain ⟨h3, -⟩ := h1.faces (List.getElem?_eq_getElem hp)
    have hlen := h3.length_eq
    rw [List.length_map, Finset.length_toList, hb] at hlen
    unfold View.facesAt
    rw [List.length_map, hlen]
    have ht : (cells (d + 1))[p] ∈ setsOf cells (d + 1) := mem_setsOf.mpr ⟨p, List.getElem?_eq_getElem hp⟩
    generalize (cells (d + 1))[p] = t at ht ⊢
    rw [h2] at ht ⊢
    unfold Cells.upTo at ht
    rw [if_pos (Nat.le_refl _)] at ht
    have hf : ((cliqueSets G.edges G.size k).upTo (d + 1)).facesOf (d + 1) t = t.powersetCard (d + 1) := by
      unfold cliqueSets at ht
      split at ht
      · next hd =>
        rw [Finset.mem_filter, Finset.mem_powersetCard] at ht
        ext f
        show f ∈ Finset.filter (fun f => f ⊆ t) ((cliqueSets G.edges G.size k).upTo (d + 1) d) ↔ _
        unfold Cells.upTo cliqueSets
        rw [if_pos (by omega), if_pos (by omega), Finset.mem_filter, Finset.mem_filter, Finset.mem_powersetCard,
          Finset.mem_powersetCard]
        constructor
        · rintro ⟨⟨⟨-, a⟩, -⟩, b⟩
          exact ⟨b, a⟩
        · rintro ⟨b, a⟩
          exact ⟨⟨⟨b.trans ht.1.1, a⟩, fun u hu v hv => ht.2 u (b hu) v (b hv)⟩, b⟩
      · simp at ht
    have hc : t.card = d + 2 := by
      unfold cliqueSets at ht
      split at ht
      · rw [Finset.mem_filter, Finset.mem_powersetCard] at ht
        exact ht.1.2
      · simp at ht
    rw [hf, Finset.card_powersetCard, hc]
    exact Nat.choose_succ_self_right (d + 1)
  · obtain ⟨cells, h1, h2⟩ := hsh d
    rw [← ready_X_length hr]
    exact shown_length h1 h2 (Nat.le_refl _) (if_neg (by omega))

/-- What the ring lift returns, with features for all cells and lower adjacencies. -/
theorem ring_fromFaces [DecidableEq R] {g : Gudhi} (hg : g.Ok) {lib : RingLib} (hl : lib.Ok) {agg : List R → R}
    (hagg : ∀ l l' : List R, l.Perm l' → agg l = agg l') (maxK : Nat) {G : RGraph R L} (hG : G.Ok) :
    ∃ comp, G.lift g lib agg maxK true true true = .ok comp ∧ comp.Ready ∧ 0 < comp.cellsIn 0 ∧
      comp.view.FromFaces ∧ ∀ d, 2 < d → comp.cellsIn d = 0 := by
  obtain ⟨comp, e, hf, -⟩ := ring_shows (maxK := maxK) (down := true) (initEdges := true) (initRings := true) hg hl
    hagg hG 0
  have hsh : ∀ m, ∃ cells, Shows (comp.view.upTo m) true cells (G.features agg) ∧
      setsOf cells = (ringSets G.edges G.size maxK).upTo m := by
    intro m
    obtain ⟨comp', e', -, cells, h, h', -⟩ := ring_shows (maxK := maxK) (down := true) (initEdges := true)
      (initRings := true) hg hl hagg hG m
    rw [e, ok_inj] at e'
    rw [e']
    exact ⟨cells, h' rfl rfl, h⟩
  refine ⟨comp, e, hf.ready, hf.cells 0 (by omega), fromFaces_of_upTo fun m => ?_, fun d hd => ?_⟩
  · obtain ⟨cells, h1, h2⟩ := hsh m
    exact h1.fromFaces (by rw [h2]; exact (twoFaces_rings hG.edges maxK).upTo m)
  · obtain ⟨cells, h1, h2⟩ := hsh d
    rw [← ready_X_length hf.ready]
    refine shown_length h1 h2 (Nat.le_refl _) ?_
    match d with
    | d + 3 => rfl

end

/-! ### From cells to complexes -/

theorem forall₂_mono_mem {A B : Type} {P Q : A → B → Prop} {l : List A} {m : List B} (h : List.Forall₂ P l m)
    (f : ∀ a ∈ l, ∀ b ∈ m, P a b → Q a b) : List.Forall₂ Q l m := by
  induction h with
  | nil => exact .nil
  | cons hab _ ih =>
    exact .cons (f _ (by simp) _ (by simp) hab) (ih fun a ha b hb => f a (by simp [ha]) b (by simp [hb]))


theorem SameColours.raise {v w : View R} (hv : v.FromFaces) (hw : w.FromFaces) {n : Nat}
    (h : SameColours false v w (2 * n + 1)) : SameColours true v w n := fun d =>
  (h d).mono fun _ _ _ _ hce => hce.raise hv hw

theorem SameColours.raise_cliques {v w : View R} (hv : v.FromFaces) (hw : w.FromFaces)
    (fv : ∀ d p, p < (v.X (d + 1)).length → (v.facesAt (d + 1) p).length = d + 2)
    (fw : ∀ d p, p < (w.X (d + 1)).length → (w.facesAt (d + 1) p).length = d + 2) {n : Nat}
    (h : SameColours false v w (2 * n)) : SameColours true v w n := fun d =>
  (h d).mono fun _ _ _ _ hce => by
    refine SameColour.raise_aux hv hw 0 ?_ hce
    intro u u' hu hu' d p p' hpp
    have hlt := hpp.lt
    have h1 : (u.facesAt (d + 1) p).length = d + 2 := by
      rcases hu with rfl | rfl
      · exact fv d p hlt.1
      · exact fw d p hlt.1
    have h2 : (u'.facesAt (d + 1) p').length = d + 2 := by
      rcases hu' with rfl | rfl
      · exact fv d p' hlt.2
      · exact fw d p' hlt.2
    rw [h1, h2]

theorem SameColours.symm {lower : Bool} {v w : View R} {n : Nat} (h : SameColours lower v w n) :
    SameColours lower w v n := fun d => (h d).symm.mono fun _ _ _ _ h => h.symm

theorem SameColours.trans {lower : Bool} {u v w : View R} {n : Nat} (h : SameColours lower u v n)
    (h' : SameColours lower v w n) : SameColours lower u w n := fun d =>
  ((h d).trans (h' d)).mono fun _ _ _ _ ⟨_, h1, h2⟩ => h1.trans h2

theorem SameColours.drop {v w : View R} {n : Nat} (h : SameColours true v w n) : SameColours false v w n := fun d =>
  (h d).mono fun _ _ _ _ hce => hce.drop

/-- Cells of uniform features, compared by the number of their neighbours. -/
theorem sameColour_counts {v w : View R} (hv : v.InRange) (hw : w.InRange) {x : Nat → R}
    (hx : ∀ d, ∀ r ∈ v.X d, r = x d) (hx' : ∀ d, ∀ r ∈ w.X d, r = x d) {d c e : Nat} (hc : c < (v.X d).length)
    (he : e < (w.X d).length)
    (hu : ((v.up d).filter fun p => p.1.2 == c).length = ((w.up d).filter fun p => p.1.2 == e).length)
    (hb : ((v.bnd d).filter fun p => p.2 == c).length = ((w.bnd d).filter fun p => p.2 == e).length) :
    SameColour false v w 1 d c e := by
  have z : ∀ d c e, c < (v.X d).length → e < (w.X d).length → SameColour false v w 0 d c e := by
    intro d c e hc he
    refine ⟨x d, ?_, ?_⟩
    · rw [List.getElem?_eq_getElem hc, hx d _ (List.getElem_mem hc)]
    · rw [List.getElem?_eq_getElem he, hx' d _ (List.getElem_mem he)]
  have all : ∀ {A B : Type} {rel : A → B → Prop} {l : List A} {m : List B}, l.length = m.length →
      (∀ a ∈ l, ∀ b ∈ m, rel a b) → Matched rel l m := by
    intro A B rel l m hlen h
    refine ⟨m, .refl m, List.forall₂_iff_get.mpr ⟨hlen, fun i h1 h2 => h _ (List.get_mem _ _) _ (List.get_mem _ _)⟩⟩
  refine ⟨z d c e hc he, all hu ?_, by simp, all hb ?_⟩
  · intro p hp q hq
    have h1 := hv.up d p (List.mem_of_mem_filter hp)
    have h2 := hw.up d q (List.mem_of_mem_filter hq)
    exact ⟨z _ _ _ h1.1 h2.1, z _ _ _ h1.2.2 h2.2.2⟩
  · intro p hp q hq
    have h1 := hv.bnd d p (List.mem_of_mem_filter hp)
    have h2 := hw.bnd d q (List.mem_of_mem_filter hq)
    cases d with
    | zero => simp [View.below] at h1
    | succ d => exact z _ _ _ h1.1 h2.1

end Verif
