import Verif.Spec.CellNet
import Verif.Lemmas.Cochains
import Mathlib.Algebra.BigOperators.Group.Finset.Sigma

/-!
# Layers on views and layers on vertex sets
-/

namespace Verif

variable {𝕜 R L : Type} [AddCommMonoid R]

/-- The view shows the cells `cells d` (vertex sets in the order of their ids), with features `h`. -/
structure Shows (v : View R) (down : Bool) (cells : Nat → List (Finset Nat)) (h : Nat → Finset Nat → R) : Prop where
  nodup : ∀ d, (cells d).Nodup
  X : ∀ d, v.X d = (cells d).map (h d)
  upNodup : ∀ d, (v.up d).Nodup
  up : ∀ d a b c, ((a, b), c) ∈ v.up d ↔ a ≠ b ∧ ∃ s t u, (cells d)[a]? = some s ∧ (cells d)[b]? = some t ∧
    (cells (d + 1))[c]? = some u ∧ s ⊆ u ∧ t ⊆ u
  down0 : v.down 0 = []
  downNodup : ∀ d, (v.down d).Nodup
  down : ∀ d a b c, ((a, b), c) ∈ v.down (d + 1) ↔ down = true ∧ a ≠ b ∧ ∃ s t u,
    (cells (d + 1))[a]? = some s ∧ (cells (d + 1))[b]? = some t ∧ (cells d)[c]? = some u ∧ u ⊆ s ∧ u ⊆ t
  bnd0 : v.bnd 0 = []
  bndNodup : ∀ d, (v.bnd d).Nodup
  bnd : ∀ d a c, (a, c) ∈ v.bnd (d + 1) ↔ ∃ s t, (cells d)[a]? = some s ∧ (cells (d + 1))[c]? = some t ∧ s ⊆ t

/-- The cells, without their order. -/
def setsOf (cells : Nat → List (Finset Nat)) : Cells := fun d => (cells d).toFinset

theorem mem_setsOf {cells : Nat → List (Finset Nat)} {d : Nat} {s : Finset Nat} :
    s ∈ setsOf cells d ↔ ∃ a : Nat, (cells d)[a]? = some s := by
  unfold setsOf
  rw [List.mem_toFinset, List.mem_iff_getElem?]

theorem rowOf_mapped {A : Type} {l : List A} {f : A → R} {a : Nat} {s : A} (h : l[a]? = some s) :
    rowOf (l.map f) a = f s := by
  unfold rowOf
  rw [List.getElem?_map, h]
  rfl

theorem nodup_getElem?_inj {A : Type} {l : List A} (hn : l.Nodup) {a b : Nat} {s : A} (ha : l[a]? = some s)
    (hb : l[b]? = some s) : a = b := by
  obtain ⟨h1, e1⟩ := List.getElem?_eq_some_iff.mp ha
  obtain ⟨h2, e2⟩ := List.getElem?_eq_some_iff.mp hb
  exact (hn.getElem_inj_iff).mp (e1.trans e2.symm)

/-- A sum over a list without repetitions of columns, as a sum over pairs of cells. -/
theorem sum_columns {A : Type} [DecidableEq A] {l : List A} (hn : l.Nodup) {S : Finset (Finset Nat)}
    {T : Finset Nat → Finset (Finset Nat)} {F : A → R} {G : Finset Nat → Finset Nat → R}
    (i : A → (Σ _ : Finset Nat, Finset Nat))
    (hi : ∀ p ∈ l, (i p).1 ∈ S ∧ (i p).2 ∈ T (i p).1) (hinj : ∀ p ∈ l, ∀ q ∈ l, i p = i q → p = q)
    (hsurj : ∀ t ∈ S, ∀ u ∈ T t, ∃ p ∈ l, i p = ⟨t, u⟩) (hF : ∀ p ∈ l, F p = G (i p).1 (i p).2) :
    (l.map F).sum = ∑ t ∈ S, ∑ u ∈ T t, G t u := by
  rw [Finset.sum_sigma', ← List.sum_toFinset F hn]
  refine Finset.sum_bij (fun p _ => i p) ?_ ?_ ?_ ?_
  · intro p hp
    obtain ⟨h1, h2⟩ := hi p (List.mem_toFinset.mp hp)
    exact Finset.mem_sigma.mpr ⟨h1, h2⟩
  · intro p hp q hq e
    exact hinj p (List.mem_toFinset.mp hp) q (List.mem_toFinset.mp hq) e
  · rintro ⟨t, u⟩ h
    obtain ⟨h1, h2⟩ := Finset.mem_sigma.mp h
    obtain ⟨p, hp, e⟩ := hsurj t h1 u h2
    exact ⟨p, List.mem_toFinset.mpr hp, e⟩
  · intro p hp
    exact hF p (List.mem_toFinset.mp hp)

theorem sum_column {A : Type} [DecidableEq A] {l : List A} (hn : l.Nodup) {S : Finset (Finset Nat)}
    {F : A → R} {G : Finset Nat → R} (i : A → Finset Nat)
    (hi : ∀ p ∈ l, i p ∈ S) (hinj : ∀ p ∈ l, ∀ q ∈ l, i p = i q → p = q)
    (hsurj : ∀ t ∈ S, ∃ p ∈ l, i p = t) (hF : ∀ p ∈ l, F p = G (i p)) :
    (l.map F).sum = ∑ t ∈ S, G t := by
  rw [← List.sum_toFinset F hn]
  refine Finset.sum_bij (fun p _ => i p) ?_ ?_ ?_ ?_
  · exact fun p hp => hi p (List.mem_toFinset.mp hp)
  · exact fun p hp q hq e => hinj p (List.mem_toFinset.mp hp) q (List.mem_toFinset.mp hq) e
  · intro t h
    obtain ⟨p, hp, e⟩ := hsurj t h
    exact ⟨p, List.mem_toFinset.mpr hp, e⟩
  · exact fun p hp => hF p (List.mem_toFinset.mp hp)

section
variable {v : View R} {down : Bool} {cells : Nat → List (Finset Nat)} {h : Nat → Finset Nat → R}
  (hv : Shows v down cells h)
include hv

theorem Shows.row {d a : Nat} {s : Finset Nat} (e : (cells d)[a]? = some s) : rowOf (v.X d) a = h d s := by
  rw [hv.X]
  exact rowOf_mapped e

theorem Shows.upSum (r : Rule R) {d c : Nat} {s : Finset Nat} (hs : (cells d)[c]? = some s) :
    v.upSum r true d c = ∑ t ∈ (setsOf cells).cofacesOf d s,
      ∑ u ∈ (setsOf cells d).filter (fun u => u ⊆ t ∧ u ≠ s), r.up (h d u) (some (h (d + 1) t)) := by
  unfold View.upSum
  have hmem : ∀ p ∈ (v.up d).filter (fun p => p.1.2 == c), ∃ u t, (cells d)[p.1.1]? = some u ∧
      (cells (d + 1))[p.2]? = some t ∧ u ⊆ t ∧ s ⊆ t ∧ u ≠ s ∧ p.1.2 = c := by
    rintro ⟨⟨a, b⟩, e⟩ hp
    obtain ⟨hq, hb⟩ := List.mem_filter.mp hp
    have hb : b = c := by simpa using hb
    subst hb
    obtain ⟨hne, u, s', t, h1, h2, h3, h4, h5⟩ := (hv.up d a b e).mp hq
    rw [hs] at h2
    cases h2
    refine ⟨u, t, h1, h3, h4, h5, ?_, rfl⟩
    rintro rfl
    exact hne (nodup_getElem?_inj (hv.nodup d) h1 hs)
  refine sum_columns ((hv.upNodup d).filter _)
    (fun p => ⟨((cells (d + 1))[p.2]?).getD ∅, ((cells d)[p.1.1]?).getD ∅⟩) ?_ ?_ ?_ ?_
  · intro p hp
    obtain ⟨u, t, h1, h2, h3, h4, h5, -⟩ := hmem p hp
    simp only [h1, h2, Option.getD_some]
    exact ⟨Finset.mem_filter.mpr ⟨mem_setsOf.mpr ⟨_, h2⟩, h4⟩,
      Finset.mem_filter.mpr ⟨mem_setsOf.mpr ⟨_, h1⟩, h3, h5⟩⟩
  · intro p hp q hq e
    obtain ⟨u, t, h1, h2, -, -, -, h3⟩ := hmem p hp
    obtain ⟨u', t', h1', h2', -, -, -, h3'⟩ := hmem q hq
    simp only [h1, h2, h1', h2', Option.getD_some, Sigma.mk.injEq, heq_eq_eq] at e
    obtain ⟨rfl, rfl⟩ := e
    have e1 := nodup_getElem?_inj (hv.nodup d) h1 h1'
    have e2 := nodup_getElem?_inj (hv.nodup (d + 1)) h2 h2'
    exact Prod.ext (Prod.ext e1 (h3.trans h3'.symm)) e2
  · intro t ht u hu
    obtain ⟨ht, hst⟩ := Finset.mem_filter.mp ht
    obtain ⟨hu, hut, hus⟩ := Finset.mem_filter.mp hu
    obtain ⟨e, he⟩ := mem_setsOf.mp ht
    obtain ⟨a, ha⟩ := mem_setsOf.mp hu
    refine ⟨((a, c), e), List.mem_filter.mpr ⟨(hv.up d a c e).mpr ⟨?_, u, s, t, ha, hs, he, hut, hst⟩, by simp⟩, ?_⟩
    · rintro rfl
      rw [ha] at hs
      exact hus (Option.some.inj hs)
    · simp [ha, he]
  · intro p hp
    obtain ⟨u, t, h1, h2, -⟩ := hmem p hp
    simp only [h1, h2, Option.getD_some, if_true, hv.row h1, hv.row h2]

theorem Shows.downSum (r : Rule R) {d c : Nat} {s : Finset Nat} (hs : (cells d)[c]? = some s) :
    v.downSum r d c = if down then ∑ f ∈ (setsOf cells).facesOf d s,
      ∑ u ∈ (setsOf cells d).filter (fun u => f ⊆ u ∧ u ≠ s), r.down (h d u) (h (d - 1) f) else 0 := by
  unfold View.downSum
  cases d with
  | zero =>
    rw [hv.down0]
    simp [Cells.facesOf]
  | succ d =>
    by_cases hd : down = true
    swap
    · have : v.down (d + 1) = [] := by
        apply List.eq_nil_iff_forall_not_mem.mpr
        rintro ⟨⟨a, b⟩, e⟩ hm
        exact hd ((hv.down d a b e).mp hm).1
      rw [this, if_neg hd]
      rfl
    rw [if_pos hd]
    have hmem : ∀ p ∈ (v.down (d + 1)).filter (fun p => p.1.2 == c), ∃ u f, (cells (d + 1))[p.1.1]? = some u ∧
        (cells d)[p.2]? = some f ∧ f ⊆ u ∧ f ⊆ s ∧ u ≠ s ∧ p.1.2 = c := by
      rintro ⟨⟨a, b⟩, e⟩ hp
      obtain ⟨hq, hb⟩ := List.mem_filter.mp hp
      have hb : b = c := by simpa using hb
      subst hb
      obtain ⟨-, hne, u, s', f, h1, h2, h3, h4, h5⟩ := (hv.down d a b e).mp hq
      rw [hs] at h2
      cases h2
      refine ⟨u, f, h1, h3, h4, h5, ?_, rfl⟩
      rintro rfl
      exact hne (nodup_getElem?_inj (hv.nodup (d + 1)) h1 hs)
    refine sum_columns ((hv.downNodup (d + 1)).filter _)
      (fun p => ⟨((cells d)[p.2]?).getD ∅, ((cells (d + 1))[p.1.1]?).getD ∅⟩) ?_ ?_ ?_ ?_
    · intro p hp
      obtain ⟨u, t, h1, h2, h3, h4, h5, -⟩ := hmem p hp
      simp only [h1, h2, Option.getD_some]
      exact ⟨Finset.mem_filter.mpr ⟨mem_setsOf.mpr ⟨_, h2⟩, h4⟩,
        Finset.mem_filter.mpr ⟨mem_setsOf.mpr ⟨_, h1⟩, h3, h5⟩⟩
    · intro p hp q hq e
      obtain ⟨u, t, h1, h2, -, -, -, h3⟩ := hmem p hp
      obtain ⟨u', t', h1', h2', -, -, -, h3'⟩ := hmem q hq
      simp only [h1, h2, h1', h2', Option.getD_some, Sigma.mk.injEq, heq_eq_eq] at e
      obtain ⟨rfl, rfl⟩ := e
      have e1 := nodup_getElem?_inj (hv.nodup (d + 1)) h1 h1'
      have e2 := nodup_getElem?_inj (hv.nodup d) h2 h2'
      exact Prod.ext (Prod.ext e1 (h3.trans h3'.symm)) e2
    · intro f hf u hu
      obtain ⟨hf, hfs⟩ := Finset.mem_filter.mp hf
      obtain ⟨hu, hfu, hus⟩ := Finset.mem_filter.mp hu
      obtain ⟨e, he⟩ := mem_setsOf.mp hf
      obtain ⟨a, ha⟩ := mem_setsOf.mp hu
      refine ⟨((a, c), e), List.mem_filter.mpr
        ⟨(hv.down d a c e).mpr ⟨hd, ?_, u, s, f, ha, hs, he, hfu, hfs⟩, by simp⟩, ?_⟩
      · rintro rfl
        rw [ha] at hs
        exact hus (Option.some.inj hs)
      · simp [ha, he]
    · intro p hp
      obtain ⟨u, t, h1, h2, -⟩ := hmem p hp
      simp only [h1, h2, Option.getD_some, hv.row h1, Nat.add_sub_cancel, View.below, hv.row h2]

/-- The boundary columns of a cell are its faces. -/
theorem Shows.faces {d c : Nat} {s : Finset Nat} (hs : (cells d)[c]? = some s) :
    (((v.bnd d).filter (fun p => p.2 == c)).map fun p => ((cells (d - 1))[p.1]?).getD ∅).Perm
        ((setsOf cells).facesOf d s).toList ∧
      ∀ p ∈ (v.bnd d).filter (fun p => p.2 == c), ∃ f, (cells (d - 1))[p.1]? = some f ∧ 1 ≤ d := by
  cases d with
  | zero =>
    rw [hv.bnd0]
    simp [Cells.facesOf]
  | succ d =>
    have hmem : ∀ p ∈ (v.bnd (d + 1)).filter (fun p => p.2 == c), ∃ f, (cells d)[p.1]? = some f ∧ f ⊆ s ∧
        p.2 = c := by
      rintro ⟨a, b⟩ hp
      obtain ⟨hq, hb⟩ := List.mem_filter.mp hp
      have hb : b = c := by simpa using hb
      subst hb
      obtain ⟨f, s', h1, h2, h3⟩ := (hv.bnd d a b).mp hq
      rw [hs] at h2
      cases h2
      exact ⟨f, h1, h3, rfl⟩
    simp only [Nat.add_sub_cancel]
    refine ⟨?_, fun p hp => ?_⟩
    · rw [List.perm_ext_iff_of_nodup]
      · intro f
        rw [List.mem_map, Finset.mem_toList]
        show _ ↔ f ∈ Finset.filter _ _
        rw [Finset.mem_filter, mem_setsOf]
        constructor
        · rintro ⟨p, hp, rfl⟩
          obtain ⟨f, h1, h2, -⟩ := hmem p hp
          rw [h1]
          exact ⟨⟨_, h1⟩, h2⟩
        · rintro ⟨⟨a, ha⟩, hfs⟩
          exact ⟨(a, c), List.mem_filter.mpr ⟨(hv.bnd d a c).mpr ⟨f, s, ha, hs, hfs⟩, by simp⟩, by simp [ha]⟩
      · refine List.Nodup.map_on ?_ ((hv.bndNodup (d + 1)).filter _)
        intro p hp q hq e
        obtain ⟨f, h1, -, h3⟩ := hmem p hp
        obtain ⟨f', h1', -, h3'⟩ := hmem q hq
        rw [h1, h1'] at e
        cases e
        exact Prod.ext (nodup_getElem?_inj (hv.nodup d) h1 h1') (h3.trans h3'.symm)
      · exact Finset.nodup_toList _
    · obtain ⟨f, h1, -⟩ := hmem p hp
      exact ⟨f, h1, by omega⟩

theorem Shows.belowRow {d a : Nat} {f : Finset Nat} (hd : 1 ≤ d) (e : (cells (d - 1))[a]? = some f) :
    rowOf (v.below d) a = h (d - 1) f := by
  obtain ⟨d, rfl⟩ : ∃ d', d = d' + 1 := ⟨d - 1, by omega⟩
  exact hv.row e

theorem Shows.bndRows {d c : Nat} {s : Finset Nat} (hs : (cells d)[c]? = some s) (f : R → R) :
    (((v.bnd d).filter (fun p => p.2 == c)).map fun p => f (rowOf (v.below d) p.1)).Perm
      (((setsOf cells).facesOf d s).toList.map fun t => f (h (d - 1) t)) := by
  obtain ⟨h1, h2⟩ := hv.faces hs
  have h3 := h1.map fun t => f (h (d - 1) t)
  rw [List.map_map] at h3
  refine .trans (.of_eq (List.map_congr_left fun p hp => ?_)) h3
  obtain ⟨t, ht, hd⟩ := h2 p hp
  rw [hv.belowRow hd ht]
  simp [ht]

theorem Shows.bndSum (r : Rule R) {d c : Nat} {s : Finset Nat} (hs : (cells d)[c]? = some s) :
    v.bndSum r d c = ∑ f ∈ (setsOf cells).facesOf d s, r.bnd (h (d - 1) f) := by
  unfold View.bndSum
  rw [(hv.bndRows hs r.bnd).sum_eq, Finset.sum_map_toList]

theorem Shows.newRow (r : Rule R) {d c : Nat} {s : Finset Nat} (hs : (cells d)[c]? = some s) :
    v.newRow r true d c = (setsOf cells).step r down h d s := by
  unfold View.newRow Cells.step
  rw [hv.row hs, hv.upSum r hs, hv.downSum r hs, hv.bndSum r hs]

theorem Shows.layer (rules : Nat → Rule R) (m : Nat) :
    Shows (v.layer rules m true) down cells
      (fun d s => if d ≤ m then (setsOf cells).step (rules d) down h d s else h d s) where
  nodup := hv.nodup
  X d := by
    simp only [View.layer, Bool.or_true]
    by_cases hd : d ≤ m
    · simp only [if_pos hd]
      refine List.ext_getElem? fun c => ?_
      rw [List.getElem?_map, List.getElem?_map, hv.X, List.length_map]
      cases hc : (cells d)[c]? with
      | none =>
        have := List.getElem?_eq_none_iff.mp hc
        rw [List.getElem?_eq_none (by simpa using this)]
        rfl
      | some s =>
        have hlt := lt_of_get hc
        rw [List.getElem?_range hlt]
        simp only [Option.map_some]
        rw [hv.newRow _ hc]
    · simp only [if_neg hd]
      exact hv.X d
  upNodup := hv.upNodup
  up := hv.up
  down0 := hv.down0
  downNodup := hv.downNodup
  down := hv.down
  bnd0 := hv.bnd0
  bndNodup := hv.bndNodup
  bnd := hv.bnd

end

theorem Shows.run {down : Bool} {cells : Nat → List (Finset Nat)} {m : Nat} :
    ∀ {layers : List (Nat → Rule R)} {v : View R} {h : Nat → Finset Nat → R}, Shows v down cells h →
    List.Forall₂ (fun w k => Shows w down cells k) (v.run m true layers) ((setsOf cells).run down m h layers)
  | [], _, _, _ => .nil
  | rules :: _, _, _, hv => .cons (hv.layer rules m) (Shows.run (hv.layer rules m))

theorem finalRow_eq {down : Bool} {cells : Nat → List (Finset Nat)} {vs : List (View R)}
    {ks : List (Nat → Finset Nat → R)} (h : List.Forall₂ (fun w k => Shows w down cells k) vs ks)
    (jump : Option (List R → R)) {d c : Nat} {s : Finset Nat} (hs : (cells d)[c]? = some s) :
    finalRow jump vs d c = jumpOf jump ks d s := by
  have hmap : (vs.map fun w => rowOf (w.X d) c) = ks.map fun k => k d s := by
    induction h with
    | nil => rfl
    | cons hab _ ih => rw [List.map_cons, List.map_cons, ih, hab.row hs]
  unfold finalRow jumpOf
  cases jump with
  | none =>
    simp only
    rw [← List.getLast?_map, ← List.getLast?_map, hmap]
  | some f => simp only [hmap]

theorem Shows.final {v : View R} {down : Bool} {cells : Nat → List (Finset Nat)} {h : Nat → Finset Nat → R}
    (hv : Shows v down cells h) (jump : Option (List R → R)) {vs : List (View R)}
    {ks : List (Nat → Finset Nat → R)} (hs : List.Forall₂ (fun w k => Shows w down cells k) vs ks) (d : Nat) :
    v.final jump vs d = (cells d).map (jumpOf jump ks d) := by
  unfold View.final
  rw [hv.X, List.length_map]
  refine List.ext_getElem? fun c => ?_
  rw [List.getElem?_map, List.getElem?_map]
  cases hc : (cells d)[c]? with
  | none => rw [List.getElem?_eq_none (by simpa using List.getElem?_eq_none_iff.mp hc)]; rfl
  | some s =>
    rw [List.getElem?_range (lt_of_get hc)]
    simp only [Option.map_some, finalRow_eq hs jump hc]

variable [Field 𝕜] [Module 𝕜 R]

theorem poolOf_eq {l : List (Finset Nat)} (hn : l.Nodup) (readout : String) (f : Finset Nat → R) :
    poolOf 𝕜 readout (l.map f) = poolSet 𝕜 readout l.toFinset f := by
  unfold poolOf poolSet
  rw [List.length_map, List.toFinset_card_of_nodup hn, List.sum_toFinset f hn]

theorem SparseNet.predict_eq {Lv : Type} {rule : Lv → Rule R} {net : SparseNet R Lv} {v : View R}
    {down : Bool} {cells : Nat → List (Finset Nat)} {h : Nat → Finset Nat → R} (hv : Shows v down cells h) :
    net.predict 𝕜 rule v = net.predictOn 𝕜 rule down (setsOf cells) h := by
  unfold SparseNet.predict SparseNet.predictOn
  congr 3
  funext d
  rw [hv.final net.jump hv.run, poolOf_eq (hv.nodup d)]
  rfl

theorem CINNet.predict_eq {Lv : Type} {rule : Lv → Rule R} {net : CINNet R Lv} {v : View R}
    {down : Bool} {cells : Nat → List (Finset Nat)} {h : Nat → Finset Nat → R} (hv : Shows v down cells h) :
    net.predict 𝕜 rule v = net.predictOn 𝕜 rule down (setsOf cells) h := by
  unfold CINNet.predict CINNet.predictOn
  congr 5
  funext d
  rw [hv.final net.jump hv.run, poolOf_eq (hv.nodup d)]
  rfl

end Verif
