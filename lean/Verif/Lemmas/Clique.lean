import Verif.Lemmas.Simplices
import Verif.Lemmas.Relabel

/-!
# Lemmas about clique complexes and about renumbering lifted complexes
-/

namespace Verif

variable {F L R : Type}

/-! ### Cliques -/

theorem mem_insertions {edges : List (Nat × Nat)} {size : Nat} {t : List Nat} :
    t ∈ insertions edges size ↔ (∃ v, v < size ∧ t = [v]) ∨ ∃ e ∈ edges, t = [e.1, e.2] := by
  unfold insertions
  simp only [List.mem_append, List.mem_map, List.mem_range]
  constructor
  · rintro (⟨v, hv, rfl⟩ | ⟨e, he, rfl⟩)
    · exact .inl ⟨v, hv, rfl⟩
    · exact .inr ⟨e, he, rfl⟩
  · rintro (⟨v, hv, rfl⟩ | ⟨e, he, rfl⟩)
    · exact .inl ⟨v, hv, rfl⟩
    · exact .inr ⟨e, he, rfl⟩

theorem together_iff {edges : List (Nat × Nat)} {size : Nat} (he : EdgesIn edges size) {u v : Nat} :
    (∃ t ∈ insertions edges size, u ∈ t ∧ v ∈ t) ↔ u < size ∧ v < size ∧ (u ≠ v → Joined edges u v) := by
  constructor
  · rintro ⟨t, ht, hu, hv⟩
    rcases mem_insertions.mp ht with ⟨w, hw, rfl⟩ | ⟨⟨a, b⟩, hab, rfl⟩
    · rw [List.mem_singleton] at hu hv
      subst hu hv
      exact ⟨hw, hw, fun h => absurd rfl h⟩
    · have := he _ hab
      simp only [List.mem_cons, List.not_mem_nil, or_false] at hu hv
      rcases hu with rfl | rfl <;> rcases hv with rfl | rfl
      · exact ⟨this.1, this.1, fun h => absurd rfl h⟩
      · exact ⟨this.1, this.2, fun h => ⟨h, .inl hab⟩⟩
      · exact ⟨this.2, this.1, fun h => ⟨h, .inr hab⟩⟩
      · exact ⟨this.2, this.2, fun h => absurd rfl h⟩
  · rintro ⟨hu, hv, h⟩
    by_cases e : u = v
    · subst e
      exact ⟨[u], mem_insertions.mpr (.inl ⟨u, hu, rfl⟩), by simp, by simp⟩
    · rcases (h e).2 with h | h
      · exact ⟨[u, v], mem_insertions.mpr (.inr ⟨_, h, rfl⟩), by simp, by simp⟩
      · exact ⟨[v, u], mem_insertions.mpr (.inr ⟨_, h, rfl⟩), by simp, by simp⟩

theorem mem_expanded {g : Gudhi} (hg : g.Ok) {edges : List (Nat × Nat)} {size : Nat}
    (he : EdgesIn edges size) {k : Nat} {s : List Nat} :
    s ∈ (g.expanded (insertions edges size) k).simplices ↔
      IsClique edges size s ∧ s.length ≤ max k 1 + 1 := by
  rw [hg.mem']
  constructor
  · rintro ⟨hs, h⟩
    have hall : ∀ u ∈ s, ∀ v ∈ s, ∃ t ∈ insertions edges size, u ∈ t ∧ v ∈ t := by
      rcases h with ⟨t, ht, hst⟩ | ⟨-, h⟩
      · exact fun u hu v hv => ⟨t, ht, hst hu, hst hv⟩
      · exact h
    refine ⟨⟨hs, fun v hv => ((together_iff he).mp (hall v hv v hv)).1,
      fun u hu v hv => ((together_iff he).mp (hall u hu v hv)).2.2⟩, ?_⟩
    rcases h with ⟨t, ht, hst⟩ | ⟨h, -⟩
    · have := ((simplex_nodup hs).subperm hst).length_le
      rcases mem_insertions.mp ht with ⟨w, _, rfl⟩ | ⟨e, _, rfl⟩
      · simp only [List.length_singleton] at this
        omega
      · simp only [List.length_cons, List.length_nil] at this
        omega
    · omega
  · rintro ⟨⟨hs, hv, hj⟩, hl⟩
    refine ⟨hs, ?_⟩
    by_cases hk : s.length ≤ k + 1
    · refine .inr ⟨hk, fun u hu v hv' => (together_iff he).mpr ⟨hv u hu, hv v hv', hj u hu v hv'⟩⟩
    · have hl2 : s.length = 2 := by omega
      obtain ⟨u, v, rfl⟩ := List.length_eq_two.mp hl2
      have huv : u < v := by
        have := hs.2
        simpa using this
      have := hj u (by simp) v (by simp) (by omega)
      left
      rcases this.2 with h | h
      · exact ⟨[u, v], mem_insertions.mpr (.inr ⟨_, h, rfl⟩), fun _ h => h⟩
      · exact ⟨[v, u], mem_insertions.mpr (.inr ⟨_, h, rfl⟩), by simp⟩

theorem holds_expanded {g : Gudhi} (hg : g.Ok) {edges : List (Nat × Nat)} {size : Nat}
    (he : EdgesIn edges size) (k : Nat) : (g.expanded (insertions edges size) k).Holds size where
  nodup := hg.nodup' _ k
  simplex := fun s hs => ((hg.mem' _ k s).mp hs).1
  closed := fun s hs f hf hfs => by
    obtain ⟨⟨hs1, hs2, hs3⟩, hl⟩ := (mem_expanded hg he).mp hs
    have hsub := hfs.1.subset
    refine (mem_expanded hg he).mpr ⟨⟨⟨hf, hs1.2.sublist hfs.1⟩, fun v hv => hs2 v (hsub hv),
      fun u hu v hv => hs3 u (hsub hu) v (hsub hv)⟩, ?_⟩
    have := hfs.2
    omega
  vertices := fun v => by
    rw [mem_expanded hg he]
    constructor
    · rintro ⟨⟨-, h, -⟩, -⟩
      exact h v (by simp)
    · intro h
      refine ⟨⟨⟨by simp, by simp⟩, by simpa using h, ?_⟩, by simp⟩
      intro u hu w hw hne
      rw [List.mem_singleton] at hu hw
      exact absurd (hu.trans hw.symm) hne
  cofacesNodup := hg.cofacesNodup' _ k
  cofaces := hg.cofaces' _ k

/-! ### Renumbering -/

theorem isSome_get {A : Type} {l : List A} {i : Nat} : l[i]?.isSome = true ↔ i < l.length := by
  simp

/-- The number in `K'` of the image of cell `c` of dimension `d` of `K`. -/
def renumber (K K' : Nat → List (List Nat)) (μ : Nat → List Nat → List Nat) (d c : Nat) : Nat :=
  placeOf (K' d) (μ d ((K d)[c]?.getD []))

/-- `μ` carries the cells `K` to the cells `K'`, one-to-one, keeping the faces. -/
structure CarriesCells (K K' : Nat → List (List Nat)) (dims : Nat)
    (face face' : List Nat → List Nat → Prop) (μ : Nat → List Nat → List Nat) : Prop where
  nodup : ∀ d, d < dims → (K d).Nodup
  nodup' : ∀ d, d < dims → (K' d).Nodup
  mem : ∀ d s, d < dims → s ∈ K d → μ d s ∈ K' d
  inj : ∀ d s t, d < dims → s ∈ K d → t ∈ K d → μ d s = μ d t → s = t
  surj : ∀ d t, d < dims → t ∈ K' d → ∃ s ∈ K d, μ d s = t
  face : ∀ d s t, d + 1 < dims → s ∈ K d → t ∈ K (d + 1) → (face' (μ d s) (μ (d + 1) t) ↔ face s t)

section
variable {K K' : Nat → List (List Nat)} {dims : Nat} {face face' : List Nat → List Nat → Prop}
  {μ : Nat → List Nat → List Nat}

theorem CarriesCells.get (cc : CarriesCells K K' dims face face' μ) {d a : Nat} (hd : d < dims)
    {s : List Nat} (h : (K d)[a]? = some s) : (K' d)[renumber K K' μ d a]? = some (μ d s) := by
  unfold renumber
  rw [h]
  exact (idxOf_iff (cc.nodup' d hd) (cc.mem d s hd (List.mem_of_getElem? h))).mp rfl

theorem CarriesCells.length (cc : CarriesCells K K' dims face face' μ) {d : Nat} (hd : d < dims) :
    (K' d).length = (K d).length := by
  have : (K' d).Perm ((K d).map (μ d)) := by
    rw [List.perm_ext_iff_of_nodup (cc.nodup' d hd)
      (List.Nodup.map_on (fun s hs t ht e => cc.inj d s t hd hs ht e) (cc.nodup d hd))]
    intro t
    rw [List.mem_map]
    constructor
    · intro ht; exact cc.surj d t hd ht
    · rintro ⟨s, hs, rfl⟩; exact cc.mem d s hd hs
  rw [this.length_eq, List.length_map]

theorem CarriesCells.inj_num (cc : CarriesCells K K' dims face face' μ) {d a b : Nat} (hd : d < dims)
    (ha : a < (K d).length) (hb : b < (K d).length)
    (h : renumber K K' μ d a = renumber K K' μ d b) : a = b := by
  have h1 := cc.get hd (List.getElem?_eq_getElem ha)
  have h2 := cc.get hd (List.getElem?_eq_getElem hb)
  rw [h, h2] at h1
  have := cc.inj d _ _ hd (List.getElem_mem hb) (List.getElem_mem ha) (Option.some.inj h1)
  exact ((cc.nodup d hd).getElem_inj_iff.mp this).symm

theorem CarriesCells.surj_num (cc : CarriesCells K K' dims face face' μ) {d i : Nat} (hd : d < dims)
    {t : List Nat} (h : (K' d)[i]? = some t) :
    ∃ a s, (K d)[a]? = some s ∧ μ d s = t ∧ renumber K K' μ d a = i := by
  obtain ⟨s, hs, rfl⟩ := cc.surj d t hd (List.mem_of_getElem? h)
  obtain ⟨a, ha⟩ := List.mem_iff_getElem?.mp hs
  have h2 := cc.get hd ha
  refine ⟨a, s, ha, rfl, ?_⟩
  obtain ⟨h3, h4⟩ := List.getElem?_eq_some_iff.mp h
  obtain ⟨h5, h6⟩ := List.getElem?_eq_some_iff.mp h2
  exact (cc.nodup' d hd).getElem_inj_iff.mp (h6.trans h4.symm)

theorem attr_beyond {A : Type} {comp : Complex R L} {d : Nat} (h : comp.cochains.length ≤ d)
    (get : Cochain R L → Option A) : comp.attr d get = none := by
  unfold Complex.attr
  rw [List.getElem?_eq_none h]
  rfl

/-- Lifted complexes whose cells correspond have the same columns up to the numbering. -/
theorem columns_of_lifts {comp comp' : Complex R L} {down : Bool} (hv : comp.Valid) (hv' : comp'.Valid)
    (hl : LiftsTo comp K dims face down) (hl' : LiftsTo comp' K' dims face' down)
    (cc : CarriesCells K K' dims face face' μ) :
    (∀ d, (comp'.view.up d).Perm ((comp.view.up d).map fun p =>
      ((renumber K K' μ d p.1.1, renumber K K' μ d p.1.2), renumber K K' μ (d + 1) p.2))) ∧
    (∀ d, (comp'.view.down d).Perm ((comp.view.down d).map fun p =>
      ((renumber K K' μ d p.1.1, renumber K K' μ d p.1.2), renumber K K' μ (d - 1) p.2))) ∧
    ∀ d, (comp'.view.bnd d).Perm ((comp.view.bnd d).map fun p =>
      (renumber K K' μ (d - 1) p.1, renumber K K' μ d p.2)) := by
  have hlen : comp.cochains.length = dims := by rw [hv.len, hl.size]
  have hlen' : comp'.cochains.length = dims := by rw [hv'.len, hl'.size]
  have hbnd : ∀ d, (comp.view.bnd d).Nodup := by
    intro d
    cases d with
    | zero => simp [Complex.view]
    | succ d => exact hl.bndNodup (d + 1)
  have hbnd' : ∀ d, (comp'.view.bnd d).Nodup := by
    intro d
    cases d with
    | zero => simp [Complex.view]
    | succ d => exact hl'.bndNodup (d + 1)
  have hupn : ∀ d, (comp.view.up d).Nodup := by
    intro d
    simp only [Complex.view]
    split
    · exact hl.upNodup d
    · simp
  have hupn' : ∀ d, (comp'.view.up d).Nodup := by
    intro d
    simp only [Complex.view]
    split
    · exact hl'.upNodup d
    · simp
  have hdn : ∀ d, (comp.view.down d).Nodup := by
    intro d
    cases d with
    | zero => simp [Complex.view]
    | succ d => exact hl.downNodup (d + 1)
  have hdn' : ∀ d, (comp'.view.down d).Nodup := by
    intro d
    cases d with
    | zero => simp [Complex.view]
    | succ d => exact hl'.downNodup (d + 1)
  have hup : ∀ d a b c, ((a, b), c) ∈ comp.view.up d ↔ d + 1 < dims ∧ a ≠ b ∧
      ∃ s t u, (K d)[a]? = some s ∧ (K d)[b]? = some t ∧ (K (d + 1))[c]? = some u ∧
        face s u ∧ face t u := by
    intro d a b c
    simp only [Complex.view]
    by_cases hd : d + 1 < dims
    · rw [if_pos (isSome_get.mpr (by omega))]
      exact hl.up d a b c
    · rw [if_neg (fun h => hd (by have := isSome_get.mp h; omega))]
      simp [hd]
  have hup' : ∀ d a b c, ((a, b), c) ∈ comp'.view.up d ↔ d + 1 < dims ∧ a ≠ b ∧
      ∃ s t u, (K' d)[a]? = some s ∧ (K' d)[b]? = some t ∧ (K' (d + 1))[c]? = some u ∧
        face' s u ∧ face' t u := by
    intro d a b c
    simp only [Complex.view]
    by_cases hd : d + 1 < dims
    · rw [if_pos (isSome_get.mpr (by omega))]
      exact hl'.up d a b c
    · rw [if_neg (fun h => hd (by have := isSome_get.mp h; omega))]
      simp [hd]
  refine ⟨?_, ?_, ?_⟩
  · intro d
    rw [List.perm_ext_iff_of_nodup (hupn' d)]
    · rintro ⟨⟨i, j⟩, k⟩
      rw [hup', List.mem_map]
      constructor
      · rintro ⟨hd, hne, s', t', u', h1, h2, h3, f1, f2⟩
        obtain ⟨a, s, ha, rfl, rfl⟩ := cc.surj_num (by omega) h1
        obtain ⟨b, t, hb, rfl, rfl⟩ := cc.surj_num (by omega) h2
        obtain ⟨c, u, hc, rfl, rfl⟩ := cc.surj_num (by omega) h3
        have hs := List.mem_of_getElem? ha
        have ht := List.mem_of_getElem? hb
        have hu := List.mem_of_getElem? hc
        refine ⟨((a, b), c), (hup d a b c).mpr ⟨hd, fun e => hne (by rw [e]), s, t, u, ha, hb, hc, ?_, ?_⟩, rfl⟩
        · exact (cc.face d s u hd hs hu).mp f1
        · exact (cc.face d t u hd ht hu).mp f2
      · rintro ⟨⟨⟨a, b⟩, c⟩, hp, e⟩
        obtain ⟨hd, hne, s, t, u, ha, hb, hc, f1, f2⟩ := (hup d a b c).mp hp
        injection e with e1 e2
        injection e1 with e1 e3
        subst e1 e2 e3
        have hs := List.mem_of_getElem? ha
        have ht := List.mem_of_getElem? hb
        have hu := List.mem_of_getElem? hc
        refine ⟨hd, fun e => hne (cc.inj_num (by omega) (lt_of_get ha) (lt_of_get hb) e), μ d s, μ d t,
          μ (d + 1) u, cc.get (by omega) ha, cc.get (by omega) hb, cc.get hd hc, ?_, ?_⟩
        · exact (cc.face d s u hd hs hu).mpr f1
        · exact (cc.face d t u hd ht hu).mpr f2
    · refine List.Nodup.map_on ?_ (hupn d)
      rintro ⟨⟨a, b⟩, c⟩ hp ⟨⟨a', b'⟩, c'⟩ hq e
      obtain ⟨hd, -, _, _, _, ha, hb, hc, -⟩ := (hup d a b c).mp hp
      obtain ⟨-, -, _, _, _, ha', hb', hc', -⟩ := (hup d a' b' c').mp hq
      injection e with e1 e2
      injection e1 with e1 e3
      rw [cc.inj_num (by omega) (lt_of_get ha) (lt_of_get ha') e1,
        cc.inj_num (by omega) (lt_of_get hb) (lt_of_get hb') e3,
        cc.inj_num hd (lt_of_get hc) (lt_of_get hc') e2]
  · intro d
    cases d with
    | zero => exact List.Perm.refl _
    | succ d =>
    rw [List.perm_ext_iff_of_nodup (hdn' (d + 1))]
    · rintro ⟨⟨i, j⟩, k⟩
      rw [List.mem_map]
      constructor
      · intro hq
        obtain ⟨hdown, hd, hne, s', t', u', h1, h2, h3, f1, f2⟩ := (hl'.down d i j k).mp hq
        obtain ⟨a, s, ha, rfl, rfl⟩ := cc.surj_num hd h1
        obtain ⟨b, t, hb, rfl, rfl⟩ := cc.surj_num hd h2
        obtain ⟨c, u, hc, rfl, rfl⟩ := cc.surj_num (by omega) h3
        have hs := List.mem_of_getElem? ha
        have ht := List.mem_of_getElem? hb
        have hu := List.mem_of_getElem? hc
        refine ⟨((a, b), c), (hl.down d a b c).mpr
          ⟨hdown, hd, fun e => hne (by rw [e]), s, t, u, ha, hb, hc, ?_, ?_⟩, rfl⟩
        · exact (cc.face d u s hd hu hs).mp f1
        · exact (cc.face d u t hd hu ht).mp f2
      · rintro ⟨⟨⟨a, b⟩, c⟩, hp, e⟩
        obtain ⟨hdown, hd, hne, s, t, u, ha, hb, hc, f1, f2⟩ := (hl.down d a b c).mp hp
        injection e with e1 e2
        injection e1 with e1 e3
        subst e1 e2 e3
        have hs := List.mem_of_getElem? ha
        have ht := List.mem_of_getElem? hb
        have hu := List.mem_of_getElem? hc
        refine (hl'.down d _ _ _).mpr ⟨hdown, hd,
          fun e => hne (cc.inj_num hd (lt_of_get ha) (lt_of_get hb) e), μ (d + 1) s, μ (d + 1) t,
          μ d u, cc.get hd ha, cc.get hd hb, cc.get (by omega) hc, ?_, ?_⟩
        · exact (cc.face d u s hd hu hs).mpr f1
        · exact (cc.face d u t hd hu ht).mpr f2
    · refine List.Nodup.map_on ?_ (hdn (d + 1))
      rintro ⟨⟨a, b⟩, c⟩ hp ⟨⟨a', b'⟩, c'⟩ hq e
      obtain ⟨-, hd, -, _, _, _, ha, hb, hc, -⟩ := (hl.down d a b c).mp hp
      obtain ⟨-, -, -, _, _, _, ha', hb', hc', -⟩ := (hl.down d a' b' c').mp hq
      injection e with e1 e2
      injection e1 with e1 e3
      rw [cc.inj_num hd (lt_of_get ha) (lt_of_get ha') e1,
        cc.inj_num hd (lt_of_get hb) (lt_of_get hb') e3,
        cc.inj_num (show d < dims by omega) (lt_of_get hc) (lt_of_get hc') e2]
  · intro d
    cases d with
    | zero => exact List.Perm.refl _
    | succ d =>
    rw [List.perm_ext_iff_of_nodup (hbnd' (d + 1))]
    · rintro ⟨i, k⟩
      rw [List.mem_map]
      constructor
      · intro hq
        obtain ⟨hd, s', t', h1, h2, f1⟩ := (hl'.bnd d i k).mp hq
        obtain ⟨a, s, ha, rfl, rfl⟩ := cc.surj_num (by omega) h1
        obtain ⟨b, t, hb, rfl, rfl⟩ := cc.surj_num hd h2
        exact ⟨(a, b), (hl.bnd d a b).mpr ⟨hd, s, t, ha, hb,
          (cc.face d s t hd (List.mem_of_getElem? ha) (List.mem_of_getElem? hb)).mp f1⟩, rfl⟩
      · rintro ⟨⟨a, b⟩, hp, e⟩
        obtain ⟨hd, s, t, ha, hb, f1⟩ := (hl.bnd d a b).mp hp
        injection e with e1 e2
        subst e1 e2
        exact (hl'.bnd d _ _).mpr ⟨hd, μ d s, μ (d + 1) t, cc.get (by omega) ha, cc.get hd hb,
          (cc.face d s t hd (List.mem_of_getElem? ha) (List.mem_of_getElem? hb)).mpr f1⟩
    · refine List.Nodup.map_on ?_ (hbnd (d + 1))
      rintro ⟨a, b⟩ hp ⟨a', b'⟩ hq e
      obtain ⟨hd, _, _, ha, hb, -⟩ := (hl.bnd d a b).mp hp
      obtain ⟨-, _, _, ha', hb', -⟩ := (hl.bnd d a' b').mp hq
      injection e with e1 e2
      rw [cc.inj_num (show d < dims by omega) (lt_of_get ha) (lt_of_get ha') e1,
        cc.inj_num hd (lt_of_get hb) (lt_of_get hb') e2]

/-- Lifted complexes whose cells correspond are renumberings of each other. -/
theorem relabels_of_lifts {comp comp' : Complex R L} {down : Bool} (hv : comp.Valid) (hv' : comp'.Valid)
    (hl : LiftsTo comp K dims face down) (hl' : LiftsTo comp' K' dims face' down)
    (cc : CarriesCells K K' dims face face' μ)
    (hX : ∀ d, d < dims → ∃ x, comp.attr d Cochain.x = some x ∧ x.length = (K d).length)
    (hX' : ∀ d, d < dims → ∃ x, comp'.attr d Cochain.x = some x ∧ x.length = (K' d).length)
    (hf : ∀ d a, d < dims → a < (K d).length →
      ((comp'.attr d Cochain.x).getD [])[renumber K K' μ d a]? = ((comp.attr d Cochain.x).getD [])[a]?) :
    Relabels comp.view comp'.view (renumber K K' μ) := by
  have hlen : comp.cochains.length = dims := by rw [hv.len, hl.size]
  have hlen' : comp'.cochains.length = dims := by rw [hv'.len, hl'.size]
  have hXl : ∀ d, (comp.view.X d).length = if d < dims then (K d).length else 0 := by
    intro d
    simp only [Complex.view]
    split
    · next hd =>
      obtain ⟨x, h1, h2⟩ := hX d hd
      rw [h1]
      exact h2
    · rw [attr_beyond (by omega)]
      rfl
  have hXl' : ∀ d, (comp'.view.X d).length = if d < dims then (K' d).length else 0 := by
    intro d
    simp only [Complex.view]
    split
    · next hd =>
      obtain ⟨x, h1, h2⟩ := hX' d hd
      rw [h1]
      exact h2
    · rw [attr_beyond (by omega)]
      rfl
  obtain ⟨hup, hdown, hbnd⟩ := columns_of_lifts hv hv' hl hl' cc
  refine { size := ?_, inj := ?_, feat := ?_, up := hup, down := hdown, bnd := hbnd }
  · intro d
    rw [hXl, hXl']
    split
    · next hd => exact cc.length hd
    · rfl
  · intro d a b ha hb h
    rw [hXl] at ha hb
    by_cases hd : d < dims
    · rw [if_pos hd] at ha hb
      exact cc.inj_num hd ha hb h
    · rw [if_neg hd] at ha
      omega
  · intro d a ha
    rw [hXl] at ha
    by_cases hd : d < dims
    · rw [if_pos hd] at ha
      exact hf d a hd ha
    · rw [if_neg hd] at ha
      omega

end

end Verif
