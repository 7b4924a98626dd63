import Mathlib.Combinatorics.Enumerative.DoubleCounting
import Verif.Spec.Regular
import Verif.Lemmas.Skeleton
import Verif.Lemmas.Cochains

/-!
# Lemmas: networks on complexes that look the same everywhere
-/


namespace Verif

variable {𝕜 R L : Type}

/-- All cells of a dimension have as many cofaces, and as many faces. -/
structure Reg (K : Cells) (c f : Nat → Nat) : Prop where
  cof : ∀ d, ∀ s ∈ K d, (K.cofacesOf d s).card = c d
  face : ∀ d, ∀ s ∈ K d, (K.facesOf d s).card = f d

theorem Reg.card {K : Cells} {c f : Nat → Nat} (hK : Reg K c f) (d : Nat) :
    (K d).card * c d = (K (d + 1)).card * f (d + 1) := by
  have h := Finset.sum_card_bipartiteAbove_eq_sum_card_bipartiteBelow (s := K d) (t := K (d + 1))
    (fun s t : Finset Nat => s ⊆ t)
  have h1 : ∑ s ∈ K d, ((K (d + 1)).bipartiteAbove (fun s t : Finset Nat => s ⊆ t) s).card = ∑ s ∈ K d, c d :=
    Finset.sum_congr rfl fun s hs => hK.cof d s hs
  have h2 : ∑ t ∈ K (d + 1), ((K d).bipartiteBelow (fun s t : Finset Nat => s ⊆ t) t).card =
      ∑ t ∈ K (d + 1), f (d + 1) := Finset.sum_congr rfl fun t ht => hK.face (d + 1) t ht
  rw [h1, h2, Finset.sum_const, Finset.sum_const, smul_eq_mul, smul_eq_mul] at h
  exact h

theorem Reg.card_eq {K K' : Cells} {c f : Nat → Nat} (hK : Reg K c f) (hK' : Reg K' c f)
    (h0 : (K 0).card = (K' 0).card) (hf : ∀ d, 0 < f (d + 1)) : ∀ d, (K d).card = (K' d).card
  | 0 => h0
  | d + 1 => by
    have h1 := hK.card d
    have h2 := hK'.card d
    rw [Reg.card_eq hK hK' h0 hf d, h2] at h1
    exact (Nat.eq_of_mul_eq_mul_right (hf d) h1).symm

section
variable [AddCommMonoid R]

theorem Reg.step {K : Cells} {c f : Nat → Nat} (hK : Reg K c f) (r : Rule R) (down : Bool)
    {h : Nat → Finset Nat → R} {φ : Nat → R} (hh : ∀ d, ∀ s ∈ K d, h d s = φ d) {d : Nat} {s : Finset Nat}
    (hs : s ∈ K d) :
    K.step r down h d s = r.new (φ d) (c d • (f (d + 1) - 1) • r.up (φ d) (some (φ (d + 1))))
      (if down then f d • (c (d - 1) - 1) • r.down (φ d) (φ (d - 1)) else 0) (f d • r.bnd (φ (d - 1))) := by
  have hup : ∑ t ∈ K.cofacesOf d s, ∑ u ∈ (K d).filter (fun u => u ⊆ t ∧ u ≠ s), r.up (h d u) (some (h (d + 1) t)) =
      c d • (f (d + 1) - 1) • r.up (φ d) (some (φ (d + 1))) := by
    rw [← hK.cof d s hs, ← Finset.sum_const]
    refine Finset.sum_congr rfl fun t ht => ?_
    obtain ⟨ht, hst⟩ := Finset.mem_filter.mp ht
    have hset : (K d).filter (fun u => u ⊆ t ∧ u ≠ s) = (K.facesOf (d + 1) t).erase s := by
      ext u
      show _ ↔ u ∈ ((K d).filter fun f => f ⊆ t).erase s
      simp only [Finset.mem_filter, Finset.mem_erase]
      tauto
    have hmem : s ∈ K.facesOf (d + 1) t := Finset.mem_filter.mpr ⟨hs, hst⟩
    rw [← hK.face (d + 1) t ht, ← Finset.card_erase_of_mem hmem, ← hset, ← Finset.sum_const]
    refine Finset.sum_congr rfl fun u hu => ?_
    rw [hh d u (Finset.mem_filter.mp hu).1, hh (d + 1) t ht]
  have hface : ∀ g ∈ K.facesOf d s, ∃ d', d = d' + 1 ∧ g ∈ K d' ∧ g ⊆ s := by
    intro g hg
    cases d with
    | zero => exact absurd hg (by simp [Cells.facesOf])
    | succ d => exact ⟨d, rfl, (Finset.mem_filter.mp hg).1, (Finset.mem_filter.mp hg).2⟩
  have hdown : ∑ g ∈ K.facesOf d s, ∑ u ∈ (K d).filter (fun u => g ⊆ u ∧ u ≠ s), r.down (h d u) (h (d - 1) g) =
      f d • (c (d - 1) - 1) • r.down (φ d) (φ (d - 1)) := by
    rw [← hK.face d s hs, ← Finset.sum_const]
    refine Finset.sum_congr rfl fun g hg => ?_
    obtain ⟨d', rfl, hg, hgs⟩ := hface g hg
    show ∑ u ∈ (K (d' + 1)).filter (fun u => g ⊆ u ∧ u ≠ s), r.down (h (d' + 1) u) (h d' g) =
      (c d' - 1) • r.down (φ (d' + 1)) (φ d')
    have hset : (K (d' + 1)).filter (fun u => g ⊆ u ∧ u ≠ s) = (K.cofacesOf d' g).erase s := by
      ext u
      show _ ↔ u ∈ ((K (d' + 1)).filter fun t => g ⊆ t).erase s
      simp only [Finset.mem_filter, Finset.mem_erase]
      tauto
    have hmem : s ∈ K.cofacesOf d' g := Finset.mem_filter.mpr ⟨hs, hgs⟩
    rw [← hK.cof d' g hg, ← Finset.card_erase_of_mem hmem, ← hset, ← Finset.sum_const]
    refine Finset.sum_congr rfl fun u hu => ?_
    rw [hh (d' + 1) u (Finset.mem_filter.mp hu).1, hh d' g hg]
  have hbnd : ∑ g ∈ K.facesOf d s, r.bnd (h (d - 1) g) = f d • r.bnd (φ (d - 1)) := by
    rw [← hK.face d s hs, ← Finset.sum_const]
    refine Finset.sum_congr rfl fun g hg => ?_
    obtain ⟨d', rfl, hg, -⟩ := hface g hg
    rw [Nat.add_sub_cancel, hh d' g hg]
  unfold Cells.step
  rw [hup, hdown, hbnd, hh d s hs]

/-- On regular complexes features that depend on the dimension only go on to do so, in the same way. -/
theorem Reg.run {K K' : Cells} {c f : Nat → Nat} (hK : Reg K c f) (hK' : Reg K' c f) (down : Bool) (m : Nat) :
    ∀ (layers : List (Nat → Rule R)) {h h' : Nat → Finset Nat → R} {φ : Nat → R},
      (∀ d, ∀ s ∈ K d, h d s = φ d) → (∀ d, ∀ s ∈ K' d, h' d s = φ d) →
      List.Forall₂ (fun H H' => ∃ φ : Nat → R, (∀ d, ∀ s ∈ K d, H d s = φ d) ∧ ∀ d, ∀ s ∈ K' d, H' d s = φ d)
        (K.run down m h layers) (K'.run down m h' layers)
  | [], _, _, _, _, _ => .nil
  | r :: rest, h, h', φ, hh, hh' => by
    have h1 : ∃ ψ : Nat → R, (∀ d, ∀ s ∈ K d, (if d ≤ m then K.step (r d) down h d s else h d s) = ψ d) ∧
        ∀ d, ∀ s ∈ K' d, (if d ≤ m then K'.step (r d) down h' d s else h' d s) = ψ d := by
      refine ⟨fun d => if d ≤ m then (r d).new (φ d) (c d • (f (d + 1) - 1) • (r d).up (φ d) (some (φ (d + 1))))
        (if down then f d • (c (d - 1) - 1) • (r d).down (φ d) (φ (d - 1)) else 0) (f d • (r d).bnd (φ (d - 1)))
        else φ d, ?_, ?_⟩
      · intro d s hs
        rw [hK.step (r d) down hh hs, hh d s hs]
      · intro d s hs
        rw [hK'.step (r d) down hh' hs, hh' d s hs]
    obtain ⟨ψ, a, b⟩ := h1
    exact .cons ⟨ψ, a, b⟩ (Reg.run hK hK' down m rest a b)

theorem Reg.jump {K K' : Cells} {hs hs' : List (Nat → Finset Nat → R)}
    (H : List.Forall₂ (fun H H' => ∃ φ : Nat → R, (∀ d, ∀ s ∈ K d, H d s = φ d) ∧ ∀ d, ∀ s ∈ K' d, H' d s = φ d) hs hs')
    (jump : Option (List R → R)) (d : Nat) :
    ∃ x, (∀ s ∈ K d, jumpOf jump hs d s = x) ∧ ∀ s ∈ K' d, jumpOf jump hs' d s = x := by
  have key : ∃ l : List R, (∀ s ∈ K d, (hs.map fun h => h d s) = l) ∧ ∀ s ∈ K' d, (hs'.map fun h => h d s) = l := by
    induction H with
    | nil => exact ⟨[], fun _ _ => rfl, fun _ _ => rfl⟩
    | cons h _ ih =>
      obtain ⟨φ, a, b⟩ := h
      obtain ⟨l, a', b'⟩ := ih
      exact ⟨φ d :: l, fun s hs => by rw [List.map_cons, a d s hs, a' s hs],
        fun s hs => by rw [List.map_cons, b d s hs, b' s hs]⟩
  obtain ⟨l, a, b⟩ := key
  cases jump with
  | none =>
    refine ⟨l.getLast?.getD 0, fun s hs => ?_, fun s hs => ?_⟩
    · rw [← a s hs, List.getLast?_map]
      rfl
    · rw [← b s hs, List.getLast?_map]
      rfl
  | some F => exact ⟨F l, fun s hs => congrArg F (a s hs), fun s hs => congrArg F (b s hs)⟩

variable [Field 𝕜] [Module 𝕜 R]

theorem Reg.pool {K K' : Cells} {c f : Nat → Nat} (hK : Reg K c f) (hK' : Reg K' c f)
    (h0 : (K 0).card = (K' 0).card) (hf : ∀ d, 0 < f (d + 1)) {hs hs' : List (Nat → Finset Nat → R)}
    (H : List.Forall₂ (fun H H' => ∃ φ : Nat → R, (∀ d, ∀ s ∈ K d, H d s = φ d) ∧ ∀ d, ∀ s ∈ K' d, H' d s = φ d) hs hs')
    (readout : String) (jump : Option (List R → R)) (d : Nat) :
    poolSet 𝕜 readout (K d) (jumpOf jump hs d) = poolSet 𝕜 readout (K' d) (jumpOf jump hs' d) := by
  obtain ⟨x, a, b⟩ := Reg.jump H jump d
  have hc := hK.card_eq hK' h0 hf d
  unfold poolSet
  rw [Finset.sum_congr rfl a, Finset.sum_congr rfl b, Finset.sum_const, Finset.sum_const, hc]

theorem SparseNet.regular {Lv : Type} {rule : Lv → Rule R} (net : SparseNet R Lv) {K K' : Cells} {c f : Nat → Nat}
    (hK : Reg K c f) (hK' : Reg K' c f) (h0 : (K 0).card = (K' 0).card) (hf : ∀ d, 0 < f (d + 1))
    {h h' : Nat → Finset Nat → R} {φ : Nat → R} (hh : ∀ d, ∀ s ∈ K d, h d s = φ d)
    (hh' : ∀ d, ∀ s ∈ K' d, h' d s = φ d) (down : Bool) :
    net.predictOn 𝕜 rule down K h = net.predictOn 𝕜 rule down K' h' := by
  have hrun := hK.run hK' down net.maxDim (net.convs.map (rulesOf rule)) hh hh'
  unfold SparseNet.predictOn
  congr 2
  refine List.map_congr_left fun d _ => ?_
  exact congrArg net.act (congrArg _ (hK.pool hK' h0 hf hrun _ _ d))

theorem CINNet.regular {Lv : Type} {rule : Lv → Rule R} (net : CINNet R Lv) {K K' : Cells} {c f : Nat → Nat}
    (hK : Reg K c f) (hK' : Reg K' c f) (h0 : (K 0).card = (K' 0).card) (hf : ∀ d, 0 < f (d + 1))
    {h h' : Nat → Finset Nat → R} {φ : Nat → R} (hh : ∀ d, ∀ s ∈ K d, h d s = φ d)
    (hh' : ∀ d, ∀ s ∈ K' d, h' d s = φ d) (down : Bool) :
    net.predictOn 𝕜 rule down K h = net.predictOn 𝕜 rule down K' h' := by
  have hrun := hK.run hK' down net.maxDim (net.convs.map (rulesOf rule)) hh hh'
  unfold CINNet.predictOn
  congr 4
  refine List.map_congr_left fun d _ => ?_
  exact hK.pool hK' h0 hf hrun _ _ d

end

/-! ### Clique complexes -/

theorem mem_clipped {edges : List (Nat × Nat)} {size k mB d : Nat} {s : Finset Nat} :
    s ∈ (cliqueSets edges size k).upTo mB d ↔ d ≤ min (max k 1) mB ∧ (s ⊆ Finset.range size ∧ s.card = d + 1) ∧
      ∀ u ∈ s, ∀ v ∈ s, u ≠ v → Joined edges u v := by
  show s ∈ (if d ≤ mB then cliqueSets edges size k d else ∅) ↔ _
  rw [Nat.le_min]
  split
  · rw [mem_cliques]
    tauto
  · simp_all

theorem reg_cliques {edges : List (Nat × Nat)} {size k mB : Nat} {c : Nat → Nat}
    (h : CliqueRegular edges size (min (max k 1) mB) c) :
    Reg ((cliqueSets edges size k).upTo mB) (fun d => if d < min (max k 1) mB then c d else 0)
      (fun d => if d = 0 then 0 else d + 1) := by
  constructor
  · intro d s hs
    obtain ⟨hd, ⟨hr, hc⟩, hj⟩ := mem_clipped.mp hs
    by_cases hlt : d < min (max k 1) mB
    · rw [if_pos hlt, ← h d hlt s hr hc hj]
      symm
      refine Finset.card_bij (fun v _ => insert v s) ?_ ?_ ?_
      · intro v hv
        obtain ⟨hv, hall⟩ := Finset.mem_filter.mp hv
        have hvs : v ∉ s := fun hvs => (hall v hvs).1 rfl
        refine Finset.mem_filter.mpr ⟨mem_clipped.mpr ⟨hlt, ⟨?_, ?_⟩, ?_⟩, Finset.subset_insert v s⟩
        · exact Finset.insert_subset hv hr
        · rw [Finset.card_insert_of_notMem hvs, hc]
        · intro a ha b hb hab
          rw [Finset.mem_insert] at ha hb
          rcases ha with rfl | ha <;> rcases hb with rfl | hb
          · exact absurd rfl hab
          · exact joined_comm (hall b hb)
          · exact hall a ha
          · exact hj a ha b hb hab
      · intro v hv w hw e
        have hvs : v ∉ s := fun hvs => ((Finset.mem_filter.mp hv).2 v hvs).1 rfl
        have : v ∈ insert w s := e ▸ Finset.mem_insert_self v s
        exact (Finset.mem_insert.mp this).resolve_right hvs
      · intro t ht
        obtain ⟨ht, hst⟩ := Finset.mem_filter.mp ht
        obtain ⟨-, ⟨hr', hc'⟩, hj'⟩ := mem_clipped.mp ht
        have hcard : (t \ s).card = 1 := by
          rw [Finset.card_sdiff_of_subset hst]
          omega
        obtain ⟨v, hv⟩ := Finset.card_eq_one.mp hcard
        have hvm : v ∈ t \ s := hv ▸ Finset.mem_singleton_self v
        obtain ⟨hvt, hvs⟩ := Finset.mem_sdiff.mp hvm
        refine ⟨v, Finset.mem_filter.mpr ⟨hr' hvt, fun u hu => hj' u (hst hu) v hvt ?_⟩, ?_⟩
        · rintro rfl
          exact hvs hu
        · rw [Finset.insert_eq, ← hv, Finset.sdiff_union_of_subset hst]
    · rw [if_neg hlt, Finset.card_eq_zero, Finset.eq_empty_iff_forall_notMem]
      intro t ht
      have := (mem_clipped.mp (Finset.mem_filter.mp ht).1).1
      omega
  · intro d s hs
    obtain ⟨hd, ⟨hr, hc⟩, hj⟩ := mem_clipped.mp hs
    cases d with
    | zero => rfl
    | succ d =>
      have hset : ((cliqueSets edges size k).upTo mB).facesOf (d + 1) s = s.powersetCard (d + 1) := by
        ext t
        show t ∈ Finset.filter _ _ ↔ _
        rw [Finset.mem_filter, mem_clipped, Finset.mem_powersetCard]
        constructor
        · rintro ⟨⟨-, ⟨-, h1⟩, -⟩, h2⟩
          exact ⟨h2, h1⟩
        · rintro ⟨h2, h1⟩
          exact ⟨⟨by omega, ⟨h2.trans hr, h1⟩, fun a ha b hb => hj a (h2 ha) b (h2 hb)⟩, h2⟩
      rw [hset, Finset.card_powersetCard, hc]
      simp

theorem row_const {R : Type} [AddCommMonoid R] {xs : List R} {x : R} (hx : ∀ y ∈ xs, y = x) {v : Nat}
    (hv : v < xs.length) : rowOf xs v = x := by
  unfold rowOf
  rw [List.getElem?_eq_getElem hv]
  exact hx _ (List.getElem_mem hv)

theorem clique_const {R : Type} [AddCommMonoid R] {edges : List (Nat × Nat)} {size k mB : Nat} (agg : List R → R)
    {xs : List R} {x : R} (hlen : xs.length = size) (hx : ∀ y ∈ xs, y = x) (d : Nat) (s : Finset Nat)
    (hs : s ∈ (cliqueSets edges size k).upTo mB d) :
    cliqueFeatures agg xs d s = if d = 0 then x else agg (List.replicate (d + 1) x) := by
  obtain ⟨hd, ⟨hr, hc⟩, -⟩ := mem_clipped.mp hs
  cases d with
  | zero =>
    obtain ⟨v, rfl⟩ := Finset.card_eq_one.mp hc
    show ∑ u ∈ {v}, rowOf xs u = x
    rw [Finset.sum_singleton]
    exact row_const hx (by rw [hlen]; exact Finset.mem_range.mp (hr (Finset.mem_singleton_self v)))
  | succ d =>
    show agg ((s.sort (· ≤ ·)).map (rowOf xs)) = agg (List.replicate (d + 1 + 1) x)
    congr 1
    rw [List.eq_replicate_iff]
    refine ⟨by rw [List.length_map, Finset.length_sort, hc], ?_⟩
    intro y hy
    obtain ⟨v, hv, rfl⟩ := List.mem_map.mp hy
    refine row_const hx ?_
    rw [hlen]
    exact Finset.mem_range.mp (hr ((Finset.mem_sort _).mp hv))

/-- Rings of three are cliques of three. -/
theorem ringSets_three {edges : List (Nat × Nat)} {size : Nat} (he : EdgesIn edges size) :
    ringSets edges size 3 = cliqueSets edges size 2 := by
  funext d
  match d with
  | 0 => rw [(skel_rings he 3).zero, (skel_cliques he 2).zero]
  | 1 =>
    ext s
    rw [(skel_rings he 3).one, (skel_cliques he 2).one]
  | 2 =>
    ext s
    rw [mem_cliques]
    simp only [ringSets, Finset.mem_filter, Finset.mem_powerset]
    constructor
    · rintro ⟨hs, r, hr, hle, rfl⟩
      obtain ⟨a, b, c, rfl⟩ := List.length_eq_three.mp (Nat.le_antisymm hle hr.long)
      have h1 := (hr.joined 0 1 a b rfl rfl).mpr (.inl (.inl rfl))
      have h2 := (hr.joined 1 2 b c rfl rfl).mpr (.inl (.inl rfl))
      have h3 := (hr.joined 2 0 c a rfl rfl).mpr (.inl (.inr ⟨rfl, rfl⟩))
      refine ⟨by omega, ⟨hs, ?_⟩, ?_⟩
      · rw [List.toFinset_card_of_nodup hr.nodup]
        rfl
      · intro u hu v hv hne
        simp only [List.mem_toFinset, List.mem_cons, List.not_mem_nil, or_false] at hu hv
        rcases hu with rfl | rfl | rfl <;> rcases hv with rfl | rfl | rfl
        · exact absurd rfl hne
        · exact h1
        · exact joined_comm h3
        · exact joined_comm h1
        · exact absurd rfl hne
        · exact h2
        · exact h3
        · exact joined_comm h2
        · exact absurd rfl hne
    · rintro ⟨-, ⟨hs, hc⟩, hj⟩
      obtain ⟨a, b, c, hab, hac, hbc, rfl⟩ := Finset.card_eq_three.mp hc
      have h1 := hj a (by simp) b (by simp) hab
      have h2 := hj b (by simp) c (by simp) hbc
      have h3 := hj c (by simp) a (by simp) hac.symm
      refine ⟨hs, [a, b, c], ⟨Nat.le_refl _, by simp [hab, hac, hbc], ?_⟩, Nat.le_refl _, by simp⟩
      intro i j u v hu hv
      have hi := lt_of_get hu
      have hj := lt_of_get hv
      simp only [List.length_cons, List.length_nil] at hi hj
      have noloop : ∀ w, ¬ Joined edges w w := fun w h => h.1 rfl
      have hi : i = 0 ∨ i = 1 ∨ i = 2 := by omega
      have hj : j = 0 ∨ j = 1 ∨ j = 2 := by omega
      rcases hi with rfl | rfl | rfl <;> rcases hj with rfl | rfl | rfl
      all_goals
        simp only [List.getElem?_cons_zero, List.getElem?_cons_succ, Option.some.injEq] at hu hv
        subst hu hv
        simp [Follows, h1, h2, h3, joined_comm h1, joined_comm h2, joined_comm h3, noloop]
  | d + 3 =>
    ext s
    rw [mem_cliques]
    simp only [ringSets, Finset.notMem_empty, false_iff]
    rintro ⟨h, -⟩
    omega

end Verif
