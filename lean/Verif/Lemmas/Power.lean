import Verif.Spec.Power
import Verif.Lemmas.GraphNets
import Verif.Props.RingIso

/-!
# The skeleton of a ring-lifted graph
-/

namespace Verif

variable {𝕜 R L : Type}

/-- What a ring complex keeps of the graph. -/
structure Keeps (comp : Complex R L) (G : RGraph R L) (rings : List (List Nat)) : Prop where
  nodes : comp.view.X 0 = G.x
  edges : ((comp.view.up 0).map Prod.fst).Perm G.edges
  count : comp.cellsIn 2 = rings.length
  sides : ∀ (c : Nat) (r : List Nat), rings[c]? = some r → ((comp.view.bnd 2).filter fun p => p.2 == c).length = r.length

theorem keeps_of {comp : Complex R L} {G : RGraph R L} {st : SimplexTree} {rings : List (List Nat)} {down : Bool}
    (rd : RingData st G.size G.edges rings) (hG : G.Ok)
    (lf : LiftsTo comp (ringCells st G.size rings) (ringDims st rings) OnCell down)
    (hlen : comp.cochains.length = ringDims st rings) (hx : comp.attr 0 Cochain.x = some G.x)
    (hs : Simple G.edges) : Keeps comp G rings := by
  have hK0 : ∀ (a : Nat) (s : List Nat), (ringCells st G.size rings 0)[a]? = some s ↔ a < G.size ∧ s = [a] := by
    intro a s
    simp only [ringCells, SimplexTree.cellsOf, if_true, if_neg (show ¬ 0 = 2 by omega), List.getElem?_map]
    by_cases h : a < G.size
    · simp [List.getElem?_range h, h, eq_comm]
    · simp [h]
  have hnd : (ringCells st G.size rings 1).Nodup := nodup_cellsOf rd.holds 1
  have hup : comp.view.up 0 = ((comp.attr 0 Cochain.upperIndex).getD []).zip
      ((comp.attr 0 Cochain.sharedCoboundaries).getD []) := by
    show (if (comp.cochains[0 + 1]?).isSome then _ else _) = _
    split
    · rfl
    · next h =>
      symm
      rw [List.eq_nil_iff_forall_not_mem]
      rintro ⟨⟨a, b⟩, c⟩ hm
      have := ((lf.up 0 a b c).mp hm).1
      rw [List.getElem?_eq_getElem (by omega)] at h
      exact h rfl
  have hmem : ∀ a b c, ((a, b), c) ∈ comp.view.up 0 ↔ 0 + 1 < ringDims st rings ∧ a ≠ b ∧ a < G.size ∧ b < G.size ∧
      ∃ u, (ringCells st G.size rings 1)[c]? = some u ∧ a ∈ u ∧ b ∈ u := by
    intro a b c
    rw [hup, lf.up]
    constructor
    · rintro ⟨h1, h2, s, t, u, hs, ht, hu, f1, f2⟩
      rw [hK0] at hs ht
      obtain ⟨ha, rfl⟩ := hs
      obtain ⟨hb, rfl⟩ := ht
      exact ⟨h1, h2, ha, hb, u, hu, f1 (by simp), f2 (by simp)⟩
    · rintro ⟨h1, h2, ha, hb, u, hu, f1, f2⟩
      exact ⟨h1, h2, [a], [b], u, (hK0 _ _).mpr ⟨ha, rfl⟩, (hK0 _ _).mpr ⟨hb, rfl⟩, hu,
        by simpa [OnCell] using f1, by simpa [OnCell] using f2⟩
  have hends : ∀ (c : Nat) (u : List Nat), (ringCells st G.size rings 1)[c]? = some u → ∀ a b, a ≠ b → a ∈ u → b ∈ u →
      (u = [a, b] ∧ a < b ∨ u = [b, a] ∧ b < a) ∧ Joined G.edges a b := by
    intro c u hu a b hab ha hb
    have hu' : u ∈ st.cellsOf G.size 1 := List.mem_of_getElem? hu
    obtain ⟨p, q, hpq, rfl, hj⟩ := (rd.edge u).mp hu'
    simp only [List.mem_cons, List.not_mem_nil, or_false] at ha hb
    rcases ha with rfl | rfl <;> rcases hb with rfl | rfl
    · exact absurd rfl hab
    · exact ⟨.inl ⟨rfl, hpq⟩, hj⟩
    · exact ⟨.inr ⟨rfl, hpq⟩, hj.1.symm, hj.2.symm⟩
    · exact absurd rfl hab
  constructor
  · show (comp.attr 0 Cochain.x).getD [] = G.x
    rw [hx]
    rfl
  · rw [List.perm_ext_iff_of_nodup ?_ hs.once]
    · rintro ⟨a, b⟩
      rw [List.mem_map]
      constructor
      · rintro ⟨⟨⟨a', b'⟩, c⟩, hm, e⟩
        cases e
        obtain ⟨-, hab, -, -, u, hu, ha, hb⟩ := (hmem a b c).mp hm
        rcases (hends c u hu a b hab ha hb).2.2 with h | h
        · exact h
        · exact hs.both _ _ h
      · intro he
        have hab : a ≠ b := hG.loops _ he
        obtain ⟨ha, hb⟩ := hG.edges _ he
        obtain ⟨u, hu, hau, hbu⟩ : ∃ u ∈ st.cellsOf G.size 1, a ∈ u ∧ b ∈ u := by
          rcases Nat.lt_or_gt_of_ne hab with h | h
          · exact ⟨[a, b], (rd.edge _).mpr ⟨a, b, h, rfl, hab, .inl he⟩, by simp, by simp⟩
          · exact ⟨[b, a], (rd.edge _).mpr ⟨b, a, h, rfl, hab.symm, .inr he⟩, by simp, by simp⟩
        have hd : 0 + 1 < ringDims st rings := by
          have h1 := (mem_cellsOf rd.holds).mp hu
          have h2 := length_le_dims h1.1
          have := ringDims_ge rd
          omega
        obtain ⟨c, hc⟩ := List.mem_iff_getElem?.mp hu
        exact ⟨((a, b), c), (hmem a b c).mpr ⟨hd, hab, ha, hb, u, hc, hau, hbu⟩, rfl⟩
    · refine List.Nodup.map_on ?_ (by rw [hup]; exact lf.upNodup 0)
      rintro ⟨⟨a, b⟩, c⟩ hp ⟨⟨a', b'⟩, c'⟩ hq e
      cases e
      obtain ⟨-, hab, -, -, u, hu, ha, hb⟩ := (hmem a b c).mp hp
      obtain ⟨-, -, -, -, u', hu', ha', hb'⟩ := (hmem a b c').mp hq
      have h1 := (hends c u hu a b hab ha hb).1
      have h2 := (hends c' u' hu' a b hab ha' hb').1
      have : u = u' := by
        rcases h1 with ⟨rfl, _⟩ | ⟨rfl, _⟩ <;> rcases h2 with ⟨rfl, _⟩ | ⟨rfl, _⟩ <;> first | rfl | omega
      subst this
      have : c = c' := by
        obtain ⟨l1, e1⟩ := List.getElem?_eq_some_iff.mp hu
        obtain ⟨l2, e2⟩ := List.getElem?_eq_some_iff.mp hu'
        exact (List.Nodup.getElem_inj_iff hnd).mp (e1.trans e2.symm)
      rw [this]
  · by_cases h : rings = []
    · have h2 : ¬ 2 < ringDims st rings := by
        unfold ringDims
        rw [if_pos h]
        have := rd.low
        omega
      unfold Complex.cellsIn
      rw [List.getElem?_eq_none (by omega), h]
      rfl
    · have h2 : 2 < ringDims st rings := by unfold ringDims; rw [if_neg h]; omega
      rw [lf.count 2 h2]
      rfl
  · intro c r hc
    have hne : rings ≠ [] := by rintro rfl; simp at hc
    have h2 : 1 + 1 < ringDims st rings := by unfold ringDims; rw [if_neg hne]; omega
    have hr : r ∈ rings := List.mem_of_getElem? hc
    have hb : ∀ f c', (f, c') ∈ comp.view.bnd 2 ↔ 1 + 1 < ringDims st rings ∧
        ∃ s t, (ringCells st G.size rings 1)[f]? = some s ∧ rings[c']? = some t ∧ OnCell s t := lf.bnd 1
    rw [← length_ringBoundaries r, ← List.length_map
      (f := fun p : Nat × Nat => ((ringCells st G.size rings 1)[p.1]?).getD [])]
    apply List.Perm.length_eq
    rw [List.perm_ext_iff_of_nodup ?_ (nodup_ringBoundaries (rd.ring r hr))]
    · intro f
      rw [rd.ring_face hr, List.mem_map]
      constructor
      · rintro ⟨⟨k, c'⟩, hm, rfl⟩
        rw [List.mem_filter, beq_iff_eq] at hm
        obtain ⟨hm, rfl⟩ := hm
        obtain ⟨-, s, t, hs, ht, hst⟩ := (hb _ _).mp hm
        rw [hc] at ht
        cases ht
        simp only [hs, Option.getD_some]
        exact ⟨List.mem_of_getElem? hs, hst⟩
      · rintro ⟨hf, hfr⟩
        obtain ⟨k, hk⟩ := List.mem_iff_getElem?.mp hf
        have hk : (ringCells st G.size rings 1)[k]? = some f := hk
        refine ⟨(k, c), ?_, by simp only [hk, Option.getD_some]⟩
        rw [List.mem_filter]
        exact ⟨(hb k c).mpr ⟨h2, f, r, hk, hc, hfr⟩, by simp⟩
    · refine List.Nodup.map_on ?_ ((lf.bndNodup 2).filter _)
      rintro ⟨k, c'⟩ hp ⟨k', c''⟩ hq e
      rw [List.mem_filter, beq_iff_eq] at hp hq
      obtain ⟨hp, rfl⟩ := hp
      obtain ⟨hq, hcc⟩ := hq
      simp only at hcc
      subst hcc
      obtain ⟨-, s, -, hs, -⟩ := (hb _ _).mp hp
      obtain ⟨-, s', -, hs', -⟩ := (hb _ _).mp hq
      simp only [hs, hs', Option.getD_some] at e
      subst e
      obtain ⟨l1, e1⟩ := List.getElem?_eq_some_iff.mp hs
      obtain ⟨l2, e2⟩ := List.getElem?_eq_some_iff.mp hs'
      rw [(List.Nodup.getElem_inj_iff hnd).mp (e1.trans e2.symm)]

theorem lift_keeps [DecidableEq R] {g : Gudhi} {lib : RingLib} {agg : List R → R} {maxK : Nat}
    {down initEdges initRings : Bool} (hg : g.Ok) (hl : lib.Ok) {G : RGraph R L} (hG : G.Ok)
    (hs : Simple G.edges) :
    ∃ comp, G.lift g lib agg maxK down initEdges initRings = .ok comp ∧ RingFacts comp initEdges initRings ∧
      Keeps comp G (getRings lib G.edges maxK) := by
  obtain ⟨st, hst⟩ : ∃ st, st = g.inserted (insertions G.edges G.size) := ⟨_, rfl⟩
  obtain ⟨rings, hr⟩ : ∃ rings, rings = getRings lib G.edges maxK := ⟨_, rfl⟩
  obtain ⟨x1, e, fit, hd⟩ := G.lift_ok (agg := agg) (down := down) (initEdges := initEdges)
    (initRings := initRings) hg hl hG hst hr
  have rd : RingData st G.size G.edges rings := by
    subst hst hr; exact ringData_of hg hl hG.edges hG.pos maxK
  have lf := complexOf_lifts (vy := vertexLabels G.y) (down := down) rd.cellData fit (complexLabel G.y)
  refine ⟨_, e, ring_facts rd fit hd.some, ?_⟩
  rw [← hr]
  refine keeps_of rd hG lf (by simp [complexOf]) ?_ hs
  rw [complexOf_attr, if_pos rd.cellData.pos]
  rfl

end Verif
