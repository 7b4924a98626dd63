import Verif.Spec.Influence
import Mathlib.Algebra.BigOperators.Group.Finset.Basic

/-!
# Lemmas: which parts of a network can influence its predictions
-/

namespace Verif

variable {𝕜 R : Type}

/-- Two rules that give the same features for a cell of dimension `d`. -/
structure Rule.Same (K : Cells) (d : Nat) (r r' : Rule R) : Prop where
  up : K (d + 1) = ∅ ∨ r'.up = r.up
  down : r'.down = r.down
  bnd : r'.bnd = r.bnd
  new : r'.new = r.new

variable [AddCommMonoid R]

theorem Cells.step_same {K : Cells} {d : Nat} {r r' : Rule R} (hr : r.Same K d r') {down : Bool}
    {h h' : Nat → Finset Nat → R} (h0 : ∀ s, h' d s = h d s) (h1 : ∀ s, h' (d + 1) s = h (d + 1) s)
    (h2 : ∀ s, h' (d - 1) s = h (d - 1) s) (s : Finset Nat) :
    K.step r' down h' d s = K.step r down h d s := by
  unfold Cells.step
  rw [hr.new, hr.down, hr.bnd, h0]
  congr 1
  · rcases hr.up with e | e
    · unfold Cells.cofacesOf
      rw [e]
      simp
    · rw [e]
      simp only [h0, h1]
  · simp only [h0, h2]
  · simp only [h2]

/-- Everything agrees: the same features in all layers. -/
theorem Cells.run_same {K : Cells} {down : Bool} {m : Nat} :
    ∀ {rs rs' : List (Nat → Rule R)} (h : Nat → Finset Nat → R),
      List.Forall₂ (fun r r' => ∀ d ≤ m, (r d).Same K d (r' d)) rs rs' → K.run down m h rs' = K.run down m h rs
  | _, _, _, .nil => rfl
  | r :: _, r' :: _, h, .cons hr hrs => by
    have e : (fun d s => if d ≤ m then K.step (r' d) down h d s else h d s) =
        (fun d s => if d ≤ m then K.step (r d) down h d s else h d s) := by
      funext d s
      split
      · next hd => exact Cells.step_same (hr d hd) (fun _ => rfl) (fun _ => rfl) (fun _ => rfl) s
      · rfl
    rw [Cells.run, Cells.run, e, Cells.run_same _ hrs]

/-- Agreement in range: the same features of the dimensions that are read out, after the last layer. -/
theorem Cells.run_range {K : Cells} {down : Bool} {m : Nat} {dims : List Nat} :
    ∀ {rs rs' : List (Nat → Rule R)} {h h' : Nat → Finset Nat → R}, rs'.length = rs.length →
      (∀ i d r r', rs[i]? = some r → rs'[i]? = some r' → d ≤ m → InRange dims rs.length i d →
        (r d).Same K d (r' d)) →
      (∀ r ∈ dims, ∀ d, d ≤ r + rs.length → r ≤ d + rs.length → ∀ s, h' d s = h d s) →
      ∀ d ∈ dims, ∀ s, jumpOf none (K.run down m h' rs') d s = jumpOf none (K.run down m h rs) d s
  | [], [], h, h', _, _, hh, d, hd, s => rfl
  | [], _ :: _, _, _, e, _, _, _, _, _ => by cases e
  | _ :: _, [], _, _, e, _, _, _, _, _ => by cases e
  | r :: rs, r' :: rs', h, h', e, hr, hh, d, hd, s => by
    have hlen : rs'.length = rs.length := by simpa using e
    have hstep : ∀ q ∈ dims, ∀ d, d ≤ q + rs.length → q ≤ d + rs.length → ∀ s,
        (if d ≤ m then K.step (r' d) down h' d s else h' d s) =
          (if d ≤ m then K.step (r d) down h d s else h d s) := by
      intro q hq d h1 h2 s
      have near : ∀ d', d' ≤ d + 1 → d ≤ d' + 1 → ∀ s, h' d' s = h d' s := fun d' a b =>
        hh q hq d' (by simp; omega) (by simp; omega)
      split
      · next hm =>
        refine Cells.step_same (hr 0 d r r' rfl rfl hm ⟨q, hq, by simp; omega, by simp; omega⟩)
          (near d (by omega) (by omega)) (near (d + 1) (by omega) (by omega)) (near (d - 1) (by omega) (by omega)) s
      · exact near d (by omega) (by omega) s
    have ih := Cells.run_range (K := K) (down := down) (m := m) (dims := dims) (rs := rs) (rs' := rs')
      (h := fun d s => if d ≤ m then K.step (r d) down h d s else h d s)
      (h' := fun d s => if d ≤ m then K.step (r' d) down h' d s else h' d s) hlen
      (fun i d q q' a b c g => hr (i + 1) d q q' a b c (by
        obtain ⟨z, hz, g1, g2⟩ := g
        exact ⟨z, hz, by simp; omega, by simp; omega⟩)) hstep d hd s
    rw [Cells.run, Cells.run]
    cases rs with
    | nil =>
      cases rs' with
      | nil => exact hstep d hd d (by simp) (by simp) s
      | cons _ _ => cases hlen
    | cons q qs =>
      cases rs' with
      | nil => cases hlen
      | cons q' qs' =>
        unfold jumpOf at ih ⊢
        simp only [Cells.run, List.getLast?_cons_cons] at ih ⊢
        exact ih

section
variable [Field 𝕜] [Module 𝕜 R]

theorem SparseLevel.rule_same {top : Prop} {l l' : SparseLevel 𝕜 R} (h : l.Alike top l') {K : Cells} {d : Nat}
    (ht : top → K (d + 1) = ∅) : l.rule.Same K d l'.rule where
  up := by
    by_cases hp : top
    · exact .inl (ht hp)
    · exact .inr (by unfold SparseLevel.rule; rw [h.msgUp hp])
  down := rfl
  bnd := h.msgBoundary
  new := by unfold SparseLevel.rule; rw [h.combine, h.updateUp, h.updateBoundary, h.eps1, h.eps2]

theorem PPLevel.rule_same {top : Prop} {l l' : PPLevel 𝕜 R} (h : l.Alike top l') {K : Cells} {d : Nat}
    (ht : top → K (d + 1) = ∅) : l.rule.Same K d l'.rule where
  up := by
    by_cases hp : top
    · exact .inl (ht hp)
    · exact .inr (by unfold PPLevel.rule; rw [h.msgUp hp])
  down := rfl
  bnd := h.msgBoundary
  new := by
    unfold PPLevel.rule
    rw [h.combine, h.updateUp, h.updateDown, h.updateBoundary, h.eps1, h.eps2, h.eps3]

/-- The predictions of two networks that differ only where it does not matter. -/
theorem SparseNet.predictOn_alike {Lv : Type} {alike : Prop → Lv → Lv → Prop} {rule : Lv → Rule R} {K : Cells}
    {t : Nat}
    (hrule : ∀ {d : Nat} {l l' : Lv}, alike (t ≤ d) l l' → (rule l).Same K d (rule l'))
    {net net' : SparseNet R Lv} (h : net.Alike alike t net') (hf : net.Fits) (hf' : net'.Fits) (down : Bool)
    (x : Nat → Finset Nat → R) :
    net'.predictOn 𝕜 rule down K x = net.predictOn 𝕜 rule down K x := by
  have hdims : net'.dims = net.dims := by unfold SparseNet.dims; rw [h.readoutDims, h.maxDim]
  have hlev : ∀ (i d : Nat) (ls ls' : List Lv), net.convs[i]? = some ls → net'.convs[i]? = some ls' →
      d ≤ net.maxDim → net.jump ≠ none ∨ InRange net.dims net.convs.length i d →
      (rulesOf rule ls d).Same K d (rulesOf rule ls' d) := by
    intro i d ls ls' e e' hd hr
    have l1 : d < ls.length := by rw [hf.levels ls (List.mem_of_getElem? e)]; omega
    have l2 : d < ls'.length := by rw [hf'.levels ls' (List.mem_of_getElem? e'), h.maxDim]; omega
    have := h.levels i d ls ls' ls[d] ls'[d] e e' (List.getElem?_eq_getElem l1) (List.getElem?_eq_getElem l2) hr
    unfold rulesOf
    rw [List.getElem?_eq_getElem l1, List.getElem?_eq_getElem l2]
    exact hrule this
  have hjump : ∀ d ∈ net.dims, ∀ s,
      jumpOf net'.jump (K.run down net'.maxDim x (net'.convs.map (rulesOf rule))) d s =
        jumpOf net.jump (K.run down net.maxDim x (net.convs.map (rulesOf rule))) d s := by
    intro d hd s
    rw [h.jump, h.maxDim]
    cases hj : net.jump with
    | none =>
      refine Cells.run_range (dims := net.dims) (by simp [h.layers]) ?_ (fun _ _ _ _ _ _ => rfl) d hd s
      intro i e r r' hr hr' he hin
      rw [List.getElem?_map, Option.map_eq_some_iff] at hr hr'
      obtain ⟨ls, a, rfl⟩ := hr
      obtain ⟨ls', a', rfl⟩ := hr'
      exact hlev i e ls ls' a a' he (.inr (by simpa using hin))
    | some f =>
      rw [Cells.run_same x]
      rw [List.forall₂_iff_get]
      refine ⟨by simp [h.layers], fun i h1 h2 e he => ?_⟩
      simp only [List.length_map] at h1 h2
      simp only [List.get_eq_getElem, List.getElem_map]
      exact hlev i e _ _ (List.getElem?_eq_getElem h1) (List.getElem?_eq_getElem h2) he (.inl (by simp [hj]))
  unfold SparseNet.predictOn
  rw [hdims, h.lin2, h.finalReadout, h.act, h.readout]
  congr 2
  refine List.map_congr_left fun d hd => ?_
  rw [h.lin1s d hd, show jumpOf _ _ d = _ from funext (hjump d hd)]

/-- A level of CIN++ with another network on lower messages. -/
theorem PPLevel.forward_alike {l l' : PPLevel 𝕜 R} (h : l.Alike False l') (p : MPParams R) :
    l'.forward p = l.forward p := by
  obtain ⟨a, b, c, d, b', e, f, g⟩ := l
  obtain ⟨a', _, c', d', b'', e', f', g'⟩ := l'
  obtain ⟨h1, h2, h3, h4, h5, h6, h7, h8, h9⟩ := h
  cases h1 id
  cases h2; cases h3; cases h4; cases h5; cases h6; cases h7; cases h8; cases h9
  rfl

theorem convLoop_alike : ∀ {ls ls' : List (PPLevel 𝕜 R)}, List.Forall₂ (PPLevel.Alike False) ls ls' →
    ∀ ps : List (MPParams R), convLoop PPLevel.forward ls' ps = convLoop PPLevel.forward ls ps
  | [], [], .nil, [] => rfl
  | [], [], .nil, _ :: _ => rfl
  | _ :: _, _ :: _, .cons _ _, [] => rfl
  | l :: ls, l' :: ls', .cons h hs, p :: ps => by
    unfold convLoop
    rw [PPLevel.forward_alike h, convLoop_alike hs]

theorem convForward_alike {ls ls' : List (PPLevel 𝕜 R)} (h : List.Forall₂ (PPLevel.Alike False) ls ls')
    (ps : List (MPParams R)) : convForward PPLevel.forward ls' ps = convForward PPLevel.forward ls ps := by
  unfold convForward
  rw [convLoop_alike h, h.length_eq]

theorem runConvs_alike {L : Type} {get : Complex R L → Py (List (MPParams R))} :
    ∀ {cs cs' : List (List (PPLevel 𝕜 R))}, List.Forall₂ (List.Forall₂ (PPLevel.Alike False)) cs cs' →
      ∀ data : Complex R L, runConvs get (convForward PPLevel.forward) data cs' =
        runConvs get (convForward PPLevel.forward) data cs
  | [], [], .nil, _ => rfl
  | c :: cs, c' :: cs', .cons h hs, data => by
    unfold runConvs
    simp only [convForward_alike h, runConvs_alike hs]

theorem readoutPart_lin1s {L Lv : Type} {net : SparseNet R Lv} {lin1s : List (R → R)}
    (h : ∀ d ∈ net.dims, lin1s[d]? = net.lin1s[d]?) (data : Complex R L) (outs : List (List (List R))) :
    { net with lin1s := lin1s }.readoutPart 𝕜 data outs = net.readoutPart 𝕜 data outs := by
  unfold SparseNet.readoutPart
  simp only
  congr 1
  funext xs
  congr 1
  funext pool
  congr 1
  funext pooled
  congr 1
  funext sel
  congr 1
  refine mapE_congr fun xd hx => ?_
  have := h xd.2 (List.of_mem_zip hx).2
  unfold listGet
  rw [this]

end

end Verif
