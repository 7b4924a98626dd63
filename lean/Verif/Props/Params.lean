import Verif.Lemmas.ComplexBatch
import Verif.Fixtures

/-!
# Message-passing parameters: property C11
-/

namespace Verif

variable {F L : Type}

theorem indexSelect_entries {rows : List F} {idx : List Nat} {out : List F}
    (h : indexSelect rows idx = .ok out) :
    out.length = idx.length ∧ ∀ (k s : Nat), idx[k]? = some s → out[k]? = rows[s]? ∧ s < rows.length := by
  rw [indexSelect_eq_ok_iff] at h
  have hl : out.length = idx.length := by
    have := congrArg List.length h
    simpa using this.symm
  refine ⟨hl, fun k s hk => ?_⟩
  have := congrArg (·[k]?) h
  simp only [List.getElem?_map, hk, Option.map_some] at this
  have hlt : k < out.length := by
    rw [hl]; exact (List.getElem?_eq_some_iff.mp hk).1
  rw [List.getElem?_eq_getElem hlt, Option.map_some, Option.some.injEq] at this
  refine ⟨by rw [this, List.getElem?_eq_getElem hlt], ?_⟩
  exact (List.getElem?_eq_some_iff.mp this).1

/-- **C11** The parameters of dimension `d`. The features are those of the `d`-cells. The upper
adjacency is exposed iff the cells have one and the dimension above exists; its attributes iff
moreover the dimension above has features and (`d < max_dim` or `include_top_features`), and then
attribute `k` is the feature row of the shared cell of column `k`. -/
theorem C11_up_params (comp : Complex F L) (d maxDim : Nat) (top down bnd : Bool) (p : MPParams F)
    (h : comp.getCochainParams d maxDim top down bnd = .ok p) :
    p.x = comp.attr d Cochain.x ∧
    (comp.cochains[d + 1]? = none → p.upIndex = none) ∧
    (comp.cochains[d + 1]? ≠ none → p.upIndex = comp.attr d Cochain.upperIndex) ∧
    (p.upAttr ≠ none ↔ p.upIndex ≠ none ∧ comp.attr (d + 1) Cochain.x ≠ none ∧
      (d < maxDim ∨ top = true)) ∧
    (∀ a, p.upAttr = some a → ∃ sh ax, comp.attr d Cochain.sharedCoboundaries = some sh ∧
      comp.attr (d + 1) Cochain.x = some ax ∧ a.length = sh.length ∧
      ∀ (k s : Nat), sh[k]? = some s → a[k]? = ax[s]? ∧ s < ax.length) := by
  unfold Complex.getCochainParams at h
  cases hc : comp.cochains[d]? with
  | none => rw [hc] at h; simp at h
  | some cells =>
    rw [hc] at h
    dsimp only at h
    obtain ⟨up, hup, h⟩ := bind_eq_ok.mp h
    obtain ⟨dn, -, h⟩ := bind_eq_ok.mp h
    cases h
    simp only [Complex.attr, hc, Option.bind_some]
    unfold upParams at hup
    cases hu : cells.upperIndex with
    | none =>
      rw [hu] at hup
      cases hup
      simp
    | some ui =>
      cases ha : comp.cochains[d + 1]? with
      | none =>
        rw [hu, ha] at hup
        cases hup
        simp
      | some above =>
        rw [hu, ha] at hup
        dsimp only at hup
        simp only [Option.bind_some]
        cases hx : above.x with
        | none =>
          rw [hx] at hup
          cases hup
          simp
        | some ax =>
          rw [hx] at hup
          dsimp only at hup
          by_cases hcond : (decide (d < maxDim) || top) = true
          · rw [if_pos hcond] at hup
            obtain ⟨f, hf, hup⟩ := bind_eq_ok.mp hup
            cases hup
            simp only [Bool.or_eq_true, decide_eq_true_eq] at hcond
            refine ⟨trivial, by simp, by simp, by simp [hcond], ?_⟩
            intro a he
            cases he
            unfold indexSelectOpt at hf
            cases hs : cells.sharedCoboundaries with
            | none => rw [hs] at hf; simp at hf
            | some sh =>
              rw [hs] at hf
              exact ⟨sh, ax, rfl, rfl, indexSelect_entries hf⟩
          · rw [if_neg hcond] at hup
            cases hup
            simp only [Bool.or_eq_true, decide_eq_true_eq] at hcond
            refine ⟨trivial, by simp, by simp, by simp [hcond], by simp⟩

/-- **C11** With down features asked for, the lower adjacency is exposed iff the cells have one; its
attributes iff moreover the dimension below has features, and then attribute `k` is the feature row
of the shared boundary cell of column `k`. Otherwise no lower structure is exposed. -/
theorem C11_down_params (comp : Complex F L) (d maxDim : Nat) (top down bnd : Bool) (p : MPParams F)
    (h : comp.getCochainParams d maxDim top down bnd = .ok p) :
    (down = false → p.downIndex = none ∧ p.downAttr = none) ∧
    (down = true → p.downIndex = comp.attr d Cochain.lowerIndex) ∧
    (p.downAttr ≠ none ↔ p.downIndex ≠ none ∧ ∃ e, d = e + 1 ∧ comp.attr e Cochain.x ≠ none) ∧
    (∀ a, p.downAttr = some a → ∃ e sh bx, d = e + 1 ∧
      comp.attr d Cochain.sharedBoundaries = some sh ∧
      comp.attr e Cochain.x = some bx ∧ a.length = sh.length ∧
      ∀ (k s : Nat), sh[k]? = some s → a[k]? = bx[s]? ∧ s < bx.length) := by
  unfold Complex.getCochainParams at h
  cases hc : comp.cochains[d]? with
  | none => rw [hc] at h; simp at h
  | some cells =>
    rw [hc] at h
    dsimp only at h
    obtain ⟨up, -, h⟩ := bind_eq_ok.mp h
    obtain ⟨dn, hdn, h⟩ := bind_eq_ok.mp h
    cases h
    unfold downParams at hdn
    cases down with
    | false => cases hdn; simp
    | true =>
      simp only [Complex.attr, hc, Option.bind_some]
      cases hl : cells.lowerIndex with
      | none => rw [hl] at hdn; cases hdn; simp
      | some li =>
        rw [hl] at hdn
        dsimp only at hdn
        cases hb : comp.belowX d with
        | none =>
          rw [hb] at hdn
          cases hdn
          refine ⟨by simp, by simp, ?_, by simp⟩
          constructor
          · intro h; exact absurd rfl h
          · rintro ⟨-, e, rfl, he⟩
            exact absurd hb he
        | some bx =>
          rw [hb] at hdn
          obtain ⟨f, hf, hdn⟩ := bind_eq_ok.mp hdn
          cases hdn
          unfold indexSelectOpt at hf
          cases d with
          | zero => simp [Complex.belowX] at hb
          | succ e =>
            have hb : (comp.cochains[e]?).bind Cochain.x = some bx := hb
            refine ⟨by simp, by simp, ?_, ?_⟩
            · constructor
              · intro _; exact ⟨by simp, e, rfl, by rw [hb]; simp⟩
              · intro _; simp
            · intro a he
              cases he
              cases hs : cells.sharedBoundaries with
              | none => rw [hs] at hf; simp at hf
              | some sh =>
                rw [hs] at hf
                exact ⟨e, sh, bx, rfl, rfl, hb, indexSelect_entries hf⟩

/-- **C11** With boundary features asked for and an incidence present, the incidence and the whole
feature matrix of the dimension below are exposed; otherwise neither. -/
theorem C11_boundary_params (comp : Complex F L) (d maxDim : Nat) (top down bnd : Bool)
    (p : MPParams F) (h : comp.getCochainParams d maxDim top down bnd = .ok p) :
    (bnd = true → p.boundaryIndex = comp.attr d Cochain.boundaryIndex) ∧
    (bnd = false → p.boundaryIndex = none) ∧
    (p.boundaryIndex = none → p.boundaryAttr = none) ∧
    (p.boundaryIndex ≠ none → ∀ e, d = e + 1 → p.boundaryAttr = comp.attr e Cochain.x) ∧
    (d = 0 → p.boundaryAttr = none) := by
  unfold Complex.getCochainParams at h
  cases hc : comp.cochains[d]? with
  | none => rw [hc] at h; simp at h
  | some cells =>
    rw [hc] at h
    dsimp only at h
    obtain ⟨up, -, h⟩ := bind_eq_ok.mp h
    obtain ⟨dn, -, h⟩ := bind_eq_ok.mp h
    cases h
    simp only [boundaryParams, Complex.attr, hc, Option.bind_some]
    cases bnd with
    | false => simp
    | true =>
      cases hb : cells.boundaryIndex with
      | none => simp
      | some bi =>
        refine ⟨by simp, by simp, by simp, ?_, ?_⟩
        · rintro - e rfl; rfl
        · rintro rfl; rfl

/-- **C11** Asking for a dimension the complex does not have raises `NotImplementedError`; on a
valid complex every other request succeeds. -/
theorem C11_params_defined (comp : Complex F L) (d maxDim : Nat) (top down bnd : Bool) :
    (comp.cochains[d]? = none →
      comp.getCochainParams d maxDim top down bnd = .error .notImplemented) ∧
    (comp.Valid → d ≤ comp.dimension →
      ∃ p, comp.getCochainParams d maxDim top down bnd = .ok p) := by
  constructor
  · intro h; unfold Complex.getCochainParams; rw [h]
  · intro hv hd
    have hlt : d < comp.cochains.length := by rw [hv.len]; omega
    have hc := List.getElem?_eq_getElem hlt
    unfold Complex.getCochainParams
    rw [hc]
    generalize comp.cochains[d] = cells at *
    have vc := hv.valid d cells hc
    dsimp only
    have hsel : ∀ (rows : List F) (idx : List Nat), (∀ i ∈ idx, i < rows.length) →
        ∃ out, indexSelect rows idx = .ok out := by
      intro rows idx h
      cases rows with
      | nil =>
        cases idx with
        | nil => exact ⟨[], rfl⟩
        | cons i idx => exact absurd (h i (by simp)) (by simp)
      | cons r rows => exact ⟨_, @indexSelect_ok _ ⟨r⟩ _ _ h⟩
    obtain ⟨up, hup⟩ : ∃ up, upParams cells comp.cochains[d + 1]? d maxDim top = .ok up := by
      unfold upParams
      split
      · rename_i ui above hui hab
        cases hx : above.x with
        | none => exact ⟨_, rfl⟩
        | some ax =>
          dsimp only
          split
          · have hs : cells.sharedCoboundaries.isSome := by rw [← vc.upperBoth, hui]; rfl
            obtain ⟨sh, hs⟩ := Option.isSome_iff_exists.mp hs
            have hin : ∀ i ∈ sh, i < ax.length := by
              intro i hi
              have := vc.shared i (by rw [hs]; exact hi)
              rw [(hv.valid (d + 1) above hab).rows ax hx]
              exact this
            obtain ⟨out, ho⟩ := hsel ax sh hin
            simp only [indexSelectOpt, hs, ho]
            exact ⟨_, rfl⟩
          · exact ⟨_, rfl⟩
      · exact ⟨_, rfl⟩
    obtain ⟨dn, hdn⟩ : ∃ dn, downParams cells (comp.belowX d) down = .ok dn := by
      unfold downParams
      split
      · rename_i li hli
        cases hb : comp.belowX d with
        | none => exact ⟨_, rfl⟩
        | some bx =>
          dsimp only
          have hs : cells.sharedBoundaries.isSome := by rw [← vc.lowerBoth, hli]; rfl
          obtain ⟨sh, hs⟩ := Option.isSome_iff_exists.mp hs
          have hin : ∀ i ∈ sh, i < bx.length := by
            intro i hi
            have hlt := vc.sharedDown i (by rw [hs]; exact hi)
            cases d with
            | zero => simp [Complex.belowX] at hb
            | succ e =>
              have hb : (comp.cochains[e]?).bind Cochain.x = some bx := hb
              obtain ⟨c, hce, hcx⟩ := Option.bind_eq_some_iff.mp hb
              rw [(hv.valid e c hce).rows bx hcx]
              exact hlt
          obtain ⟨out, ho⟩ := hsel bx sh hin
          simp only [indexSelectOpt, hs, ho]
          exact ⟨_, rfl⟩
      · exact ⟨_, rfl⟩
    rw [hup, ok_bind, hdn, ok_bind]
    exact ⟨_, rfl⟩

/-- **C11** All parameters: one entry per dimension up to `max_dim` and the complex's dimension, in
order. -/
theorem C11_all_params (comp : Complex F L) (maxDim : Nat) (top down bnd : Bool)
    (ps : List (MPParams F)) (h : comp.getAllCochainParams maxDim top down bnd = .ok ps) :
    ps.length = min maxDim comp.dimension + 1 ∧
    ∀ d p, ps[d]? = some p → comp.getCochainParams d maxDim top down bnd = .ok p := by
  unfold Complex.getAllCochainParams at h
  refine ⟨by simpa using mapE_length h, ?_⟩
  intro d p hp
  rw [mapE_eq_ok_iff] at h
  have h2 := (List.getElem?_eq_some_iff.mp hp).1
  have h1 : d < (List.range (min maxDim comp.dimension + 1)).length := by rw [h.length_eq]; exact h2
  have := List.Forall₂.get h h1 h2
  simp only [List.get_eq_getElem, List.getElem_range] at this
  rw [this]
  rw [List.getElem?_eq_getElem h2] at hp
  cases hp; rfl

/-- The edges of the house: the attribute of an upper column is the triangle's feature, that of a
lower column the shared vertex's feature, and the boundary attributes are all vertex features. -/
example : (Fixtures.house.getCochainParams 1).map
      (fun p => (p.upAttr, p.downAttr.map (·.take 4), p.boundaryAttr)) =
    .ok (some [1, 1, 1, 1, 1, 1], some [2, 2, 1, 1], some [1, 2, 3, 4, 5]) := by decide
/-- The vertices of the house: the attributes are the features of the shared edges. -/
example : (Fixtures.house.getCochainParams 0).map (fun p => (p.upAttr, p.downAttr, p.boundaryAttr)) =
    .ok (some [1, 1, 4, 4, 2, 2, 3, 3, 6, 6, 5, 5], none, none) := by decide
/-- With `max_dim=1` and top features excluded the edges get no upper attributes. -/
example : (Fixtures.house.getCochainParams 1 1 false).map
      (fun p => (p.upIndex.isSome, p.upAttr)) = .ok (true, none) := by decide
example : Fixtures.house.getCochainParams 3 = .error .notImplemented := by decide

/-! ### The theorems on concrete cases -/

section Cases
open Fixtures
example := C11_up_params house 1 2 true true true _ rfl
example := C11_down_params house 1 2 true true true _ rfl
example := C11_boundary_params house 2 2 true true true _ rfl
example := C11_all_params house 2 true true true _ rfl
end Cases

end Verif
