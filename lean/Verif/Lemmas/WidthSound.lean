import Verif.Lemmas.WidthGraph

/-!
# Helper lemmas for the widths: the shapes of the parameters are those of the parameters
-/

namespace Verif

variable {α L : Type}

theorem indexSelectOpt_rows {rows f : List (List α)} {idx : Option (List Nat)} {w : Nat}
    (h : indexSelectOpt rows idx = .ok f) (hr : ∀ r ∈ rows, r.length = w) : ∀ r ∈ f, r.length = w := by
  cases idx with
  | none => simp [indexSelectOpt] at h
  | some idx =>
    have h : mapE _ idx = .ok f := h
    rw [mapE_eq_ok_iff] at h
    intro r hm
    obtain ⟨n, hn⟩ := List.getElem?_of_mem hm
    have hrel := h.flip
    rw [List.forall₂_iff_get] at hrel
    obtain ⟨hlt, rfl⟩ := List.getElem?_eq_some_iff.1 hn
    have := hrel.2 n hlt (by rw [← hrel.1]; exact hlt)
    simp only [flip, List.get_eq_getElem] at this
    split at this
    · next q hq =>
      obtain rfl := ok_inj.1 this
      exact hr _ (List.mem_of_getElem? hq)
    · cases this

theorem upParams_shape {c : Cochain (List α) L} {s : LevelShape} (hc : c.HasShape s)
    {above : Option (Cochain (List α) L)} {above' : Option LevelShape}
    (ha : Option.Rel (fun c s => Cochain.HasShape c s) above above') {dim maxDim : Nat} {top : Bool}
    {up : Option (List (Nat × Nat)) × Option (List (List α))}
    (h : upParams c above dim maxDim top = .ok up) :
    (upShape s above' dim maxDim top).1 = up.1.isSome ∧
      RowsHave up.2 (upShape s above' dim maxDim top).2 := by
  cases hu : c.upperIndex with
  | none =>
    have hs : s.up = false := by rw [hc.up, hu]; rfl
    simp only [upParams, hu, ok_inj] at h
    subst h
    simp [upShape, hs, RowsHave]
  | some ui =>
    have hs : s.up = true := by rw [hc.up, hu]; rfl
    cases ha with
    | none =>
      simp only [upParams, hu, ok_inj] at h
      subst h
      simp [upShape, hs, RowsHave]
    | @some a a' haa =>
      have hx := haa.x
      simp only [upParams, hu] at h
      simp only [upShape, hs]
      cases hax : a.x with
      | none =>
        simp only [hax, ok_inj] at h
        subst h
        rw [hax] at hx
        cases hx' : a'.x with
        | none => simp [RowsHave]
        | some w => rw [hx'] at hx; exact absurd hx (by simp [RowsHave])
      | some ax =>
        rw [hax] at hx
        simp only [hax] at h
        cases hx' : a'.x with
        | none => rw [hx'] at hx; exact absurd hx (by simp [RowsHave])
        | some w =>
          rw [hx'] at hx
          by_cases hd : (decide (dim < maxDim) || top) = true
          · rw [if_pos hd] at h ⊢
            obtain ⟨f, hf, h⟩ := bind_eq_ok.1 h
            cases h
            exact ⟨rfl, indexSelectOpt_rows hf hx⟩
          · rw [if_neg hd] at h ⊢
            cases h
            exact ⟨rfl, trivial⟩

theorem downParams_shape {c : Cochain (List α) L} {s : LevelShape} (hc : c.HasShape s)
    {below : Option (List (List α))} {below' : Option Nat} (hb : RowsHave below below') {incl : Bool}
    {dn : Option (List (Nat × Nat)) × Option (List (List α))}
    (h : downParams c below incl = .ok dn) :
    (incl && s.down) = dn.1.isSome ∧
      RowsHave dn.2 (if incl && s.down then below' else none) := by
  cases incl with
  | false =>
    simp only [downParams, ok_inj] at h
    subst h
    simp [RowsHave]
  | true =>
    cases hl : c.lowerIndex with
    | none =>
      have hs : s.down = false := by rw [hc.down, hl]; rfl
      simp only [downParams, hl, ok_inj] at h
      subst h
      simp [hs, RowsHave]
    | some li =>
      have hs : s.down = true := by rw [hc.down, hl]; rfl
      simp only [downParams, hl] at h
      cases below with
      | none =>
        simp only [ok_inj] at h
        subst h
        simp only [hs, Bool.and_true, if_true]
        exact ⟨rfl, hb⟩
      | some bx =>
        obtain ⟨f, hf, h⟩ := bind_eq_ok.1 h
        cases h
        simp only [hs, Bool.and_true, if_true]
        cases below' with
        | none => exact absurd hb (by simp [RowsHave])
        | some w => exact ⟨rfl, indexSelectOpt_rows hf hb⟩

theorem boundaryParams_shape {c : Cochain (List α) L} {s : LevelShape} (hc : c.HasShape s)
    {below : Option (List (List α))} {below' : Option Nat} (hb : RowsHave below below') :
    s.boundary = (boundaryParams c below true).1.isSome ∧
      RowsHave (boundaryParams c below true).2 (if s.boundary then below' else none) := by
  cases hl : c.boundaryIndex with
  | none =>
    have hs : s.boundary = false := by rw [hc.boundary, hl]; rfl
    simp [boundaryParams, hl, hs, RowsHave]
  | some bi =>
    have hs : s.boundary = true := by rw [hc.boundary, hl]; rfl
    simp only [boundaryParams, hl, hs, if_true]
    exact ⟨rfl, hb⟩

theorem forall₂_rel {A B : Type} {r : A → B → Prop} {l : List A} {m : List B}
    (h : List.Forall₂ r l m) (i : Nat) : Option.Rel r l[i]? m[i]? := by
  induction h generalizing i with
  | nil => simp only [List.getElem?_nil]; exact Option.Rel.none
  | cons h _ ih =>
    cases i with
    | zero => exact Option.Rel.some h
    | succ i => simpa using ih i

theorem below_shape {comp : Complex (List α) L} {shapes : List LevelShape}
    (hs : List.Forall₂ (fun c s => Cochain.HasShape c s) comp.cochains shapes) (d : Nat) :
    RowsHave (comp.belowX d) (belowWidth shapes d) := by
  cases d with
  | zero => trivial
  | succ d =>
    have := forall₂_rel hs d
    simp only [Complex.belowX, belowWidth]
    cases h1 : comp.cochains[d]? with
    | none =>
      rw [h1] at this
      cases h2 : shapes[d]? with
      | none => trivial
      | some s => rw [h2] at this; cases this
    | some c =>
      rw [h1] at this
      cases h2 : shapes[d]? with
      | none => rw [h2] at this; cases this
      | some s =>
        rw [h2] at this
        cases this with
        | some h => exact h.x

theorem params_sound {comp : Complex (List α) L} {shapes : List LevelShape}
    (hs : List.Forall₂ (fun c s => Cochain.HasShape c s) comp.cochains shapes)
    (hdim : comp.dimension + 1 = comp.cochains.length) {maxDim : Nat} {top down : Bool}
    {ps : List (MPParams (List α))} (h : comp.getAllCochainParams maxDim top down true = .ok ps) :
    ∃ qs, paramShapes shapes maxDim top down = .ok qs ∧
      List.Forall₂ (fun p q => MPParams.HasShape p q) ps qs := by
  have hlen : shapes.length - 1 = comp.dimension := by rw [← hs.length_eq]; omega
  have hne : shapes ≠ [] := by
    rintro rfl
    have := hs.length_eq
    simp at this
    simp [this] at hdim
  refine ⟨_, paramShapes_of hne, ?_⟩
  rw [Complex.getAllCochainParams, mapE_eq_ok_iff] at h
  have hl : levelsOf maxDim shapes = min maxDim comp.dimension + 1 := by rw [levelsOf, hlen]
  rw [hl, List.forall₂_map_right_iff]
  refine (h.imp ?_).flip
  intro d p hp
  rw [Complex.getCochainParams] at hp
  have hd := forall₂_rel hs d
  cases hc : comp.cochains[d]? with
  | none => rw [hc] at hp; cases hp
  | some c =>
    rw [hc] at hp hd
    simp only at hp
    cases hsd : shapes[d]? with
    | none => rw [hsd] at hd; cases hd
    | some s =>
      rw [hsd] at hd
      cases hd with
      | some hcs =>
        obtain ⟨up, hup, hp⟩ := bind_eq_ok.1 hp
        obtain ⟨dn, hdn, hp⟩ := bind_eq_ok.1 hp
        cases hp
        have hlv : levelAt shapes d = s := by simp [levelAt, hsd]
        simp only [flip, hlv]
        obtain ⟨u1, u2⟩ := upParams_shape hcs (forall₂_rel hs (d + 1)) hup
        obtain ⟨d1, d2⟩ := downParams_shape hcs (below_shape hs d) hdn
        obtain ⟨b1, b2⟩ := boundaryParams_shape hcs (below_shape hs d)
        exact ⟨hcs.x, u1, u2, d1, d2, b1, b2⟩

end Verif
