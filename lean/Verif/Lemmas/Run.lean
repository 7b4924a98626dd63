import Verif.Lemmas.Layers

/-!
# One convolution on a complex, and what it leaves behind
-/

namespace Verif

variable {R L : Type}

theorem attr_of {A : Type} {comp : Complex R L} {d : Nat} {c : Cochain R L}
    (h : comp.cochains[d]? = some c) (get : Cochain R L → Option A) : comp.attr d get = get c := by
  unfold Complex.attr; rw [h]; rfl

theorem attr_none {A : Type} {comp : Complex R L} {d : Nat}
    (h : comp.cochains[d]? = none) (get : Cochain R L → Option A) : comp.attr d get = none := by
  unfold Complex.attr; rw [h]; rfl

theorem Complex.Runs.X_eq {comp : Complex R L} (h : comp.Runs) {d : Nat} {c : Cochain R L}
    (hc : comp.cochains[d]? = some c) : c.x = some (comp.view.X d) ∧
      c.numCells = .ok (some (comp.view.X d).length) := by
  obtain ⟨x, hx, hn⟩ := h.feat d c hc
  have : comp.view.X d = x := by
    show (comp.attr d Cochain.x).getD [] = x
    rw [attr_of hc, hx]; rfl
  rw [this]
  exact ⟨hx, hn⟩

theorem view_X_none {comp : Complex R L} {d : Nat} (h : comp.cochains[d]? = none) :
    comp.view.X d = [] := by
  show (comp.attr d Cochain.x).getD [] = []
  rw [attr_none h]; rfl

theorem Complex.Runs.belowX {comp : Complex R L} (h : comp.Runs) {d : Nat} {c : Cochain R L}
    (hc : comp.cochains[d + 1]? = some c) : comp.belowX (d + 1) = some (comp.view.below (d + 1)) := by
  have hlt : d < comp.cochains.length := by
    have := (List.getElem?_eq_some_iff.mp hc).1; omega
  have hd := List.getElem?_eq_getElem hlt
  show (comp.cochains[d]?).bind Cochain.x = some (comp.view.X d)
  rw [hd]
  exact (h.X_eq hd).1

variable [AddCommMonoid R]

theorem indexSelect_rowOf {rows : List R} {idx : List Nat} (h : ∀ i ∈ idx, i < rows.length) :
    indexSelect rows idx = .ok (idx.map (rowOf rows)) := by
  rw [indexSelect_eq_ok_iff, List.map_map]
  apply List.map_congr_left
  intro i hi
  simp [rowOf, List.getElem?_eq_getElem (h i hi)]

/-- The parameters of a complex that runs are those of its view. -/
theorem Complex.Runs.params {comp : Complex R L} (h : comp.Runs) {d : Nat} (hd : d ≤ comp.dimension)
    (m : Nat) (top down : Bool) :
    ∃ p, comp.getCochainParams d m top down = .ok p ∧
      ParamsOf comp.view d (decide (d < m) || top) down p := by
  have hlt : d < comp.cochains.length := by rw [h.len]; omega
  have hc := List.getElem?_eq_getElem hlt
  generalize comp.cochains[d] = c at hc
  unfold Complex.getCochainParams
  rw [hc]
  dsimp only
  -- upper part
  obtain ⟨up, hup, hupN, hupS⟩ : ∃ up, upParams c comp.cochains[d + 1]? d m top = .ok up ∧
      (up.1 = none → comp.view.up d = []) ∧
      (∀ cols, up.1 = some cols → cols = (comp.view.up d).map Prod.fst ∧
        up.2 = if (decide (d < m) || top) then
          some ((comp.view.up d).map fun q => rowOf (comp.view.X (d + 1)) q.2) else none) := by
    have hview : comp.view.up d = if (comp.cochains[d + 1]?).isSome then
        (c.upperIndex.getD []).zip (c.sharedCoboundaries.getD []) else [] := by
      simp only [Complex.view]
      rw [attr_of hc, attr_of hc]
    have hl := h.upLen d c hc
    have hb := h.upBoth d c hc
    unfold upParams
    cases hui : c.upperIndex with
    | none =>
      refine ⟨_, rfl, ?_, by simp⟩
      intro _
      rw [hview, hui]; simp
    | some ui =>
      rw [hui] at hb hl
      cases hs : c.sharedCoboundaries with
      | none => rw [hs] at hb; simp at hb
      | some sh =>
        rw [hs] at hl
        simp only [Option.getD_some] at hl
        cases ha : comp.cochains[d + 1]? with
        | none =>
          refine ⟨_, rfl, ?_, by simp⟩
          intro _
          rw [hview, ha]; simp
        | some above =>
          rw [hui, hs, ha] at hview
          simp only [Option.isSome_some, if_true, Option.getD_some] at hview
          dsimp only
          rw [(h.X_eq ha).1]
          dsimp only
          have hfst : ui = (comp.view.up d).map Prod.fst := by
            rw [hview, List.map_fst_zip (by omega)]
          have hsnd : sh = (comp.view.up d).map Prod.snd := by
            rw [hview, List.map_snd_zip (by omega)]
          by_cases hcond : (decide (d < m) || top) = true
          · rw [if_pos hcond, if_pos hcond]
            have : indexSelect (comp.view.X (d + 1)) sh = .ok (sh.map (rowOf (comp.view.X (d + 1)))) := by
              apply indexSelect_rowOf
              rw [hsnd, List.forall_mem_map]
              intro q hq
              exact (h.range.up d q hq).2.2
            simp only [indexSelectOpt, this, ok_bind, pure_eq_ok]
            refine ⟨_, rfl, by simp, ?_⟩
            intro cols hcols
            cases hcols
            refine ⟨hfst, ?_⟩
            dsimp only
            rw [hsnd, List.map_map]
            rfl
          · rw [if_neg hcond, if_neg hcond]
            refine ⟨_, rfl, by simp, ?_⟩
            intro cols hcols
            cases hcols
            exact ⟨hfst, rfl⟩
  obtain ⟨dn, hdn, hdnN, hdnS⟩ : ∃ dn, downParams c (comp.belowX d) down = .ok dn ∧
      (down = true → dn.1 = none → comp.view.down d = []) ∧
      (down = true → ∀ cols, dn.1 = some cols → cols = (comp.view.down d).map Prod.fst ∧
        dn.2 = some ((comp.view.down d).map fun q => rowOf (comp.view.below d) q.2)) := by
    have hl := h.downLen d c hc
    have hb := h.downBoth d c hc
    unfold downParams
    cases down with
    | false => exact ⟨_, rfl, by simp, by simp⟩
    | true =>
      cases hli : c.lowerIndex with
      | none =>
        refine ⟨_, rfl, ?_, by simp⟩
        intro _ _
        cases d with
        | zero => rfl
        | succ d =>
          simp only [Complex.view]
          rw [attr_of hc, hli]; rfl
      | some li =>
        rw [hli] at hb hl
        cases hs : c.sharedBoundaries with
        | none => rw [hs] at hb; simp at hb
        | some sh =>
          rw [hs] at hl
          simp only [Option.getD_some] at hl
          cases d with
          | zero =>
            have := h.vertices
            rw [attr_of hc, hli] at this
            simp at this
          | succ d =>
            have hview : comp.view.down (d + 1) = li.zip sh := by
              simp only [Complex.view]
              rw [attr_of hc, attr_of hc, hli, hs]; rfl
            dsimp only
            rw [h.belowX hc]
            dsimp only
            have hfst : li = (comp.view.down (d + 1)).map Prod.fst := by
              rw [hview, List.map_fst_zip (by omega)]
            have hsnd : sh = (comp.view.down (d + 1)).map Prod.snd := by
              rw [hview, List.map_snd_zip (by omega)]
            have : indexSelect (comp.view.below (d + 1)) sh =
                .ok (sh.map (rowOf (comp.view.below (d + 1)))) := by
              apply indexSelect_rowOf
              rw [hsnd, List.forall_mem_map]
              intro q hq
              exact (h.range.down (d + 1) q hq).2.2
            simp only [indexSelectOpt, this, ok_bind, pure_eq_ok]
            refine ⟨_, rfl, by simp, ?_⟩
            intro _ cols hcols
            cases hcols
            refine ⟨hfst, ?_⟩
            dsimp only
            rw [hsnd, List.map_map]
            rfl
  rw [hup, ok_bind, hdn, ok_bind]
  refine ⟨_, rfl, (h.X_eq hc).1, hupN, hupS, hdnN, hdnS, ?_, ?_⟩
  · simp only [boundaryParams]
    cases hbi : c.boundaryIndex with
    | none =>
      intro _
      cases d with
      | zero => rfl
      | succ d =>
        simp only [Complex.view]
        rw [attr_of hc, hbi]; rfl
    | some bi =>
      cases d with
      | zero => intro _; rfl
      | succ d => rw [h.belowX hc]; simp
  · intro data
    simp only [boundaryParams]
    cases hbi : c.boundaryIndex with
    | none => simp
    | some bi =>
      cases d with
      | zero => simp [Complex.belowX]
      | succ d =>
        rw [h.belowX hc]
        intro he
        refine ⟨by simpa using he.symm, ?_⟩
        simp only [Complex.view]
        rw [attr_of hc, hbi]; rfl

/-- The levels fit a convolution up to dimension `m`: one per dimension, and a level that needs the
features of the shared cells above gets them. -/
structure FitLevels {Lv : Type} (needs : Lv → Prop) (m : Nat) (top : Bool) (levels : List Lv) :
    Prop where
  len : levels.length = m + 1
  needs : ∀ (d : Nat) (l : Lv), levels[d]? = some l → needs l → (decide (d < m) || top) = true

theorem convLoop_eq_mapE {Lv : Type} (forward : Lv → MPParams R → Py (List R)) (levels : List Lv)
    (ps : List (MPParams R)) (h : ps.length ≤ levels.length) :
    convLoop forward levels ps = mapE (fun lp => forward lp.1 lp.2) (levels.zip ps) := by
  induction ps generalizing levels with
  | nil => cases levels <;> simp [convLoop]
  | cons p ps ih =>
    cases levels with
    | nil => simp at h
    | cons l levels =>
      rw [convLoop, List.zip_cons_cons, mapE_cons, ih levels (by simpa using h)]
      rfl

/-- A convolution on a complex that runs computes the layer of its view. -/
theorem Complex.Runs.conv {comp : Complex R L} (h : comp.Runs) {Lv : Type}
    {forward : Lv → MPParams R → Py (List R)} {rule : Lv → Rule R} {needs : Lv → Prop}
    {down : Bool} (hr : Realises forward rule needs down) {m : Nat} {top : Bool} {levels : List Lv}
    (hl : FitLevels needs m top levels) :
    (do let ps ← comp.getAllCochainParams m top down
        convForward forward levels ps) =
      .ok ((List.range (min m comp.dimension + 1)).map
        (comp.view.layer (rulesOf rule levels) m top).X) := by
  have hp : ∀ d ∈ List.range (min m comp.dimension + 1), ∃ p,
      comp.getCochainParams d m top down = .ok p ∧
      ParamsOf comp.view d (decide (d < m) || top) down p := by
    intro d hd
    have := List.mem_range.mp hd
    exact h.params (by omega) m top down
  obtain ⟨ps, hps⟩ : ∃ ps, comp.getAllCochainParams m top down = .ok ps := by
    unfold Complex.getAllCochainParams
    have : Nonempty (MPParams R) := ⟨{ x := none }⟩
    choose! g hg using hp
    exact ⟨_, mapE_ok fun d hd => (hg d hd).1⟩
  obtain ⟨hlen, hget⟩ := C11_all_params comp m top down true ps hps
  rw [hps, ok_bind]
  unfold convForward
  have hle : ps.length ≤ levels.length := by rw [hlen, hl.len]; omega
  rw [show decide (ps.length ≤ levels.length) = true by simpa using hle, pyAssert_true, ok_bind,
    convLoop_eq_mapE _ _ _ hle, mapE_eq_ok_iff]
  apply forall₂_of_get
  · simp [hlen, hl.len]
  · intro d lp out hlp hout
    rw [List.getElem?_zip_eq_some] at hlp
    obtain ⟨hlv, hpd⟩ := hlp
    have hd : d < min m comp.dimension + 1 := by
      rw [← hlen]; exact (List.getElem?_eq_some_iff.mp hpd).1
    obtain ⟨p, hp1, hp2⟩ := hp d (List.mem_range.mpr hd)
    have := hget d _ hpd
    rw [hp1] at this
    cases this
    rw [hr lp.1 comp.view d _ _ h.range hp2 (hl.needs d _ hlv)]
    rw [List.getElem?_map, List.getElem?_range hd] at hout
    cases hout
    rw [ok_inj]
    simp only [View.layer, rulesOf, hlv]
    rw [if_pos (by omega)]

omit [AddCommMonoid R] in
/-- The complex with other features. -/
def Complex.withX (comp : Complex R L) (f : Nat → List R) : Complex R L :=
  { comp with cochains := comp.cochains.mapIdx fun d c => { c with x := some (f d) } }

omit [AddCommMonoid R] in
theorem withX_get (comp : Complex R L) (f : Nat → List R) (d : Nat) :
    (comp.withX f).cochains[d]? =
      (comp.cochains[d]?).map fun (c : Cochain R L) => { c with x := some (f d) } := by
  simp [Complex.withX, List.getElem?_mapIdx]

omit [AddCommMonoid R] in
theorem withX_attr {A : Type} (comp : Complex R L) (f : Nat → List R) (d : Nat)
    (get : Cochain R L → Option A) (hg : ∀ (c : Cochain R L) x, get { c with x := x } = get c) :
    (comp.withX f).attr d get = comp.attr d get := by
  unfold Complex.attr
  rw [withX_get]
  cases comp.cochains[d]? with
  | none => rfl
  | some c => exact hg c _

omit [AddCommMonoid R] in
theorem withX_view {comp : Complex R L} {f : Nat → List R}
    (hf : ∀ d, comp.cochains[d]? = none → f d = []) :
    (comp.withX f).view = { comp.view with X := f } := by
  unfold Complex.view
  congr 1
  · funext d
    unfold Complex.attr
    rw [withX_get]
    cases hc : comp.cochains[d]? with
    | none => exact (hf d hc).symm
    | some c => rfl
  · funext d
    rw [withX_attr _ _ _ _ (fun _ _ => rfl), withX_attr _ _ _ _ (fun _ _ => rfl), withX_get]
    simp
  · funext d
    cases d with
    | zero => rfl
    | succ d =>
      dsimp only
      rw [withX_attr _ _ _ _ (fun _ _ => rfl), withX_attr _ _ _ _ (fun _ _ => rfl)]
  · funext d
    cases d with
    | zero => rfl
    | succ d =>
      dsimp only
      rw [withX_attr _ _ _ _ (fun _ _ => rfl)]

omit [AddCommMonoid R] in
theorem withX_cochain {comp : Complex R L} {f : Nat → List R} {d : Nat} {c : Cochain R L}
    (hc : (comp.withX f).cochains[d]? = some c) :
    ∃ c0, comp.cochains[d]? = some c0 ∧ c = { c0 with x := some (f d) } := by
  rw [withX_get] at hc
  cases hc0 : comp.cochains[d]? with
  | none => rw [hc0] at hc; simp at hc
  | some c0 =>
    rw [hc0] at hc
    exact ⟨c0, rfl, by simpa using hc.symm⟩

omit [AddCommMonoid R] in
theorem numCells_withX {c : Cochain R L} {n : Nat} (h : c.numCells = .ok (some n)) {x : List R}
    (hx : x.length = n) (hc : ∃ x0, c.x = some x0) :
    ({ c with x := some x } : Cochain R L).numCells = .ok (some n) := by
  unfold Cochain.numCells at h ⊢
  cases ha : c.numCellsAttr with
  | some k => rw [ha] at h; exact h
  | none => simp [hx]

/-- Writing the new features back leaves a complex that runs, whose view is the layer; nothing but
features changes. -/
theorem Complex.Runs.withX {comp : Complex R L} (h : comp.Runs) (rules : Nat → Rule R) (m : Nat)
    (top : Bool) :
    (comp.withX (comp.view.layer rules m top).X).Runs ∧
    (comp.withX (comp.view.layer rules m top).X).view = comp.view.layer rules m top := by
  have hv : (comp.withX (comp.view.layer rules m top).X).view = comp.view.layer rules m top := by
    rw [withX_view]
    · rfl
    · intro d hd
      have := layer_X_length comp.view rules m top d
      rw [view_X_none hd] at this
      exact List.eq_nil_of_length_eq_zero this
  refine ⟨⟨?_, ?_, ?_, ?_, ?_, ?_, ?_, ?_⟩, hv⟩
  · simp [Complex.withX, h.len]
  · intro d c hc
    obtain ⟨c0, hc0, rfl⟩ := withX_cochain hc
    refine ⟨_, rfl, ?_⟩
    rw [layer_X_length]
    exact numCells_withX (h.X_eq hc0).2 (layer_X_length _ _ _ _ _) ⟨_, (h.X_eq hc0).1⟩
  · intro d c hc
    obtain ⟨c0, hc0, rfl⟩ := withX_cochain hc
    exact h.upBoth d c0 hc0
  · intro d c hc
    obtain ⟨c0, hc0, rfl⟩ := withX_cochain hc
    exact h.upLen d c0 hc0
  · intro d c hc
    obtain ⟨c0, hc0, rfl⟩ := withX_cochain hc
    exact h.downBoth d c0 hc0
  · intro d c hc
    obtain ⟨c0, hc0, rfl⟩ := withX_cochain hc
    exact h.downLen d c0 hc0
  · rw [withX_attr _ _ _ _ (fun _ _ => rfl)]
    exact h.vertices
  · rw [hv]
    exact layer_inRange h.range rules m top

theorem Complex.Runs.write {comp : Complex R L} (h : comp.Runs) (rules : Nat → Rule R) (m : Nat)
    (top : Bool) :
    comp.setXs (((List.range (min m comp.dimension + 1)).map
        (comp.view.layer rules m top).X).map some) =
      .ok (comp.withX (comp.view.layer rules m top).X) := by
  rw [C10_set_xs comp h.len]
  refine ⟨by simp, rfl, rfl, rfl, by simp [Complex.withX], ?_⟩
  intro d c hc
  have hX := h.X_eq hc
  by_cases hd : d < min m comp.dimension + 1
  · rw [List.getElem?_map, List.getElem?_map, List.getElem?_range hd]
    refine ⟨?_, ?_⟩
    · rintro rows he
      cases he
      rw [layer_X_length]
      exact hX.2
    · rw [withX_get, hc]; rfl
  · rw [List.getElem?_eq_none (by simp; omega)]
    dsimp only
    have hdc : d < comp.cochains.length := (List.getElem?_eq_some_iff.mp hc).1
    rw [h.len] at hdc
    have : (comp.view.layer rules m top).X d = comp.view.X d := by
      simp only [View.layer]
      rw [if_neg (by omega)]
    rw [withX_get, hc, this, ← hX.1]
    rfl

end Verif
