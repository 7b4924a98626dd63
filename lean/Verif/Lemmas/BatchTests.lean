import Verif.Model.BatchTests
import Verif.Spec.BatchTests
import Verif.Lemmas.BatchView
import Verif.Lemmas.Loader
import Verif.Props.Models
import Verif.Props.Params

/-!
# What the tests of batching keep of a batch and of its complexes
-/

namespace Verif

variable {R L : Type} [DecidableEq R]

theorem gathered_isSome {A : Type} (l : List (Option (List A))) : (gathered l).isSome = true ↔ ∃ o ∈ l, o.isSome := by
  unfold gathered
  by_cases h : ∃ o ∈ l, o.isSome
  · rw [if_pos h]; exact ⟨fun _ => h, fun _ => rfl⟩
  · rw [if_neg h]; exact ⟨fun x => absurd x (by simp), fun x => absurd x h⟩

theorem gathered_getD {A : Type} (l : List (Option (List A))) : (gathered l).getD [] = l.flatMap fun o => o.getD [] := by
  unfold gathered
  by_cases h : ∃ o ∈ l, o.isSome
  · rw [if_pos h]; rfl
  · rw [if_neg h, Option.getD_none, eq_comm, List.flatMap_eq_nil_iff]
    intro o ho
    cases o with
    | none => rfl
    | some a => exact absurd ⟨_, ho, rfl⟩ h

theorem opt_ext {A : Type} {o o' : Option (List A)} (h : o.isSome = true ↔ o'.isSome = true) (hd : o.getD [] = o'.getD []) :
    o = o' := by
  cases o with
  | none =>
    cases o' with
    | none => rfl
    | some b => exact absurd (h.mpr rfl) (by simp)
  | some a =>
    cases o' with
    | none => exact absurd (h.mp rfl) (by simp)
    | some b => exact congrArg some hd

omit [DecidableEq R] in
theorem gathered_eq (l : List (Option (List R))) :
    (if (l.filterMap id).isEmpty then none else some (l.filterMap id).flatten) = gathered l := by
  have hfl : ∀ l : List (Option (List R)), (l.filterMap id).flatten = l.flatMap fun o => o.getD [] := by
    intro l
    induction l with
    | nil => rfl
    | cons o l ih =>
      cases o with
      | none => exact ih
      | some a => exact congrArg (a ++ ·) ih
  apply opt_ext
  · rw [gathered_isSome]
    constructor
    · intro h
      by_contra hn
      rw [if_pos] at h
      · cases h
      rw [List.isEmpty_iff, List.filterMap_eq_nil_iff]
      intro o ho
      cases o with
      | none => rfl
      | some a => exact absurd ⟨_, ho, rfl⟩ hn
    · rintro ⟨o, ho, hs⟩
      obtain ⟨a, rfl⟩ := Option.isSome_iff_exists.mp hs
      have : a ∈ l.filterMap id := List.mem_filterMap.mpr ⟨_, ho, rfl⟩
      rw [if_neg]
      · rfl
      intro he
      rw [List.isEmpty_iff] at he
      rw [he] at this
      cases this
  · rw [gathered_getD, ← hfl]
    cases hc : l.filterMap id with
    | nil => rfl
    | cons a t => rfl

theorem gathered_gathered {A C : Type} (k : C → Option (List A)) (parts : List (List C)) :
    gathered (parts.map fun part => gathered (part.map k)) = gathered (parts.flatten.map k) := by
  apply opt_ext
  · rw [gathered_isSome, gathered_isSome]
    constructor
    · rintro ⟨o, ho, h⟩
      obtain ⟨part, hp, rfl⟩ := List.mem_map.mp ho
      obtain ⟨o', ho', h'⟩ := (gathered_isSome _).mp h
      obtain ⟨c, hc, rfl⟩ := List.mem_map.mp ho'
      exact ⟨_, List.mem_map_of_mem (List.mem_flatten.mpr ⟨part, hp, hc⟩), h'⟩
    · rintro ⟨o, ho, h⟩
      obtain ⟨c, hc, rfl⟩ := List.mem_map.mp ho
      obtain ⟨part, hp, hcp⟩ := List.mem_flatten.mp hc
      exact ⟨_, List.mem_map_of_mem hp, (gathered_isSome _).mpr ⟨_, List.mem_map_of_mem hcp, h⟩⟩
  · rw [gathered_getD, gathered_getD, List.flatMap_map]
    simp only [gathered_getD, List.flatMap_map]
    induction parts with
    | nil => rfl
    | cons p ps ih => rw [List.flatMap_cons, ih, List.flatten_cons, List.flatMap_append]

omit [DecidableEq R] in
/-- What is kept of a dimension, if `get` gives `k` where the dimension is there and `k` is nothing where it is not. -/
theorem keptDim_eq {C : Type} {get : MPParams R → Py (Option (List R))} {d : Nat} {f : C → List (MPParams R)} {k : C → Option (List R)}
    {cs : List C} (h : ∀ c ∈ cs, ∀ p, (f c)[d]? = some p → get p = .ok (k c))
    (h0 : ∀ c ∈ cs, (f c)[d]? = none → k c = none) :
    keptDim get (cs.map f) d = .ok (gathered (cs.map k)) := by
  have hm : ∃ found, mapE get ((cs.map f).filterMap fun ps => ps[d]?) = .ok found ∧
      found.filterMap id = (cs.map k).filterMap id := by
    induction cs with
    | nil => exact ⟨[], rfl, rfl⟩
    | cons c cs ih =>
      obtain ⟨found, h1, h2⟩ := ih (fun c hc => h c (List.mem_cons_of_mem _ hc)) fun c hc => h0 c (List.mem_cons_of_mem _ hc)
      rw [List.map_cons, List.filterMap_cons]
      cases hp : (f c)[d]? with
      | none =>
        dsimp only
        refine ⟨found, h1, ?_⟩
        rw [h2, List.map_cons, h0 c List.mem_cons_self hp]
        rfl
      | some p =>
        dsimp only
        rw [mapE_cons, h c List.mem_cons_self p hp, ok_bind, h1, ok_bind]
        refine ⟨_, rfl, ?_⟩
        rw [List.map_cons, List.filterMap_cons, List.filterMap_cons, h2]
  obtain ⟨found, h1, h2⟩ := hm
  unfold keptDim
  rw [h1, ok_bind]
  dsimp only
  rw [h2, gathered_eq]
  rfl

section
variable [AddCommMonoid R]

omit [DecidableEq R] in
/-- All parameters of a complex that runs. -/
theorem Complex.Runs.allParams {comp : Complex R L} (h : comp.Runs) :
    ∃ ps, comp.getAllCochainParams = .ok ps ∧ ps.length = min 2 comp.dimension + 1 ∧
      ∀ d p, ps[d]? = some p → d ≤ comp.dimension ∧ comp.getCochainParams d = .ok p ∧ ParamsOf comp.view d true true p := by
  have hp : ∀ d ∈ List.range (min 2 comp.dimension + 1), ∃ p,
      comp.getCochainParams d = .ok p ∧ ParamsOf comp.view d true true p := by
    intro d hd
    have := List.mem_range.mp hd
    have := h.params (d := d) (by omega) 2 true true
    simpa using this
  obtain ⟨ps, hps⟩ : ∃ ps, comp.getAllCochainParams = .ok ps := by
    unfold Complex.getAllCochainParams
    have : Nonempty (MPParams R) := ⟨{ x := none }⟩
    choose! g hg using hp
    exact ⟨_, mapE_ok fun d hd => (hg d hd).1⟩
  obtain ⟨hlen, hget⟩ := C11_all_params comp 2 true true true ps hps
  refine ⟨ps, hps, hlen, ?_⟩
  intro d p hpd
  have hd : d < min 2 comp.dimension + 1 := by
    rw [← hlen]; exact (List.getElem?_eq_some_iff.mp hpd).1
  obtain ⟨p', hp1, hp2⟩ := hp d (List.mem_range.mpr hd)
  have := hget d _ hpd
  rw [hp1] at this
  cases this
  exact ⟨by omega, hp1, hp2⟩

/-- What the two loops keep, if the parameters of the complexes give `k` and those of a batch what its complexes give. -/
theorem sameTest_kept {getB getS : Nat → MPParams R → Py (Option (List R))} {k : Nat → Complex R L → Option (List R)} {b m : Nat}
    (hb : 0 < b) {cs : List (Complex R L)} (hr : ∀ c ∈ cs, c.Ready)
    (h0 : ∀ c ∈ cs, ∀ d, c.dimension < d → k d c = none)
    (hS : ∀ c ∈ cs, ∀ d ≤ m, ∀ p, c.getCochainParams d = .ok p → ParamsOf c.view d true true p → getS d p = .ok (k d c))
    (hB : ∀ part, part ≠ [] → (∀ c ∈ part, c ∈ cs) → ∀ B, fromComplexList part m = .ok B → ∀ d ≤ m, d ≤ B.dimension → ∀ p,
      B.getCochainParams d = .ok p → ParamsOf B.view d true true p → getB d p = .ok (gathered (part.map (k d)))) :
    sameTest getB getS b m cs = .ok () ∧
    ∃ batches bps sps, mapE (fun part => fromComplexList part m) (chunks b cs) = .ok batches ∧
      mapE (boundedParams m) batches = .ok bps ∧ mapE (fun comp => comp.getAllCochainParams) cs = .ok sps ∧
      ∀ d ≤ m, keptDim (getB d) bps d = .ok (gathered (cs.map fun c => if d ≤ 2 then k d c else none)) ∧
        keptDim (getS d) sps d = .ok (gathered (cs.map fun c => if d ≤ 2 then k d c else none)) := by
  obtain ⟨hfl, hne, -, -⟩ := chunks_spec hb cs
  have hsub : ∀ part ∈ chunks b cs, ∀ c ∈ part, c ∈ cs := by
    intro part hp c hc
    rw [← hfl]
    exact List.mem_flatten.mpr ⟨part, hp, hc⟩
  -- single complexes
  have hall : ∀ c ∈ cs, ∃ ps, c.getAllCochainParams = .ok ps ∧ ps.length = min 2 c.dimension + 1 ∧
      ∀ d p, ps[d]? = some p → d ≤ c.dimension ∧ c.getCochainParams d = .ok p ∧ ParamsOf c.view d true true p :=
    fun c hc => (hr c hc).runs.allParams
  choose! fS hS1 hS2 hS3 using hall
  have hsps : mapE (fun comp => comp.getAllCochainParams) cs = .ok (cs.map fS) := mapE_ok hS1
  have hsingle : ∀ d ≤ m, keptDim (getS d) (cs.map fS) d = .ok (gathered (cs.map fun c => if d ≤ 2 then k d c else none)) := by
    intro d hd
    apply keptDim_eq
    · intro c hc p hp
      obtain ⟨-, h2, h3⟩ := hS3 c hc d p hp
      have : d ≤ 2 := by
        have := (List.getElem?_eq_some_iff.mp hp).1
        rw [hS2 c hc] at this; omega
      rw [if_pos this]
      exact hS c hc d hd p h2 h3
    · intro c hc hn
      rw [List.getElem?_eq_none_iff, hS2 c hc] at hn
      by_cases h2 : d ≤ 2
      · rw [if_pos h2]; exact h0 c hc d (by omega)
      · rw [if_neg h2]
  -- batches
  have hbe : ∀ part ∈ chunks b cs, ∃ B, fromComplexList part m = .ok B ∧ B.Runs := by
    intro part hp
    have hrp : ∀ c ∈ part, c.Ready := fun c hc => hr c (hsub part hp c hc)
    obtain ⟨B, hB⟩ := batch_exists (hne part hp).1 hrp m
    exact ⟨B, hB, batch_runs hB hrp⟩
  have hbe' : ∀ part ∈ chunks b cs, ∃ B ps, fromComplexList part m = .ok B ∧ boundedParams m B = .ok ps ∧
      ps.length = min 2 B.dimension + 1 ∧
      ∀ d p, ps[d]? = some p → d ≤ B.dimension ∧ B.getCochainParams d = .ok p ∧ ParamsOf B.view d true true p := by
    intro part hp
    obtain ⟨B, h1, h2⟩ := hbe part hp
    obtain ⟨ps, h3, h4, h5⟩ := h2.allParams
    refine ⟨B, ps, h1, ?_, h4, h5⟩
    unfold boundedParams
    have := (batch_dim_le h1).1
    rw [h3, ok_bind, decide_eq_true (by omega : ps.length ≤ m + 1)]
    rfl
  have : Nonempty (Complex R L) := ⟨{ dimension := 0, cochains := [], y := none }⟩
  choose! gB fB hB1 hB2 hB3 hB4 using hbe'
  have hbat : mapE (fun part => fromComplexList part m) (chunks b cs) = .ok ((chunks b cs).map gB) := mapE_ok hB1
  have hbps : mapE (boundedParams m) ((chunks b cs).map gB) = .ok ((chunks b cs).map fB) := by
    rw [mapE_map]
    exact mapE_ok hB2
  have hbatched : ∀ d ≤ m, keptDim (getB d) ((chunks b cs).map fB) d =
      .ok (gathered (cs.map fun c => if d ≤ 2 then k d c else none)) := by
    intro d hd
    rw [keptDim_eq (k := fun part => gathered (part.map fun c => if d ≤ 2 then k d c else none)), gathered_gathered, hfl]
    · intro part hp p hpd
      obtain ⟨h1, h2, h3⟩ := hB4 part hp d p hpd
      have h4 : d ≤ 2 := by
        have := (List.getElem?_eq_some_iff.mp hpd).1
        rw [hB3 part hp] at this; omega
      simp only [if_pos h4]
      exact hB part (hne part hp).1 (hsub part hp) _ (hB1 part hp) d hd h1 p h2 h3
    · intro part hp hn
      rw [List.getElem?_eq_none_iff, hB3 part hp] at hn
      by_contra hx
      obtain ⟨o, ho, hs⟩ := (gathered_isSome _).mp (Option.isSome_iff_ne_none.mpr hx)
      obtain ⟨c, hc, rfl⟩ := List.mem_map.mp ho
      by_cases h2 : d ≤ 2
      · rw [if_pos h2] at hs
        have := batch_dim_ge (hB1 part hp) hc
        rw [h0 c (hsub part hp c hc) d (by omega)] at hs
        cases hs
      · rw [if_neg h2] at hs; cases hs
  refine ⟨?_, _, _, _, hbat, hbps, hsps, fun d hd => ⟨hbatched d hd, hsingle d hd⟩⟩
  unfold sameTest
  rw [if_neg (by omega), hbat, ok_bind, hbps, ok_bind,
    mapE_ok (fun d hd => hbatched d (by have := List.mem_range.mp hd; omega)), ok_bind, hsps, ok_bind,
    mapE_ok (fun d hd => hsingle d (by have := List.mem_range.mp hd; omega)), ok_bind, decide_eq_true rfl]
  rfl

omit [DecidableEq R]

/-- The features of the shared cofaces among the parameters. -/
theorem Complex.Runs.upAttr {comp : Complex R L} (h : comp.Runs) {d : Nat} {p : MPParams R}
    (hp : comp.getCochainParams d = .ok p) (hv : ParamsOf comp.view d true true p) : p.upAttr = comp.sharedAbove d := by
  unfold Complex.getCochainParams at hp
  cases hc : comp.cochains[d]? with
  | none => rw [hc] at hp; cases hp
  | some c =>
    rw [hc] at hp
    dsimp only at hp
    obtain ⟨up, hup, hp⟩ := bind_eq_ok.mp hp
    obtain ⟨dn, hdn, hp⟩ := bind_eq_ok.mp hp
    cases hp
    unfold Complex.sharedAbove
    rw [attr_of hc]
    have hu := hv.up
    dsimp only at hu ⊢
    unfold upParams at hup
    cases ha : comp.cochains[d + 1]? with
    | none =>
      rw [ha] at hup
      cases hui : c.upperIndex <;> rw [hui] at hup <;> cases hup <;> simp
    | some a =>
      rw [ha] at hup
      obtain ⟨x, hx, -⟩ := h.feat (d + 1) a ha
      cases hui : c.upperIndex with
      | none => rw [hui] at hup; cases hup; simp
      | some ui =>
        rw [hui] at hup
        dsimp only at hup
        rw [hx] at hup
        dsimp only at hup
        rw [if_pos (by simp)] at hup
        obtain ⟨f, hf, hup⟩ := bind_eq_ok.mp hup
        cases hup
        have := (hu ui rfl).2
        rw [this]
        simp

theorem Complex.Runs.downAttr {comp : Complex R L} (h : comp.Runs) {d : Nat} {p : MPParams R}
    (hp : comp.getCochainParams d = .ok p) (hv : ParamsOf comp.view d true true p) : p.downAttr = comp.sharedBelow d := by
  unfold Complex.getCochainParams at hp
  cases hc : comp.cochains[d]? with
  | none => rw [hc] at hp; cases hp
  | some c =>
    rw [hc] at hp
    dsimp only at hp
    obtain ⟨up, hup, hp⟩ := bind_eq_ok.mp hp
    obtain ⟨dn, hdn, hp⟩ := bind_eq_ok.mp hp
    cases hp
    unfold Complex.sharedBelow
    rw [attr_of hc]
    have hu := hv.down rfl
    dsimp only at hu ⊢
    unfold downParams at hdn
    cases hli : c.lowerIndex with
    | none => rw [hli] at hdn; cases hdn; rfl
    | some li =>
      have hd0 : d ≠ 0 := by
        rintro rfl
        have := h.vertices
        rw [attr_of hc, hli] at this
        cases this
      obtain ⟨e, rfl⟩ := Nat.exists_eq_succ_of_ne_zero hd0
      rw [hli, h.belowX hc] at hdn
      obtain ⟨f, hf, hdn⟩ := bind_eq_ok.mp hdn
      cases hdn
      rw [(hu li rfl).2]
      rfl

theorem Complex.Runs.bndAttr {comp : Complex R L} (h : comp.Runs) {d : Nat} {p : MPParams R}
    (hp : comp.getCochainParams d = .ok p) (hv : ParamsOf comp.view d true true p) :
    getIncident (·.boundaryAttr) Prod.fst p = .ok (comp.facesOf d) ∧ getIncident (·.x) Prod.snd p = .ok (comp.cellsOf d) := by
  have hsome : p.boundaryAttr.isSome = (decide (d ≠ 0) && (comp.attr d Cochain.boundaryIndex).isSome) := by
    unfold Complex.getCochainParams at hp
    cases hc : comp.cochains[d]? with
    | none => rw [hc] at hp; cases hp
    | some c =>
      rw [hc] at hp
      dsimp only at hp
      obtain ⟨up, hup, hp⟩ := bind_eq_ok.mp hp
      obtain ⟨dn, hdn, hp⟩ := bind_eq_ok.mp hp
      cases hp
      rw [attr_of hc]
      unfold boundaryParams
      dsimp only
      cases hbi : c.boundaryIndex with
      | none => simp
      | some bi =>
        cases d with
        | zero => rfl
        | succ d => dsimp only; rw [h.belowX hc]; simp
  unfold getIncident Complex.facesOf Complex.cellsOf
  cases hb : p.boundaryAttr with
  | none =>
    rw [hb] at hsome
    dsimp only
    by_cases hd : d = 0
    · simp [hd]
    · rw [if_neg hd, if_neg hd]
      have : comp.attr d Cochain.boundaryIndex = none := by
        simp [hd] at hsome
        exact hsome
      rw [this]
      exact ⟨rfl, rfl⟩
  | some data =>
    obtain ⟨h1, h2⟩ := hv.bnd data hb
    rw [hb] at hsome
    have hd : d ≠ 0 := by rintro rfl; simp at hsome
    have hs : (comp.attr d Cochain.boundaryIndex).isSome := by simpa [hd] using hsome
    obtain ⟨bi, hbi⟩ := Option.isSome_iff_exists.mp hs
    dsimp only
    rw [h2, hv.x, if_neg hd, if_neg hd, hbi, hb, h1]
    dsimp only
    rw [indexSelect_rowOf, indexSelect_rowOf]
    · simp [List.map_map, Function.comp_def, ok_bind]
    · intro i hi
      obtain ⟨q, hq, rfl⟩ := List.mem_map.mp hi
      exact (h.range.bnd d q hq).2
    · intro i hi
      obtain ⟨q, hq, rfl⟩ := List.mem_map.mp hi
      exact (h.range.bnd d q hq).1

theorem flatMap_numbered {A B : Type} (l : List A) (f : A → List B) : (l.zipIdx.flatMap fun ci => f ci.1) = l.flatMap f := by
  have := List.flatMap_map (f := (Prod.fst : A × Nat → A)) (g := f) (l := l.zipIdx)
  rw [List.zipIdx_map_fst] at this
  exact this.symm

/-- The row of a cell of a complex, in the batch. -/
theorem batch_row {cs : List (Complex R L)} {m : Nat} {B : Complex R L} (h : fromComplexList cs m = .ok B)
    (hr : ∀ comp ∈ cs, comp.Ready) {ci : Complex R L × Nat} (hi : ci ∈ cs.zipIdx) {d c : Nat} (hd : d ≤ m)
    (hc : c < (ci.1.view.X d).length) : rowOf (B.view.X d) (inBatch cs ci.2 d c) = rowOf (ci.1.view.X d) c := by
  have := (batch_localIso h hr (mem_of_mem_zipIdx' hi)).feat d c (by simp only [View.upTo, if_pos hd]; exact hc)
  simp only [View.upTo, if_pos hd] at this
  unfold rowOf
  rw [this]

theorem batch_row_below {cs : List (Complex R L)} {m : Nat} {B : Complex R L} (h : fromComplexList cs m = .ok B)
    (hr : ∀ comp ∈ cs, comp.Ready) {ci : Complex R L × Nat} (hi : ci ∈ cs.zipIdx) {d c : Nat} (hd : d ≤ m)
    (hc : c < (ci.1.view.below d).length) :
    rowOf (B.view.below d) (inBatch cs ci.2 (d - 1) c) = rowOf (ci.1.view.below d) c := by
  cases d with
  | zero => exact absurd hc (Nat.not_lt_zero _)
  | succ d => exact batch_row h hr hi (by omega) hc

theorem Complex.sharedAbove_getD (comp : Complex R L) (d : Nat) :
    (comp.sharedAbove d).getD [] = (comp.view.up d).map fun q => rowOf (comp.view.X (d + 1)) q.2 := by
  unfold Complex.sharedAbove
  by_cases ha : (comp.cochains[d + 1]?).isSome
  · rw [if_pos ha]
    cases hu : comp.attr d Cochain.upperIndex with
    | none => simp [Complex.view, hu]
    | some u => rfl
  · rw [if_neg ha]
    simp only [Complex.view]
    rw [if_neg ha]
    rfl

theorem Complex.sharedBelow_getD (comp : Complex R L) (d : Nat) :
    (comp.sharedBelow d).getD [] = (comp.view.down d).map fun q => rowOf (comp.view.below d) q.2 := by
  unfold Complex.sharedBelow
  cases hu : comp.attr d Cochain.lowerIndex with
  | none => cases d <;> simp [Complex.view, hu]
  | some u => rfl

theorem Complex.facesOf_getD (comp : Complex R L) (d : Nat) :
    (comp.facesOf d).getD [] = (comp.view.bnd d).map fun q => rowOf (comp.view.below d) q.1 := by
  unfold Complex.facesOf
  cases d with
  | zero => rfl
  | succ d => cases hu : comp.attr (d + 1) Cochain.boundaryIndex <;> simp [Complex.view, hu]

theorem Complex.cellsOf_getD (comp : Complex R L) (d : Nat) :
    (comp.cellsOf d).getD [] = (comp.view.bnd d).map fun q => rowOf (comp.view.X d) q.2 := by
  unfold Complex.cellsOf
  cases d with
  | zero => rfl
  | succ d => cases hu : comp.attr (d + 1) Cochain.boundaryIndex <;> simp [Complex.view, hu]

theorem unionOf_isSome_iff {C A : Type} {get : C → Option (List A)} {place : Nat → A → A} {cs : List C} :
    (unionOf get place cs).isSome = true ↔ ∃ c ∈ cs, (get c).isSome := by
  unfold unionOf
  by_cases h : ∃ c ∈ cs, (get c).isSome
  · rw [if_pos h]; exact ⟨fun _ => h, fun _ => rfl⟩
  · rw [if_neg h]; exact ⟨fun x => absurd x (by simp), fun x => absurd x h⟩

theorem batch_sharedBelow {cs : List (Complex R L)} {m : Nat} {B : Complex R L} (h : fromComplexList cs m = .ok B)
    (hr : ∀ comp ∈ cs, comp.Ready) {d : Nat} (hd : d ≤ m) (hB : d ≤ B.dimension) :
    B.sharedBelow d = gathered (cs.map fun c => c.sharedBelow d) := by
  have hlt : d < B.cochains.length := by rw [(batch_runs h hr).len]; omega
  have hb := List.getElem?_eq_getElem hlt
  apply opt_ext
  · rw [gathered_isSome]
    unfold Complex.sharedBelow
    rw [attr_of hb, (C01_complex_batch_adjacency cs m B h d _ hb).2.1, Option.isSome_map, unionOf_isSome_iff]
    constructor
    · rintro ⟨c, hc, hs⟩
      exact ⟨_, List.mem_map_of_mem hc, by rw [Option.isSome_map]; exact hs⟩
    · rintro ⟨o, ho, hs⟩
      obtain ⟨c, hc, rfl⟩ := List.mem_map.mp ho
      exact ⟨c, hc, by rwa [Option.isSome_map] at hs⟩
  · rw [gathered_getD, Complex.sharedBelow_getD, batch_down h hr hd, List.map_flatMap, List.flatMap_map]
    simp only [Complex.sharedBelow_getD]
    rw [← flatMap_numbered cs]
    apply List.flatMap_congr
    intro ci hci
    rw [List.map_map]
    apply List.map_congr_left
    intro q hq
    exact batch_row_below h hr hci hd (((hr _ (List.mem_of_getElem? (mem_of_mem_zipIdx' hci))).runs.range.down d q hq).2.2)

theorem batch_facesOf {cs : List (Complex R L)} {m : Nat} {B : Complex R L} (h : fromComplexList cs m = .ok B)
    (hr : ∀ comp ∈ cs, comp.Ready) {d : Nat} (hd : d ≤ m) (hB : d ≤ B.dimension) :
    B.facesOf d = gathered (cs.map fun c => c.facesOf d) ∧ B.cellsOf d = gathered (cs.map fun c => c.cellsOf d) := by
  have hlt : d < B.cochains.length := by rw [(batch_runs h hr).len]; omega
  have hb := List.getElem?_eq_getElem hlt
  have hrange := fun (ci : Complex R L × Nat) (hci : ci ∈ cs.zipIdx) q hq =>
    (hr _ (List.mem_of_getElem? (mem_of_mem_zipIdx' hci))).runs.range.bnd d q hq
  have hu := (C02_complex_batch_incidence cs m B h (fun c hc => (hr c hc).valid.toCoherent) d _ hb).1
  constructor
  · apply opt_ext
    · rw [gathered_isSome]
      unfold Complex.facesOf
      by_cases hd0 : d = 0
      · simp [hd0]
      rw [if_neg hd0, attr_of hb, hu, Option.isSome_map, unionOf_isSome_iff]
      constructor
      · rintro ⟨c, hc, hs⟩
        exact ⟨_, List.mem_map_of_mem hc, by rw [if_neg hd0, Option.isSome_map]; exact hs⟩
      · rintro ⟨o, ho, hs⟩
        obtain ⟨c, hc, rfl⟩ := List.mem_map.mp ho
        exact ⟨c, hc, by rwa [if_neg hd0, Option.isSome_map] at hs⟩
    · rw [gathered_getD, Complex.facesOf_getD, batch_bnd h hr hd, List.map_flatMap, List.flatMap_map]
      simp only [Complex.facesOf_getD]
      rw [← flatMap_numbered cs]
      apply List.flatMap_congr
      intro ci hci
      rw [List.map_map]
      apply List.map_congr_left
      intro q hq
      exact batch_row_below h hr hci hd (hrange ci hci q hq).1
  · apply opt_ext
    · rw [gathered_isSome]
      unfold Complex.cellsOf
      by_cases hd0 : d = 0
      · simp [hd0]
      rw [if_neg hd0, attr_of hb, hu, Option.isSome_map, unionOf_isSome_iff]
      constructor
      · rintro ⟨c, hc, hs⟩
        exact ⟨_, List.mem_map_of_mem hc, by rw [if_neg hd0, Option.isSome_map]; exact hs⟩
      · rintro ⟨o, ho, hs⟩
        obtain ⟨c, hc, rfl⟩ := List.mem_map.mp ho
        exact ⟨c, hc, by rwa [if_neg hd0, Option.isSome_map] at hs⟩
    · rw [gathered_getD, Complex.cellsOf_getD, batch_bnd h hr hd, List.map_flatMap, List.flatMap_map]
      simp only [Complex.cellsOf_getD]
      rw [← flatMap_numbered cs]
      apply List.flatMap_congr
      intro ci hci
      rw [List.map_map]
      apply List.map_congr_left
      intro q hq
      exact batch_row h hr hci hd (hrange ci hci q hq).2

omit [AddCommMonoid R] in
theorem above_of_upper {comp : Complex R L} (h : comp.Ready) (he : comp.NoEmptyUpper) {d : Nat}
    (hs : (comp.attr d Cochain.upperIndex).isSome) : (comp.cochains[d + 1]?).isSome := by
  obtain ⟨u, hu⟩ := Option.isSome_iff_exists.mp hs
  have hne : u ≠ [] := fun hn => he d (by rw [hu, hn])
  have hv := valid_up h.valid d
  by_contra hn
  have h0 : comp.view.up d = [] := by simp only [Complex.view]; rw [if_neg hn]
  cases hc : comp.cochains[d]? with
  | none => rw [attr_none hc] at hu; cases hu
  | some c =>
    have hl := h.runs.upLen d c hc
    rw [attr_of hc] at hu
    rw [h0, attr_of hc, attr_of hc, hu] at hv
    rw [hu] at hl
    have := congrArg List.length hv
    rw [List.length_zip, hl] at this
    simp at this
    exact hne (List.length_eq_zero_iff.mp this.symm)

theorem batch_sharedAbove {cs : List (Complex R L)} {m : Nat} {B : Complex R L} (h : fromComplexList cs m = .ok B)
    (hr : ∀ comp ∈ cs, comp.Ready) (he : ∀ comp ∈ cs, comp.NoEmptyUpper) {d : Nat} (hd : d ≤ m) (hB : d ≤ B.dimension) :
    B.sharedAbove d = gathered (cs.map fun c => if d < m then c.sharedAbove d else none) := by
  have hlt : d < B.cochains.length := by rw [(batch_runs h hr).len]; omega
  have hb := List.getElem?_eq_getElem hlt
  by_cases hdm : d < m
  · simp only [if_pos hdm]
    apply opt_ext
    · rw [gathered_isSome]
      constructor
      · intro hs
        have : (B.attr d Cochain.upperIndex).isSome := by
          unfold Complex.sharedAbove at hs
          split at hs
          · rwa [Option.isSome_map] at hs
          · cases hs
        rw [attr_of hb, (C01_complex_batch_adjacency cs m B h d _ hb).1, unionOf_isSome_iff] at this
        obtain ⟨c, hc, hs'⟩ := this
        refine ⟨_, List.mem_map_of_mem hc, ?_⟩
        unfold Complex.sharedAbove
        rw [if_pos (above_of_upper (hr c hc) (he c hc) hs'), Option.isSome_map]
        exact hs'
      · rintro ⟨o, ho, hs⟩
        obtain ⟨c, hc, rfl⟩ := List.mem_map.mp ho
        unfold Complex.sharedAbove at hs
        split at hs
        · rename_i ha
          rw [Option.isSome_map] at hs
          obtain ⟨a, ha⟩ := Option.isSome_iff_exists.mp ha
          have hl := (List.getElem?_eq_some_iff.mp ha).1
          rw [(hr c hc).valid.len] at hl
          have hge := batch_dim_ge h hc
          unfold Complex.sharedAbove
          rw [if_pos, Option.isSome_map, attr_of hb, (C01_complex_batch_adjacency cs m B h d _ hb).1, unionOf_isSome_iff]
          · exact ⟨c, hc, hs⟩
          · rw [List.getElem?_eq_getElem (by rw [(batch_runs h hr).len]; omega)]; rfl
        · cases hs
    · rw [gathered_getD, Complex.sharedAbove_getD, batch_up h hr hdm, List.map_flatMap, List.flatMap_map]
      rw [show (cs.flatMap fun c => (c.sharedAbove d).getD []) =
          cs.flatMap fun c => (c.view.up d).map fun q => rowOf (c.view.X (d + 1)) q.2 from
        List.flatMap_congr fun c _ => c.sharedAbove_getD d]
      rw [← flatMap_numbered cs]
      apply List.flatMap_congr
      intro ci hci
      rw [List.map_map]
      apply List.map_congr_left
      intro q hq
      exact batch_row h hr hci hdm (((hr _ (List.mem_of_getElem? (mem_of_mem_zipIdx' hci))).runs.range.up d q hq).2.2)
  · simp only [if_neg hdm]
    have h1 : gathered (cs.map fun _ => (none : Option (List R))) = none := by
      unfold gathered
      rw [if_neg]
      rintro ⟨o, ho, hs⟩
      obtain ⟨c, -, rfl⟩ := List.mem_map.mp ho
      cases hs
    rw [h1]
    unfold Complex.sharedAbove
    rw [batch_X_none h (by omega : m < d + 1)]
    rfl

omit [AddCommMonoid R] in
theorem batch_features {cs : List (Complex R L)} {m : Nat} {B : Complex R L} (h : fromComplexList cs m = .ok B)
    (hr : ∀ comp ∈ cs, comp.Ready) {d : Nat} (hB : d ≤ B.dimension) :
    B.attr d Cochain.x = gathered (cs.map fun c => c.attr d Cochain.x) := by
  have hlt : d < B.cochains.length := by rw [(batch_runs h hr).len]; omega
  have hb := List.getElem?_eq_getElem hlt
  rw [attr_of hb, (C01_complex_batch_adjacency cs m B h d _ hb).2.2.1]
  apply opt_ext
  · rw [gathered_isSome, unionOf_isSome_iff]
    simp
  · rw [gathered_getD, unionOf_getD, List.flatMap_map]
    simp only [List.map_id']
    exact flatMap_numbered cs fun c => (c.attr d Cochain.x).getD []

end

end Verif
