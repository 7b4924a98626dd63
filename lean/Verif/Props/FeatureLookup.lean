import Verif.Model.FeatureLookup
import Verif.Spec.FeatureLookup
import Verif.Props.Convert
import Verif.Fixtures

/-! # The number of features in a dimension (C59) -/

namespace Verif

variable {F L : Type}

/-- A table that has, in each dimension, nothing or the right answer. -/
structure TableOk (width : F → Nat) (comps : List (Complex F L)) (maxDim : Nat) (nf : List (Option Nat)) : Prop where
  len : nf.length = maxDim + 1
  right : ∀ (d w : Nat), nf[d]? = some (some w) → IsAnswer width comps d (some w)

theorem isAnswer_unique {width : F → Nat} {comps : List (Complex F L)} {maxDim d : Nat}
    (hu : Uniform width comps maxDim) {v v' : Option Nat} (h : IsAnswer width comps d v)
    (h' : IsAnswer width comps d v') : v = v' := by
  cases v with
  | none =>
    cases v' with
    | none => rfl
    | some w' =>
      obtain ⟨comp, h1, h2, -⟩ := h'
      have := h comp h1
      omega
  | some w =>
    obtain ⟨comp, h1, h2, c, h3, h4⟩ := h
    cases v' with
    | none =>
      have := h' comp h1
      omega
    | some w' =>
      obtain ⟨comp', h1', h2', c', h3', h4'⟩ := h'
      rw [hu.agree comp h1 comp' h1' d c c' w w' h2 h2' h3 h3' h4 h4']

theorem lookUp_eq_ok {width : F → Nat} {comps : List (Complex F L)} {maxDim : Nat} {nf nf' : List (Option Nat)}
    (h : TableOk width comps maxDim nf) :
    lookUpNumFeatures width nf comps = .ok nf' ↔
      Uniform width comps maxDim ∧ nf'.length = maxDim + 1 ∧
      ∀ (d : Nat) (v : Option Nat), nf'[d]? = some v → IsAnswer width comps d v := by
  unfold lookUpNumFeatures
  rw [bind_eq_ok]
  constructor
  · rintro ⟨⟨m, nf''⟩, h1, h2⟩
    cases ok_inj.mp h2
    obtain ⟨-, ess, h3, h4⟩ := recordComplexes_eq_ok.mp h1
    have hent := entries_iff h3
    have hex := entries_exist.mp ⟨ess, h3⟩
    have hget : ∀ comp ∈ comps, ∀ (d : Nat) (c : Cochain F L) (w : Nat), d ≤ comp.dimension →
        comp.cochains[d]? = some c → HasWidth width c.x w → nf''[d]? = some (some w) := by
      intro comp hc d c w hd hcc hw
      exact h4.has d w ((hent d w).mpr ⟨comp, hc, hd, c, hcc, hasWidth_iff.mp hw⟩)
    refine ⟨⟨?_, hex, ?_⟩, by rw [h4.len, h.len], ?_⟩
    · intro comp hc
      obtain ⟨c, hcc⟩ := hex comp hc _ le_rfl
      have := lt_of_get (hget comp hc _ c _ le_rfl hcc (hasWidth_iff.mpr rfl))
      rw [h4.len, h.len] at this
      omega
    · intro comp hc comp' hc' d c c' w w' hd hd' hcc hcc' hw hw'
      have h5 := hget comp hc d c w hd hcc hw
      have h6 := hget comp' hc' d c' w' hd' hcc' hw'
      rw [h5] at h6
      cases h6
      rfl
    · intro d v hv
      cases v with
      | none =>
        intro comp hc
        by_contra hd
        obtain ⟨c, hcc⟩ := hex comp hc d (by omega)
        have := hget comp hc d c _ (by omega) hcc (hasWidth_iff.mpr rfl)
        rw [hv] at this
        cases this
      | some w =>
        rcases h4.only d w hv with h5 | h5
        · exact h.right d w h5
        · obtain ⟨comp, hc, hd, c, hcc, hw⟩ := (hent d w).mp h5
          exact ⟨comp, hc, hd, c, hcc, hasWidth_iff.mpr hw⟩
  · rintro ⟨hu, hl, ha⟩
    obtain ⟨ess, h3⟩ := (entries_exist (width := width)).mpr hu.has
    have hent := entries_iff h3
    refine ⟨(comps.foldl (fun m c => largerDim m c.dimension) none, nf'), ?_, rfl⟩
    have hval : ∀ (d w : Nat), d ≤ maxDim → IsAnswer width comps d (some w) → nf'[d]? = some (some w) := by
      intro d w hd hw
      have hlt : d < nf'.length := by omega
      rw [List.getElem?_eq_getElem hlt]
      exact congrArg some (isAnswer_unique hu (ha d _ (List.getElem?_eq_getElem hlt)) hw)
    refine recordComplexes_eq_ok.mpr ⟨rfl, ess, h3, ?_, ?_, ?_, ?_⟩
    · rw [hl, h.len]
    · intro d w hm
      obtain ⟨comp, hc, hd, c, hcc, hw⟩ := (hent d w).mp hm
      exact hval d w (le_trans hd (hu.fits comp hc)) ⟨comp, hc, hd, c, hcc, hasWidth_iff.mpr hw⟩
    · intro d w hk
      have := lt_of_get hk
      rw [h.len] at this
      exact hval d w (by omega) (h.right d w hk)
    · intro d w hk
      right
      obtain ⟨comp, hc, hd, c, hcc, hw⟩ := ha d _ hk
      exact (hent d w).mpr ⟨comp, hc, hd, c, hcc, hasWidth_iff.mp hw⟩

theorem emptyTable_ok {width : F → Nat} {comps : List (Complex F L)} {maxDim : Nat} :
    TableOk width comps maxDim (emptyTable maxDim) := by
  refine ⟨by simp [emptyTable], ?_⟩
  intro d w h
  rw [emptyTable, List.getElem?_replicate] at h
  split at h <;> cases h

theorem tableOk_of {width : F → Nat} {comps : List (Complex F L)} {maxDim : Nat} {nf : List (Option Nat)}
    (hl : nf.length = maxDim + 1) (ha : ∀ (d : Nat) (v : Option Nat), nf[d]? = some v → IsAnswer width comps d v) :
    TableOk width comps maxDim nf := ⟨hl, fun d w h => ha d _ h⟩

theorem filled_exists {width : F → Nat} {comps : List (Complex F L)} {maxDim : Nat}
    (hu : Uniform width comps maxDim) : ∃ nf : List (Option Nat), nf.length = maxDim + 1 ∧
      ∀ (d : Nat) (v : Option Nat), nf[d]? = some v → IsAnswer width comps d v := by
  have : ∀ d, ∃ v, IsAnswer width comps d v := by
    intro d
    by_cases h : ∀ comp ∈ comps, comp.dimension < d
    · exact ⟨none, h⟩
    · push Not at h
      obtain ⟨comp, h1, h2⟩ := h
      obtain ⟨c, h3⟩ := hu.has comp h1 d h2
      exact ⟨some _, comp, h1, h2, c, h3, hasWidth_iff.mpr rfl⟩
  choose f hf using this
  refine ⟨(List.range (maxDim + 1)).map f, by simp, ?_⟩
  intro d v hv
  rw [List.getElem?_map, Option.map_eq_some_iff] at hv
  obtain ⟨k, hk, rfl⟩ := hv
  rw [List.getElem?_range (by simpa using lt_of_get hk)] at hk
  cases hk
  exact hf d

/-- **C59** The answers to any sequence of questions put to a dataset whose complexes agree: for every
dimension up to the maximum the width of the features of the complexes that have it, and `None` if none has
it. -/
theorem C59_answers_follow_the_data (width : F → Nat) (comps : List (Complex F L)) (maxDim : Nat)
    (hu : Uniform width comps maxDim) (dims : List Nat) (hd : ∀ d ∈ dims, d ≤ maxDim) :
    ∃ answers, askNumFeatures width maxDim comps (emptyTable maxDim) dims = .ok answers ∧
      List.Forall₂ (fun d v => IsAnswer width comps d v) dims answers := by
  have key : ∀ (dims : List Nat), (∀ d ∈ dims, d ≤ maxDim) → ∀ nf, TableOk width comps maxDim nf →
      ∃ answers, askNumFeatures width maxDim comps nf dims = .ok answers ∧
        List.Forall₂ (fun d v => IsAnswer width comps d v) dims answers := by
    intro dims
    induction dims with
    | nil => intro _ nf _; exact ⟨[], rfl, .nil⟩
    | cons d dims ih =>
      intro hd nf hnf
      have hdm := hd d (by simp)
      have hlt : d < nf.length := by rw [hnf.len]; omega
      have hg : getAt nf d = .ok nf[d] := getAt_eq_ok.mpr (List.getElem?_eq_getElem hlt)
      have : ∃ nf' v, numFeaturesInDim width maxDim comps nf d = .ok (nf', v) ∧ TableOk width comps maxDim nf' ∧
          IsAnswer width comps d v := by
        unfold numFeaturesInDim
        rw [if_neg (by omega), hg, ok_bind]
        cases hv : nf[d] with
        | some w => exact ⟨nf, some w, rfl, hnf, hnf.right d w (by rw [List.getElem?_eq_getElem hlt, hv])⟩
        | none =>
          obtain ⟨nf', h1, h2⟩ := filled_exists hu
          have hlt' : d < nf'.length := by omega
          have hg' : getAt nf' d = .ok nf'[d] := getAt_eq_ok.mpr (List.getElem?_eq_getElem hlt')
          refine ⟨nf', nf'[d], ?_, tableOk_of h1 h2, h2 d _ (List.getElem?_eq_getElem hlt')⟩
          simp only [(lookUp_eq_ok hnf).mpr ⟨hu, h1, h2⟩, ok_bind, hg']
          rfl
      obtain ⟨nf', v, h1, h2, h3⟩ := this
      obtain ⟨answers, h4, h5⟩ := ih (fun d hd' => hd d (by simp [hd'])) nf' h2
      refine ⟨v :: answers, ?_, .cons h3 h5⟩
      simp only [askNumFeatures, h1, ok_bind, h4]
      rfl
  exact key dims hd _ emptyTable_ok

/-- **C59** Answers are unique: two correct ones are equal. -/
theorem C59_answer_is_unique (width : F → Nat) (comps : List (Complex F L)) (maxDim d : Nat)
    (hu : Uniform width comps maxDim) (v v' : Option Nat) (h : IsAnswer width comps d v)
    (h' : IsAnswer width comps d v') : v = v' := isAnswer_unique hu h h'

/-- **C59** The first question to a dataset whose complexes do not agree, or are too large, fails; so does
every question about a dimension above the maximum. -/
theorem C59_bad_questions_fail (width : F → Nat) (comps : List (Complex F L)) (maxDim d : Nat) :
    (¬ Uniform width comps maxDim → ∃ e, numFeaturesInDim width maxDim comps (emptyTable maxDim) d = .error e) ∧
    (maxDim < d → ∀ nf, numFeaturesInDim width maxDim comps nf d = .error .value) := by
  constructor
  · intro hu
    unfold numFeaturesInDim
    split
    · exact ⟨_, rfl⟩
    · have hg : getAt (emptyTable maxDim) d = .ok none := by
        rw [getAt_eq_ok, emptyTable, List.getElem?_replicate, if_pos (by omega)]
      rw [hg, ok_bind]
      cases h : lookUpNumFeatures width (emptyTable maxDim) comps with
      | error e => exact ⟨e, by simp only [h, error_bind]⟩
      | ok nf' => exact absurd ((lookUp_eq_ok emptyTable_ok).mp h).1 hu
  · intro h nf
    unfold numFeaturesInDim
    rw [if_pos h]

/-- **C59** A value already known is returned without looking at the data. -/
theorem C59_known_values_are_kept (width : F → Nat) (comps : List (Complex F L)) (maxDim d w : Nat)
    (nf : List (Option Nat)) (hd : d ≤ maxDim) (h : nf[d]? = some (some w)) :
    numFeaturesInDim width maxDim comps nf d = .ok (nf, some w) := by
  unfold numFeaturesInDim
  rw [if_neg (by omega), getAt_eq_ok.mpr h]
  rfl

/-- The house and the segment, stored with dimension at most 3: widths 2 in dimensions 0 to 2, nothing in
dimension 3. -/
example : askNumFeatures (fun _ => 2) 3 [Fixtures.seg, Fixtures.house] (emptyTable 3) [1, 2, 3, 0] =
    .ok [some 2, some 2, none, some 2] := by decide

/-- Features of different widths are rejected. -/
example : numFeaturesInDim (fun r => r) 3 [Fixtures.seg, Fixtures.house] (emptyTable 3) 1 = .error .assertion := by
  decide

end Verif
