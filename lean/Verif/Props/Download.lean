import Verif.Spec.Download
import Mathlib.Tactic.SplitIfs

/-!
# C120: Downloads that are killed, and a version check that never finds anything
-/

namespace Verif

variable {C : Type}

theorem peptidesFunctional_proper : peptidesFunctional.Proper := by
  constructor <;> decide

theorem peptidesStructural_proper : peptidesStructural.Proper := by
  constructor <;> decide

/-- Steps that preserve a chain of assertions. -/
theorem runSteps_chain {I : Nat → RawDisk C → Prop} : ∀ (ops : List (RawDisk C → Py (RawDisk C))) (k : Option Nat) (d : RawDisk C)
    (n : Nat), I n d → (∀ (i : Nat) op, ops[i]? = some op → ∀ d, I (n + i) d → ∃ d', op d = .ok d' ∧ I (n + i + 1) d') →
    ∃ j ≤ ops.length, I (n + j) (runSteps ops k d).1 ∧
      ((runSteps ops k d).2 = some (.ok ()) ∧ j = ops.length ∨ (runSteps ops k d).2 = none ∧ k = some j) := by
  intro ops
  induction ops with
  | nil => exact fun k d n h _ => ⟨0, Nat.le_refl _, h, .inl ⟨by simp [runSteps], rfl⟩⟩
  | cons op ops ih =>
    intro k d n h hstep
    by_cases hk : k = some 0
    · subst hk
      exact ⟨0, Nat.zero_le _, h, .inr ⟨rfl, rfl⟩⟩
    · obtain ⟨d', h1, h2⟩ := hstep 0 op rfl d h
      have hrun : runSteps (op :: ops) k d = runSteps ops (k.map (· - 1)) d' := by
        cases k with
        | none => simp [runSteps, h1]
        | some k =>
          cases k with
          | zero => exact absurd rfl hk
          | succ k => simp [runSteps, h1]
      obtain ⟨j, j1, j2, j3⟩ := ih (k.map (· - 1)) d' (n + 1) h2 (fun i op' hi d hd => by
        have := hstep (i + 1) op' (by simpa using hi) d (by rw [show n + (i + 1) = n + 1 + i by omega]; exact hd)
        rwa [show n + (i + 1) + 1 = n + 1 + i + 1 by omega] at this)
      refine ⟨j + 1, by simpa using j1, by rw [hrun, show n + (j + 1) = n + 1 + j by omega]; exact j2, ?_⟩
      rw [hrun]
      rcases j3 with ⟨a, b⟩ | ⟨a, b⟩
      · exact .inl ⟨a, by simp [b]⟩
      · refine .inr ⟨a, ?_⟩
        cases k with
        | none => simp at b
        | some k =>
          cases k with
          | zero => exact absurd rfl hk
          | succ k => simpa using b

/-- All files that exist have the right hash. -/
structure Peptides.Intact (p : Peptides) (md5 : C → String) (d : RawDisk C) : Prop where
  rawUrl : ∀ c, d.files ("raw", p.rawUrl) = some c → md5 c = p.version
  rawName : ∀ c, d.files ("raw", p.rawName) = some c → md5 c = p.version
  splitUrl : ∀ c, d.files ("", p.splitUrl) = some c → md5 c = p.splitVersion
  splitName : ∀ c, d.files ("", p.splitName) = some c → md5 c = p.splitVersion

/-- What holds after each step of the download. -/
def Peptides.Stage (p : Peptides) (md5 : C → String) (n : Nat) (d : RawDisk C) : Prop :=
  p.Intact md5 d ∧
    match n with
    | 0 => d.files ("raw", p.rawName) = none
    | 1 | 2 | 3 => d.files ("raw", p.rawName) = none ∧ (d.files ("raw", p.rawUrl)).isSome
    | 4 | 5 => d.files ("raw", p.rawName) = none ∧ (d.files ("raw", p.rawUrl)).isSome ∧ (d.files ("", p.splitUrl)).isSome
    | 6 => if p.rawFirst then (d.files ("raw", p.rawName)).isSome ∧ (d.files ("", p.splitUrl)).isSome
        else d.files ("raw", p.rawName) = none ∧ (d.files ("raw", p.rawUrl)).isSome ∧ (d.files ("", p.splitName)).isSome
    | _ => (d.files ("raw", p.rawName)).isSome ∧ (d.files ("", p.splitName)).isSome

theorem fetch_stage {p : Peptides} {path : DiskPath} {c : C} {d : RawDisk C} :
    ∃ d', fetch path c d = .ok d' ∧ (d'.files path).isSome ∧ (∀ q, q ≠ path → d'.files q = d.files q) ∧
      (d'.files path = d.files path ∨ d'.files path = some c) := by
  unfold fetch
  split_ifs with h
  · exact ⟨d, rfl, h, fun _ _ => rfl, .inl rfl⟩
  · exact ⟨_, rfl, by simp [RawDisk.write], fun q hq => by simp [RawDisk.write, hq], .inr (by simp [RawDisk.write])⟩

theorem rename_stage {old new : DiskPath} {d : RawDisk C} (hne : old ≠ new) (h : (d.files old).isSome) :
    ∃ d', renameFile old new d = .ok d' ∧ d'.files new = d.files old ∧ d'.files old = none ∧
      ∀ q, q ≠ old → q ≠ new → d'.files q = d.files q := by
  obtain ⟨c, hc⟩ := Option.isSome_iff_exists.mp h
  unfold renameFile
  rw [hc]
  refine ⟨_, rfl, by simp, by simp [hne], fun q h1 h2 => by simp [h1, h2]⟩

theorem checkHash_ok {md5 : C → String} {path : DiskPath} {want : String} {e : PyErr} {d : RawDisk C}
    (h : (d.files path).isSome) (hw : ∀ c, d.files path = some c → md5 c = want) : checkHash md5 path want e d = .ok d := by
  obtain ⟨c, hc⟩ := Option.isSome_iff_exists.mp h
  unfold checkHash
  rw [hc]
  simp [hw c hc]

theorem download_stages {p : Peptides} (hp : p.Proper) {md5 : C → String} (blank : C) {v : Visit C} (hv : p.Served md5 v) :
    (p.download md5 blank v).length = 7 ∧ ∀ (i : Nat) op, (p.download md5 blank v)[i]? = some op → ∀ d, p.Stage md5 i d →
      ∃ d', op d = .ok d' ∧ p.Stage md5 (i + 1) d' := by
  have hlen : (p.download md5 blank v).length = 7 := by unfold Peptides.download; split_ifs <;> rfl
  refine ⟨hlen, ?_⟩
  intro i op hi d hd
  have hi7 : i < 7 := by rw [← hlen]; exact (List.getElem?_eq_some_iff.mp hi).1
  obtain ⟨hd, hs⟩ := hd
  have rr : (("raw", p.rawUrl) : DiskPath) ≠ ("raw", p.rawName) := by simp [hp.raw]
  have ss : (("", p.splitUrl) : DiskPath) ≠ ("", p.splitName) := by simp [hp.splits]
  have rd : ∀ a b : String, (("raw", a) : DiskPath) ≠ ("", b) := by simp
  match i, hi7 with
  | 0, _ =>
    obtain rfl : fetch ("raw", p.rawUrl) v.raw = op := by
      unfold Peptides.download at hi; simpa using hi
    obtain ⟨d', h1, h2, h3, h4⟩ := fetch_stage (p := p) (path := ("raw", p.rawUrl)) (c := v.raw) (d := d)
    refine ⟨d', h1, ⟨?_, ?_, ?_, ?_⟩, ?_, h2⟩
    · intro c hc
      rcases h4 with h4 | h4
      · exact hd.rawUrl c (by rw [← h4]; exact hc)
      · rw [h4] at hc; rw [← Option.some.inj hc]; exact hv.1
    · intro c hc; rw [h3 _ rr.symm] at hc; exact hd.rawName c hc
    · intro c hc; rw [h3 _ (rd _ _).symm] at hc; exact hd.splitUrl c hc
    · intro c hc; rw [h3 _ (rd _ _).symm] at hc; exact hd.splitName c hc
    · rw [h3 _ rr.symm]; exact hs
  | 1, _ =>
    obtain rfl : checkHash md5 ("raw", p.rawUrl) p.version .value = op := by
      unfold Peptides.download at hi; simpa using hi
    exact ⟨d, checkHash_ok hs.2 hd.rawUrl, hd, hs⟩
  | 2, _ =>
    obtain rfl : (fun d : RawDisk C => .ok (d.write ("", p.version) blank)) = op := by
      unfold Peptides.download at hi; simpa using hi
    have h3 : ∀ q : DiskPath, q ≠ ("", p.version) → (d.write ("", p.version) blank).files q = d.files q := fun q hq => by
      simp [RawDisk.write, hq]
    have e1 := h3 ("raw", p.rawUrl) (rd _ _)
    have e2 := h3 ("raw", p.rawName) (rd _ _)
    have e3 := h3 ("", p.splitUrl) (by simp [hp.tag_url.symm])
    have e4 := h3 ("", p.splitName) (by simp [hp.tag_name.symm])
    refine ⟨_, rfl, ⟨by rw [e1]; exact hd.rawUrl, by rw [e2]; exact hd.rawName, by rw [e3]; exact hd.splitUrl,
      by rw [e4]; exact hd.splitName⟩, ?_⟩
    show _ ∧ _
    rw [e1, e2]
    exact hs
  | 3, _ =>
    obtain rfl : fetch ("", p.splitUrl) v.splits = op := by
      unfold Peptides.download at hi; simpa using hi
    obtain ⟨d', h1, h2, h3, h4⟩ := fetch_stage (p := p) (path := ("", p.splitUrl)) (c := v.splits) (d := d)
    have e1 := h3 ("raw", p.rawUrl) (rd _ _)
    have e2 := h3 ("raw", p.rawName) (rd _ _)
    refine ⟨d', h1, ⟨by rw [e1]; exact hd.rawUrl, by rw [e2]; exact hd.rawName, ?_, ?_⟩, ?_⟩
    · intro c hc
      rcases h4 with h4 | h4
      · exact hd.splitUrl c (by rw [← h4]; exact hc)
      · rw [h4] at hc; rw [← Option.some.inj hc]; exact hv.2
    · rw [h3 _ ss.symm]; exact hd.splitName
    · show _ ∧ _ ∧ _
      rw [e1, e2]
      exact ⟨hs.1, hs.2, h2⟩
  | 4, _ =>
    obtain rfl : checkHash md5 ("", p.splitUrl) p.splitVersion .assertion = op := by
      unfold Peptides.download at hi; simpa using hi
    exact ⟨d, checkHash_ok hs.2.2 hd.splitUrl, hd, hs⟩
  | 5, _ =>
    cases hf : p.rawFirst with
    | true =>
      obtain rfl : p.renameRaw = op := by
        unfold Peptides.download at hi; rw [hf] at hi; simpa using hi
      obtain ⟨d', h1, h2, h3, h4⟩ := rename_stage rr hs.2.1
      have e3 := h4 ("", p.splitUrl) (rd _ _).symm (rd _ _).symm
      have e4 := h4 ("", p.splitName) (rd _ _).symm (rd _ _).symm
      refine ⟨d', h1, ⟨by rw [h3]; simp, by rw [h2]; exact hd.rawUrl, by rw [e3]; exact hd.splitUrl,
        by rw [e4]; exact hd.splitName⟩, ?_⟩
      show if p.rawFirst then _ else _
      rw [if_pos hf, h2, e3]
      exact ⟨hs.2.1, hs.2.2⟩
    | false =>
      obtain rfl : p.renameSplits = op := by
        unfold Peptides.download at hi; rw [hf] at hi; simpa using hi
      obtain ⟨d', h1, h2, h3, h4⟩ := rename_stage ss hs.2.2
      have e1 := h4 ("raw", p.rawUrl) (rd _ _) (rd _ _)
      have e2 := h4 ("raw", p.rawName) (rd _ _) (rd _ _)
      refine ⟨d', h1, ⟨by rw [e1]; exact hd.rawUrl, by rw [e2]; exact hd.rawName, by rw [h3]; simp,
        by rw [h2]; exact hd.splitUrl⟩, ?_⟩
      show if p.rawFirst then _ else _
      rw [if_neg (by simp [hf]), e1, e2, h2]
      exact ⟨hs.1, hs.2.1, hs.2.2⟩
  | 6, _ =>
    cases hf : p.rawFirst with
    | true =>
      obtain rfl : p.renameSplits = op := by
        unfold Peptides.download at hi; rw [hf] at hi; simpa using hi
      replace hs : if p.rawFirst then _ else _ := hs
      rw [if_pos hf] at hs
      obtain ⟨d', h1, h2, h3, h4⟩ := rename_stage ss hs.2
      have e1 := h4 ("raw", p.rawUrl) (rd _ _) (rd _ _)
      have e2 := h4 ("raw", p.rawName) (rd _ _) (rd _ _)
      refine ⟨d', h1, ⟨by rw [e1]; exact hd.rawUrl, by rw [e2]; exact hd.rawName, by rw [h3]; simp,
        by rw [h2]; exact hd.splitUrl⟩, ?_⟩
      show _ ∧ _
      rw [e2, h2]
      exact ⟨hs.1, hs.2⟩
    | false =>
      obtain rfl : p.renameRaw = op := by
        unfold Peptides.download at hi; rw [hf] at hi; simpa using hi
      replace hs : if p.rawFirst then _ else _ := hs
      rw [if_neg (by simp [hf])] at hs
      obtain ⟨d', h1, h2, h3, h4⟩ := rename_stage rr hs.2.1
      have e3 := h4 ("", p.splitUrl) (rd _ _).symm (rd _ _).symm
      have e4 := h4 ("", p.splitName) (rd _ _).symm (rd _ _).symm
      refine ⟨d', h1, ⟨by rw [h3]; simp, by rw [h2]; exact hd.rawUrl, by rw [e3]; exact hd.splitUrl,
        by rw [e4]; exact hd.splitName⟩, ?_⟩
      show _ ∧ _
      rw [h2, e4]
      exact ⟨hs.2.1, hs.2.2⟩

/-- The check of the version does not touch the files of the dataset. -/
theorem checkVersion_files {p : Peptides} (hp : p.Proper) (answer : String) (d : RawDisk C) (q : DiskPath)
    (hq : q.1 = "raw" ∨ q.1 = "") : (p.checkVersion answer d).files q = d.files q := by
  have : q.1 ≠ p.folder := by
    rcases hq with h | h
    · rw [h]; exact hp.folder_raw.symm
    · rw [h]; exact hp.folder_root.symm
  unfold Peptides.checkVersion RawDisk.rmtree
  split_ifs
  · simp [this]
  · rfl
  · rfl

/-- What holds between constructions that are not killed between the two renamings. -/
def Peptides.Sound (p : Peptides) (md5 : C → String) (d : RawDisk C) : Prop :=
  p.Intact md5 d ∧ ((d.files ("raw", p.rawName)).isSome → (d.files ("", p.splitName)).isSome)

theorem Peptides.Intact.congr {p : Peptides} {md5 : C → String} {d d' : RawDisk C} (h : p.Intact md5 d)
    (he : ∀ q : DiskPath, q.1 = "raw" ∨ q.1 = "" → d'.files q = d.files q) : p.Intact md5 d' :=
  ⟨by rw [he _ (.inl rfl)]; exact h.rawUrl, by rw [he _ (.inl rfl)]; exact h.rawName,
    by rw [he _ (.inr rfl)]; exact h.splitUrl, by rw [he _ (.inr rfl)]; exact h.splitName⟩

theorem sources_ok {p : Peptides} {md5 : C → String} {d : RawDisk C} (h : p.Intact md5 d)
    (h1 : (d.files ("raw", p.rawName)).isSome) (h2 : (d.files ("", p.splitName)).isSome) :
    ∃ r s, p.sources d = .ok (r, s) ∧ md5 r = p.version ∧ md5 s = p.splitVersion := by
  obtain ⟨r, hr⟩ := Option.isSome_iff_exists.mp h1
  obtain ⟨s, hs⟩ := Option.isSome_iff_exists.mp h2
  refine ⟨r, s, ?_, h.rawName r hr, h.splitName s hs⟩
  unfold Peptides.sources
  rw [hr, hs]
  rfl

theorem construct_sound {p : Peptides} (hp : p.Proper) {md5 : C → String} (blank : C) {v : Visit C} (hv : p.Served md5 v)
    {d : RawDisk C} (hd : p.Sound md5 d) (hk : p.rawFirst = true → v.killed ≠ some 6) :
    p.Sound md5 (p.construct md5 blank v d).1 ∧
      ((p.construct md5 blank v d).2 = none ∧ (v.agrees = false ∨ v.killed.isSome) ∨
        ∃ r s, (p.construct md5 blank v d).2 = some (.ok (r, s)) ∧ md5 r = p.version ∧ md5 s = p.splitVersion) := by
  have he := checkVersion_files hp v.answer d
  have hd' : p.Sound md5 (p.checkVersion v.answer d) :=
    ⟨hd.1.congr he, by rw [he _ (.inl rfl), he _ (.inr rfl)]; exact hd.2⟩
  unfold Peptides.construct
  generalize p.checkVersion v.answer d = d at hd'
  dsimp only
  split_ifs with h1 h2
  · refine ⟨hd', .inr ?_⟩
    obtain ⟨r, s, e1, e2, e3⟩ := sources_ok hd'.1 h1 (hd'.2 h1)
    exact ⟨r, s, by rw [e1], e2, e3⟩
  · obtain ⟨hlen, hst⟩ := download_stages hp blank hv
    obtain ⟨j, j1, j2, j3⟩ := runSteps_chain (I := p.Stage md5) (p.download md5 blank v) v.killed
      { d with dirs := "raw" :: d.dirs } 0 ⟨hd'.1.congr fun _ _ => rfl, by simpa using h1⟩ (by simpa using hst)
    rw [Nat.zero_add] at j2
    rw [hlen] at j1 j3
    have hfin : p.Sound md5 (runSteps (p.download md5 blank v) v.killed { d with dirs := "raw" :: d.dirs }).1 ∨
        (j = 6 ∧ p.rawFirst = true) := by
      obtain ⟨i1, i2⟩ := j2
      have no : ∀ d : RawDisk C, p.Intact md5 d → d.files ("raw", p.rawName) = none → p.Sound md5 d :=
        fun d hd h => ⟨hd, by rw [h]; simp⟩
      match j, j1 with
      | 0, _ => exact .inl (no _ i1 i2)
      | 1, _ => exact .inl (no _ i1 i2.1)
      | 2, _ => exact .inl (no _ i1 i2.1)
      | 3, _ => exact .inl (no _ i1 i2.1)
      | 4, _ => exact .inl (no _ i1 i2.1)
      | 5, _ => exact .inl (no _ i1 i2.1)
      | 6, _ =>
        cases hf : p.rawFirst with
        | true => exact .inr ⟨rfl, rfl⟩
        | false =>
          replace i2 : if p.rawFirst then _ else _ := i2
          rw [if_neg (by simp [hf])] at i2
          exact .inl (no _ i1 i2.1)
      | 7, _ => exact .inl ⟨i1, fun _ => i2.2⟩
    cases hr : runSteps (p.download md5 blank v) v.killed { d with dirs := "raw" :: d.dirs } with
    | mk d' res =>
      rw [hr] at j2 j3 hfin
      dsimp only at j2 j3 hfin
      rcases j3 with ⟨k1, k2⟩ | ⟨k1, k2⟩
      · subst k1
        subst k2
        obtain ⟨i1, i2⟩ := j2
        obtain ⟨r, s, e1, e2, e3⟩ := sources_ok i1 i2.1 i2.2
        exact ⟨⟨i1, fun _ => i2.2⟩, .inr ⟨r, s, by rw [← e1], e2, e3⟩⟩
      · subst k1
        refine ⟨?_, .inl ⟨rfl, .inr (by rw [k2]; rfl)⟩⟩
        refine hfin.resolve_right ?_
        rintro ⟨rfl, hf⟩
        exact hk hf k2
  · exact ⟨⟨hd'.1.congr fun _ _ => rfl, hd'.2⟩, .inl ⟨rfl, .inl (by simpa using h2)⟩⟩

theorem after_sound {p : Peptides} (hp : p.Proper) {md5 : C → String} (blank : C) : ∀ (history : List (Visit C)) (d : RawDisk C),
    p.Sound md5 d → (∀ v ∈ history, p.Served md5 v) → (p.rawFirst = true → ∀ v ∈ history, v.killed ≠ some 6) →
    p.Sound md5 (p.after md5 blank history d) := by
  intro history
  induction history with
  | nil => exact fun d h _ _ => h
  | cons v history ih =>
    intro d h hs hk
    exact ih _ (construct_sound hp blank (hs v (by simp)) h (fun hf => hk hf v (by simp))).1
      (fun w hw => hs w (by simp [hw])) (fun hf w hw => hk hf w (by simp [hw]))

theorem Peptides.Fresh.sound {p : Peptides} {md5 : C → String} {d : RawDisk C} (h : p.Fresh d) : p.Sound md5 d := by
  obtain ⟨h1, h2, h3, h4⟩ := h
  exact ⟨⟨by rw [h1]; simp, by rw [h2]; simp, by rw [h3]; simp, by rw [h4]; simp⟩, by rw [h2]; simp⟩

/-- **C120** The structural peptides: whatever happened before (constructions killed at any step, downloads declined, any
answers), as long as the right files are served, a construction that is not killed reads a table and splits with the right
hashes. -/
theorem C120_structural_recovers (md5 : C → String) (blank : C) (d : RawDisk C) (hd : peptidesStructural.Fresh d)
    (history : List (Visit C)) (hh : ∀ v ∈ history, peptidesStructural.Served md5 v) (v : Visit C)
    (hv : peptidesStructural.Served md5 v) (ha : v.agrees = true) (hk : v.killed = none) :
    ∃ r s, (peptidesStructural.construct md5 blank v (peptidesStructural.after md5 blank history d)).2 = some (.ok (r, s)) ∧
      md5 r = peptidesStructural.version ∧ md5 s = peptidesStructural.splitVersion := by
  have h := after_sound peptidesStructural_proper blank history d hd.sound hh (by intro h; cases h)
  rcases (construct_sound peptidesStructural_proper blank hv h (by intro h; cases h)).2 with ⟨-, h | h⟩ | h
  · rw [ha] at h; cases h
  · rw [hk] at h; cases h
  · exact h

/-- **C120** The functional peptides: the same, if no construction was killed between the two renamings. -/
theorem C120_functional_recovers (md5 : C → String) (blank : C) (d : RawDisk C) (hd : peptidesFunctional.Fresh d)
    (history : List (Visit C)) (hh : ∀ v ∈ history, peptidesFunctional.Served md5 v) (h6 : ∀ v ∈ history, v.killed ≠ some 6)
    (v : Visit C) (hv : peptidesFunctional.Served md5 v) (ha : v.agrees = true) (hk : v.killed = none) :
    ∃ r s, (peptidesFunctional.construct md5 blank v (peptidesFunctional.after md5 blank history d)).2 = some (.ok (r, s)) ∧
      md5 r = peptidesFunctional.version ∧ md5 s = peptidesFunctional.splitVersion := by
  have h := after_sound peptidesFunctional_proper blank history d hd.sound hh (fun _ => h6)
  rcases (construct_sound peptidesFunctional_proper blank hv h (by rw [hk]; simp)).2 with ⟨-, h | h⟩ | h
  · rw [ha] at h; cases h
  · rw [hk] at h; cases h
  · exact h

/-- A table without splits stays like this. -/
theorem stuck_of {p : Peptides} (hp : p.Proper) (md5 : C → String) (blank : C) : ∀ (history : List (Visit C)) (d : RawDisk C),
    (d.files ("raw", p.rawName)).isSome → d.files ("", p.splitName) = none → ∀ v : Visit C,
    (p.construct md5 blank v (p.after md5 blank history d)).2 = some (.error .runtime) := by
  have one : ∀ (v : Visit C) (d : RawDisk C), (d.files ("raw", p.rawName)).isSome → d.files ("", p.splitName) = none →
      p.construct md5 blank v d = (p.checkVersion v.answer d, some (.error .runtime)) := by
    intro v d h1 h2
    have he := checkVersion_files hp v.answer d
    rw [← he _ (.inl rfl)] at h1
    rw [← he _ (.inr rfl)] at h2
    unfold Peptides.construct
    dsimp only
    rw [if_pos h1]
    unfold Peptides.sources
    rw [h2]
    obtain ⟨c, hc⟩ := Option.isSome_iff_exists.mp h1
    rw [hc]
    rfl
  intro history
  induction history with
  | nil =>
    intro d h1 h2 v
    show (p.construct md5 blank v d).2 = _
    rw [one v d h1 h2]
  | cons w history ih =>
    intro d h1 h2 v
    have he := checkVersion_files hp w.answer d
    show (p.construct md5 blank v (p.after md5 blank history (p.construct md5 blank w d).1)).2 = _
    rw [one w d h1 h2]
    exact ih _ (by rw [he _ (.inl rfl)]; exact h1) (by rw [he _ (.inr rfl)]; exact h2) v

/-- **C120** The functional peptides, killed between the two renamings: no later construction ever succeeds, whatever is
served. The table has its final name, so nothing is downloaded, and the splits never get theirs. -/
theorem C120_functional_stays_broken (md5 : C → String) (blank : C) (d : RawDisk C) (hd : peptidesFunctional.Fresh d)
    (v : Visit C) (hv : peptidesFunctional.Served md5 v) (ha : v.agrees = true) (hk : v.killed = some 6)
    (history : List (Visit C)) (w : Visit C) :
    (peptidesFunctional.construct md5 blank v d).2 = none ∧
    (peptidesFunctional.construct md5 blank w
      (peptidesFunctional.after md5 blank (v :: history) d)).2 = some (.error .runtime) := by
  obtain ⟨h1, h2, h3, h4⟩ := hd
  have he := checkVersion_files peptidesFunctional_proper v.answer d
  have key : ((peptidesFunctional.construct md5 blank v d).1.files ("raw", peptidesFunctional.rawName)).isSome ∧
      (peptidesFunctional.construct md5 blank v d).1.files ("", peptidesFunctional.splitName) = none ∧
      (peptidesFunctional.construct md5 blank v d).2 = none := by
    unfold Peptides.construct
    dsimp only
    rw [he _ (.inl rfl), h2]
    rw [← he _ (.inl rfl)] at h1 h2
    rw [← he _ (.inr rfl)] at h3 h4
    generalize peptidesFunctional.checkVersion v.answer d = d at h1 h2 h3 h4
    obtain ⟨hv1, hv2⟩ := hv
    simp only [peptidesFunctional] at h1 h2 h3 h4 hv1 hv2
    simp [ha, hk, peptidesFunctional, Peptides.download, runSteps, fetch, checkHash, RawDisk.write, Peptides.renameRaw,
      Peptides.renameSplits, renameFile, h1, h2, h3, h4, hv1, hv2]
  exact ⟨key.2.2, stuck_of peptidesFunctional_proper md5 blank history _ key.1 key.2.1 w⟩

/-- Steps that preserve an assertion, then a step that cannot be done. -/
theorem runSteps_fails {Q : RawDisk C → Prop} {op : RawDisk C → Py (RawDisk C)} {post : List (RawDisk C → Py (RawDisk C))}
    (hop : ∀ d, Q d → ∃ e, op d = .error e) : ∀ (pre : List (RawDisk C → Py (RawDisk C))) (k : Option Nat) (d : RawDisk C),
    (∀ f ∈ pre, ∀ d d', Q d → f d = .ok d' → Q d') → Q d →
    Q (runSteps (pre ++ op :: post) k d).1 ∧
      ((∃ e, (runSteps (pre ++ op :: post) k d).2 = some (.error e)) ∨
        (runSteps (pre ++ op :: post) k d).2 = none ∧ k.isSome) := by
  intro pre
  induction pre with
  | nil =>
    intro k d _ hd
    by_cases hk : k = some 0
    · subst hk
      exact ⟨hd, .inr ⟨rfl, rfl⟩⟩
    · obtain ⟨e, he⟩ := hop d hd
      have : runSteps ([] ++ op :: post) k d = (d, some (.error e)) := by
        cases k with
        | none => simp [runSteps, he]
        | some k =>
          cases k with
          | zero => exact absurd rfl hk
          | succ k => simp [runSteps, he]
      rw [this]
      exact ⟨hd, .inl ⟨e, rfl⟩⟩
  | cons f pre ih =>
    intro k d hpre hd
    by_cases hk : k = some 0
    · subst hk
      exact ⟨hd, .inr ⟨rfl, rfl⟩⟩
    · have hrun : runSteps (f :: pre ++ op :: post) k d = match f d with
          | .error e => (d, some (.error e))
          | .ok d => runSteps (pre ++ op :: post) (k.map (· - 1)) d := by
        cases k with
        | none => rfl
        | some k =>
          cases k with
          | zero => exact absurd rfl hk
          | succ k => rfl
      rw [hrun]
      cases hf : f d with
      | error e => exact ⟨hd, .inl ⟨e, rfl⟩⟩
      | ok d' =>
        obtain ⟨h1, h2⟩ := ih (k.map (· - 1)) d' (fun g hg => hpre g (by simp [hg])) (hpre f (by simp) d d' hd hf)
        refine ⟨h1, h2.imp_right ?_⟩
        rintro ⟨a, b⟩
        exact ⟨a, by simpa using b⟩

/-- Steps preserve what each of them preserves. -/
theorem runSteps_inv {Q : RawDisk C → Prop} : ∀ (ops : List (RawDisk C → Py (RawDisk C))) (k : Option Nat) (d : RawDisk C),
    (∀ f ∈ ops, ∀ d d', Q d → f d = .ok d' → Q d') → Q d → Q (runSteps ops k d).1 := by
  intro ops
  induction ops with
  | nil => exact fun k d _ hd => by simpa [runSteps] using hd
  | cons f ops ih =>
    intro k d hpre hd
    by_cases hk : k = some 0
    · subst hk
      exact hd
    · have hrun : runSteps (f :: ops) k d = match f d with
          | .error e => (d, some (.error e))
          | .ok d => runSteps ops (k.map (· - 1)) d := by
        cases k with
        | none => rfl
        | some k =>
          cases k with
          | zero => exact absurd rfl hk
          | succ k => rfl
      rw [hrun]
      cases hf : f d with
      | error e => exact hd
      | ok d' => exact ih _ d' (fun g hg => hpre g (by simp [hg])) (hpre f (by simp) d d' hd hf)

/-- A step that changes one of the given files only. -/
def Touches (f : RawDisk C → Py (RawDisk C)) (paths : List DiskPath) : Prop :=
  ∀ d d', f d = .ok d' → d'.dirs = d.dirs ∧ ∀ q, q ∉ paths → d'.files q = d.files q

theorem fetch_touches (path : DiskPath) (c : C) : Touches (fetch path c) [path] := by
  intro d d' h
  unfold fetch at h
  split_ifs at h
  · cases h; exact ⟨rfl, fun _ _ => rfl⟩
  · cases h; exact ⟨rfl, fun q hq => by simp [RawDisk.write, List.mem_singleton.not.mp hq]⟩

theorem fetch_keeps (path : DiskPath) (c : C) {d d' : RawDisk C} {x : C} (hx : d.files path = some x)
    (h : fetch path c d = .ok d') : d' = d := by
  unfold fetch at h
  rw [hx] at h
  cases h
  rfl

theorem checkHash_touches (md5 : C → String) (path : DiskPath) (want : String) (e : PyErr) :
    Touches (checkHash md5 path want e) [] := by
  intro d d' h
  unfold checkHash at h
  split at h
  · cases h
  · split_ifs at h
    cases h
    exact ⟨rfl, fun _ _ => rfl⟩

theorem rename_touches (old new : DiskPath) : Touches (renameFile (C := C) old new) [old, new] := by
  intro d d' h
  unfold renameFile at h
  split at h
  · cases h
  · cases h
    refine ⟨rfl, fun q hq => ?_⟩
    simp only [List.mem_cons, List.not_mem_nil, or_false, not_or] at hq
    simp [hq.1, hq.2]

theorem download_touches (p : Peptides) (md5 : C → String) (blank : C) (v : Visit C) : ∀ f ∈ p.download md5 blank v, ∀ d d',
    f d = .ok d' → d'.dirs = d.dirs ∧ ∀ q : DiskPath, q.1 ≠ "raw" → q.1 ≠ "" → d'.files q = d.files q := by
  intro f hf d d' h
  have key : ∃ paths : List DiskPath, Touches f paths ∧ ∀ q ∈ paths, q.1 = "raw" ∨ q.1 = "" := by
    have hmem : f = fetch ("raw", p.rawUrl) v.raw ∨ f = checkHash md5 ("raw", p.rawUrl) p.version .value ∨
        f = (fun d => .ok (d.write ("", p.version) blank)) ∨ f = fetch ("", p.splitUrl) v.splits ∨
        f = checkHash md5 ("", p.splitUrl) p.splitVersion .assertion ∨ f = p.renameRaw ∨ f = p.renameSplits := by
      unfold Peptides.download at hf
      split_ifs at hf <;> simp at hf <;> tauto
    rcases hmem with rfl | rfl | rfl | rfl | rfl | rfl | rfl
    · exact ⟨_, fetch_touches _ _, by simp⟩
    · exact ⟨_, checkHash_touches _ _ _ _, by simp⟩
    · refine ⟨[("", p.version)], fun d d' h => ?_, by simp⟩
      cases h
      exact ⟨rfl, fun q hq => by simp [RawDisk.write, List.mem_singleton.not.mp hq]⟩
    · exact ⟨_, fetch_touches _ _, by simp⟩
    · exact ⟨_, checkHash_touches _ _ _ _, by simp⟩
    · exact ⟨_, rename_touches _ _, by simp⟩
    · exact ⟨_, rename_touches _ _, by simp⟩
  obtain ⟨paths, h1, h2⟩ := key
  obtain ⟨h3, h4⟩ := h1 d d' h
  refine ⟨h3, fun q q1 q2 => h4 q fun hq => ?_⟩
  rcases h2 q hq with h | h
  · exact q1 h
  · exact q2 h

/-- A construction that finds no table and whose download ends with an exception. -/
theorem construct_fails {p : Peptides} {md5 : C → String} {blank : C} {v : Visit C} {Q : RawDisk C → Prop}
    (hno : ∀ d, Q d → d.files ("raw", p.rawName) = none)
    (hdir : ∀ d, Q d → Q { d with dirs := "raw" :: d.dirs })
    (hver : ∀ d, Q d → Q (p.checkVersion v.answer d))
    (hrun : ∀ d, Q d → Q (runSteps (p.download md5 blank v) v.killed d).1 ∧
      ((∃ e, (runSteps (p.download md5 blank v) v.killed d).2 = some (.error e)) ∨
        (runSteps (p.download md5 blank v) v.killed d).2 = none ∧ v.killed.isSome))
    {d : RawDisk C} (hd : Q d) : Q (p.construct md5 blank v d).1 ∧
      ((∃ e, (p.construct md5 blank v d).2 = some (.error e)) ∨
        (p.construct md5 blank v d).2 = none ∧ (v.agrees = false ∨ v.killed.isSome)) := by
  have hd' := hver d hd
  unfold Peptides.construct
  dsimp only
  rw [hno _ hd']
  simp only [Option.isSome_none, Bool.false_eq_true, if_false]
  split_ifs with ha
  · obtain ⟨h1, h2⟩ := hrun _ (hdir _ hd')
    cases hr : runSteps (p.download md5 blank v) v.killed
        { p.checkVersion v.answer d with dirs := "raw" :: (p.checkVersion v.answer d).dirs } with
    | mk d' res =>
      rw [hr] at h1 h2
      dsimp only at h1 h2
      rcases h2 with ⟨e, rfl⟩ | ⟨rfl, h2⟩
      · exact ⟨h1, .inl ⟨e, rfl⟩⟩
      · exact ⟨h1, .inr ⟨rfl, .inr h2⟩⟩
  · exact ⟨hdir _ hd', .inr ⟨rfl, .inl (by simpa using ha)⟩⟩

theorem construct_corrupt {p : Peptides} (hp : p.Proper) (md5 : C → String) (blank : C) (v : Visit C) {d : RawDisk C}
    (hd : p.Corrupt md5 d) : p.Corrupt md5 (p.construct md5 blank v d).1 ∧
      ((∃ e, (p.construct md5 blank v d).2 = some (.error e)) ∨
        (p.construct md5 blank v d).2 = none ∧ (v.agrees = false ∨ v.killed.isSome)) := by
  have hdl : ∃ tail, p.download md5 blank v = fetch ("raw", p.rawUrl) v.raw ::
      checkHash md5 ("raw", p.rawUrl) p.version .value :: (fun d => .ok (d.write ("", p.version) blank)) ::
      fetch ("", p.splitUrl) v.splits :: checkHash md5 ("", p.splitUrl) p.splitVersion .assertion :: tail := ⟨_, rfl⟩
  obtain ⟨tail, hdl⟩ := hdl
  have rr : (("raw", p.rawUrl) : DiskPath) ≠ ("raw", p.rawName) := by simp [hp.raw]
  obtain ⟨hn, hd⟩ := hd
  rcases hd with hd | hd
  · have h := construct_fails (p := p) (md5 := md5) (blank := blank) (v := v)
      (Q := fun d => d.files ("raw", p.rawName) = none ∧ ∃ c, d.files ("raw", p.rawUrl) = some c ∧ md5 c ≠ p.version)
      (fun d h => h.1) (fun d h => h)
      (fun d h => by
        have he := checkVersion_files hp v.answer d
        rw [he _ (.inl rfl), he _ (.inl rfl)]; exact h)
      (fun d h => by
        rw [hdl]
        refine runSteps_fails (Q := fun d => d.files ("raw", p.rawName) = none ∧
          ∃ c, d.files ("raw", p.rawUrl) = some c ∧ md5 c ≠ p.version) (pre := [fetch ("raw", p.rawUrl) v.raw]) ?_ _ d ?_ h
        · rintro d ⟨-, c, h1, h2⟩
          exact ⟨.value, by unfold checkHash; rw [h1]; simp [h2]⟩
        · intro f hf d d' h hfd
          rw [List.mem_singleton.mp hf] at hfd
          obtain ⟨c, hc, -⟩ := h.2
          rw [fetch_keeps _ _ hc hfd]
          exact h) (d := d) ⟨hn, hd⟩
    exact ⟨⟨h.1.1, .inl h.1.2⟩, h.2⟩
  · have h := construct_fails (p := p) (md5 := md5) (blank := blank) (v := v)
      (Q := fun d => d.files ("raw", p.rawName) = none ∧ ∃ c, d.files ("", p.splitUrl) = some c ∧ md5 c ≠ p.splitVersion)
      (fun d h => h.1) (fun d h => h)
      (fun d h => by
        have he := checkVersion_files hp v.answer d
        rw [he _ (.inl rfl), he _ (.inr rfl)]; exact h)
      (fun d h => by
        rw [hdl]
        refine runSteps_fails (Q := fun d => d.files ("raw", p.rawName) = none ∧
          ∃ c, d.files ("", p.splitUrl) = some c ∧ md5 c ≠ p.splitVersion) (pre := [fetch ("raw", p.rawUrl) v.raw, checkHash md5 ("raw", p.rawUrl) p.version .value,
          (fun d => .ok (d.write ("", p.version) blank)), fetch ("", p.splitUrl) v.splits]) ?_ _ d ?_ h
        · rintro d ⟨-, c, h1, h2⟩
          exact ⟨.assertion, by unfold checkHash; rw [h1]; simp [h2]⟩
        · intro f hf d d' h hfd
          simp only [List.mem_cons, List.not_mem_nil, or_false] at hf
          rcases hf with rfl | rfl | rfl | rfl
          · have e := (fetch_touches _ _ _ _ hfd).2
            rw [e _ (by simpa using rr.symm), e _ (by simp)]
            exact h
          · have e := (checkHash_touches _ _ _ _ _ _ hfd).2
            rw [e _ (by simp), e _ (by simp)]
            exact h
          · cases hfd
            simpa [RawDisk.write, hp.tag_url.symm] using h
          · obtain ⟨c, hc, -⟩ := h.2
            rw [fetch_keeps _ _ hc hfd]
            exact h) (d := d) ⟨hn, hd⟩
    exact ⟨⟨h.1.1, .inr h.1.2⟩, h.2⟩

/-- **C120** A download with a wrong hash is never replaced: `download_url` uses the file that exists, so after any history
every construction to which the user agrees and that is not killed raises an exception, whatever is served then. -/
theorem C120_wrong_download_stays {p : Peptides} (hp : p.Proper) (md5 : C → String) (blank : C) : ∀ (history : List (Visit C))
    (d : RawDisk C), p.Corrupt md5 d → ∀ v : Visit C,
    (∀ x, (p.construct md5 blank v (p.after md5 blank history d)).2 ≠ some (.ok x)) ∧
    (v.agrees = true → v.killed = none →
      ∃ e, (p.construct md5 blank v (p.after md5 blank history d)).2 = some (.error e)) := by
  intro history
  induction history with
  | nil =>
    intro d hd v
    have h := (construct_corrupt hp md5 blank v hd).2
    constructor
    · intro x hx
      have hx' : (p.construct md5 blank v d).2 = some (.ok x) := hx
      rcases h with ⟨e, h⟩ | ⟨h, -⟩ <;> rw [h] at hx' <;> cases hx'
    · intro ha hk
      rcases h with h | ⟨-, h | h⟩
      · exact h
      · rw [ha] at h; cases h
      · rw [hk] at h; cases h
  | cons w history ih => exact fun d hd v => ih _ (construct_corrupt hp md5 blank w hd).1 v

/-- **C120** A table or splits served with a wrong hash stop this construction and all that follow. -/
theorem C120_first_wrong_download {p : Peptides} (hp : p.Proper) (md5 : C → String) (blank : C) {d : RawDisk C} (hd : p.Fresh d)
    (v : Visit C) (ha : v.agrees = true) (hk : v.killed = none) (hv : md5 v.raw ≠ p.version) (history : List (Visit C))
    (w : Visit C) : (p.construct md5 blank v d).2 = some (.error .value) ∧
    ∀ x, (p.construct md5 blank w (p.after md5 blank (v :: history) d)).2 ≠ some (.ok x) := by
  obtain ⟨h1, h2, -, -⟩ := hd
  have he := checkVersion_files hp v.answer d
  have key : (p.construct md5 blank v d).2 = some (.error .value) ∧ p.Corrupt md5 (p.construct md5 blank v d).1 := by
    unfold Peptides.construct
    dsimp only
    rw [← he _ (.inl rfl)] at h1 h2
    generalize p.checkVersion v.answer d = d at h1 h2
    rw [h2]
    simp [ha, hk, Peptides.download, runSteps, fetch, checkHash, RawDisk.write, h1, hv, Peptides.Corrupt, h2, hp.raw.symm]
  exact ⟨key.1, (C120_wrong_download_stays hp md5 blank history _ key.2 w).1⟩

/-- A construction without an answer 'y' leaves the folder of the version check alone. -/
theorem construct_folder {p : Peptides} (hp : p.Proper) (md5 : C → String) (blank : C) (v : Visit C) (d : RawDisk C) :
    ((p.construct md5 blank v d).1.dirs.contains p.folder = (p.checkVersion v.answer d).dirs.contains p.folder) ∧
      ∀ q : DiskPath, q.1 = p.folder → (p.construct md5 blank v d).1.files q = (p.checkVersion v.answer d).files q := by
  unfold Peptides.construct
  generalize p.checkVersion v.answer d = d
  dsimp only
  have hraw : ("raw" :: d.dirs).contains p.folder = d.dirs.contains p.folder := by
    rw [List.contains_cons]
    simp [hp.folder_raw]
  split_ifs
  · exact ⟨rfl, fun _ _ => rfl⟩
  · have h := runSteps_inv (Q := fun d' => d'.dirs = "raw" :: d.dirs ∧ ∀ q : DiskPath, q.1 = p.folder → d'.files q = d.files q)
      (p.download md5 blank v) v.killed { d with dirs := "raw" :: d.dirs } (fun f hf d1 d2 h1 h2 => by
        obtain ⟨a, b⟩ := download_touches p md5 blank v f hf d1 d2 h2
        refine ⟨by rw [a, h1.1], fun q hq => ?_⟩
        rw [b q (by rw [hq]; exact hp.folder_raw) (by rw [hq]; exact hp.folder_root), h1.2 q hq]) ⟨rfl, fun _ _ => rfl⟩
    cases hr : runSteps (p.download md5 blank v) v.killed { d with dirs := "raw" :: d.dirs } with
    | mk d' res =>
      rw [hr] at h
      have : d'.dirs.contains p.folder = d.dirs.contains p.folder := by rw [h.1]; exact hraw
      match res with
      | none => exact ⟨this, h.2⟩
      | some (.error e) => exact ⟨this, h.2⟩
      | some (.ok _) => exact ⟨this, h.2⟩
  · exact ⟨hraw, fun _ _ => rfl⟩

theorem construct_asks {p : Peptides} (hp : p.Proper) (md5 : C → String) (blank : C) (v : Visit C) (d : RawDisk C) :
    p.asks (p.construct md5 blank v d).1 = (p.asks d && decide (v.answer.toLower ≠ "y")) := by
  obtain ⟨h1, h2⟩ := construct_folder hp md5 blank v d
  have e : p.asks (p.construct md5 blank v d).1 = p.asks (p.checkVersion v.answer d) := by
    unfold Peptides.asks
    rw [h1, h2 _ rfl]
  rw [e]
  unfold Peptides.checkVersion
  split_ifs with ha hy
  · rw [ha]
    simp [hy, Peptides.asks, RawDisk.rmtree]
  · rw [ha]
    simp [hy]
  · simp [ha]

/-- **C120** Whether the program asks for an update: after any history it asks exactly if it asked at the beginning and no
answer was 'y'. In particular a root without the folder is never asked about, and a successful download does not stop the
question, because the hash is written to the root and looked for in the folder. -/
theorem C120_when_it_asks {p : Peptides} (hp : p.Proper) (md5 : C → String) (blank : C) : ∀ (history : List (Visit C))
    (d : RawDisk C), p.asks (p.after md5 blank history d) = true ↔
      (p.folder ∈ d.dirs ∧ d.files (p.folder, p.version) = none) ∧ ∀ v ∈ history, v.answer.toLower ≠ "y" := by
  intro history
  induction history with
  | nil => intro d; show p.asks d = true ↔ _; simp [Peptides.asks]
  | cons v history ih =>
    intro d
    show p.asks (p.after md5 blank history (p.construct md5 blank v d).1) = true ↔ _
    have := construct_asks hp md5 blank v d
    have e : p.asks (p.construct md5 blank v d).1 = true ↔
      (p.folder ∈ (p.construct md5 blank v d).1.dirs ∧ (p.construct md5 blank v d).1.files (p.folder, p.version) = none) := by
        simp [Peptides.asks]
    rw [ih, ← e, this]
    simp [Peptides.asks, and_assoc]

/-- **C120** The version is not noticed: a root with a table and splits gives these, whatever they are, for every expected
hash, every answer and after every history. -/
theorem C120_version_is_not_noticed (p : Peptides) (h1 : p.folder ≠ "raw") (h2 : p.folder ≠ "") (md5 : C → String) (blank : C) :
    ∀ (history : List (Visit C)) (d : RawDisk C) (r s : C), d.files ("raw", p.rawName) = some r →
    d.files ("", p.splitName) = some s → ∀ v : Visit C,
    (p.construct md5 blank v (p.after md5 blank history d)).2 = some (.ok (r, s)) := by
  have he : ∀ (answer : String) (d : RawDisk C) (q : DiskPath), q.1 = "raw" ∨ q.1 = "" →
      (p.checkVersion answer d).files q = d.files q := by
    intro answer d q hq
    have : q.1 ≠ p.folder := by
      rcases hq with h | h
      · rw [h]; exact h1.symm
      · rw [h]; exact h2.symm
    unfold Peptides.checkVersion RawDisk.rmtree
    split_ifs
    · simp [this]
    · rfl
    · rfl
  have one : ∀ (v : Visit C) (d : RawDisk C) (r s : C), d.files ("raw", p.rawName) = some r →
      d.files ("", p.splitName) = some s → p.construct md5 blank v d = (p.checkVersion v.answer d, some (.ok (r, s))) := by
    intro v d r s hr hs
    rw [← he v.answer d _ (.inl rfl)] at hr
    rw [← he v.answer d _ (.inr rfl)] at hs
    unfold Peptides.construct
    dsimp only
    rw [if_pos (by rw [hr]; rfl)]
    unfold Peptides.sources
    rw [hr, hs]
    rfl
  intro history
  induction history with
  | nil =>
    intro d r s hr hs v
    show (p.construct md5 blank v d).2 = _
    rw [one v d r s hr hs]
  | cons w history ih =>
    intro d r s hr hs v
    show (p.construct md5 blank v (p.after md5 blank history (p.construct md5 blank w d).1)).2 = _
    rw [one w d r s hr hs]
    exact ih _ r s (by rw [he _ _ _ (.inl rfl)]; exact hr) (by rw [he _ _ _ (.inr rfl)]; exact hs) v

/-! ### Examples -/

/-- An empty root. -/
def emptyRoot : RawDisk String := ⟨fun _ => none, []⟩

/-- A visit to which the right files are served; contents are their own hashes. -/
def goodVisit (p : Peptides) (killed : Option Nat) : Visit String := ⟨"n", true, p.version, p.splitVersion, killed⟩

example (p : Peptides) : p.Fresh emptyRoot := ⟨rfl, rfl, rfl, rfl⟩

example (p : Peptides) (k : Option Nat) : p.Served id (goodVisit p k) := ⟨rfl, rfl⟩

/-- Killed after each step of the first download, the structural peptides are read by the next construction. -/
example : ∃ r s, (peptidesStructural.construct id "" (goodVisit peptidesStructural none)
    (peptidesStructural.after id "" ((List.range 8).map fun k => goodVisit peptidesStructural (some k)) emptyRoot)).2 =
      some (.ok (r, s)) ∧ r = peptidesStructural.version ∧ s = peptidesStructural.splitVersion :=
  C120_structural_recovers id "" emptyRoot ⟨rfl, rfl, rfl, rfl⟩ _
    (by intro v hv; obtain ⟨k, -, rfl⟩ := List.mem_map.mp hv; exact ⟨rfl, rfl⟩) _ ⟨rfl, rfl⟩ rfl rfl

/-- Killed after six steps, the functional ones never are. -/
example (history : List (Visit String)) : (peptidesFunctional.construct id "" (goodVisit peptidesFunctional none)
    (peptidesFunctional.after id "" (goodVisit peptidesFunctional (some 6) :: history) emptyRoot)).2 =
      some (.error .runtime) :=
  (C120_functional_stays_broken id "" emptyRoot ⟨rfl, rfl, rfl, rfl⟩ _ ⟨rfl, rfl⟩ rfl rfl history _).2

/-- Killed after five, they are. -/
example : (peptidesFunctional.construct id "" (goodVisit peptidesFunctional none)
    (peptidesFunctional.after id "" [goodVisit peptidesFunctional (some 5)] emptyRoot)).2 =
      some (.ok (peptidesFunctional.version, peptidesFunctional.splitVersion)) := by
  obtain ⟨r, s, h, rfl, rfl⟩ := C120_functional_recovers id "" emptyRoot ⟨rfl, rfl, rfl, rfl⟩
    [goodVisit peptidesFunctional (some 5)] (by intro v hv; rw [List.mem_singleton.mp hv]; exact ⟨rfl, rfl⟩)
    (by intro v hv; rw [List.mem_singleton.mp hv]; decide) (goodVisit peptidesFunctional none) ⟨rfl, rfl⟩ rfl rfl
  exact h

/-- A page with an error message instead of the table, then the right files. -/
example : ∀ x, (peptidesFunctional.construct id "" (goodVisit peptidesFunctional none)
    (peptidesFunctional.after id "" [⟨"n", true, "404", "404", none⟩] emptyRoot)).2 ≠ some (.ok x) :=
  (C120_first_wrong_download peptidesFunctional_proper id "" ⟨rfl, rfl, rfl, rfl⟩ ⟨"n", true, "404", "404", none⟩ rfl rfl
    (by decide) [] (goodVisit peptidesFunctional none)).2

/-- After a successful download into a root with the folder the program still asks. -/
example : peptidesFunctional.asks (peptidesFunctional.after id "" [goodVisit peptidesFunctional none]
    ⟨fun _ => none, ["peptides-functional"]⟩) = true :=
  (C120_when_it_asks peptidesFunctional_proper id "" _ _).mpr
    ⟨⟨by decide, rfl⟩, by intro v hv; rw [List.mem_singleton.mp hv]; decide +kernel⟩

end Verif
