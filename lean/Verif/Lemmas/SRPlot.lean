import Verif.Spec.SRPlot
import Verif.Lemmas.Assemble
import Mathlib.Algebra.Ring.Basic

/-!
# Lemmas for the results on strongly regular graphs
-/

namespace Verif

variable {V : Type}

theorem strip_mid {l m r : Text} {a b : Char} (hl : ∀ c ∈ l, pySpace c = true) (ha : pySpace a = false)
    (hm : m.head? = some a) (hb : pySpace b = false) (hm' : m.getLast? = some b)
    (hr : ∀ c ∈ r, pySpace c = true) : pyStrip (l ++ m ++ r) = m := by
  obtain ⟨m1, rfl⟩ : ∃ m1, m = a :: m1 := by
    cases m with
    | nil => simp at hm
    | cons x m1 => simp at hm; exact ⟨m1, by rw [hm]⟩
  have h1 : (l ++ (a :: m1) ++ r).dropWhile pySpace = a :: m1 ++ r := by
    rw [List.append_assoc, List.dropWhile_append_of_pos hl, List.cons_append, List.dropWhile_cons, ha]
    rfl
  have h2 : (a :: m1).reverse.head? = some b := by rw [List.head?_reverse, hm']
  have h3 : (a :: m1).reverse.dropWhile pySpace = (a :: m1).reverse := by
    cases h : (a :: m1).reverse with
    | nil => simp at h
    | cons x t =>
      rw [h] at h2
      simp only [List.head?_cons, Option.some.injEq] at h2
      rw [List.dropWhile_cons, h2, hb]
      rfl
  unfold pyStrip
  rw [h1, List.reverse_append, List.dropWhile_append_of_pos (by simpa using hr), h3, List.reverse_reverse]

theorem dropWhile_keeps {a : Char} (ha : pySpace a = false) (z w : Text) :
    ∃ u, (w ++ a :: z).dropWhile pySpace = u ++ a :: z := by
  induction w with
  | nil => exact ⟨[], by rw [List.nil_append, List.dropWhile_cons, ha]; rfl⟩
  | cons x w ih =>
    by_cases hx : pySpace x = true
    · obtain ⟨u, hu⟩ := ih
      exact ⟨u, by rw [List.cons_append, List.dropWhile_cons, if_pos hx, hu]⟩
    · exact ⟨x :: w, by rw [List.cons_append, List.dropWhile_cons, if_neg hx]⟩

theorem strip_head {t : Text} {a : Char} (ha : pySpace a = false) : ∃ u, pyStrip (a :: t) = a :: u := by
  have h1 : (a :: t).dropWhile pySpace = a :: t := by
    rw [List.dropWhile_cons, ha]; rfl
  obtain ⟨u, hu⟩ := dropWhile_keeps ha [] t.reverse
  refine ⟨u.reverse, ?_⟩
  unfold pyStrip
  rw [h1, List.reverse_cons, hu, List.reverse_append]
  rfl

theorem strip_two {t : Text} {a b : Char} (ha : pySpace a = false) (hb : pySpace b = false) :
    ∃ u, pyStrip (a :: b :: t) = a :: b :: u := by
  have h1 : (a :: b :: t).dropWhile pySpace = a :: b :: t := by
    rw [List.dropWhile_cons, ha]; rfl
  obtain ⟨u, hu⟩ := dropWhile_keeps hb [a] t.reverse
  refine ⟨u.reverse, ?_⟩
  unfold pyStrip
  have e : (a :: b :: t).reverse = t.reverse ++ b :: [a] := by simp
  rw [h1, e, hu, List.reverse_append]
  rfl

theorem split_word {w : Text} (h : ∀ c ∈ w, c ≠ ':') : splitColon w = [w] := by
  induction w with
  | nil => rfl
  | cons c w ih =>
    unfold splitColon
    rw [if_neg (h c (by simp)), ih fun d hd => h d (by simp [hd])]

theorem split_two {w t : Text} (h : ∀ c ∈ w, c ≠ ':') : splitColon (w ++ ':' :: t) = w :: splitColon t := by
  induction w with
  | nil => rw [List.nil_append, splitColon, if_pos rfl]
  | cons c w ih =>
    rw [List.cons_append]
    conv_lhs => unfold splitColon
    rw [if_neg (h c (by simp)), ih fun d hd => h d (by simp [hd])]

theorem lines_cons {w t : Text} (h : '\n' ∉ w) : fileLines (w ++ '\n' :: t) = (w ++ ['\n']) :: fileLines t := by
  induction w with
  | nil => rw [List.nil_append, fileLines, if_pos rfl]; rfl
  | cons c w ih =>
    rw [List.cons_append]
    conv_lhs => unfold fileLines
    rw [if_neg (fun e => h (by simp [e])), ih (fun e => h (by simp [e]))]
    rfl

theorem lines_last {w : Text} (h : '\n' ∉ w) (hne : w ≠ []) : fileLines w = [w] := by
  induction w with
  | nil => exact absurd rfl hne
  | cons c w ih =>
    unfold fileLines
    rw [if_neg (fun e => h (by simp [e]))]
    cases w with
    | nil => rfl
    | cons d w => rw [ih (fun e => h (by simp [e])) (by simp)]

/-- A line that does not start with `M` is skipped. -/
theorem plotLine_skip (number : Text → Py V) (n : Nat) (res : List (String × V × V)) {a : Char} (t : Text)
    (ha : pySpace a = false) (hM : a ≠ 'M') : plotLine number ⟨none, n, res⟩ (a :: t) = .ok ⟨none, n, res⟩ := by
  obtain ⟨u, hu⟩ := strip_head (t := t) ha
  have : ("Mean".toList.isPrefixOf (pyStrip (a :: t))) = false := by
    rw [hu]
    simp [List.isPrefixOf, Ne.symm hM]
  unfold plotLine
  simp only [this]
  rfl

/-- The number after the colon. -/
theorem lineNumber_read {shown : V → Text} {number : Text → Py V} (hp : Prints shown number) (v : V) {a : Char}
    {w sp : Text} (ha : pySpace a = false) (hw : ∀ c ∈ a :: w, c ≠ ':') (hsp : ∀ c ∈ sp, pySpace c = true) :
    pyStrip ((a :: w) ++ ':' :: (sp ++ (shown v ++ ['\n']))) = (a :: w) ++ ':' :: (sp ++ shown v) ∧
    lineNumber number ((a :: w) ++ ':' :: (sp ++ (shown v ++ ['\n']))) = .ok v := by
  obtain ⟨b, hb⟩ : ∃ b, (shown v).getLast? = some b := by
    cases h : (shown v).getLast? with
    | none => exact absurd (List.getLast?_eq_none_iff.mp h) (hp.ne v)
    | some b => exact ⟨b, rfl⟩
  obtain ⟨x, hx⟩ : ∃ x, (shown v).head? = some x := by
    cases h : (shown v).head? with
    | none => exact absurd (List.head?_eq_none_iff.mp h) (hp.ne v)
    | some b => exact ⟨b, rfl⟩
  have hb' := (hp.word v b (List.mem_of_getLast? hb)).1
  have hx' := (hp.word v x (List.mem_of_head? hx)).1
  have e1 : pyStrip ((a :: w) ++ ':' :: (sp ++ (shown v ++ ['\n']))) = (a :: w) ++ ':' :: (sp ++ shown v) := by
    have := strip_mid (l := []) (m := (a :: w) ++ ':' :: (sp ++ shown v)) (r := ['\n']) (by simp) ha (by simp) hb' ?_
      (by simp [pySpace])
    · rw [← this]
      congr 1
      simp
    · rw [List.getLast?_append, List.getLast?_cons, List.getLast?_append, hb]
      simp
  have hcol : ∀ c ∈ sp ++ shown v, c ≠ ':' := by
    intro c hc e
    rcases List.mem_append.mp hc with h | h
    · have := hsp c h
      rw [e] at this
      revert this
      decide
    · exact (hp.word v c h).2 e
  have e2 : pyStrip (sp ++ shown v) = shown v := by
    have := strip_mid (l := sp) (m := shown v) (r := []) hsp hx' hx hb' hb (by simp)
    rwa [List.append_nil] at this
  refine ⟨e1, ?_⟩
  unfold lineNumber
  rw [e1, split_two hw, split_word hcol]
  show number (pyStrip (sp ++ shown v)) = _
  rw [e2, hp.back]


theorem plotLine_mean {shown : V → Text} {number : Text → Py V} (hp : Prints shown number) (n : Nat)
    (res : List (String × V × V)) (v : V) :
    plotLine number ⟨none, n, res⟩ ("Mean failure rate:     ".toList ++ (shown v ++ ['\n'])) = .ok ⟨some v, n, res⟩ := by
  obtain ⟨h1, h2⟩ := lineNumber_read hp v (a := 'M') (w := "ean failure rate".toList) (sp := "     ".toList)
    (by decide) (by decide) (by decide)
  have e : "Mean failure rate:     ".toList ++ (shown v ++ ['\n']) =
      ('M' :: "ean failure rate".toList) ++ ':' :: ("     ".toList ++ (shown v ++ ['\n'])) := rfl
  rw [e]
  unfold plotLine
  simp only [h1, h2, ok_bind]
  rfl

theorem plotLine_std {shown : V → Text} {number : Text → Py V} (hp : Prints shown number) (m : V) (n : Nat)
    (res : List (String × V × V)) (v : V) :
    plotLine number ⟨some m, n, res⟩ ("StdErr failure rate:   ".toList ++ (shown v ++ ['\n'])) =
      (getAt plotNames n).map fun name => ⟨none, n + 1, res ++ [(name, m, v)]⟩ := by
  obtain ⟨h1, h2⟩ := lineNumber_read hp v (a := 'S') (w := "tdErr failure rate".toList) (sp := "   ".toList)
    (by decide) (by decide) (by decide)
  have e : "StdErr failure rate:   ".toList ++ (shown v ++ ['\n']) =
      ('S' :: "tdErr failure rate".toList) ++ ':' :: ("   ".toList ++ (shown v ++ ['\n'])) := rfl
  rw [e]
  unfold plotLine
  simp only [h2, ok_bind]
  cases getAt plotNames n <;> rfl

theorem Prints.no_break {shown : V → Text} {number : Text → Py V} (hp : Prints shown number) (v : V) :
    '\n' ∉ shown v := fun h => by
  have := (hp.word v _ h).1
  revert this
  decide

/-- The lines of a family. -/
theorem lines_family {shown : V → Text} {number : Text → Py V} (hp : Prints shown number) (family : String)
    (hf : '\n' ∉ family.toList) (s : SRNumbers V) (t : Text) : ∃ a b c d : Text,
    fileLines (familyText shown family s ++ t) =
      ('-' :: a) :: ("Mean failure rate:     ".toList ++ (shown s.mean ++ ['\n'])) ::
        ("StdErr failure rate:   ".toList ++ (shown s.stdErr ++ ['\n'])) :: ('M' :: 'i' :: b) :: ('M' :: 'a' :: c) ::
        ('-' :: d) :: fileLines t := by
  have e : familyText shown family s ++ t =
      ("------------------ ".toList ++ (family.toList ++ " ------------------".toList)) ++ '\n' ::
      (("Mean failure rate:     ".toList ++ shown s.mean) ++ '\n' ::
      (("StdErr failure rate:   ".toList ++ shown s.stdErr) ++ '\n' ::
      (("Min failure rate:      ".toList ++ shown s.min) ++ '\n' ::
      (("Max failure rate:      ".toList ++ shown s.max) ++ '\n' ::
      ("-----------------------------------------------".toList ++ '\n' :: t))))) := by
    have h1 : " ------------------\n".toList = " ------------------".toList ++ ['\n'] := rfl
    have h2 : "-----------------------------------------------\n".toList =
      "-----------------------------------------------".toList ++ ['\n'] := rfl
    have h3 : "\n".toList = ['\n'] := rfl
    unfold familyText
    rw [h1, h2, h3]
    simp only [List.append_assoc, List.cons_append, List.nil_append]
  have nb : ∀ (w : Text) v, '\n' ∉ w → '\n' ∉ w ++ shown v := fun w v hw h =>
    (List.mem_append.mp h).elim hw (hp.no_break v)
  rw [e, lines_cons, lines_cons (nb _ _ (by decide)), lines_cons (nb _ _ (by decide)), lines_cons (nb _ _ (by decide)),
    lines_cons (nb _ _ (by decide)), lines_cons (by decide)]
  · exact ⟨_, _, _, _, by simp only [List.append_assoc]; rfl⟩
  · intro h
    rcases List.mem_append.mp h with h | h
    · revert h; decide
    · rcases List.mem_append.mp h with h | h
      · exact hf h
      · revert h; decide

theorem plotLine_skip_M (number : Text → Py V) (n : Nat) (res : List (String × V × V)) {a : Char} (t : Text)
    (ha : pySpace a = false) (he : a ≠ 'e') : plotLine number ⟨none, n, res⟩ ('M' :: a :: t) = .ok ⟨none, n, res⟩ := by
  obtain ⟨u, hu⟩ := strip_two (t := t) (a := 'M') (by decide) ha
  have : ("Mean".toList.isPrefixOf (pyStrip ('M' :: a :: t))) = false := by
    rw [hu]
    simp [List.isPrefixOf, Ne.symm he]
  unfold plotLine
  simp only [this]
  rfl

/-- Reading the lines of a family, then the rest. -/
theorem read_family {shown : V → Text} {number : Text → Py V} (hp : Prints shown number) (family : String)
    (hf : '\n' ∉ family.toList) (s : SRNumbers V) (t : Text) (n : Nat) (res : List (String × V × V)) :
    foldE (plotLine number) ⟨none, n, res⟩ (fileLines (familyText shown family s ++ t)) =
      (getAt plotNames n >>= fun name =>
        foldE (plotLine number) ⟨none, n + 1, res ++ [(name, s.mean, s.stdErr)]⟩ (fileLines t)) := by
  obtain ⟨a, b, c, d, e⟩ := lines_family hp family hf s t
  rw [e]
  simp only [foldE, plotLine_skip number n res a (by decide : pySpace '-' = false) (by decide), ok_bind,
    plotLine_mean hp, plotLine_std hp]
  cases getAt plotNames n with
  | error e => rfl
  | ok name =>
    simp only [Except.map, ok_bind, plotLine_skip_M number _ _ _ (by decide : pySpace 'i' = false) (by decide),
      plotLine_skip_M number _ _ _ (by decide : pySpace 'a' = false) (by decide),
      plotLine_skip number _ _ _ (by decide : pySpace '-' = false) (by decide)]

/-- Reading all families. -/
theorem read_families {shown : V → Text} {number : Text → Py V} (hp : Prints shown number) (t : Text) :
    ∀ (blocks : List (String × SRNumbers V)), (∀ p ∈ blocks, '\n' ∉ p.1.toList) → ∀ (n : Nat)
      (res : List (String × V × V)),
    (n + blocks.length ≤ plotNames.length →
      foldE (plotLine number) ⟨none, n, res⟩ (fileLines (blocks.flatMap (fun p => familyText shown p.1 p.2) ++ t)) =
        foldE (plotLine number) ⟨none, n + blocks.length,
          res ++ (plotNames.drop n).zip (blocks.map fun p => (p.2.mean, p.2.stdErr))⟩ (fileLines t)) ∧
    (n ≤ plotNames.length → plotNames.length < n + blocks.length →
      foldE (plotLine number) ⟨none, n, res⟩ (fileLines (blocks.flatMap (fun p => familyText shown p.1 p.2) ++ t)) =
        .error .index) := by
  intro blocks
  induction blocks with
  | nil =>
    intro _ n res
    exact ⟨fun _ => by simp, fun h1 h2 => absurd h2 (by simpa using h1)⟩
  | cons p blocks ih =>
    intro hb n res
    have e : (p :: blocks).flatMap (fun p => familyText shown p.1 p.2) ++ t =
        familyText shown p.1 p.2 ++ (blocks.flatMap (fun p => familyText shown p.1 p.2) ++ t) := by
      simp
    rw [e, read_family hp p.1 (hb p (by simp))]
    by_cases hn : n < plotNames.length
    · have hg : getAt plotNames n = .ok plotNames[n] := getAt_eq_ok.mpr (List.getElem?_eq_getElem hn)
      obtain ⟨h1, h2⟩ := ih (fun q hq => hb q (by simp [hq])) (n + 1)
        (res ++ [(plotNames[n], p.2.mean, p.2.stdErr)])
      rw [hg, ok_bind]
      constructor
      · intro hl
        rw [List.length_cons] at hl ⊢
        rw [h1 (by omega), List.drop_eq_getElem_cons hn, List.map_cons, List.zip_cons_cons, List.append_assoc,
          show n + 1 + blocks.length = n + (blocks.length + 1) by omega]
        rfl
      · intro _ hl
        rw [List.length_cons] at hl
        exact h2 (by omega) (by omega)
    · constructor
      · intro hl
        rw [List.length_cons] at hl
        omega
      · intro _ _
        have hg : getAt plotNames n = .error .index := by
          unfold getAt
          rw [List.getElem?_eq_none (by omega)]
        rw [hg]
        rfl

theorem lines_top (shown : V → Text) {sha items : Text} (hs : '\n' ∉ sha)
    (blocks : List (String × SRNumbers V)) : ∃ a b c : Text,
    fileLines (srText shown sha items blocks) = ('=' :: a) :: ('D' :: b) :: ('S' :: c) ::
      fileLines (blocks.flatMap (fun p => familyText shown p.1 p.2) ++ ("Namespace(".toList ++ (items ++ [')']))) := by
  have e : srText shown sha items blocks = "========= Final result ==========".toList ++ '\n' ::
      ("Datasets:               SR".toList ++ '\n' :: (("SHA:                    ".toList ++ sha) ++ '\n' ::
      (blocks.flatMap (fun p => familyText shown p.1 p.2) ++ ("Namespace(".toList ++ (items ++ [')'])))))  := by
    have h1 : "========= Final result ==========\n".toList = "========= Final result ==========".toList ++ ['\n'] := rfl
    have h2 : "Datasets:               SR\n".toList = "Datasets:               SR".toList ++ ['\n'] := rfl
    have h3 : "\n".toList = ['\n'] := rfl
    have h4 : ")".toList = [')'] := rfl
    unfold srText
    rw [h1, h2, h3, h4]
    simp only [List.append_assoc, List.cons_append, List.nil_append]
  rw [e, lines_cons (by decide), lines_cons (by decide), lines_cons]
  · exact ⟨_, _, _, rfl⟩
  · intro h
    rcases List.mem_append.mp h with h | h
    · revert h; decide
    · exact hs h

/-- What is read from a file with any number of families. -/
theorem readResults_text {shown : V → Text} {number : Text → Py V} (hp : Prints shown number) {sha items : Text}
    (hs : '\n' ∉ sha) (hi : '\n' ∉ items) (blocks : List (String × SRNumbers V))
    (hb : ∀ p ∈ blocks, '\n' ∉ p.1.toList) :
    (blocks.length = 9 → readResults number (srText shown sha items blocks) =
      .ok (plotNames.zip (blocks.map fun p => (p.2.mean, p.2.stdErr)))) ∧
    (blocks.length < 9 → readResults number (srText shown sha items blocks) = .error .assertion) ∧
    (9 < blocks.length → readResults number (srText shown sha items blocks) = .error .index) := by
  obtain ⟨a, b, c, e⟩ := lines_top shown (items := items) hs blocks
  have hlast : '\n' ∉ "Namespace(".toList ++ (items ++ [')']) := by
    intro h
    rcases List.mem_append.mp h with h | h
    · revert h; decide
    · rcases List.mem_append.mp h with h | h
      · exact hi h
      · revert h; decide
  have h9 : plotNames.length = 9 := rfl
  obtain ⟨h1, h2⟩ := read_families hp ("Namespace(".toList ++ (items ++ [')'])) blocks hb 0 []
  have hend : ∀ n res, foldE (plotLine number) ⟨none, n, res⟩
      (fileLines ("Namespace(".toList ++ (items ++ [')']))) = .ok ⟨none, n, res⟩ := by
    intro n res
    rw [lines_last hlast (by simp)]
    have : "Namespace(".toList ++ (items ++ [')']) = 'N' :: ("amespace(".toList ++ (items ++ [')'])) := rfl
    rw [this]
    simp only [foldE, plotLine_skip number n res _ (by decide : pySpace 'N' = false) (by decide), ok_bind]
  have start : foldE (plotLine number) ({} : PlotState V) (fileLines (srText shown sha items blocks)) =
      foldE (plotLine number) ⟨none, 0, []⟩ (fileLines (blocks.flatMap (fun p => familyText shown p.1 p.2) ++
        ("Namespace(".toList ++ (items ++ [')'])))) := by
    rw [e]
    simp only [foldE, plotLine_skip number _ _ _ (by decide : pySpace '=' = false) (by decide),
      plotLine_skip number _ _ _ (by decide : pySpace 'D' = false) (by decide),
      plotLine_skip number _ _ _ (by decide : pySpace 'S' = false) (by decide), ok_bind]
  rw [Nat.zero_add, h9] at h1 h2
  unfold readResults
  rw [start]
  refine ⟨fun h => ?_, fun h => ?_, fun h => ?_⟩
  · rw [h1 (by omega), hend, ok_bind, h, h9]
    rfl
  · rw [h1 (by omega), hend, ok_bind, h9]
    have : decide (blocks.length = 9) = false := by simpa using (by omega)
    simp only [this]
    rfl
  · rw [h2 (by omega) h]
    rfl


theorem plotNames_sorted : plotNames.Pairwise (fun a b => decide (a ≤ b) = true) := by decide +kernel

theorem plotNames_nodup : plotNames.Nodup := by decide +kernel

theorem lookup_zip {names : List String} (hn : names.Nodup) : ∀ {vals : List (V × V)} (k : Nat) {name : String} {v : V × V},
    names[k]? = some name → vals[k]? = some v → (names.zip vals).lookup name = some v := by
  induction names with
  | nil => intro vals k name v h; simp at h
  | cons a names ih =>
    intro vals k name v h1 h2
    cases vals with
    | nil => simp at h2
    | cons w vals =>
      rw [List.zip_cons_cons, List.lookup_cons]
      cases k with
      | zero =>
        simp only [List.getElem?_cons_zero, Option.some.injEq] at h1 h2
        rw [h1, h2]
        simp
      | succ k =>
        rw [List.getElem?_cons_succ] at h1 h2
        have hne : name ≠ a := fun e => (List.nodup_cons.mp hn).1 (e ▸ List.mem_of_getElem? h1)
        rw [beq_false_of_ne hne]
        exact ih (List.nodup_cons.mp hn).2 k h1 h2

theorem plotBars_zip [Ring V] {vals : List (V × V)} (h : vals.length = 9) :
    plotBars (plotNames.zip vals) = .ok vals := by
  have h9 : plotNames.length = 9 := rfl
  have e : ((plotNames.zip vals).map Prod.fst) = plotNames := List.map_fst_zip (by omega)
  unfold plotBars
  rw [e, List.mergeSort_of_pairwise plotNames_sorted, mapE_eq_ok_iff, List.forall₂_iff_get]
  refine ⟨by omega, fun k h1 h2 => ?_⟩
  have := lookup_zip plotNames_nodup k (List.getElem?_eq_getElem h1) (List.getElem?_eq_getElem h2)
  simp only [List.get_eq_getElem]
  unfold resultOf
  rw [this]
  show Except.ok (-10 + (10 + vals[k].1), vals[k].2) = _
  rw [neg_add_cancel_left]

end Verif
