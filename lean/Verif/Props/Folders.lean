import Verif.Model.Folders

/-! # Folders of processed datasets (C40) -/

namespace Verif

/-- The number written by a list of decimal digits. -/
def readDigits (l : List Char) : Nat := l.foldl (fun a c => 10 * a + (c.toNat - 48)) 0

theorem readDigits_toDigits (n : Nat) : readDigits (Nat.toDigits 10 n) = n := by
  induction n using Nat.strongRecOn with
  | _ n ih =>
    by_cases h : n < 10
    · rw [Nat.toDigits_of_lt_base h]
      simp only [readDigits, List.foldl_cons, List.foldl_nil]
      rw [Nat.toNat_digitChar_sub_48_of_lt_ten h]
      omega
    · rw [Nat.toDigits_of_base_le (by omega) (by omega)]
      have hi := ih (n / 10) (by omega)
      unfold readDigits at hi ⊢
      rw [List.foldl_append, hi]
      simp only [List.foldl_cons, List.foldl_nil]
      rw [Nat.toNat_digitChar_sub_48_of_lt_ten (by omega)]
      omega

/-- The decimal digits of a number. -/
def digits (n : Nat) : List Char := (toString n).toList

theorem digits_eq (n : Nat) : digits n = Nat.toDigits 10 n := by
  simp [digits, toString, Nat.repr]

theorem digits_inj {m n : Nat} (h : digits m = digits n) : m = n := by
  rw [digits_eq, digits_eq] at h
  rw [← readDigits_toDigits m, h, readDigits_toDigits]

theorem digits_isDigit {n : Nat} {c : Char} (h : c ∈ digits n) : c.isDigit = true := by
  rw [digits_eq] at h
  exact Nat.isDigit_of_mem_toDigits (by omega) (by omega) h

/-- Two texts that stop before the same kind of character. -/
theorem split_unique {p : Char → Bool} {a b s t : List Char} (ha : ∀ c ∈ a, p c = false)
    (hb : ∀ c ∈ b, p c = false) (hs : ∀ c, s.head? = some c → p c = true)
    (ht : ∀ c, t.head? = some c → p c = true) (h : a ++ s = b ++ t) : a = b ∧ s = t := by
  induction a generalizing b with
  | nil =>
    cases b with
    | nil => exact ⟨rfl, h⟩
    | cons c b =>
      have h1 := hb c (by simp)
      rw [hs c (by rw [← List.nil_append s, h]; rfl)] at h1
      cases h1
  | cons c a ih =>
    cases b with
    | nil =>
      have h1 := ha c (by simp)
      rw [ht c (by rw [← List.nil_append t, ← h]; rfl)] at h1
      cases h1
    | cons d b =>
      rw [List.cons_append, List.cons_append] at h
      injection h with h1 h2
      subst h1
      obtain ⟨h3, h4⟩ := ih (fun x hx => ha x (by simp [hx])) (fun x hx => hb x (by simp [hx])) h2
      exact ⟨by rw [h3], h4⟩

/-- A name of an init method: neither `_` nor `-` occurs in it. -/
def PlainName (s : String) : Prop := ∀ c ∈ s.toList, c ≠ '_' ∧ c ≠ '-'

instance (s : String) : Decidable (PlainName s) := inferInstanceAs (Decidable (∀ c ∈ s.toList, c ≠ '_' ∧ c ≠ '-'))

/-- The separators. -/
def isSep (c : Char) : Bool := c == '_' || c == '-'

theorem digits_not_sep {n : Nat} : ∀ c ∈ digits n, isSep c = false := by
  intro c hc
  have := digits_isDigit hc
  cases hs : isSep c with
  | false => rfl
  | true =>
    simp only [isSep, Bool.or_eq_true, beq_iff_eq] at hs
    rcases hs with rfl | rfl <;> simp at this

theorem plain_not_sep {s : String} (h : PlainName s) : ∀ c ∈ s.toList, isSep c = false := by
  intro c hc
  have := h c hc
  simp [isSep, this.1, this.2]

theorem baseFolder_toList (cellular : Bool) (maxDim : Nat) (init : String) :
    (baseFolder cellular maxDim init).toList =
      (if cellular then "cell_".toList else []) ++ "complex_dim".toList ++ digits maxDim ++ '_' :: init.toList := by
  cases cellular <;> simp [baseFolder, digits]

/-- The folder determines the parts before the suffixes. -/
theorem baseFolder_split {b b' : Bool} {m m' : Nat} {i i' : String} {s s' : List Char} (hi : PlainName i)
    (hi' : PlainName i') (hs : ∀ c, s.head? = some c → isSep c = true)
    (hs' : ∀ c, s'.head? = some c → isSep c = true)
    (h : (baseFolder b m i).toList ++ s = (baseFolder b' m' i').toList ++ s') :
    b = b' ∧ m = m' ∧ i = i' ∧ s = s' := by
  rw [baseFolder_toList, baseFolder_toList] at h
  have hb : b = b' := by
    cases b <;> cases b' <;> first | rfl | (simp at h)
  subst hb
  simp only [List.append_assoc, List.cons_append] at h
  have h1 := List.append_cancel_left (List.append_cancel_left h)
  obtain ⟨h2, h3⟩ := split_unique (p := isSep) digits_not_sep digits_not_sep (by simp [isSep]) (by simp [isSep]) h1
  injection h3 with _ h3
  obtain ⟨h4, h5⟩ := split_unique (p := isSep) (plain_not_sep hi) (plain_not_sep hi') hs hs' h3
  exact ⟨rfl, digits_inj h2, String.toList_inj.mp h4, h5⟩

/-- `rings` after the digits. -/
theorem ring_split {k k' : Nat} {s s' : List Char}
    (h : "_".toList ++ digits k ++ "rings".toList ++ s = "_".toList ++ digits k' ++ "rings".toList ++ s') :
    k = k' ∧ s = s' := by
  simp only [List.append_assoc] at h
  have h1 := List.append_cancel_left h
  obtain ⟨h2, h3⟩ := split_unique (p := fun c => !c.isDigit) (fun c hc => by simp [digits_isDigit hc])
    (fun c hc => by simp [digits_isDigit hc]) (by simp) (by simp) h1
  exact ⟨digits_inj h2, List.append_cancel_left h3⟩

theorem ringSuffix_some (k : Nat) : (ringSuffix (some k)).toList = "_".toList ++ digits k ++ "rings".toList := by
  simp [ringSuffix, digits]

/-- **C40** Two configurations of a TU or SR dataset have the same folder iff they agree in the dimension, the
init method, the ring size (and so whether the dataset is cellular) and the lower adjacencies. -/
theorem C40_tu_folders (o o' : TUOptions) (h : PlainName o.initMethod) (h' : PlainName o'.initMethod) :
    tuFolder o = tuFolder o' ↔ o.maxDim = o'.maxDim ∧ o.initMethod = o'.initMethod ∧
      o.maxRingSize = o'.maxRingSize ∧ o.includeDown = o'.includeDown := by
  constructor
  · intro he
    have he := congrArg String.toList he
    unfold tuFolder at he
    simp only [String.toList_append, List.append_assoc] at he
    have hsep : ∀ o : TUOptions, ∀ c, ((ringSuffix o.maxRingSize).toList ++
        (flag o.includeDown "_down_adj").toList).head? = some c → isSep c = true := by
      intro o c hc
      cases hr : o.maxRingSize with
      | none =>
        cases hd : o.includeDown with
        | false => rw [hr, hd] at hc; simp [ringSuffix, flag] at hc
        | true => rw [hr, hd] at hc; simp [ringSuffix, flag] at hc; subst hc; rfl
      | some k => rw [hr, ringSuffix_some] at hc; simp at hc; subst hc; rfl
    obtain ⟨h1, h2, h3, h4⟩ := baseFolder_split h h' (hsep o) (hsep o') he
    have h5 : o.maxRingSize = o'.maxRingSize ∧ (flag o.includeDown "_down_adj").toList =
        (flag o'.includeDown "_down_adj").toList := by
      cases hr : o.maxRingSize with
      | none =>
        cases hr' : o'.maxRingSize with
        | none => rw [hr, hr'] at h4; exact ⟨rfl, by simpa [ringSuffix] using h4⟩
        | some k' => rw [hr, hr'] at h1; cases h1
      | some k =>
        cases hr' : o'.maxRingSize with
        | none => rw [hr, hr'] at h1; cases h1
        | some k' =>
          rw [hr, hr', ringSuffix_some, ringSuffix_some] at h4
          obtain ⟨rfl, h6⟩ := ring_split h4
          exact ⟨rfl, h6⟩
    refine ⟨h2, h3, h5.1, ?_⟩
    have h6 := h5.2
    cases hd : o.includeDown <;> cases hd' : o'.includeDown <;> first | rfl | (rw [hd, hd'] at h6; simp [flag] at h6)
  · rintro ⟨h1, h2, h3, h4⟩
    simp only [tuFolder, h1, h2, h3, h4]

/-- **C40** The tag option of the TU datasets is not part of the name: both settings share a folder. -/
theorem C40_tu_degree_tags_collide (o : TUOptions) :
    tuFolder { o with degreeAsTag := true } = tuFolder { o with degreeAsTag := false } := rfl

/-- **C40** Two configurations of ZINC have the same folder iff they agree in everything but the lower
adjacencies. -/
theorem C40_zinc_folders (o o' : ZincOptions) :
    zincFolder o = zincFolder o' ↔ o.maxRingSize = o'.maxRingSize ∧ o.useEdgeFeatures = o'.useEdgeFeatures ∧
      o.subset = o'.subset := by
  constructor
  · intro he
    have he := congrArg String.toList he
    unfold zincFolder at he
    simp only [String.toList_append, List.append_assoc] at he
    have he := List.append_cancel_left he
    rw [ringSuffix_some, ringSuffix_some] at he
    have hsub : o.subset = o'.subset := by
      cases hs : o.subset <;> cases hs' : o'.subset <;> first
        | rfl
        | (exfalso
           rw [hs, hs'] at he
           simp only [flag, Bool.not_true, Bool.not_false, if_true, Bool.false_eq_true, if_false] at he
           have h2 := congrArg (fun l => (l.drop 1).head?) he
           simp only [String.toList_empty, List.nil_append, List.append_assoc] at h2
           have hdig : ∀ n, digits n ≠ [] := fun n => by rw [digits_eq]; exact Nat.toDigits_ne_nil
           have h0 : ∀ (n : Nat) (l : List Char), (digits n ++ l).head? ≠ some 'f' := by
             intro n l h3
             obtain ⟨c, l', hc⟩ := List.exists_cons_of_ne_nil (hdig n)
             rw [hc] at h3
             simp only [List.cons_append, List.head?_cons, Option.some.injEq] at h3
             have := digits_isDigit (n := n) (c := c) (by rw [hc]; simp)
             rw [h3] at this
             simp at this
           first
             | exact h0 _ _ h2
             | exact h0 _ _ h2.symm)
    rw [hsub] at he
    have he := List.append_cancel_left he
    obtain ⟨h1, h2⟩ := ring_split he
    refine ⟨h1, ?_, hsub⟩
    cases hd : o.useEdgeFeatures <;> cases hd' : o'.useEdgeFeatures <;> first
      | rfl
      | (rw [hd, hd'] at h2; simp [flag] at h2)
  · rintro ⟨h1, h2, h3⟩
    simp only [zincFolder, h1, h2, h3]

/-- **C40** With and without lower adjacencies ZINC shares a folder. -/
theorem C40_zinc_down_adjacency_collides (o : ZincOptions) :
    zincFolder { o with includeDown := true } = zincFolder { o with includeDown := false } := rfl

/-- **C40** Two configurations of an OGB dataset have the same folder iff they agree in everything but the
lower adjacencies. -/
theorem C40_ogb_folders (o o' : OGBOptions) (h : PlainName o.initMethod) (h' : PlainName o'.initMethod) :
    ogbFolder o = ogbFolder o' ↔ o.maxRingSize = o'.maxRingSize ∧ o.useEdgeFeatures = o'.useEdgeFeatures ∧
      o.initMethod = o'.initMethod ∧ o.simple = o'.simple := by
  constructor
  · intro he
    have he := congrArg String.toList he
    unfold ogbFolder at he
    simp only [String.toList_append, List.append_assoc, ringSuffix_some] at he
    obtain ⟨-, -, h1, h2⟩ := baseFolder_split h h' (by simp [isSep]) (by simp [isSep]) he
    obtain ⟨h3, h4⟩ := ring_split (by simpa only [List.append_assoc] using h2)
    have h5 : o.useEdgeFeatures = o'.useEdgeFeatures ∧ o.simple = o'.simple := by
      cases hd : o.useEdgeFeatures <;> cases hd' : o'.useEdgeFeatures <;> cases hs : o.simple <;>
        cases hs' : o'.simple <;> first
        | exact ⟨rfl, rfl⟩
        | (rw [hd, hd', hs, hs'] at h4; simp [flag] at h4)
    exact ⟨h3, h5.1, h1, h5.2⟩
  · rintro ⟨h1, h2, h3, h4⟩
    simp only [ogbFolder, h1, h2, h3, h4]

/-- **C40** With and without lower adjacencies an OGB dataset shares a folder. -/
theorem C40_ogb_down_adjacency_collides (o : OGBOptions) :
    ogbFolder { o with includeDown := true } = ogbFolder { o with includeDown := false } := rfl

/-- Two plain names before the last separator. -/
theorem name_split {a a' b b' : String} (h : PlainName a) (h' : PlainName a')
    (he : a.toList ++ '_' :: b.toList = a'.toList ++ '_' :: b'.toList) : a = a' ∧ b = b' := by
  obtain ⟨h1, h2⟩ := split_unique (p := isSep) (plain_not_sep h) (plain_not_sep h') (by simp [isSep]) (by simp [isSep]) he
  injection h2 with _ h2
  exact ⟨String.toList_inj.mp h1, String.toList_inj.mp h2⟩

/-- **C40** Two configurations of the flow dataset have the same folder iff they agree in the number of points and in
both orientations. -/
theorem C40_flow_folders (o o' : FlowOptions) (h : PlainName o.trainOrient) (h' : PlainName o'.trainOrient) :
    flowFolder o = flowFolder o' ↔
      o.numPoints = o'.numPoints ∧ o.trainOrient = o'.trainOrient ∧ o.testOrient = o'.testOrient := by
  constructor
  · intro he
    have he := congrArg String.toList he
    have key : ∀ o : FlowOptions, (flowFolder o).toList =
        "flow".toList ++ (digits o.numPoints ++ ("_orient_".toList ++ (o.trainOrient.toList ++ '_' :: o.testOrient.toList))) := by
      intro o
      simp [flowFolder, digits]
    rw [key, key] at he
    obtain ⟨h1, h2⟩ := split_unique (p := isSep) digits_not_sep digits_not_sep (by simp [isSep]) (by simp [isSep])
      (List.append_cancel_left he)
    obtain ⟨h3, h4⟩ := name_split h h' (List.append_cancel_left h2)
    exact ⟨digits_inj h1, h3, h4⟩
  · rintro ⟨h1, h2, h3⟩
    simp only [flowFolder, h1, h2, h3]

/-- **C40** Two configurations of the ocean dataset have the same folder iff they agree in both orientations. -/
theorem C40_ocean_folders (a a' b b' : String) (h : PlainName a) (h' : PlainName a') :
    oceanFolder a b = oceanFolder a' b' ↔ a = a' ∧ b = b' := by
  constructor
  · intro he
    have he := congrArg String.toList he
    have key : ∀ a b, (oceanFolder a b).toList = "complex_".toList ++ (a.toList ++ '_' :: b.toList) := by
      intro a b
      simp [oceanFolder]
    rw [key, key] at he
    exact name_split h h' (List.append_cancel_left he)
  · rintro ⟨rfl, rfl⟩
    rfl

/-- **C40** Two configurations of CSL have the same folder iff they agree in the ring size and the init method. -/
theorem C40_csl_folders (k k' : Nat) (i i' : String) (h : PlainName i) (h' : PlainName i') :
    cslFolder k i = cslFolder k' i' ↔ k = k' ∧ i = i' := by
  constructor
  · intro he
    have he := congrArg String.toList he
    unfold cslFolder at he
    simp only [String.toList_append, ringSuffix_some] at he
    obtain ⟨-, -, h1, h2⟩ := baseFolder_split h h' (by simp [isSep]) (by simp [isSep]) he
    obtain ⟨h3, -⟩ := ring_split (s := []) (s' := []) (by simpa only [List.append_nil] using h2)
    exact ⟨h3, h1⟩
  · rintro ⟨rfl, rfl⟩
    rfl

/-- **C40** Two configurations of a peptides dataset have the same folder iff they agree in the ring size and the init
method. -/
theorem C40_peptides_folders (o o' : PeptidesOptions) (h : PlainName o.initMethod) (h' : PlainName o'.initMethod) :
    peptidesFolder o = peptidesFolder o' ↔ o.maxRingSize = o'.maxRingSize ∧ o.initMethod = o'.initMethod := by
  constructor
  · intro he
    have he := congrArg String.toList he
    unfold peptidesFolder at he
    simp only [String.toList_append, List.append_assoc, ringSuffix_some] at he
    obtain ⟨-, -, h1, h2⟩ := baseFolder_split h h' (by simp [isSep]) (by simp [isSep]) he
    obtain ⟨h3, -⟩ := ring_split (by simpa only [List.append_assoc] using h2)
    exact ⟨h3, h1⟩
  · rintro ⟨h1, h2⟩
    simp only [peptidesFolder, h1, h2]

/-- **C40** With and without lower adjacencies a peptides dataset shares a folder. -/
theorem C40_peptides_down_adjacency_collides (o : PeptidesOptions) :
    peptidesFolder { o with includeDown := true } = peptidesFolder { o with includeDown := false } := rfl

/-- **C40** Flow datasets with different numbers of samples share a folder. -/
theorem C40_flow_sizes_collide (o : FlowOptions) (n m : Nat) :
    flowFolder { o with trainSamples := n, valSamples := m } = flowFolder o := rfl

example : tuFolder
    { maxDim := 2, initMethod := "sum", maxRingSize := some 6, includeDown := true, degreeAsTag := false } =
    "cell_complex_dim2_sum_6rings_down_adj" := by decide +kernel

example : tuFolder
    { maxDim := 3, initMethod := "mean", maxRingSize := none, includeDown := true, degreeAsTag := false } =
    "complex_dim3_mean_down_adj" := by decide +kernel

example : PlainName "sum" ∧ PlainName "mean" := by decide +kernel

/-- The condition on the names is needed: a name with `_` can imitate a suffix. -/
example : tuFolder
    { maxDim := 2, initMethod := "sum", maxRingSize := none, includeDown := true, degreeAsTag := false } =
    tuFolder
    { maxDim := 2, initMethod := "sum_down_adj", maxRingSize := none, includeDown := false, degreeAsTag := false } := by
  decide +kernel

example : zincFolder { maxRingSize := 18, useEdgeFeatures := true, subset := false, includeDown := false } =
    "cell_complex_dim2_None_full_18rings-E" := by decide +kernel

example : ogbFolder
    { maxRingSize := 6, useEdgeFeatures := true, initMethod := "sum", includeDown := false, simple := true } =
    "cell_complex_dim2_sum_6rings-E-S" := by decide +kernel

example : flowFolder
    { numPoints := 1000, trainSamples := 1000, valSamples := 200, trainOrient := "default", testOrient := "random" } =
    "flow1000_orient_default_random" ∧ PlainName "default" ∧ PlainName "random" := by decide +kernel

example : oceanFolder "default" "random" = "complex_default_random" ∧
    cslFolder 6 "sum" = "cell_complex_dim2_sum_6rings" ∧
    peptidesFolder { maxRingSize := 8, initMethod := "sum", includeDown := true } = "cell_complex_dim2_sum_8rings-E" := by
  decide +kernel

end Verif
