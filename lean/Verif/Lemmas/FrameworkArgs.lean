import Verif.Lemmas.FrameworkLib

/-!
# What the methods get
-/

namespace Verif

variable {R : Type}

/-! ## Names -/

theorem argSuffix_append (k : String) {s : String} (hs : s.toList.length = 2) :
    argSuffix (k ++ s) = s := by
  unfold argSuffix
  rw [String.toList_append, List.length_append, hs, Nat.add_sub_cancel, List.drop_left,
    String.ofList_toList]

theorem argStem_append (p k s : String) (hs : s.toList.length = 2) :
    argStem p.toList.length (p ++ k ++ s) = k := by
  unfold argStem
  rw [String.toList_append, List.length_append, hs, Nat.add_sub_cancel, List.take_left,
    String.toList_append, List.drop_left, String.ofList_toList]

theorem startsWith_append (p k : String) : startsWith p (p ++ k) = true := by
  unfold startsWith
  rw [String.toList_append, List.isPrefixOf_iff_prefix]
  exact List.prefix_append _ _

theorem argSuffix_eq_iff {name s : String} (hs : s.toList.length = 2) :
    argSuffix name = s ↔ ∃ k, name = k ++ s := by
  constructor
  · intro h
    refine ⟨String.ofList (name.toList.take (name.toList.length - 2)), ?_⟩
    rw [← String.toList_inj, String.toList_append, String.toList_ofList, ← h, argSuffix,
      String.toList_ofList, List.take_append_drop]
  · rintro ⟨k, rfl⟩
    exact argSuffix_append k hs

theorem not_lifted_iff {name : String} :
    ¬ Lifted name ↔ argSuffix name ≠ "_i" ∧ argSuffix name ≠ "_j" := by
  unfold Lifted
  rw [← argSuffix_eq_iff (s := "_i") rfl, ← argSuffix_eq_iff (s := "_j") rfl, not_or]

theorem suffix_sender (a : AdjKind) (key : String) : argSuffix (senderName a key) = "_j" :=
  argSuffix_append _ rfl

theorem suffix_receiver (a : AdjKind) (key : String) : argSuffix (receiverName a key) = "_i" :=
  argSuffix_append _ rfl

/-- The prefix of the names that belong to an adjacency. -/
def AdjKind.pre (a : AdjKind) : String := a.str ++ "_"

theorem argData_own (a : AdjKind) (kwargs : ArgDict R) (key s : String) (hs : s.toList.length = 2)
    (dim : Nat) : argData a kwargs (a.str ++ "_" ++ key ++ s) dim =
      some (if a = .boundary ∧ dim = 0 then kwargs.get "boundary_attr" else kwargs.get key,
        kwargs.get key) := by
  have h1 : startsWith (a.str ++ "_") (a.str ++ "_" ++ key ++ s) = true := by
    rw [show a.str ++ "_" ++ key ++ s = (a.str ++ "_") ++ (key ++ s) from String.append_assoc]
    exact startsWith_append _ _
  have h2 := argStem_append (a.str ++ "_") key s hs
  cases a with
  | up =>
    have h1 : startsWith "up_" (AdjKind.up.str ++ "_" ++ key ++ s) = true := h1
    have h2 : argStem 3 (AdjKind.up.str ++ "_" ++ key ++ s) = key := h2
    simp only [argData, h1, h2]
    simp
  | down =>
    have h1 : startsWith "down_" (AdjKind.down.str ++ "_" ++ key ++ s) = true := h1
    have h2 : argStem 5 (AdjKind.down.str ++ "_" ++ key ++ s) = key := h2
    simp only [argData, h1, h2]
    simp
  | boundary =>
    have h1 : startsWith "boundary_" (AdjKind.boundary.str ++ "_" ++ key ++ s) = true := h1
    have h2 : argStem 9 (AdjKind.boundary.str ++ "_" ++ key ++ s) = key := h2
    simp only [argData, h1, h2]
    by_cases hd : dim = 0 <;> simp [hd]

theorem argData_foreign {a : AdjKind} {kwargs : ArgDict R} {name : String}
    (h : startsWith (a.str ++ "_") name = false) (dim : Nat) : argData a kwargs name dim = none := by
  cases a with
  | up =>
    have h : startsWith "up_" name = false := h
    simp [argData, h]
  | down =>
    have h : startsWith "down_" name = false := h
    simp [argData, h]
  | boundary =>
    have h : startsWith "boundary_" name = false := h
    simp [argData, h]

/-! ## The loop -/

/-- The value that the loop stores for an argument. -/
theorem collectArgs_get {flow : Flow} {index : Adj R} {a : AdjKind} {kwargs : ArgDict R}
    {args : List String} (hn : args.Nodup) {st st' : ArgDict R × Sizes}
    (h : collectArgs flow index a kwargs args st = .ok st') :
    (∀ k ∉ args, st'.1 k = st.1 k) ∧
    ∀ k ∈ args, ∃ v t, argPlan flow index a kwargs k = .ok (v, t) ∧ st'.1 k = v.or (st.1 k) := by
  induction args generalizing st with
  | nil => cases h; simp
  | cons arg args ih =>
    obtain ⟨s, hs, h⟩ := bind_eq_ok.mp (show (_ >>= _) = _ from h)
    obtain ⟨hnot, hn⟩ := List.nodup_cons.mp hn
    obtain ⟨h1, h2⟩ := ih hn h
    obtain ⟨v, t, hv, ht, he⟩ := collectArg_ok.mp hs
    have hother : ∀ k, k ≠ arg → s.1 k = st.1 k := by
      intro k hk
      rw [he]
      cases v with
      | none => rfl
      | some v => simp [ArgDict.setOpt, ArgDict.set, hk]
    have hown : s.1 arg = v.or (st.1 arg) := by
      rw [he]
      cases v with
      | none => rfl
      | some v => simp [ArgDict.setOpt, ArgDict.set]
    refine ⟨fun k hk => ?_, fun k hk => ?_⟩
    · rw [List.mem_cons, not_or] at hk
      rw [h1 k hk.2, hother k hk.1]
    · rcases List.mem_cons.mp hk with rfl | hk
      · exact ⟨v, t, hv, by rw [h1 k hnot, hown]⟩
      · obtain ⟨v', t', hv', he'⟩ := h2 k hk
        exact ⟨v', t', hv', by rw [he', hother k (fun hc => hnot (hc ▸ hk))]⟩

theorem setSize_get {s s' : Sizes} {dim : Nat} {rows : List R} (hd : dim ≤ 1)
    (h : setSize s dim (.tensor rows) = .ok s') : s'.get dim = some rows.length ∧
      ∀ e n, s.get e = some n → s'.get e = some n := by
  obtain ⟨a, b⟩ := s
  have hd' : dim = 0 ∨ dim = 1 := by omega
  rcases hd' with rfl | rfl
  · cases a with
    | none =>
      cases h
      refine ⟨rfl, fun e n he => ?_⟩
      by_cases h0 : e = 0 <;> simp_all [Sizes.get, Sizes.set]
    | some n =>
      simp only [setSize, Sizes.get, if_true] at h
      split at h
      · cases h
        rename_i hn
        exact ⟨by simp [Sizes.get, hn], fun e m he => he⟩
      · simp at h
  · cases b with
    | none =>
      cases h
      refine ⟨rfl, fun e n he => ?_⟩
      by_cases h0 : e = 0 <;> simp_all [Sizes.get, Sizes.set]
    | some n =>
      simp only [setSize, Sizes.get, one_ne_zero, if_false] at h
      split at h
      · cases h
        rename_i hn
        exact ⟨by simp [Sizes.get, hn], fun e m he => he⟩
      · simp at h

theorem argPlan_dim {flow : Flow} {index : Adj R} {a : AdjKind} {kwargs : ArgDict R} {arg : String}
    {v : Option (Val R)} {dim : Nat} {rows : List R}
    (h : argPlan flow index a kwargs arg = .ok (v, some (dim, rows))) : dim ≤ 1 := by
  unfold argPlan at h
  split at h
  · simp at h
  · split at h
    · simp at h
    · split at h
      · simp at h
      · unfold liftPlan at h
        split at h
        · obtain ⟨r, -, h⟩ := bind_eq_ok.mp h
          split at h
          · simp only [ok_inj, Prod.mk.injEq, Option.some.injEq] at h
            rw [← h.2.1]
            split <;> omega
          · simp at h
        · simp at h
        · simp at h
        · simp at h

theorem applySize_mono {s s' : Sizes} {t : Option (Nat × List R)} (ht : ∀ p, t = some p → p.1 ≤ 1)
    (h : applySize s t = .ok s') {e n : Nat} (he : s.get e = some n) : s'.get e = some n := by
  cases t with
  | none => cases h; exact he
  | some p => exact (setSize_get (ht p rfl) h).2 e n he

/-- Sizes are never changed, and every argument that was lifted has the recorded size. -/
theorem collectArgs_sizes {flow : Flow} {index : Adj R} {a : AdjKind} {kwargs : ArgDict R}
    {args : List String} {st st' : ArgDict R × Sizes}
    (h : collectArgs flow index a kwargs args st = .ok st') :
    (∀ e n, st.2.get e = some n → st'.2.get e = some n) ∧
    ∀ k ∈ args, ∀ v dim rows, argPlan flow index a kwargs k = .ok (v, some (dim, rows)) →
      st'.2.get dim = some rows.length := by
  induction args generalizing st with
  | nil => cases h; simp
  | cons arg args ih =>
    obtain ⟨s, hs, h⟩ := bind_eq_ok.mp (show (_ >>= _) = _ from h)
    obtain ⟨h1, h2⟩ := ih h
    obtain ⟨v, t, hv, ht, -⟩ := collectArg_ok.mp hs
    have hdim : ∀ p, t = some p → p.1 ≤ 1 := by
      rintro ⟨dim, rows⟩ rfl
      exact argPlan_dim hv
    refine ⟨fun e n he => h1 e n (applySize_mono hdim ht he), fun k hk v' dim rows hp => ?_⟩
    rcases List.mem_cons.mp hk with rfl | hk
    · rw [hv] at hp
      simp only [ok_inj, Prod.mk.injEq] at hp
      obtain ⟨rfl, rfl⟩ := hp
      exact h1 _ _ (setSize_get (hdim _ rfl) ht).1
    · exact h2 k hk v' dim rows hp

theorem argPlan_dim_of_suffix {flow : Flow} {index : Adj R} {a : AdjKind} {kwargs : ArgDict R}
    {arg : String} (hs : ¬ argSuffix arg = "_i") {v : Option (Val R)} {dim : Nat} {rows : List R}
    (h : argPlan flow index a kwargs arg = .ok (v, some (dim, rows))) : dim = 0 := by
  unfold argPlan at h
  split at h
  · simp at h
  · rename_i hnot
    have hj : argSuffix arg = "_j" := by
      by_contra hc
      exact hnot ⟨hs, hc⟩
    split at h
    · simp at h
    · split at h
      · simp at h
      · unfold liftPlan at h
        split at h
        · obtain ⟨r, -, h⟩ := bind_eq_ok.mp h
          split at h
          · simp only [ok_inj, Prod.mk.injEq, Option.some.injEq, if_pos hj] at h
            exact h.2.1.symm
          · simp at h
        · simp at h
        · simp at h
        · simp at h

/-- A size that no argument demands stays unknown. -/
theorem collectArgs_unknown_dim {flow : Flow} {index : Adj R} {a : AdjKind} {kwargs : ArgDict R}
    {args : List String} {st st' : ArgDict R × Sizes}
    (h : collectArgs flow index a kwargs args st = .ok st') (h0 : st.2.get 1 = none)
    (hp : ∀ k ∈ args, ∀ v dim rows, argPlan flow index a kwargs k = .ok (v, some (dim, rows)) →
      dim = 0) : st'.2.get 1 = none := by
  induction args generalizing st with
  | nil => cases h; exact h0
  | cons arg args ih =>
    obtain ⟨s, hs, h⟩ := bind_eq_ok.mp (show (_ >>= _) = _ from h)
    obtain ⟨v, t, hv, ht, -⟩ := collectArg_ok.mp hs
    refine ih h ?_ fun k hk => hp k (by simp [hk])
    cases t with
    | none => rw [← ok_inj.mp ht]; exact h0
    | some p =>
      obtain ⟨dim, rows⟩ := p
      have hdim := hp arg (by simp) v dim rows hv
      subst hdim
      simp only [applySize, setSize] at ht
      split at ht
      · rw [← ok_inj.mp ht]
        simpa [Sizes.get, Sizes.set] using h0
      · split at ht
        · rw [← ok_inj.mp ht]; exact h0
        · simp at ht

/-! ## The arguments that the framework adds -/

theorem special_keys (a : AdjKind) (k : String)
    (hk : k ∈ [a.str ++ "_adj_t", a.str ++ "_ptr", a.str ++ "_index", a.str ++ "_index_i",
      a.str ++ "_index_j", "agg_" ++ a.str ++ "_index", a.str ++ "_size", a.str ++ "_size_i",
      a.str ++ "_size_j", a.str ++ "_dim_size"]) : k ∈ specialArgs := by
  have : ∀ a ∈ [AdjKind.up, .down, .boundary],
      ∀ k ∈ [a.str ++ "_adj_t", a.str ++ "_ptr", a.str ++ "_index", a.str ++ "_index_i",
        a.str ++ "_index_j", "agg_" ++ a.str ++ "_index", a.str ++ "_size", a.str ++ "_size_i",
        a.str ++ "_size_j", a.str ++ "_dim_size"], k ∈ specialArgs := by decide +kernel
  exact this a (by cases a <;> simp) k hk

/-- The framework does not touch other keys, for dense indices. -/
theorem added_other (flow : Flow) (cols : List (Nat × Nat)) (a : AdjKind) (s : Sizes) (d : ArgDict R)
    {k : String} (hk : k ∉ specialArgs) :
    sizeArgs a s (indexArgs flow (.dense cols) a d) k = d k := by
  have h := fun k' hk' => fun (e : k = k') => hk (e ▸ special_keys a k' hk')
  simp only [List.mem_cons, List.not_mem_nil, or_false, forall_eq_or_imp, forall_eq] at h
  obtain ⟨h1, h2, h3, h4, h5, h6, h7, h8, h9, h10⟩ := h
  simp only [sizeArgs, indexArgs, ArgDict.set, if_neg h1, if_neg h2, if_neg h3, if_neg h4, if_neg h5,
    if_neg h6, if_neg h7, if_neg h8, if_neg h9, if_neg h10]

theorem added_dense (flow : Flow) (cols : List (Nat × Nat)) (a : AdjKind) (s : Sizes) (d : ArgDict R) :
    sizeArgs a s (indexArgs flow (.dense cols) a d) ("agg_" ++ a.str ++ "_index") =
        some (.ids (cols.map flow.i)) ∧
      sizeArgs a s (indexArgs flow (.dense cols) a d) (a.str ++ "_ptr") = some .none ∧
      sizeArgs a s (indexArgs flow (.dense cols) a d) (a.str ++ "_dim_size") =
        some (optInt (pyOr s.2 s.1)) := by
  cases a <;> simp [sizeArgs, indexArgs, ArgDict.set, AdjKind.str, map_flow_i]

theorem added_indices (flow : Flow) (cols : List (Nat × Nat)) (a : AdjKind) (s : Sizes) (d : ArgDict R) :
    sizeArgs a s (indexArgs flow (.dense cols) a d) (a.str ++ "_index") = some (.adj (.dense cols)) ∧
      sizeArgs a s (indexArgs flow (.dense cols) a d) (a.str ++ "_index_i") = some (.ids (cols.map flow.i)) ∧
      sizeArgs a s (indexArgs flow (.dense cols) a d) (a.str ++ "_index_j") = some (.ids (cols.map flow.j)) := by
  cases a <;> simp [sizeArgs, indexArgs, ArgDict.set, AdjKind.str, map_flow_i, map_flow_j]

theorem indexSelect_gathers {rows out : List R} {idx : List Nat}
    (h : indexSelect rows idx = .ok out) : Gathers rows idx out := by
  refine ⟨mapE_length (show mapE _ _ = _ from h), fun k i hk => ?_⟩
  rw [indexSelect_eq_ok_iff] at h
  have := congrArg (·[k]?) h
  simp only [List.getElem?_map, hk, Option.map_some] at this
  cases ho : out[k]? with
  | none => rw [ho] at this; simp at this
  | some r => rw [ho] at this; exact ⟨r, by simpa using this, rfl⟩

end Verif
