import Verif.Lemmas.Storage
import Verif.Props.Folders
import Mathlib.Data.List.Nodup

/-! # Processed files over a history of constructions (C89) -/

namespace Verif

variable {O V : Type}

/-- **C89** Starting from an empty disk, whatever was constructed, interrupted or failed before: if some earlier
construction wrote the files of these options completely, the result is what the first such construction wrote;
if none did, it is what the construction gives alone. -/
theorem C89_first_complete_run_wins {S : Store O V} (hS : S.Regular) (history : List (Attempt O)) (i : Nat)
    (a : Attempt O) (ha : history[i]? = some a) :
    (∀ vs, S.First (history.take i) a.options vs → (openAll S [] history).2[i]? = some (some (.ok vs))) ∧
    ((∀ vs, ¬ S.First (history.take i) a.options vs) →
      (openAll S [] history).2[i]? = some (S.alone a)) := by
  have h := (Store.results hS (history := []) (as := history) S.inv_nil).2 i a ha
  rw [List.nil_append] at h
  refine ⟨h.1, fun hn => h.2 fun hd => ?_⟩
  obtain ⟨vs, hv⟩ := S.first_of_done hd
  exact hn vs hv

/-- **C89** If options with the same files also have the same contents, every construction that is not
interrupted gives its own data, whatever happened before. -/
theorem C89_own_data {S : Store O V} (hS : S.Regular) (history : List (Attempt O))
    (hsame : ∀ a ∈ history, ∀ b ∈ history, S.paths a.options = S.paths b.options →
      (S.process a.options a.draw).map Prod.snd = (S.process b.options b.draw).map Prod.snd)
    (i : Nat) (a : Attempt O) (ha : history[i]? = some a) (hk : a.killed = none) :
    (openAll S [] history).2[i]? = some (some ((S.process a.options a.draw).map Prod.snd)) := by
  have hown : S.alone a = some ((S.process a.options a.draw).map Prod.snd) := by
    unfold Store.alone
    rw [hk]
    cases S.process a.options a.draw <;> rfl
  obtain ⟨h1, h2⟩ := C89_first_complete_run_wins hS history i a ha
  by_cases hf : ∃ vs, S.First (history.take i) a.options vs
  · obtain ⟨vs, hv⟩ := hf
    rw [h1 vs hv]
    obtain ⟨j, b, hb, hp, ⟨o, ho, -⟩, -⟩ := hv
    rw [hsame a (List.mem_of_getElem? ha) b (List.mem_of_mem_take (List.mem_of_getElem? hb)) hp.symm, ho]
    rfl
  · rw [h2 (fun vs hv => hf ⟨vs, hv⟩), hown]

/-! ### The classes of datasets -/

/-- Files with fixed names in a folder that depends on the options. -/
theorem Store.plain_regular (folder : O → String) {names : List String} (hne : names ≠ []) (hnd : names.Nodup)
    {contents : O → Nat → Py (List V)}
    (hlen : ∀ o d vs, contents o d = .ok vs → vs.length = names.length) :
    (Store.plain (fun o => names.map fun n => (folder o, n)) contents).Regular where
  some_file o := by simpa [Store.plain] using hne
  nodup o := List.Nodup.map (f := fun n => (folder o, n)) (fun a b h => (Prod.mk.inj h).2) hnd
  keeps o d o' vs h := by
    obtain ⟨ws, h1, h2⟩ := bind_eq_ok.mp h
    rw [pure_eq_ok, ok_inj, Prod.mk.injEq] at h2
    obtain ⟨rfl, rfl⟩ := h2
    exact ⟨rfl, by simpa [Store.plain] using hlen _ _ _ h1⟩
  apart o o' p h h' := by
    obtain ⟨n, -, e⟩ := List.mem_map.mp h
    obtain ⟨m, -, e'⟩ := List.mem_map.mp h'
    have : folder o = folder o' := by
      rw [← e', Prod.mk.injEq] at e
      exact e.1
    show names.map _ = names.map _
    rw [this]

/-- What is in the files of a construction. -/
theorem Store.plain_process (paths : O → List DiskPath) (contents : O → Nat → Py (List V)) (o : O) (d : Nat) :
    ((Store.plain paths contents).process o d).map Prod.snd = contents o d := by
  show (contents o d >>= _).map Prod.snd = _
  cases contents o d <;> rfl

theorem suffix_ne {s a b : String} (h : a ≠ b) : s ++ a ≠ s ++ b := by
  intro e
  have := congrArg String.toList e
  rw [String.toList_append, String.toList_append] at this
  exact h (String.toList_inj.mp (List.append_cancel_left this))

theorem tuPaths_regular (name : String) {contents : TUOptions → Nat → Py (List V)}
    (hlen : ∀ o d vs, contents o d = .ok vs → vs.length = 1) : (Store.plain (tuPaths name) contents).Regular :=
  Store.plain_regular tuFolder (names := [name ++ "_complex_list.pt"]) (by simp) (by simp) hlen

theorem zincPaths_regular {contents : ZincOptions → Nat → Py (List V)}
    (hlen : ∀ o d vs, contents o d = .ok vs → vs.length = 2) : (Store.plain zincPaths contents).Regular :=
  Store.plain_regular zincFolder (names := ["ZINC_complex.pt", "ZINC_idx.pt"]) (by simp) (by decide) hlen

theorem ogbPaths_regular (name : String) {contents : OGBOptions → Nat → Py (List V)}
    (hlen : ∀ o d vs, contents o d = .ok vs → vs.length = 3) : (Store.plain (ogbPaths name) contents).Regular :=
  Store.plain_regular ogbFolder (names := [name ++ "_complex.pt", name ++ "_idx.pt", name ++ "_tasks.pt"]) (by simp)
    (by
      have h1 : name ++ "_complex.pt" ≠ name ++ "_idx.pt" := suffix_ne (by decide)
      have h2 : name ++ "_complex.pt" ≠ name ++ "_tasks.pt" := suffix_ne (by decide)
      have h3 : name ++ "_idx.pt" ≠ name ++ "_tasks.pt" := suffix_ne (by decide)
      simp only [List.nodup_cons, List.mem_cons, List.not_mem_nil, or_false, not_or, not_false_eq_true,
        List.nodup_nil, and_true]
      exact ⟨⟨h1, h2⟩, h3⟩) hlen

theorem flowPaths_regular (name : String) {contents : FlowOptions → Nat → Py (List V)}
    (hlen : ∀ o d vs, contents o d = .ok vs → vs.length = 2) : (Store.plain (flowPaths name) contents).Regular :=
  Store.plain_regular flowFolder (names := [name ++ "_complex_list.pkl", name ++ "_graph.pkl"]) (by simp)
    (by
      have h1 : name ++ "_complex_list.pkl" ≠ name ++ "_graph.pkl" := suffix_ne (by decide)
      simp only [List.nodup_cons, List.mem_cons, List.not_mem_nil, or_false, not_false_eq_true,
        List.nodup_nil, and_true]
      exact h1) hlen

/-- **C89** TU datasets: as long as the tag option stays the same, every construction that is not interrupted gives
the data for its own options, whatever was constructed, failed or interrupted before. -/
theorem C89_tu (name : String) (convert : TUOptions → Py V) (history : List (Attempt TUOptions))
    (hname : ∀ a ∈ history, PlainName a.options.initMethod)
    (htag : ∀ a ∈ history, ∀ b ∈ history, a.options.degreeAsTag = b.options.degreeAsTag)
    (i : Nat) (a : Attempt TUOptions) (ha : history[i]? = some a) (hk : a.killed = none) :
    (openAll (Store.plain (tuPaths name) fun o _ => (convert o).map fun v => [v]) [] history).2[i]? =
      some (some ((convert a.options).map fun v => [v])) := by
  have hr := tuPaths_regular (V := V) name (contents := fun o _ => (convert o).map fun v => [v])
    (fun o d vs h => by
      cases hc : convert o with
      | error e => rw [hc] at h; cases h
      | ok v => rw [hc] at h; cases h; rfl)
  have h := C89_own_data hr history (fun a ha b hb hp => ?_) i a ha hk
  · rw [h, Store.plain_process]
  · have hf : tuFolder a.options = tuFolder b.options := by
      have : tuPaths name a.options = tuPaths name b.options := hp
      simp only [tuPaths, List.cons.injEq, Prod.mk.injEq, and_true] at this
      exact this
    obtain ⟨h1, h2, h3, h4⟩ := (C40_tu_folders _ _ (hname a ha) (hname b hb)).mp hf
    rw [Store.plain_process, Store.plain_process]
    have h5 := htag a ha b hb
    have : a.options = b.options := by
      cases ho : a.options
      cases ho' : b.options
      rw [ho, ho'] at h1 h2 h3 h4 h5
      simp only at h1 h2 h3 h4 h5
      rw [h1, h2, h3, h4, h5]
    rw [this]

/-- **C89** ZINC: as long as the lower adjacencies are asked for always or never, every construction that is not
interrupted gives the data for its own options. -/
theorem C89_zinc (convert : ZincOptions → Py (V × V)) (history : List (Attempt ZincOptions))
    (hdown : ∀ a ∈ history, ∀ b ∈ history, a.options.includeDown = b.options.includeDown)
    (i : Nat) (a : Attempt ZincOptions) (ha : history[i]? = some a) (hk : a.killed = none) :
    (openAll (Store.plain zincPaths fun o _ => (convert o).map fun v => [v.1, v.2]) [] history).2[i]? =
      some (some ((convert a.options).map fun v => [v.1, v.2])) := by
  have hr := zincPaths_regular (V := V) (contents := fun o _ => (convert o).map fun v => [v.1, v.2])
    (fun o d vs h => by
      cases hc : convert o with
      | error e => rw [hc] at h; cases h
      | ok v => rw [hc] at h; cases h; rfl)
  have h := C89_own_data hr history (fun a ha b hb hp => ?_) i a ha hk
  · rw [h, Store.plain_process]
  · have hf : zincFolder a.options = zincFolder b.options := by
      have : zincPaths a.options = zincPaths b.options := hp
      simp only [zincPaths, List.cons.injEq, Prod.mk.injEq, and_true] at this
      exact this.1
    obtain ⟨h1, h2, h3⟩ := (C40_zinc_folders _ _).mp hf
    rw [Store.plain_process, Store.plain_process]
    have h4 := hdown a ha b hb
    have : a.options = b.options := by
      cases ho : a.options
      cases ho' : b.options
      rw [ho, ho'] at h1 h2 h3 h4
      simp only at h1 h2 h3 h4
      rw [h1, h2, h3, h4]
    rw [this]

/-- **C89** OGB and peptides: as long as the lower adjacencies are asked for always or never, every construction that
is not interrupted gives the data for its own options. -/
theorem C89_ogb (name : String) (convert : OGBOptions → Py (V × V × V)) (history : List (Attempt OGBOptions))
    (hname : ∀ a ∈ history, PlainName a.options.initMethod)
    (hdown : ∀ a ∈ history, ∀ b ∈ history, a.options.includeDown = b.options.includeDown)
    (i : Nat) (a : Attempt OGBOptions) (ha : history[i]? = some a) (hk : a.killed = none) :
    (openAll (Store.plain (ogbPaths name) fun o _ => (convert o).map fun v => [v.1, v.2.1, v.2.2]) []
      history).2[i]? = some (some ((convert a.options).map fun v => [v.1, v.2.1, v.2.2])) := by
  have hr := ogbPaths_regular (V := V) name (contents := fun o _ => (convert o).map fun v => [v.1, v.2.1, v.2.2])
    (fun o d vs h => by
      cases hc : convert o with
      | error e => rw [hc] at h; cases h
      | ok v => rw [hc] at h; cases h; rfl)
  have h := C89_own_data hr history (fun a ha b hb hp => ?_) i a ha hk
  · rw [h, Store.plain_process]
  · have hf : ogbFolder a.options = ogbFolder b.options := by
      have : ogbPaths name a.options = ogbPaths name b.options := hp
      simp only [ogbPaths, List.cons.injEq, Prod.mk.injEq, and_true] at this
      exact this.1
    obtain ⟨h1, h2, h3, h4⟩ := (C40_ogb_folders _ _ (hname a ha) (hname b hb)).mp hf
    rw [Store.plain_process, Store.plain_process]
    have h5 := hdown a ha b hb
    have : a.options = b.options := by
      cases ho : a.options
      cases ho' : b.options
      rw [ho, ho'] at h1 h2 h3 h4 h5
      simp only at h1 h2 h3 h4 h5
      rw [h1, h2, h3, h4, h5]
    rw [this]

/-- **C89** CSL: every construction that is not interrupted gives the data for its own ring size and init method. -/
theorem C89_csl (convert : String × Nat → Py V) (history : List (Attempt (String × Nat)))
    (hname : ∀ a ∈ history, PlainName a.options.1)
    (i : Nat) (a : Attempt (String × Nat)) (ha : history[i]? = some a) (hk : a.killed = none) :
    (openAll (Store.plain (fun o : String × Nat => cslPaths o.1 o.2) fun o _ => (convert o).map fun v => [v]) []
      history).2[i]? = some (some ((convert a.options).map fun v => [v])) := by
  have hr : (Store.plain (fun o : String × Nat => cslPaths o.1 o.2) fun o _ =>
      (convert o).map fun v => [v]).Regular :=
    Store.plain_regular (fun o : String × Nat => baseFolder true 2 o.1 ++ ringSuffix (some o.2))
      (names := ["complexes.pt"]) (by simp) (by simp) (fun o d vs h => by
        cases hc : convert o with
        | error e => rw [hc] at h; cases h
        | ok v => rw [hc] at h; cases h; rfl)
  have h := C89_own_data hr history (fun a ha b hb hp => ?_) i a ha hk
  · rw [h, Store.plain_process]
  · have hf : cslPaths a.options.1 a.options.2 = cslPaths b.options.1 b.options.2 := hp
    simp only [cslPaths, List.cons.injEq, Prod.mk.injEq, and_true] at hf
    have hf := congrArg String.toList hf
    simp only [String.toList_append, ringSuffix_some] at hf
    obtain ⟨-, -, h1, h2⟩ := baseFolder_split (hname a ha) (hname b hb) (by simp [isSep]) (by simp [isSep]) hf
    obtain ⟨h3, -⟩ := ring_split (s := []) (s' := []) (by simpa using h2)
    rw [Store.plain_process, Store.plain_process, Prod.ext h1 h3]

/-- **C89** The ocean dataset: every construction that is not interrupted gives the data for its own
orientations. -/
theorem C89_ocean (name : String) (load : String × String → Py (V × V × V))
    (history : List (Attempt (String × String))) (hname : ∀ a ∈ history, PlainName a.options.1)
    (i : Nat) (a : Attempt (String × String)) (ha : history[i]? = some a) (hk : a.killed = none) :
    (openAll (Store.plain (fun o : String × String => oceanFiles name o.1 o.2) fun o _ =>
      (load o).map fun v => [v.1, v.2.1, v.2.2]) [] history).2[i]? =
      some (some ((load a.options).map fun v => [v.1, v.2.1, v.2.2])) := by
  have hnames : ["train_" ++ name ++ "_complex_list.pkl", "val_" ++ name ++ "_complex_list.pkl",
      name ++ "_graph.pkl"].Nodup := by
    have h1 : "train_" ++ name ++ "_complex_list.pkl" ≠ "val_" ++ name ++ "_complex_list.pkl" := by
      intro e
      have := congrArg (fun x => x.toList.head?) e
      simp only [String.toList_append, List.append_assoc] at this
      cases this
    have h2 : ∀ s : String, s ++ "_complex_list.pkl" ≠ name ++ "_graph.pkl" := by
      intro s e
      have := congrArg (fun x => x.toList.reverse[4]?) e
      simp only [String.toList_append, List.reverse_append] at this
      cases this
    simp only [List.nodup_cons, List.mem_cons, List.not_mem_nil, or_false, not_or, not_false_eq_true,
      List.nodup_nil, and_true]
    exact ⟨⟨h1, h2 _⟩, h2 _⟩
  have hr : (Store.plain (fun o : String × String => oceanFiles name o.1 o.2) fun o _ =>
      (load o).map fun v => [v.1, v.2.1, v.2.2]).Regular :=
    Store.plain_regular (fun o : String × String => "complex_" ++ o.1 ++ "_" ++ o.2) (by simp) hnames
      (fun o d vs h => by
        cases hc : load o with
        | error e => rw [hc] at h; cases h
        | ok v => rw [hc] at h; cases h; rfl)
  have h := C89_own_data hr history (fun a ha b hb hp => ?_) i a ha hk
  · rw [h, Store.plain_process]
  · have hf : oceanFiles name a.options.1 a.options.2 = oceanFiles name b.options.1 b.options.2 := hp
    simp only [oceanFiles, List.cons.injEq, Prod.mk.injEq, and_true] at hf
    have hf := congrArg String.toList hf.1
    simp only [String.toList_append, List.append_assoc] at hf
    obtain ⟨h1, h2⟩ := split_unique (p := isSep) (plain_not_sep (hname a ha)) (plain_not_sep (hname b hb))
      (by simp [isSep]) (by simp [isSep]) (List.append_cancel_left hf)
    rw [Store.plain_process, Store.plain_process,
      Prod.ext (String.toList_inj.mp h1) (String.toList_inj.mp (List.append_cancel_left h2))]

/-- **C89** The dummy molecules: every construction that is not interrupted gives the complexes with or without the
features of the rings, as asked for. -/
theorem C89_dummy_molecules (build : Bool → Py V) (history : List (Attempt Bool))
    (i : Nat) (a : Attempt Bool) (ha : history[i]? = some a) (hk : a.killed = none) :
    (openAll (Store.plain dummyMolPaths fun o _ => (build o).map fun v => [v]) [] history).2[i]? =
      some (some ((build a.options).map fun v => [v])) := by
  have hinj : ∀ b b', dummyMolPaths b = dummyMolPaths b' → b = b' := by
    intro b b' h
    cases b <;> cases b' <;> first | rfl | exact absurd h (by decide +kernel)
  have hr : (Store.plain dummyMolPaths fun o _ => (build o).map fun v => [v]).Regular := {
    some_file := fun o => by simp [Store.plain, dummyMolPaths]
    nodup := fun o => by simp [Store.plain, dummyMolPaths]
    keeps := fun o d o' vs h => by
      obtain ⟨ws, h1, h2⟩ := bind_eq_ok.mp h
      rw [pure_eq_ok, ok_inj, Prod.mk.injEq] at h2
      obtain ⟨rfl, rfl⟩ := h2
      refine ⟨rfl, ?_⟩
      beta_reduce at h1
      cases hc : build o with
      | error e => rw [hc] at h1; cases h1
      | ok v => rw [hc] at h1; cases h1; rfl
    apart := fun o o' p h h' => by
      simp only [Store.plain, dummyMolPaths, List.mem_cons, List.not_mem_nil, or_false] at h h' ⊢
      rw [← h, ← h'] }
  have h := C89_own_data hr history (fun a ha b hb hp => ?_) i a ha hk
  · rw [h, Store.plain_process]
  · rw [Store.plain_process, Store.plain_process, hinj _ _ hp]

/-! ### What is not kept apart -/

/-- Options with the same files: the second construction gets the data of the first. -/
theorem Store.stale {S : Store O V} (hS : S.Regular) {o o' : O} {d d' : Nat} {o'' : O} {vs : List V}
    (hp : S.paths o = S.paths o') (h : S.process o d = .ok (o'', vs)) :
    (openAll S [] [{ options := o, draw := d }, { options := o', draw := d' }]).2 =
      [some (.ok vs), some (.ok vs)] := by
  have hl := (Store.results hS (history := [])
    (as := [{ options := o, draw := d }, { options := o', draw := d' }]) S.inv_nil).1
  have h0 := (C89_first_complete_run_wins hS
    [{ options := o, draw := d }, { options := o', draw := d' }] 0 _ rfl).2 (by
      rintro ws ⟨j, b, hb, -⟩
      simp at hb)
  have h1 := (C89_first_complete_run_wins hS
    [{ options := o, draw := d }, { options := o', draw := d' }] 1 _ rfl).1 vs
      ⟨0, { options := o, draw := d }, rfl, hp, ⟨o'', h, fun n hn => by cases hn⟩, fun j _ _ hj => by omega⟩
  have ha : S.alone { options := o, draw := d } = some (.ok vs) := by
    unfold Store.alone
    simp only
    rw [h]
  rw [ha] at h0
  match hr : (openAll S [] [{ options := o, draw := d }, { options := o', draw := d' }]).2, hl, h0, h1 with
  | [x, y], _, h0, h1 =>
    simp only [List.getElem?_cons_zero, List.getElem?_cons_succ, Option.some.injEq] at h0 h1
    rw [h0, h1]

/-- **C89** A TU dataset constructed first with node labels gives those complexes also when asked for degree tags,
and the other way round. -/
theorem C89_tu_degree_tags_ignored (name : String) (convert : TUOptions → Py V) (o : TUOptions) (b : Bool) (v : V)
    (h : convert { o with degreeAsTag := b } = .ok v) :
    (openAll (Store.plain (tuPaths name) fun o _ => (convert o).map fun v => [v]) []
      [{ options := { o with degreeAsTag := b } }, { options := { o with degreeAsTag := !b } }]).2 =
      [some (.ok [v]), some (.ok [v])] := by
  refine Store.stale (tuPaths_regular name fun o d vs h => ?_) (o'' := { o with degreeAsTag := b }) ?_ ?_
  · cases hc : convert o with
    | error e => rw [hc] at h; cases h
    | ok v => rw [hc] at h; cases h; rfl
  · rfl
  · show ((convert _).map _ >>= _) = _
    rw [h]
    rfl

/-- **C89** ZINC constructed first without lower adjacencies lacks them also when they are asked for, and the other
way round. -/
theorem C89_zinc_lower_adjacencies_ignored (convert : ZincOptions → Py (V × V)) (o : ZincOptions) (b : Bool)
    (v : V × V) (h : convert { o with includeDown := b } = .ok v) :
    (openAll (Store.plain zincPaths fun o _ => (convert o).map fun v => [v.1, v.2]) []
      [{ options := { o with includeDown := b } }, { options := { o with includeDown := !b } }]).2 =
      [some (.ok [v.1, v.2]), some (.ok [v.1, v.2])] := by
  refine Store.stale (zincPaths_regular fun o d vs h => ?_) (o'' := { o with includeDown := b }) ?_ ?_
  · cases hc : convert o with
    | error e => rw [hc] at h; cases h
    | ok v => rw [hc] at h; cases h; rfl
  · rfl
  · show ((convert _).map _ >>= _) = _
    rw [h]
    rfl

/-- **C89** The same for the OGB and peptides datasets. -/
theorem C89_ogb_lower_adjacencies_ignored (name : String) (convert : OGBOptions → Py (V × V × V)) (o : OGBOptions)
    (b : Bool) (v : V × V × V) (h : convert { o with includeDown := b } = .ok v) :
    (openAll (Store.plain (ogbPaths name) fun o _ => (convert o).map fun v => [v.1, v.2.1, v.2.2]) []
      [{ options := { o with includeDown := b } }, { options := { o with includeDown := !b } }]).2 =
      [some (.ok [v.1, v.2.1, v.2.2]), some (.ok [v.1, v.2.1, v.2.2])] := by
  refine Store.stale (ogbPaths_regular name fun o d vs h => ?_) (o'' := { o with includeDown := b }) ?_ ?_
  · cases hc : convert o with
    | error e => rw [hc] at h; cases h
    | ok v => rw [hc] at h; cases h; rfl
  · rfl
  · show ((convert _).map _ >>= _) = _
    rw [h]
    rfl

/-- **C89** A flow dataset keeps the samples of the first construction while its ids follow the arguments of the
second: with fewer training samples the validation ids point to training samples, and with more samples than before
some id points to no sample at all. -/
theorem C89_flow_sizes (name : String) (generate : FlowOptions → Nat → Py (List V × V)) (o : FlowOptions)
    (n m n' m' d d' : Nat) (samples : List V) (g : V)
    (h : generate { o with trainSamples := n, valSamples := m } d = .ok (samples, g))
    (hs : samples.length = n + m) :
    (openAll (Store.plain (flowPaths name) fun o d => (generate o d).map fun r => [Sum.inl r.1, Sum.inr r.2]) []
      [{ options := { o with trainSamples := n, valSamples := m }, draw := d },
        { options := { o with trainSamples := n', valSamples := m' }, draw := d' }]).2 =
      [some (.ok [.inl samples, .inr g]), some (.ok [.inl samples, .inr g])] ∧
    (n' < n → 0 < m' → ∃ i ∈ (flowIds { o with trainSamples := n', valSamples := m' }).2,
      i ∈ (flowIds { o with trainSamples := n, valSamples := m }).1) ∧
    (n + m < n' + m' → ∃ i, (i ∈ (flowIds { o with trainSamples := n', valSamples := m' }).1 ∨
      i ∈ (flowIds { o with trainSamples := n', valSamples := m' }).2) ∧ samples[i]? = none) := by
  refine ⟨Store.stale (flowPaths_regular name fun o d vs h => ?_)
    (o'' := { o with trainSamples := n, valSamples := m }) ?_ ?_, fun hn hm => ⟨n', ?_, ?_⟩,
    fun hlt => ⟨n' + m' - 1, ?_, ?_⟩⟩
  · cases hc : generate o d with
    | error e => rw [hc] at h; cases h
    | ok v => rw [hc] at h; cases h; rfl
  · rfl
  · show ((generate _ _).map _ >>= _) = _
    rw [h]
    rfl
  · simp only [flowIds, List.mem_map, List.mem_range]
    exact ⟨0, hm, rfl⟩
  · simp only [flowIds, List.mem_range]
    exact hn
  · simp only [flowIds, List.mem_map, List.mem_range]
    by_cases hm : m' = 0
    · exact .inl (by omega)
    · exact .inr ⟨m' - 1, by omega, by omega⟩
  · rw [List.getElem?_eq_none_iff]
    omega

/-! ### The ring datasets -/

theorem numbered_inj {s t : String} {n m : Nat} (h : s ++ toString n ++ t = s ++ toString m ++ t) : n = m := by
  have h := congrArg String.toList h
  simp only [String.toList_append] at h
  exact digits_inj (List.append_cancel_left (List.append_cancel_right h))

/-- Two differently named numbered files. -/
theorem numbered_ne {s s' t t' : String} {n m : Nat} {c c' : Char} (hc : s.toList.head? = some c)
    (hc' : s'.toList.head? = some c') (hne : c ≠ c') : s ++ toString n ++ t ≠ s' ++ toString m ++ t' := by
  intro h
  have h := congrArg (fun x => x.toList.head?) h
  simp only [String.toList_append, List.append_assoc] at h
  rw [List.head?_append_of_ne_nil _ (by intro e; rw [e] at hc; cases hc),
    List.head?_append_of_ne_nil _ (by intro e; rw [e] at hc'; cases hc'), hc, hc'] at h
  exact hne (Option.some.inj h)

theorem transferPaths_regular {contents : Nat × Nat × Nat → Nat → Py (List V)}
    (hlen : ∀ o d vs, contents o d = .ok vs → vs.length = 2) :
    (Store.plain (fun o : Nat × Nat × Nat => transferPaths o.1) contents).Regular where
  some_file o := by simp [Store.plain, transferPaths]
  nodup o := by
    have h : "ringtree-n" ++ toString o.1 ++ ".pkl" ≠ "idx-n" ++ toString o.1 ++ ".pkl" :=
      numbered_ne (c := 'r') (c' := 'i') (by decide) (by decide) (by decide)
    simp only [Store.plain, transferPaths, List.nodup_cons, List.mem_cons, List.not_mem_nil, or_false,
      not_false_eq_true, List.nodup_nil, and_true, Prod.mk.injEq, true_and]
    exact h
  keeps o d o' vs h := by
    obtain ⟨ws, h1, h2⟩ := bind_eq_ok.mp h
    rw [pure_eq_ok, ok_inj, Prod.mk.injEq] at h2
    obtain ⟨rfl, rfl⟩ := h2
    exact ⟨rfl, hlen _ _ _ h1⟩
  apart o o' p h h' := by
    simp only [Store.plain, transferPaths, List.mem_cons, List.not_mem_nil, or_false] at h h' ⊢
    have key : o.1 = o'.1 := by
      rcases h with rfl | rfl <;> rcases h' with h' | h' <;> rw [Prod.mk.injEq] at h'
      · exact numbered_inj h'.2
      · exact absurd h'.2 (numbered_ne (c := 'r') (c' := 'i') (by decide) (by decide) (by decide))
      · exact absurd h'.2 (numbered_ne (c := 'i') (c' := 'r') (by decide) (by decide) (by decide))
      · exact numbered_inj h'.2
    rw [key]

/-- **C89** The ring-transfer dataset keeps samples and splits of the first construction with the same ring size: other
numbers of samples are ignored, other ring sizes are kept apart. -/
theorem C89_ring_transfer (generate : Nat × Nat × Nat → Nat → Py (V × V)) (nodes train test : Nat)
    (history : List (Attempt (Nat × Nat × Nat))) (d : Nat) (v : V × V)
    (h : generate (nodes, train, test) d = .ok v)
    (hother : ∀ a ∈ history, a.options.1 ≠ nodes) (train' test' d' : Nat) :
    (openAll (Store.plain (fun o : Nat × Nat × Nat => transferPaths o.1) fun o d =>
        (generate o d).map fun r => [r.1, r.2]) []
      (history ++ [{ options := (nodes, train, test), draw := d },
        { options := (nodes, train', test'), draw := d' }])).2.drop history.length =
      [some (.ok [v.1, v.2]), some (.ok [v.1, v.2])] := by
  set S := Store.plain (fun o : Nat × Nat × Nat => transferPaths o.1) fun o d =>
        (generate o d).map fun r => [r.1, r.2] with hSd
  have hS : S.Regular := transferPaths_regular fun o d vs h => by
    cases hc : generate o d with
    | error e => rw [hc] at h; cases h
    | ok v => rw [hc] at h; cases h; rfl
  have hproc : S.process (nodes, train, test) d = .ok ((nodes, train, test), [v.1, v.2]) := by
    show ((generate _ _).map _ >>= _) = _
    rw [h]
    rfl
  have hne : ∀ a ∈ history, S.paths a.options ≠ S.paths (nodes, train, test) := by
    intro a ha hp
    have : transferPaths a.options.1 = transferPaths nodes := hp
    simp only [transferPaths, List.cons.injEq, Prod.mk.injEq, true_and] at this
    exact hother a ha (numbered_inj this.1)
  set full := history ++ [{ options := (nodes, train, test), draw := d },
        { options := (nodes, train', test'), draw := d' }] with hfull
  have hl := (Store.results hS (history := []) (as := full) S.inv_nil).1
  have g0 : full[history.length]? = some { options := (nodes, train, test), draw := d } := by
    rw [hfull, List.getElem?_append_right (Nat.le_refl _), Nat.sub_self]
    rfl
  have g1 : full[history.length + 1]? = some { options := (nodes, train', test'), draw := d' } := by
    rw [hfull, List.getElem?_append_right (by omega), Nat.add_sub_cancel_left]
    rfl
  have h0 := (C89_first_complete_run_wins hS full _ _ g0).2 (by
    rintro ws ⟨j, b, hb, hp, -⟩
    have : full.take history.length = history := by rw [hfull, List.take_left]
    rw [this] at hb
    exact hne b (List.mem_of_getElem? hb) hp)
  have h1 := (C89_first_complete_run_wins hS full _ _ g1).1 [v.1, v.2] (by
    refine ⟨history.length, { options := (nodes, train, test), draw := d }, ?_, rfl,
      ⟨_, hproc, fun n hn => by cases hn⟩, fun j b ws hj hb hp => ?_⟩
    · rw [List.getElem?_take_of_lt (by omega), g0]
    · rw [List.getElem?_take_of_lt (by omega), hfull, List.getElem?_append_left hj] at hb
      exact absurd hp (hne b (List.mem_of_getElem? hb)))
  have ha : S.alone { options := (nodes, train, test), draw := d } = some (.ok [v.1, v.2]) := by
    unfold Store.alone
    simp only
    rw [hproc]
  rw [ha] at h0
  have hlen : (openAll S [] full).2.length = history.length + 2 := by rw [hl, hfull, List.length_append]; rfl
  generalize (openAll S [] full).2 = results at h0 h1 hlen
  apply List.ext_getElem?
  intro k
  rw [List.getElem?_drop]
  match k with
  | 0 => rw [Nat.add_zero, h0]; rfl
  | 1 => rw [h1]; rfl
  | k + 2 =>
    rw [List.getElem?_eq_none (by omega)]
    rfl

/-! ### SR -/

/-- **C89** SR datasets, which share one root and whose files go to the folder of the dimension found: every
construction that is not interrupted gives the data for its own options, whatever was constructed, failed or interrupted
before. Needed of the conversion: the complexes are the same when asked for in the dimension that was found. -/
theorem C89_sr (convert : String × TUOptions → Py (Nat × V))
    (hdim : ∀ o r, convert o = .ok r → convert (o.1, { o.2 with maxDim := r.1 }) = .ok r)
    (htag : ∀ o b, convert (o.1, { o.2 with degreeAsTag := b }) = convert o)
    (history : List (Attempt (String × TUOptions))) (hname : ∀ a ∈ history, PlainName a.options.2.initMethod)
    (i : Nat) (a : Attempt (String × TUOptions)) (ha : history[i]? = some a) (hk : a.killed = none) :
    (openAll (srStore convert) [] history).2[i]? =
      some (some (((srStore convert).process a.options a.draw).map Prod.snd)) := by
  -- what is in the files
  let Good : Files V → Prop := fun fs => ∀ p v, fs.lookup p = some v → ∃ o k, PlainName o.2.initMethod ∧
    convert o = .ok (k, v) ∧ (o.2.maxRingSize.isNone || decide (k ≤ 2)) = true ∧
    p = (tuFolder { o.2 with maxDim := k }, o.1 ++ "_complex_list.pt")
  -- a construction
  have hstep : ∀ fs, Good fs → ∀ a : Attempt (String × TUOptions), PlainName a.options.2.initMethod →
      Good (openDataset (srStore convert) fs a).1 ∧ (a.killed = none → (openDataset (srStore convert) fs a).2 =
        some (((srStore convert).process a.options a.draw).map Prod.snd)) := by
    intro fs hg a hpn
    by_cases he : filesExist fs ((srStore convert).paths a.options) = true
    · have hopen : openDataset (srStore convert) fs a =
          (fs, some (mapE (loadFile fs) ((srStore convert).paths a.options))) := by
        unfold openDataset
        rw [if_pos he]
      rw [hopen]
      refine ⟨hg, fun _ => ?_⟩
      obtain ⟨v, hv⟩ := (filesExist_iff.mp he).2 _ (List.mem_cons_self ..)
      obtain ⟨o, k, ho, hc, hr, hp⟩ := hg _ v hv
      rw [Prod.mk.injEq] at hp
      obtain ⟨h1, h2, h3, h4⟩ := (C40_tu_folders _ _ hpn (by exact ho)).mp hp.1
      have h5 : a.options.1 = o.1 := by
        have := congrArg String.toList hp.2
        rw [String.toList_append, String.toList_append] at this
        exact String.toList_inj.mp (List.append_cancel_right this)
      have hsame : convert a.options = .ok (k, v) := by
        rw [← hdim o _ hc, ← htag a.options o.2.degreeAsTag]
        congr 1
        refine Prod.ext h5 ?_
        cases ho' : a.options.2
        rw [ho'] at h1 h2 h3 h4
        simp only at h1 h2 h3 h4
        simp only
        rw [h1, h2, h3, h4]
      have hproc : (srStore convert).process a.options a.draw =
          .ok ((a.options.1, { a.options.2 with maxDim := k }), [v]) := by
        show (convert a.options >>= _) = _
        rw [hsame]
        show (pyAssert (a.options.2.maxRingSize.isNone || decide (k ≤ 2)) >>= _) = _
        rw [show a.options.2.maxRingSize = o.2.maxRingSize from h3, hr]
        rfl
      have hread : mapE (loadFile fs) ((srStore convert).paths a.options) = .ok [v] :=
        loadFiles_of (by
          show [_] = [_]
          exact congrArg (fun x => [x]) hv)
      rw [hread, hproc]
      rfl
    · cases hp : (srStore convert).process a.options a.draw with
      | error e =>
        have hopen : openDataset (srStore convert) fs a = (fs, some (.error e)) := by
          unfold openDataset
          rw [if_neg he, hp]
        rw [hopen]
        exact ⟨hg, fun _ => rfl⟩
      | ok r =>
        have hp' := hp
        obtain ⟨kv, hc, h2⟩ := bind_eq_ok.mp hp'
        obtain ⟨u, h3, h4⟩ := bind_eq_ok.mp h2
        rw [pyAssert_eq_ok] at h3
        rw [pure_eq_ok, ok_inj] at h4
        subst h4
        have hw : Good (((tuFolder { a.options.2 with maxDim := kv.1 }, a.options.1 ++ "_complex_list.pt"),
            kv.2) :: fs) := by
          intro p v hv
          by_cases hpe : p = (tuFolder { a.options.2 with maxDim := kv.1 }, a.options.1 ++ "_complex_list.pt")
          · subst hpe
            rw [lookup_cons_self] at hv
            cases hv
            exact ⟨a.options, kv.1, hpn, hc, h3, rfl⟩
          · rw [lookup_cons_ne hpe] at hv
            exact hg p v hv
        cases hk : a.killed with
        | some n =>
          have hopen : (openDataset (srStore convert) fs a).1 = writeFiles fs
              ([((tuFolder { a.options.2 with maxDim := kv.1 }, a.options.1 ++ "_complex_list.pt"),
                kv.2)].take n) := by
            unfold openDataset
            rw [if_neg he, hp, hk]
            rfl
          rw [hopen]
          refine ⟨?_, fun h => by cases h⟩
          cases n with
          | zero => exact hg
          | succ n =>
            rw [List.take_succ_cons, List.take_nil]
            exact hw
        | none =>
          have hopen : openDataset (srStore convert) fs a =
              (((tuFolder { a.options.2 with maxDim := kv.1 }, a.options.1 ++ "_complex_list.pt"), kv.2) :: fs,
                some (.ok [kv.2])) := by
            unfold openDataset
            rw [if_neg he, hp, hk]
            show (_, some (mapE (loadFile (_ :: fs)) [_])) = _
            rw [loadFiles_of (vs := [kv.2]) (by
              show [_] = [_]
              exact congrArg (fun x => [x]) lookup_cons_self)]
            rfl
          rw [hopen]
          exact ⟨hw, fun _ => rfl⟩
  -- a history
  have hall : ∀ (as : List (Attempt (String × TUOptions))) (fs : Files V), Good fs →
      (∀ a ∈ as, PlainName a.options.2.initMethod) →
      ∀ (i : Nat) (a : Attempt (String × TUOptions)), as[i]? = some a → a.killed = none →
      (openAll (srStore convert) fs as).2[i]? =
        some (some (((srStore convert).process a.options a.draw).map Prod.snd)) := by
    intro as
    induction as with
    | nil => intro fs _ _ i a h; simp at h
    | cons b as ih =>
      intro fs hg hn i a h hk
      obtain ⟨h1, h2⟩ := hstep fs hg b (hn b (by simp))
      cases i with
      | zero =>
        cases h
        show some _ = _
        rw [h2 hk]
      | succ i =>
        exact ih _ h1 (fun a ha => hn a (by simp [ha])) i a h hk
  exact hall history [] (fun p v h => by cases h) hname i a ha hk

/-! ### Concrete cases -/

/-- Options for the examples. -/
def sampleZinc (k : Nat) (down : Bool) : ZincOptions :=
  { maxRingSize := k, useEdgeFeatures := true, subset := true, includeDown := down }

/-- A conversion that records the options it was given; ring size 3 fails. -/
def sampleConvert (o : ZincOptions) : Py ((Nat × Bool) × (Nat × Bool)) :=
  if o.maxRingSize = 3 then .error .assertion else .ok ((o.maxRingSize, o.includeDown), (0, o.includeDown))

/-- A construction killed between the two files, a failing one, then two different ring sizes. -/
def sampleHistory : List (Attempt ZincOptions) :=
  [{ options := sampleZinc 6 false, killed := some 1 }, { options := sampleZinc 3 false },
    { options := sampleZinc 6 false }, { options := sampleZinc 18 false }, { options := sampleZinc 6 false }]

example : (openAll (Store.plain zincPaths fun o _ => (sampleConvert o).map fun v => [v.1, v.2]) []
    sampleHistory).2 = [none, some (.error .assertion), some (.ok [(6, false), (0, false)]),
      some (.ok [(18, false), (0, false)]), some (.ok [(6, false), (0, false)])] := by decide +kernel

/-- The hypotheses of `C89_zinc` and, with `zincPaths_regular`, of the general theorems. -/
example : (openAll (Store.plain zincPaths fun o _ => (sampleConvert o).map fun v => [v.1, v.2]) []
    sampleHistory).2[4]? = some (some (.ok [(6, false), (0, false)])) :=
  C89_zinc sampleConvert sampleHistory (by decide) 4 { options := sampleZinc 6 false } rfl rfl

example : (openAll (Store.plain zincPaths fun o _ => (sampleConvert o).map fun v => [v.1, v.2]) []
    [{ options := sampleZinc 6 false }, { options := sampleZinc 6 true }]).2 =
    [some (.ok [(6, false), (0, false)]), some (.ok [(6, false), (0, false)])] :=
  C89_zinc_lower_adjacencies_ignored sampleConvert (sampleZinc 6 false) false ((6, false), (0, false)) rfl

/-- The first complete run is the third attempt. -/
example : (Store.plain zincPaths fun o _ => (sampleConvert o).map fun v => [v.1, v.2]).First sampleHistory
    (sampleZinc 6 false) [(6, false), (0, false)] := by
  refine ⟨2, { options := sampleZinc 6 false }, rfl, rfl, ⟨_, rfl, fun n hn => by cases hn⟩, ?_⟩
  intro j b ws hj hb hp hc
  match j, hj with
  | 0, _ =>
    cases hb
    obtain ⟨o, ho, hn⟩ := hc
    cases ho
    exact absurd (hn 1 rfl) (by decide)
  | 1, _ =>
    cases hb
    obtain ⟨o, ho, hn⟩ := hc
    cases ho

/-- Options of a TU dataset for the examples. -/
def sampleTU (d : Nat) (tag : Bool) : TUOptions :=
  { maxDim := d, initMethod := "sum", maxRingSize := none, includeDown := false, degreeAsTag := tag }

example : (openAll (Store.plain (tuPaths "MUTAG") fun o _ =>
      ((.ok o.maxDim : Py Nat)).map fun v => [v]) []
    [{ options := sampleTU 2 false, killed := some 0 }, { options := sampleTU 3 false },
      { options := sampleTU 2 false }]).2[2]? = some (some (.ok [2])) :=
  C89_tu "MUTAG" (fun o => .ok o.maxDim) _ (by decide +kernel) (by decide) 2 { options := sampleTU 2 false } rfl rfl

example : (openAll (Store.plain (tuPaths "MUTAG") fun o _ =>
      ((.ok o.degreeAsTag : Py Bool)).map fun v => [v]) []
    [{ options := sampleTU 2 false }, { options := sampleTU 2 true }]).2 =
    [some (.ok [false]), some (.ok [false])] :=
  C89_tu_degree_tags_ignored "MUTAG" (fun o => .ok o.degreeAsTag) (sampleTU 2 false) false false rfl

/-- Options of an OGB dataset for the examples. -/
def sampleOGB (k : Nat) (down : Bool) : OGBOptions :=
  { maxRingSize := k, useEdgeFeatures := true, initMethod := "sum", includeDown := down, simple := false }

example : (openAll (Store.plain (ogbPaths "ogbg-molhiv") fun o _ =>
      ((.ok (o.maxRingSize, 0, 1) : Py (Nat × Nat × Nat))).map fun v => [v.1, v.2.1, v.2.2]) []
    [{ options := sampleOGB 6 true, killed := some 2 }, { options := sampleOGB 5 true },
      { options := sampleOGB 6 true }]).2[2]? = some (some (.ok [6, 0, 1])) :=
  C89_ogb "ogbg-molhiv" (fun o => .ok (o.maxRingSize, 0, 1)) _ (by decide +kernel) (by decide) 2
    { options := sampleOGB 6 true } rfl rfl

example : (openAll (Store.plain (ogbPaths "ogbg-molhiv") fun o _ =>
      ((.ok (o.includeDown, false, false) : Py (Bool × Bool × Bool))).map fun v => [v.1, v.2.1, v.2.2]) []
    [{ options := sampleOGB 6 false }, { options := sampleOGB 6 true }]).2 =
    [some (.ok [false, false, false]), some (.ok [false, false, false])] :=
  C89_ogb_lower_adjacencies_ignored "ogbg-molhiv" (fun o => .ok (o.includeDown, false, false)) (sampleOGB 6 false) false
    (false, false, false) rfl

/-- Options of a flow dataset for the examples. -/
def sampleFlow (n m : Nat) : FlowOptions :=
  { numPoints := 50, trainSamples := n, valSamples := m, trainOrient := "default", testOrient := "random" }

/-- Ten training and two validation samples, then four and two: the ids `4` and `5` are training samples of the
first construction. -/
example : ∃ i ∈ (flowIds (sampleFlow 4 2)).2, i ∈ (flowIds (sampleFlow 10 2)).1 :=
  (C89_flow_sizes "FLOW" (fun o d => .ok (List.replicate (o.trainSamples + o.valSamples) d, d))
    (sampleFlow 0 0) 10 2 4 2 7 8 (List.replicate 12 7) 7 rfl rfl).2.1 (by decide) (by decide)

/-- Ring size 10 was constructed before; of the two constructions with ring size 8 the first decides. -/
example : (openAll (Store.plain (fun o : Nat × Nat × Nat => transferPaths o.1) fun o d =>
      ((.ok (o.2.1, d) : Py (Nat × Nat))).map fun r => [r.1, r.2]) []
    ([{ options := (10, 5000, 500), draw := 1 }] ++ [{ options := (8, 100, 10), draw := 2 },
      { options := (8, 5000, 500), draw := 3 }])).2.drop 1 = [some (.ok [100, 2]), some (.ok [100, 2])] :=
  C89_ring_transfer (fun o d => .ok (o.2.1, d)) 8 100 10 [{ options := (10, 5000, 500), draw := 1 }] 2 (100, 2) rfl
    (by decide) 5000 500 3

/-- Complexes of dimension at most three: asked for in dimension five they are stored as dimension three. -/
def sampleSR (o : String × TUOptions) : Py (Nat × (String × Nat)) :=
  .ok (min o.2.maxDim 3, (o.1, min o.2.maxDim 3))

example : (openAll (srStore sampleSR) [] [{ options := ("sr16622", sampleTU 5 false) },
      { options := ("sr251256", sampleTU 3 false), killed := some 0 }, { options := ("sr251256", sampleTU 2 false) },
      { options := ("sr16622", sampleTU 3 false) }, { options := ("sr251256", sampleTU 3 false) }]).2[3]? =
    some (some (.ok [("sr16622", 3)])) :=
  C89_sr sampleSR (fun o r h => by
      unfold sampleSR at h
      cases h
      simp [sampleSR]) (fun o b => rfl) _ (by decide +kernel) 3
    { options := ("sr16622", sampleTU 3 false) } rfl rfl

example : (openAll (Store.plain (fun o : String × Nat => cslPaths o.1 o.2) fun o _ =>
      ((.ok o.2 : Py Nat)).map fun v => [v]) []
    [{ options := ("sum", 8), killed := some 0 }, { options := ("sum", 12) }, { options := ("sum", 8) }]).2[2]? =
    some (some (.ok [8])) :=
  C89_csl (fun o => .ok o.2) _ (by decide +kernel) 2 { options := ("sum", 8) } rfl rfl

example : (openAll (Store.plain (fun o : String × String => oceanFiles "OCEAN" o.1 o.2) fun o _ =>
      ((.ok (o.1, o.2, "graph") : Py (String × String × String))).map fun v => [v.1, v.2.1, v.2.2]) []
    [{ options := ("default", "random"), killed := some 2 }, { options := ("default", "default") },
      { options := ("default", "random") }]).2[2]? = some (some (.ok ["default", "random", "graph"])) :=
  C89_ocean "OCEAN" (fun o => .ok (o.1, o.2, "graph")) _ (by decide +kernel) 2
    { options := ("default", "random") } rfl rfl

example : (openAll (Store.plain dummyMolPaths fun o _ => ((.ok o : Py Bool)).map fun v => [v]) []
    [{ options := true }, { options := false }, { options := true }]).2[2]? = some (some (.ok [true])) :=
  C89_dummy_molecules (fun o => .ok o) _ 2 { options := true } rfl rfl

/-- The folders of the ring datasets are different; with the same root the ids would be shared. -/
example (n : Nat) : (transferPaths n)[1]? = (lookupPaths n)[1]? := rfl

end Verif
