import Verif.Lemmas.FrameworkSparse
import Verif.Lemmas.FrameworkArgs
import Verif.Props.MessagePassing

/-!
# The message passing framework: property C83
-/

namespace Verif

variable {R : Type}

/-! ## Signatures and dictionaries -/

/-- **C83** The argument names are kept in Python sets. Whatever the order in which they are visited,
`propagate` succeeds in the same cases and with the same results, for every subclass, its methods
and their signatures. -/
theorem C83_order_of_arguments (o : MPObject R) {user user' fused fused' upd upd' : List String}
    (h : Orders o user fused upd) (h' : Orders o user' fused' upd') (up down boundary : Adj R)
    (upSize downSize boundarySize : Option Sizes) (kwargs : ArgDict R) (r : Val R × Val R × Val R) :
    o.propagate user fused upd up down boundary upSize downSize boundarySize kwargs = .ok r ↔
      o.propagate user' fused' upd' up down boundary upSize downSize boundarySize kwargs = .ok r :=
  propagate_perm o (h.user.trans h'.user.symm) (h.fused.trans h'.fused.symm)
    (h.upd.trans h'.upd.symm) up down boundary upSize downSize boundarySize kwargs r

mutual
theorem implements_iff (f : String) : ∀ c : PyClass, implements f c = true ↔ Overrides f c
  | .mk name dict bases => by
    rw [implements]
    by_cases hn : name = "CochainMessagePassing"
    · rw [if_pos hn]
      constructor
      · intro h; simp at h
      · intro h; cases h <;> contradiction
    · rw [if_neg hn]
      by_cases hf : f ∈ dict
      · rw [if_pos hf]
        exact ⟨fun _ => .here hn hf, fun _ => rfl⟩
      · rw [if_neg hf, implementsAny_iff f bases]
        constructor
        · rintro ⟨c, hc, ho⟩
          exact .base hn hc ho
        · intro h
          cases h with
          | here _ h => exact absurd h hf
          | base _ hc ho => exact ⟨_, hc, ho⟩
theorem implementsAny_iff (f : String) : ∀ cs : List PyClass,
    implementsAny f cs = true ↔ ∃ c ∈ cs, Overrides f c
  | [] => by simp [implementsAny]
  | c :: cs => by
    rw [implementsAny, Bool.or_eq_true, implements_iff f c, implementsAny_iff f cs]
    simp
end

/-- **C83** A fused function is used exactly if a class other than `CochainMessagePassing` defines it,
and the index is sparse. No class of the library has one. -/
theorem C83_fused_functions (o : MPObject R) (a : AdjKind) :
    (o.fuse a = true ↔ Overrides ("message_and_aggregate_" ++ a.str) o.cls) ∧
    (∀ cls ∈ libraryClasses, ¬ Overrides ("message_and_aggregate_" ++ a.str) cls) ∧
    (∀ user fused t size kwargs r, o.fuse a = true →
      o.messageAndAggregate user fused (.sparse t) a size kwargs = .ok r →
      ∃ vs, (o.fused a).run t vs = .ok r.1) := by
  refine ⟨implements_iff _ _, fun cls hc => ?_, fun user fused t size kwargs r hf h => ?_⟩
  · rw [← implements_iff]
    have := library_fuse (R := Nat) hc
      (⟨.plain id, .plain id, id, fun _ => 0, fun _ => 0, fun _ => 0, true, true, .sourceToTarget⟩) a
    simpa [MPObject.fuse, libraryObject] using this
  · unfold MPObject.messageAndAggregate at h
    rw [if_pos hf] at h
    dsimp only at h
    obtain ⟨c, -, h⟩ := bind_eq_ok.mp h
    obtain ⟨vs, -, h⟩ := bind_eq_ok.mp h
    obtain ⟨out, ho, h⟩ := bind_eq_ok.mp h
    cases h
    exact ⟨vs, ho⟩

/-- **C83** What the methods of any subclass get for a dense index: arguments without `_i` or `_j` as
they were passed; for `up_key_j` the rows of `key` at the senders of the columns, for `up_key_i` at the
receivers (for boundary messages the senders' rows are those of `boundary_attr`); nothing for names
that belong to another adjacency or to none. Messages are aggregated at the receivers; `up_index` is the index itself,
`up_index_i` lists the receivers and `up_index_j` the senders. -/
theorem C83_collected_arguments {flow : Flow} {cols : List (Nat × Nat)} {a : AdjKind}
    {kwargs : ArgDict R} {args : List String} {size s : Sizes} {d : ArgDict R} (hn : args.Nodup)
    (hspecial : ∀ k ∈ args, k ∉ specialArgs)
    (h : collect flow args (.dense cols) size a kwargs = .ok (d, s)) :
    (∀ name ∈ args, ¬ Lifted name → d.get name = kwargs.get name) ∧
    (∀ key rows, senderName a key ∈ args →
      kwargs (if a = .boundary then "boundary_attr" else key) = some (.tensor rows) →
      ∃ out, d.get (senderName a key) = .tensor out ∧ Gathers rows (cols.map flow.j) out) ∧
    (∀ key rows, receiverName a key ∈ args → kwargs key = some (.tensor rows) →
      ∃ out, d.get (receiverName a key) = .tensor out ∧ Gathers rows (cols.map flow.i) out) ∧
    (∀ name ∈ args, Lifted name → startsWith (a.str ++ "_") name = false → d.get name = .empty) ∧
    d.get ("agg_" ++ a.str ++ "_index") = .ids (cols.map flow.i) ∧
    d.get (a.str ++ "_index") = .adj (.dense cols) ∧
    d.get (a.str ++ "_index_i") = .ids (cols.map flow.i) ∧ d.get (a.str ++ "_index_j") = .ids (cols.map flow.j) := by
  obtain ⟨r, hr, h⟩ := bind_eq_ok.mp (show (_ >>= _) = _ from h)
  cases h
  obtain ⟨-, hg⟩ := collectArgs_get hn hr
  have hget : ∀ k ∈ args, (sizeArgs a r.2 (indexArgs flow (.dense cols) a r.1)).get k = r.1.get k :=
    fun k hk => by simp only [ArgDict.get, added_other _ _ _ _ _ (hspecial k hk)]
  have hnone : ¬ (Adj.dense cols : Adj R).isNone = true := by simp [Adj.isNone]
  refine ⟨fun name hk hl => ?_, fun key rows hk hkw => ?_, fun key rows hk hkw => ?_,
    fun name hk hl hp => ?_, by simp only [ArgDict.get, (added_dense ..).1, Option.getD_some],
    by simp only [ArgDict.get, (added_indices ..).1, Option.getD_some],
    by simp only [ArgDict.get, (added_indices ..).2.1, Option.getD_some],
    by simp only [ArgDict.get, (added_indices ..).2.2, Option.getD_some]⟩
  · obtain ⟨v, t, hp, hv⟩ := hg name hk
    rw [argPlan, if_pos (not_lifted_iff.mp hl)] at hp
    cases hp
    rw [hget name hk, ArgDict.get, hv]
    rfl
  · obtain ⟨v, t, hp, hv⟩ := hg _ hk
    have hs := suffix_sender a key
    rw [argPlan, if_neg (by rw [hs]; simp), if_neg hnone, hs, if_pos rfl, senderName,
      argData_own a kwargs key "_j" rfl 0] at hp
    have hd : (if a = .boundary ∧ 0 = 0 then kwargs.get "boundary_attr" else kwargs.get key) =
        .tensor rows := by
      by_cases hb : a = .boundary
      · rw [if_pos hb] at hkw
        simp [hb, ArgDict.get, hkw]
      · rw [if_neg hb] at hkw
        simp [hb, ArgDict.get, hkw]
    rw [hd] at hp
    simp only [liftPlan] at hp
    obtain ⟨out, ho, hp⟩ := bind_eq_ok.mp hp
    rw [show argSuffix (a.str ++ "_" ++ key ++ "_j") = "_j" from hs, if_pos rfl, lift, map_flow_j] at ho
    split at hp
    · cases hp
      refine ⟨out, ?_, indexSelect_gathers ho⟩
      rw [hget _ hk, ArgDict.get, hv]
      rfl
    · simp at hp
  · obtain ⟨v, t, hp, hv⟩ := hg _ hk
    have hs := suffix_receiver a key
    rw [argPlan, if_neg (by rw [hs]; simp), if_neg hnone, hs, if_neg (by decide), receiverName,
      argData_own a kwargs key "_i" rfl 1] at hp
    have hd : (if a = .boundary ∧ 1 = 0 then kwargs.get "boundary_attr" else kwargs.get key) =
        .tensor rows := by
      simp [ArgDict.get, hkw]
    rw [hd] at hp
    simp only [liftPlan] at hp
    obtain ⟨out, ho, hp⟩ := bind_eq_ok.mp hp
    rw [show argSuffix (a.str ++ "_" ++ key ++ "_i") = "_i" from hs, if_neg (by decide), lift,
      map_flow_i] at ho
    split at hp
    · cases hp
      refine ⟨out, ?_, indexSelect_gathers ho⟩
      rw [hget _ hk, ArgDict.get, hv]
      rfl
    · simp at hp
  · obtain ⟨v, t, hp', hv⟩ := hg name hk
    rw [argPlan, if_neg (fun hc => (not_lifted_iff.mpr hc) hl), if_neg hnone,
      argData_foreign hp] at hp'
    cases hp'
    rw [hget name hk, ArgDict.get, hv]
    rfl

/-- **C83** The number of rows of the result of the aggregation: without declared sizes it is the
number of rows of the sending matrix (for boundary messages of the matrix of that name of the cells
themselves); if rows of receivers are used, too, it is the number of rows of that matrix. -/
theorem C83_collected_sizes {flow : Flow} {cols : List (Nat × Nat)} {a : AdjKind}
    {kwargs : ArgDict R} {args : List String} {s : Sizes} {d : ArgDict R} (hn : args.Nodup)
    (h : collect flow args (.dense cols) (none, none) a kwargs = .ok (d, s)) :
    (∀ key rows, senderName a key ∈ args → kwargs key = some (.tensor rows) →
      (a = .boundary → ∃ b, kwargs "boundary_attr" = some (.tensor b)) →
      (∀ name ∈ args, ¬ ∃ k, name = k ++ "_i") →
      d.get (a.str ++ "_dim_size") = .int rows.length) ∧
    (∀ key row rows, receiverName a key ∈ args → kwargs key = some (.tensor (row :: rows)) →
      d.get (a.str ++ "_dim_size") = .int (rows.length + 1)) := by
  obtain ⟨r, hr, h⟩ := bind_eq_ok.mp (show (_ >>= _) = _ from h)
  cases h
  obtain ⟨-, hsz⟩ := collectArgs_sizes hr
  obtain ⟨-, hg⟩ := collectArgs_get hn hr
  have hdim := (added_dense flow cols a r.2 r.1).2.2
  have hnone : ¬ (Adj.dense cols : Adj R).isNone = true := by simp [Adj.isNone]
  constructor
  · intro key rows hk hkw hb hni
    obtain ⟨v, t, hp, hv⟩ := hg _ hk
    have hs := suffix_sender a key
    have hp0 := hp
    rw [argPlan, if_neg (by rw [hs]; simp), if_neg hnone, hs, if_pos rfl, senderName,
      argData_own a kwargs key "_j" rfl 0] at hp
    have hd : ∃ data, (if a = .boundary ∧ 0 = 0 then kwargs.get "boundary_attr" else kwargs.get key) =
        .tensor data := by
      by_cases hab : a = .boundary
      · obtain ⟨b, hb⟩ := hb hab
        exact ⟨b, by simp [hab, ArgDict.get, hb]⟩
      · exact ⟨rows, by simp [hab, ArgDict.get, hkw]⟩
    obtain ⟨data, hd⟩ := hd
    rw [hd, show kwargs.get key = .tensor rows by simp [ArgDict.get, hkw]] at hp
    simp only [liftPlan] at hp
    obtain ⟨out, ho, hp⟩ := bind_eq_ok.mp hp
    cases hp
    have h1 : r.2.1 = some rows.length := hsz _ hk _ _ _ hp0
    have h2 : r.2.2 = none := by
      have : r.2.get 1 = none := by
        refine collectArgs_unknown_dim hr rfl ?_
        intro k hk' v dim rows' hpl
        have hns : ¬ argSuffix k = "_i" := fun hc =>
          hni k hk' ((argSuffix_eq_iff (s := "_i") rfl).mp hc)
        exact argPlan_dim_of_suffix hns hpl
      exact this
    rw [ArgDict.get, hdim, h1, h2]
    rfl
  · intro key row rows hk hkw
    obtain ⟨v, t, hp, hv⟩ := hg _ hk
    have hs := suffix_receiver a key
    have hp0 := hp
    rw [argPlan, if_neg (by rw [hs]; simp), if_neg hnone, hs, if_neg (by decide), receiverName,
      argData_own a kwargs key "_i" rfl 1] at hp
    have hd : (if a = .boundary ∧ 1 = 0 then kwargs.get "boundary_attr" else kwargs.get key) =
        .tensor (row :: rows) := by
      simp [ArgDict.get, hkw]
    rw [hd, show kwargs.get key = .tensor (row :: rows) by simp [ArgDict.get, hkw]] at hp
    simp only [liftPlan] at hp
    obtain ⟨out, ho, hp⟩ := bind_eq_ok.mp hp
    cases hp
    have h1 : r.2.2 = some (rows.length + 1) := hsz _ hk _ _ _ hp0
    rw [ArgDict.get, hdim, h1]
    rfl

/-! ## The classes of the library -/

/-- **C83** For every class of the library and dense indices, the framework computes what the simple
model of `propagate` says: the same results, in the same cases. -/
theorem C83_library_layers [Zero R] {cls : PyClass} (hc : cls ∈ libraryClasses)
    (cfg : MPConfig R R R) {user fused upd : List String}
    (ho : Orders (libraryObject cls cfg) user fused upd) {kwargs : ArgDict R} {x : List R}
    {upAttr downAttr : Option (Option (List R))} {boundaryAttr : Option (List R)}
    (hk : Passes kwargs x upAttr downAttr boundaryAttr)
    (upIndex downIndex boundaryIndex : Option (List (Nat × Nat))) (r : Val R × Val R × Val R) :
    (libraryObject cls cfg).propagate user fused upd (denseOf upIndex) (denseOf downIndex)
        (denseOf boundaryIndex) none none none kwargs = .ok r ↔
      ∃ u d b, r = (.tensor u, .tensor d, .tensor b) ∧
        propagate cfg upIndex downIndex boundaryIndex (some x) upAttr downAttr boundaryAttr =
          .ok (u, d, b) := by
  have ho' : Orders (libraryObject cls cfg) libraryArgs [] ["x"] :=
    ⟨.of_eq (library_userArgs cls cfg).symm, .of_eq rfl, .of_eq (library_updateArgs cls cfg).symm⟩
  rw [C83_order_of_arguments _ ho ho', library_propagate hc cfg hk, map_eq_bind, bind_eq_ok]
  constructor
  · rintro ⟨⟨u, d, b⟩, h1, h2⟩
    cases h2
    exact ⟨u, d, b, rfl, h1⟩
  · rintro ⟨u, d, b, rfl, h⟩
    exact ⟨_, h, rfl⟩

/-- **C83** In the order in which the names are first written in the signatures, also the exceptions
are those of the simple model. -/
theorem C83_library_exceptions [Zero R] {cls : PyClass} (hc : cls ∈ libraryClasses)
    (cfg : MPConfig R R R) {kwargs : ArgDict R} {x : List R}
    {upAttr downAttr : Option (Option (List R))} {boundaryAttr : Option (List R)}
    (hk : Passes kwargs x upAttr downAttr boundaryAttr)
    (upIndex downIndex boundaryIndex : Option (List (Nat × Nat))) :
    (libraryObject cls cfg).propagate (libraryObject cls cfg).userArgs (libraryObject cls cfg).fusedArgs
        (libraryObject cls cfg).updateArgs (denseOf upIndex) (denseOf downIndex) (denseOf boundaryIndex)
        none none none kwargs =
      (fun r => (.tensor r.1, .tensor r.2.1, .tensor r.2.2)) <$>
        propagate cfg upIndex downIndex boundaryIndex (some x) upAttr downAttr boundaryAttr := by
  rw [library_userArgs, library_updateArgs]
  exact library_propagate hc cfg hk upIndex downIndex boundaryIndex

/-- **C83** Hence every layer of the library with sum aggregation gives every cell the sum of the
messages along the columns that end at it, and rows of zeros where there is no adjacency. -/
theorem C83_messages_reach_their_cells [AddCommMonoid R] {cls : PyClass} (hc : cls ∈ libraryClasses)
    (cfg : MPConfig R R R) (hflow : cfg.flow = .sourceToTarget) (hup : cfg.aggUp = aggAdd)
    (hdown : cfg.aggDown = aggAdd) (hbnd : cfg.aggBoundary = aggAdd) {user fused upd : List String}
    (ho : Orders (libraryObject cls cfg) user fused upd) {kwargs : ArgDict R} {x : List R}
    {upAttr downAttr : Option (Option (List R))} {boundaryAttr : Option (List R)}
    (hk : Passes kwargs x upAttr downAttr boundaryAttr)
    (upIndex downIndex boundaryIndex : Option (List (Nat × Nat))) (r : Val R × Val R × Val R)
    (h : (libraryObject cls cfg).propagate user fused upd (denseOf upIndex) (denseOf downIndex)
      (denseOf boundaryIndex) none none none kwargs = .ok r) :
    ∃ u d b, r = (.tensor u, .tensor d, .tensor b) ∧
      (∀ cols, upIndex = some cols →
        ∃ a, upAttr = some a ∧ SumsMessages cfg.msgUp x.length x cols a u) ∧
      (upIndex = none → AllZero x.length u) ∧
      (∀ cols, downIndex = some cols → cfg.useDown = true →
        ∃ a, downAttr = some a ∧ SumsMessages cfg.msgDown x.length x cols a d) ∧
      ((downIndex = none ∨ cfg.useDown = false) → AllZero x.length d) ∧
      (∀ data, boundaryAttr = some data → cfg.useBoundary = true →
        ∃ cols, boundaryIndex = some cols ∧
          SumsMessages (A := Unit) (.plain cfg.msgBoundary) x.length data cols none b) ∧
      ((boundaryAttr = none ∨ cfg.useBoundary = false) → AllZero x.length b) := by
  obtain ⟨u, d, b, hr, hp⟩ := (C83_library_layers hc cfg ho hk _ _ _ r).mp h
  exact ⟨u, d, b, hr, C12_propagate_sums_messages cfg hflow hup hdown hbnd _ _ _ _ _ _ _ _ _ _ hp⟩

/-! ## Sparse indices -/

/-- **C83** With upper and lower adjacencies as sparse matrices (rows for the receivers) the layers of
the library compute the same as with the dense index of the entries; the values of the matrix take the
place of the attributes, and attributes that are passed are ignored. -/
theorem C83_sparse_adjacencies [Zero R] {cls : PyClass} (hc : cls ∈ libraryClasses)
    (cfg : MPConfig R R R) (hflow : cfg.flow = .sourceToTarget) {user fused upd : List String}
    (ho : Orders (libraryObject cls cfg) user fused upd) {kwargs : ArgDict R} {x : List R}
    {upAttr downAttr : Option (Option (List R))} {boundaryAttr : Option (List R)}
    (hk : Passes kwargs x upAttr downAttr boundaryAttr) (up down : Option (SparseAdj R))
    (hu : ∀ t, up = some t → t.Valid ∧ t.rows = x.length ∧ t.cols = x.length)
    (hd : ∀ t, down = some t → t.Valid ∧ t.rows = x.length ∧ t.cols = x.length)
    (boundaryIndex : Option (List (Nat × Nat))) (r : Val R × Val R × Val R) :
    (libraryObject cls cfg).propagate user fused upd (sparseOf up) (sparseOf down)
        (denseOf boundaryIndex) none none none kwargs = .ok r ↔
      ∃ u d b, r = (.tensor u, .tensor d, .tensor b) ∧
        propagate cfg (up.map SparseAdj.edges) (down.map SparseAdj.edges) boundaryIndex (some x)
          (some (up.bind SparseAdj.values)) (some (down.bind SparseAdj.values)) boundaryAttr =
          .ok (u, d, b) := by
  have ho' : Orders (libraryObject cls cfg) libraryArgs [] ["x"] :=
    ⟨.of_eq (library_userArgs cls cfg).symm, .of_eq rfl, .of_eq (library_updateArgs cls cfg).symm⟩
  rw [C83_order_of_arguments _ ho ho', library_propagate_sparse hc cfg hflow hk up down hu hd,
    map_eq_bind, bind_eq_ok]
  constructor
  · rintro ⟨⟨u, d, b⟩, h1, h2⟩
    cases h2
    exact ⟨u, d, b, rfl, h1⟩
  · rintro ⟨u, d, b, rfl, h⟩
    exact ⟨_, h, rfl⟩

/-- **C83** (finding) A sparse matrix for one of the upper and lower adjacencies and a dense index
without declared size for the other always fails an assertion. -/
theorem C83_mixed_adjacencies_rejected (o : MPObject R) (hflow : o.flow = .sourceToTarget)
    (user fused upd : List String) (t : SparseAdj R) (cols : List (Nat × Nat))
    (boundary : Option (List (Nat × Nat))) (kwargs : ArgDict R) :
    o.propagate user fused upd (.sparse t) (.dense cols) (denseOf boundary) none none none kwargs =
        .error .assertion ∧
      o.propagate user fused upd (.dense cols) (.sparse t) (denseOf boundary) none none none kwargs =
        .error .assertion := by
  cases boundary <;> simp [MPObject.propagate, checkSeparately, hflow, checkTogether, Adj.isNone, denseOf,
    pyAssert, bind, Except.bind]

/-- **C83** Two sparse adjacencies of different shapes are rejected. -/
theorem C83_shapes_must_agree (o : MPObject R) (hflow : o.flow = .sourceToTarget)
    (user fused upd : List String) (s t : SparseAdj R) (hne : s.rows ≠ t.rows ∨ s.cols ≠ t.cols)
    (boundary : Option (List (Nat × Nat))) (kwargs : ArgDict R) :
    o.propagate user fused upd (.sparse s) (.sparse t) (denseOf boundary) none none none kwargs =
      .error .assertion := by
  have h : checkTogether (R := R) (.sparse s) (.sparse t) (some s.cols, some s.rows)
      (some t.cols, some t.rows) = .error .assertion := by
    simp only [checkTogether, Adj.isNone, Bool.or_false, Bool.false_eq_true, if_false]
    by_cases h1 : s.cols = t.cols
    · have h2 : s.rows ≠ t.rows := hne.resolve_right (fun h => h h1)
      simp [h1, h2, pyAssert, bind, Except.bind]
    · simp [h1, pyAssert, bind, Except.bind]
  unfold MPObject.propagate
  cases boundary <;> simp only [checkSeparately, hflow, denseOf, ok_bind, h] <;> rfl

/-- **C83** Against the direction of the library (`target_to_source`) a sparse matrix is rejected. -/
theorem C83_reverse_flow_rejects_sparse (o : MPObject R) (hflow : o.flow = .targetToSource)
    (user fused upd : List String) (t : SparseAdj R) (down boundary : Adj R)
    (sizes sizes' sizes'' : Option Sizes) (kwargs : ArgDict R) :
    o.propagate user fused upd (.sparse t) down boundary sizes sizes' sizes'' kwargs =
      .error .value := by
  simp [MPObject.propagate, checkSeparately, hflow, bind, Except.bind]

/-- **C83** (finding) A sparse incidence, or a declared size of the incidence, never works unless there
are as many boundary cells as cells: `__collect__` compares the number of senders with the rows of
`x`, not with the rows of the boundary features. -/
theorem C83_boundary_sizes_rejected [Zero R] {cls : PyClass} (hc : cls ∈ libraryClasses)
    (cfg : MPConfig R R R) (hb : cfg.useBoundary = true) {user fused upd : List String}
    (ho : Orders (libraryObject cls cfg) user fused upd) {kwargs : ArgDict R} {x : List R}
    {upAttr downAttr : Option (Option (List R))} {boundaryAttr : List R}
    (hk : Passes kwargs x upAttr downAttr (some boundaryAttr)) (up down : Adj R)
    (upSize downSize boundarySize : Option Sizes) (boundary : Adj R)
    (hne : (∃ t, boundary = .sparse t ∧ t.cols ≠ x.length) ∨
      ∃ cols n m, boundary = .dense cols ∧ boundarySize = some (some n, m) ∧ n ≠ x.length)
    (r : Val R × Val R × Val R) :
    (libraryObject cls cfg).propagate user fused upd up down boundary upSize downSize boundarySize
      kwargs ≠ .ok r := by
  have ho' : Orders (libraryObject cls cfg) libraryArgs [] ["x"] :=
    ⟨.of_eq (library_userArgs cls cfg).symm, .of_eq rfl, .of_eq (library_updateArgs cls cfg).symm⟩
  rw [Ne, C83_order_of_arguments _ ho ho']
  intro h
  obtain ⟨su, -, h⟩ := bind_eq_ok.mp (show (_ >>= _) = _ from h)
  obtain ⟨sd, -, h⟩ := bind_eq_ok.mp h
  obtain ⟨sb, hsb, h⟩ := bind_eq_ok.mp h
  obtain ⟨-, -, h⟩ := bind_eq_ok.mp h
  obtain ⟨u, -, h⟩ := bind_eq_ok.mp h
  obtain ⟨d, -, h⟩ := bind_eq_ok.mp h
  obtain ⟨b, hbp, h⟩ := bind_eq_ok.mp h
  have hx : kwargs.get "x" = .tensor x := by simp [ArgDict.get, hk.x]
  have hkb := hk.boundary boundaryAttr rfl
  have hhas : hasBoundaryAttr kwargs = true := by simp [hasBoundaryAttr, hkb]
  obtain ⟨hi, n, m, hsz, hnx⟩ : boundary.isNone = false ∧ ∃ n m, sb = (some n, m) ∧ n ≠ x.length := by
    rcases hne with ⟨t, rfl, ht⟩ | ⟨cols, n, m, rfl, rfl, hn⟩
    · refine ⟨rfl, t.cols, some t.rows, ?_, ht⟩
      rw [show (libraryObject cls cfg).flow = cfg.flow from rfl] at hsb
      cases hf : cfg.flow with
      | sourceToTarget => rw [hf] at hsb; exact (ok_inj.mp hsb).symm
      | targetToSource => rw [hf] at hsb; simp [checkSeparately] at hsb
    · exact ⟨rfl, n, m, (ok_inj.mp hsb).symm, hn⟩
  rw [MPObject.part, show (libraryObject cls cfg).useBoundary = cfg.useBoundary from rfl, hb, hhas,
    Bool.and_self, if_pos rfl] at hbp
  unfold MPObject.messageAndAggregate at hbp
  rw [library_fuse hc, if_neg Bool.false_ne_true] at hbp
  unfold MPObject.messageAndAggregate.unfused at hbp
  obtain ⟨c, hcol, -⟩ := bind_eq_ok.mp hbp
  obtain ⟨df, hdf, -⟩ := collect_boundary cfg.flow boundary kwargs hi hx
    (battr := boundaryAttr) (by simp [ArgDict.get, hkb]) sb
  rw [show (libraryObject cls cfg).flow = cfg.flow from rfl, hdf] at hcol
  obtain ⟨s, hs, -⟩ := bind_eq_ok.mp hcol
  subst hsz
  simp [setSize, Sizes.get, hnx] at hs

/-! ## Names and sizes that do not work -/

theorem distribute_missing {ps : List (Param R)} {d : ArgDict R} {p : Param R} (hp : p ∈ ps)
    (hdef : p.default = none) (hd : d.get p.name = .empty) {vs : List (Val R)} :
    distribute ps d ≠ .ok vs := by
  induction ps generalizing vs with
  | nil => simp at hp
  | cons q ps ih =>
    intro h
    rw [distribute] at h
    obtain ⟨v, hv, h⟩ := bind_eq_ok.mp h
    rcases List.mem_cons.mp hp with rfl | hp
    · rw [fillParam, hd, hdef] at hv
      simp at hv
    · obtain ⟨ws, hw, -⟩ := bind_eq_ok.mp h
      exact ih hp hw

/-- **C83** (finding) Names as in PyTorch Geometric, without the prefix of an adjacency (`x_j`), are
never filled: a layer whose `message_up` asks for one cannot propagate along an upper adjacency. -/
theorem C83_names_without_prefix (o : MPObject R) {user fused upd : List String}
    (ho : Orders o user fused upd) (hf : o.fuse .up = false) {p : Param R}
    (hp : p ∈ (o.message .up).params) (hdef : p.default = none) (hl : Lifted p.name)
    (hpre : startsWith "up_" p.name = false) (hspecial : p.name ∉ specialArgs)
    (cols : List (Nat × Nat)) (down boundary : Adj R) (sizes sizes' sizes'' : Option Sizes)
    (kwargs : ArgDict R) (r : Val R × Val R × Val R) :
    o.propagate user fused upd (.dense cols) down boundary sizes sizes' sizes'' kwargs ≠ .ok r := by
  intro h
  obtain ⟨su, hsu, h⟩ := bind_eq_ok.mp (show (_ >>= _) = _ from h)
  obtain ⟨sd, -, h⟩ := bind_eq_ok.mp h
  obtain ⟨sb, -, h⟩ := bind_eq_ok.mp h
  obtain ⟨-, -, h⟩ := bind_eq_ok.mp h
  obtain ⟨u, hu, h⟩ := bind_eq_ok.mp h
  rw [MPObject.part, if_pos (show (!(Adj.dense cols : Adj R).isNone) = true from rfl),
    MPObject.messageAndAggregate, if_neg (by simp [hf])] at hu
  unfold MPObject.messageAndAggregate.unfused at hu
  obtain ⟨⟨d, s⟩, hcol, hu⟩ := bind_eq_ok.mp hu
  obtain ⟨vs, hvs, -⟩ := bind_eq_ok.mp hu
  have hn : user.Nodup := ho.user.nodup_iff.mpr (List.nodup_dedup _)
  have hs : ∀ k ∈ user, k ∉ specialArgs := by
    intro k hk
    have := (List.mem_filter.mp (List.mem_dedup.mp (ho.user.mem_iff.mp hk))).2
    simpa using this
  have hmem : p.name ∈ user := by
    refine ho.user.mem_iff.mpr (List.mem_dedup.mpr (List.mem_filter.mpr ⟨?_, by simpa using hspecial⟩))
    simp only [List.mem_append, sigNames]
    exact .inl (.inl (.inl (.inl (.inl (List.mem_map_of_mem hp)))))
  have hempty := (C83_collected_arguments hn hs hcol).2.2.2.1 p.name hmem hl hpre
  exact distribute_missing hp hdef hempty hvs

/-- A layer whose upper messages only use the attributes: `def message_up(self, up_attr)`. -/
def attrOnly [Zero R] (cls : PyClass) (cfg : MPConfig R R R) : MPObject R :=
  { libraryObject cls cfg with
    message := fun
      | .up => { params := [⟨"up_attr", none⟩]
                 run := fun vs => match vs with
                   | [v] => .ok v
                   | _ => .error .type }
      | a => (libraryObject cls cfg).message a }


/-- The arguments of `attrOnly`, in one order. -/
def attrOnlyArgs : List String := ["up_attr", "down_x_j", "down_attr", "boundary_x_j"]

/-- **C83** (finding) A layer whose upper messages only use the attributes gets a result with as many
rows as the largest receiver asks for, and not one row per cell: the number of cells is only known
from matrices with `_i` or `_j`. -/
theorem C83_messages_without_features [Zero R] {cls : PyClass} (hc : cls ∈ libraryClasses)
    (cfg : MPConfig R R R) (hflow : cfg.flow = .sourceToTarget) {user fused upd : List String}
    (ho : Orders (attrOnly cls cfg) user fused upd) {kwargs : ArgDict R} {x attr : List R}
    (hk : Passes kwargs x (some (some attr)) none none) (cols : List (Nat × Nat))
    (hl : cols.length = attr.length) :
    ∃ u d b, (attrOnly cls cfg).propagate user fused upd (.dense cols) .none .none none none none
        kwargs = .ok (.tensor u, d, b) ∧
      (∀ p ∈ cols, p.2 < u.length) ∧ (u = [] ∨ ∃ p ∈ cols, p.2 + 1 = u.length) := by
  have ho' : Orders (attrOnly cls cfg) attrOnlyArgs [] ["x"] :=
    ⟨.of_eq (by rfl), .of_eq rfl, .of_eq (by rfl)⟩
  have hx : kwargs.get "x" = .tensor x := by simp [ArgDict.get, hk.x]
  have ha : kwargs.get "up_attr" = .tensor attr := by simp [ArgDict.get, hk.up, optTensor]
  have hfuse : (attrOnly cls cfg).fuse .up = false := library_fuse hc cfg .up
  have hcol : ∃ d : ArgDict R, collect cfg.flow attrOnlyArgs (.dense cols) (none, none) .up kwargs =
      .ok (d, (none, none)) ∧ d.get "up_attr" = .tensor attr ∧
        d.get "agg_up_index" = .ids (cols.map cfg.flow.i) ∧ d.get "up_ptr" = .none ∧
        d.get "up_dim_size" = .none := by
    refine ⟨sizeArgs .up (none, none) (indexArgs cfg.flow (.dense cols) .up
      ((ArgDict.nil.set "up_attr" (kwargs.get "up_attr")).set "down_attr" (kwargs.get "down_attr"))),
      ?_, ?_⟩
    · simp [collect, attrOnlyArgs, collectArgs, collectArg, a_upAttr, a_down, a_downAttr,
        a_boundary, b_up_down, b_up_boundary, argData, Adj.isNone]
    · have ha' : (kwargs "up_attr").getD .empty = .tensor attr := ha
      simp [sizeArgs, indexArgs, ArgDict.get, ArgDict.set, AdjKind.str, map_flow_i, ha', optInt, pyOr]
  obtain ⟨dct, hcol, h1, h2, h3, h4⟩ := hcol
  let n := (cols.map cfg.flow.i).foldl (fun m i => max m (i + 1)) 0
  have hfold : ∀ (l : List Nat) (m : Nat), m ≤ l.foldl (fun m i => max m (i + 1)) m ∧
      (∀ i ∈ l, i < l.foldl (fun m i => max m (i + 1)) m) ∧
      (l.foldl (fun m i => max m (i + 1)) m = m ∨
        ∃ i ∈ l, i + 1 = l.foldl (fun m i => max m (i + 1)) m) := by
    intro l
    induction l with
    | nil => intro m; simp
    | cons a l ih =>
      intro m
      obtain ⟨i1, i2, i3⟩ := ih (max m (a + 1))
      simp only [List.foldl_cons, List.mem_cons, forall_eq_or_imp, exists_eq_or_imp]
      refine ⟨by omega, ⟨by omega, i2⟩, ?_⟩
      rcases i3 with h | h
      · rcases max_choice m (a + 1) with hm | hm
        · left; omega
        · right; left; omega
      · exact .inr (.inr h)
  obtain ⟨-, hlt, hmax⟩ := hfold (cols.map cfg.flow.i) 0
  have hsc := scatter_ok (agg := cfg.aggUp) (n := n) (idx := cols.map cfg.flow.i) (src := attr)
    (by simpa using hl) hlt
  set out := (List.range n).map fun c =>
    cfg.aggUp ((((cols.map cfg.flow.i).zip attr).filter (fun p => p.1 == c)).map Prod.snd) with hout
  have hpart : (attrOnly cls cfg).part attrOnlyArgs [] (!(Adj.dense cols : Adj R).isNone)
      (.dense cols) .up (none, none) kwargs = .ok (.tensor out, (none, none)) := by
    rw [MPObject.part, if_pos (show (!(Adj.dense cols : Adj R).isNone) = true from rfl),
      MPObject.messageAndAggregate, if_neg (by simp [hfuse])]
    unfold MPObject.messageAndAggregate.unfused
    rw [show (attrOnly cls cfg).flow = cfg.flow from rfl, hcol, ok_bind]
    have hd1 : distribute ((attrOnly cls cfg).message .up).params dct = .ok [.tensor attr] := by
      simp only [attrOnly, distribute, fillParam, h1, ok_bind]
      rfl
    have hd2 : distribute ((attrOnly cls cfg).aggregate .up).params dct =
        .ok [.ids (cols.map cfg.flow.i), .none, .none] := by
      simp only [attrOnly, libraryObject, baseAggregate, distribute, fillParam, AdjKind.str]
      simp only [show "agg_" ++ "up" ++ "_index" = "agg_up_index" from rfl,
        show "up" ++ "_ptr" = "up_ptr" from rfl, show "up" ++ "_dim_size" = "up_dim_size" from rfl,
        h2, h3, h4, ok_bind]
      rfl
    dsimp only
    rw [hd1, ok_bind, hd2]
    have hrun : ((attrOnly cls cfg).message .up).run [.tensor attr] = .ok (.tensor attr) := rfl
    rw [hrun, ok_bind, ok_bind]
    have hagg : ((attrOnly cls cfg).aggregate .up).run (.tensor attr)
        [.ids (cols.map cfg.flow.i), .none, .none] =
        .tensor <$> scatter cfg.aggUp n (cols.map cfg.flow.i) attr := rfl
    rw [hagg, hsc]
    rfl
  have hb : hasBoundaryAttr kwargs = false := by
    rcases hk.noBoundary rfl with h | h <;> simp [hasBoundaryAttr, h]
  refine ⟨out, .tensor (zeroRows x.length), .tensor (zeroRows x.length), ?_, ?_, ?_⟩
  · rw [C83_order_of_arguments _ ho ho']
    unfold MPObject.propagate
    simp only [checkSeparately, Option.getD_none, ok_bind]
    rw [show checkTogether (R := R) (.dense cols) .none (none, none) (none, none) = .ok () from rfl,
      ok_bind, hpart, ok_bind]
    simp only [MPObject.part, Adj.isNone, Bool.not_true, Bool.and_false, Bool.false_eq_true, if_false,
      ok_bind, hb]
    exact library_update (cls := cls) (cfg := cfg) hx _ _ _ _ _ _ _
  · intro p hp
    have := hlt p.2 (List.mem_map.mpr ⟨p, hp, by rw [hflow]; rfl⟩)
    simpa [hout, n] using this
  · rcases hmax with h | ⟨i, hi, h⟩
    · left
      simp [hout, n, h]
    · right
      obtain ⟨p, hp, rfl⟩ := List.mem_map.mp hi
      refine ⟨p, hp, ?_⟩
      rw [hflow] at h
      simpa [hout, n, hflow, Flow.i] using h

/-! ## Concrete cases -/

section Examples

/-- Messages `x_j + attr`, sums; the layer of mp/layers.py:14-31 on integers. -/
def exampleConfig : MPConfig Int Int Int where
  msgUp := .withAttr (· + ·)
  msgDown := .withAttr (· + ·)
  msgBoundary := id
  aggUp := aggAdd
  aggDown := aggAdd
  aggBoundary := aggAdd

/-- Features of three edges, an attribute for each of the two upper columns, two vertices below. -/
def exampleKwargs : ArgDict Int := fun k =>
  if k = "x" then some (.tensor [1, 2, 3])
  else if k = "up_attr" then some (.tensor [10, 20])
  else if k = "boundary_attr" then some (.tensor [100, 200])
  else none

theorem example_passes :
    Passes exampleKwargs [1, 2, 3] (some (some [10, 20])) none (some [100, 200]) :=
  ⟨rfl, rfl, rfl, fun b h => by cases h; rfl, by simp⟩

/-- A class of the library. -/
def exampleClass : PyClass :=
  .mk "DummyCochainMessagePassing" ["message_up", "message_down", "forward"] [baseClass]

example : exampleClass ∈ libraryClasses := by simp [libraryClasses, exampleClass]

/-- Another order of the arguments. -/
theorem example_orders : Orders (libraryObject exampleClass exampleConfig)
    ["boundary_x_j", "down_attr", "up_attr", "up_x_j", "down_x_j"] [] ["x"] :=
  ⟨by rw [library_userArgs]; decide +kernel, .of_eq rfl, .of_eq (library_updateArgs _ _).symm⟩

-- The upper columns 0 → 1 and 2 → 1, no lower index, incidence of two vertices with the edges.
example : (libraryObject exampleClass exampleConfig).propagate
    ["boundary_x_j", "down_attr", "up_attr", "up_x_j", "down_x_j"] [] ["x"]
    (.dense [(0, 1), (2, 1)]) .none (.dense [(0, 0), (1, 0), (1, 2)]) none none none exampleKwargs =
    .ok (.tensor [0, 11 + 23, 0], .tensor [0, 0, 0], .tensor [300, 0, 200]) := by rfl

/-- The same upper adjacency as a sparse matrix whose values are the attributes. -/
def exampleSparse : SparseAdj Int := ⟨3, 3, [(1, 0), (1, 2)], some [10, 20]⟩

example : exampleSparse.Valid := ⟨by decide, by decide⟩
/-- Another shape is rejected. -/
example : (libraryObject exampleClass exampleConfig).propagate libraryArgs [] ["x"] (.sparse exampleSparse)
    (.sparse { exampleSparse with cols := exampleSparse.cols + 1 }) .none none none none ArgDict.nil =
    .error .assertion :=
  C83_shapes_must_agree _ rfl _ _ _ _ _ (.inr (by simp)) none _

example : (libraryObject exampleClass exampleConfig).propagate
    ["boundary_x_j", "down_attr", "up_attr", "up_x_j", "down_x_j"] [] ["x"]
    (.sparse exampleSparse) .none (.dense [(0, 0), (1, 0), (1, 2)]) none none none exampleKwargs =
    .ok (.tensor [0, 11 + 23, 0], .tensor [0, 0, 0], .tensor [300, 0, 200]) := by rfl

-- Two boundary cells, three cells: a sparse incidence is rejected.
example : (libraryObject exampleClass exampleConfig).propagate libraryArgs [] ["x"] .none .none
    (.sparse ⟨3, 2, [(0, 0), (0, 1), (2, 1)], none⟩) none none none exampleKwargs =
    .error .value := by rfl

-- … and so is the declared size (2, 3).
example : (libraryObject exampleClass exampleConfig).propagate libraryArgs [] ["x"] .none .none
    (.dense [(0, 0), (1, 0), (1, 2)]) none none (some (some 2, some 3)) exampleKwargs =
    .error .value := by rfl

/-- A layer with the parameter `x_j`, as in PyTorch Geometric. -/
def exampleUnprefixed : MPObject Int :=
  { libraryObject exampleClass exampleConfig with
    message := fun
      | .up => { params := [⟨"x_j", none⟩]
                 run := fun vs => match vs with
                   | [v] => .ok v
                   | _ => .error .type }
      | a => (libraryObject exampleClass exampleConfig).message a }

example : Lifted "x_j" ∧ startsWith "up_" "x_j" = false ∧ "x_j" ∉ specialArgs :=
  ⟨.inr ⟨"x", by rfl⟩, by rfl, by decide +kernel⟩

example : exampleUnprefixed.propagate exampleUnprefixed.userArgs [] ["x"]
    (.dense [(0, 1)]) .none .none none none none exampleKwargs = .error .type := by rfl

-- Messages from attributes only: two rows for three cells.
example : (attrOnly exampleClass exampleConfig).propagate attrOnlyArgs [] ["x"]
    (.dense [(0, 1), (2, 1)]) .none .none none none none
    (fun k => if k = "boundary_attr" then none else exampleKwargs k) =
    .ok (.tensor [0, 30], .tensor [0, 0, 0], .tensor [0, 0, 0]) := by rfl

-- A message that uses both ends: `up_x_i` and `up_x_j`.
example : (collect .sourceToTarget ["up_x_i", "up_x_j"] (.dense [(0, 1), (2, 1)]) (none, none) .up
    exampleKwargs).toOption.map (fun r => (r.1.get "up_x_i", r.1.get "up_x_j", r.2)) =
    some (.tensor [2, 2], .tensor [1, 3], (some 3, some 3)) := by rfl

end Examples

end Verif
