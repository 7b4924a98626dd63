import Verif.Lemmas.ModuleReset

/-!
# `reset_parameters` of the layers and networks
-/

namespace Verif

theorem reaches_ok (ps : List NNParam) : Reaches (.ok ps) ps := ⟨ps, rfl, fun _ => Iff.rfl⟩

theorem mem_filter_name {own : List (String × NNParam)} {name : String} (h : ∀ p ∈ own, p.1 = name) :
    (own.filter fun p => p.1 == name).map Prod.snd = own.map Prod.snd := by
  rw [List.filter_eq_self.2]
  intro p hp
  simp [h p hp]

theorem newParams_mem_names {sizes : List (String × Nat)} {n : Nat} {p : String × NNParam}
    (h : p ∈ (newParams sizes n).1) : p.1 ∈ sizes.map Prod.fst := by
  rw [← newParams_names sizes n]
  exact List.mem_map_of_mem h

theorem newGINConv_complete (v : PygReset) (ms : List Mod) (eps : Bool) (n : Nat) :
    Complete v (newGINConv ms eps n).1 := by
  unfold Complete
  simp only [newGINConv, bind_run, pure_run]
  refine (body_reaches v (ps := [(newSeq ms n).1.params,
    ((newParams (if eps then [("eps", 1)] else []) (newSeq ms n).2).1.filter
      fun p => p.1 == "eps").map Prod.snd]) ?_).congr ?_
  · refine .cons ?_ (.cons (reaches_ok _) .nil)
    simpa [runAct, childViews] using newSeq_reset v ms n
  · intro p
    rw [mem_filter_name]
    · net_params
      simp
      tauto
    · intro q hq
      have := newParams_mem_names hq
      cases eps <;> simp_all

theorem optChild_lookup (v : PygReset) (name : String) (m : Option NNModule)
    (cs : List (String × NNModule)) (h : (childViews v cs).lookup name = none) :
    (childViews v (optChild name m ++ cs)).lookup name = m.map (NNModule.view v) := by
  cases m with
  | none => simpa [optChild] using h
  | some m => simp [optChild, childViews]

theorem optChild_lookup_ne (v : PygReset) {name attr : String} (m : Option NNModule)
    (cs : List (String × NNModule)) (h : attr ≠ name) :
    (childViews v (optChild name m ++ cs)).lookup attr = (childViews v cs).lookup attr := by
  cases m with
  | none => simp [optChild]
  | some m =>
    have : (attr == name) = false := by simpa using h
    simp [optChild, childViews, List.lookup_cons, this]

/-- `reset` on an attribute that may be a function. -/
theorem pygReset_opt (v : PygReset) {m : Option NNModule}
    (h : ∀ k ∈ m, Reaches (pygReset v (some (k.view v))) k.params) :
    Reaches (pygReset v (m.map (NNModule.view v))) (optParams m) := by
  cases m with
  | none => exact reaches_ok []
  | some m => simpa [optParams] using h m rfl

theorem newOriented_complete (v : PygReset) (up : Bool) (d hid n : Nat) :
    Complete v (newOrientedConv up d hid n).1 := by
  unfold Complete
  simp only [newOrientedConv, bind_run, pure_run]
  generalize hu : newOpt (if up then some (newLinear d hid false) else none) n = u
  have hu' : ∀ k ∈ u.1, Reaches (pygReset v (some (k.view v))) k.params := by
    subst hu
    intro k hk
    cases up with
    | false => cases hk
    | true => cases hk; exact pygReset_simple v (newLinear_simple v d hid false n)
  refine (body_reaches v (ps := [optParams u.1, (newLinear d hid false u.2).1.params,
    (newLinear d hid false (newLinear d hid false u.2).2).1.params])
    (.cons ?_ (.cons ?_ (.cons ?_ .nil)))).congr ?_
  · simp only [runAct]
    rw [optChild_lookup v _ _ _ (by simp [childViews, List.lookup_cons])]
    exact pygReset_opt v hu'
  · simp only [runAct]
    rw [optChild_lookup_ne v _ _ (by decide)]
    simpa [childViews] using pygReset_simple v (newLinear_simple v d hid false _)
  · simp only [runAct]
    rw [optChild_lookup_ne v _ _ (by decide)]
    simpa [childViews, List.lookup_cons] using pygReset_simple v (newLinear_simple v d hid false _)
  · intro p
    net_params
    simp

theorem newMsgNet_reset (v : PygReset) (d : Nat) (act : Mod) (cob : Bool) (n : Nat) :
    ∀ k ∈ (newMsgNet d act cob n).1, Reaches (pygReset v (some (k.view v))) k.params := by
  intro k hk
  cases cob with
  | false => cases hk
  | true =>
    have e : (newMsgNet d act true n).1 =
        some (newSeq [.pointwise, .linear (d * 2) d, act] n).1 := rfl
    rw [e] at hk
    cases hk
    exact newSeq_reset v _ n

theorem newSparseLevel_complete (v : PygReset) (d hid : Nat) (norm : Nat → Mod) (act : Mod)
    (cob eps : Bool) (n : Nat) : Complete v (newSparseLevel d hid norm act cob eps n).1 := by
  unfold Complete
  simp only [newSparseLevel, bind_run, pure_run]
  have hu := newMsgNet_reset v d act cob n
  generalize newMsgNet d act cob n = u at *
  have s1 := newSeq_reset v (updateNet d hid norm act) u.2
  generalize newSeq (updateNet d hid norm act) u.2 = r1 at *
  have s2 := newSeq_reset v (updateNet d hid norm act) r1.2
  generalize newSeq (updateNet d hid norm act) r1.2 = r2 at *
  have s3 := newSeq_reset v [.linear (hid * 2) hid, norm hid, act] r2.2
  generalize newSeq [.linear (hid * 2) hid, norm hid, act] r2.2 = r3 at *
  have hn : ∀ p ∈ (newParams (if eps then [("eps1", 1), ("eps2", 1)] else []) r3.2).1,
      p.1 = "eps1" ∨ p.1 = "eps2" := by
    intro p hp
    have := newParams_mem_names hp
    cases eps <;> simp_all
  generalize newParams (if eps then [("eps1", 1), ("eps2", 1)] else []) r3.2 = r4 at *
  refine (body_reaches v
    (ps := [optParams u.1, [], r1.1.params, r2.1.params, r3.1.params,
      (r4.1.filter fun p => p.1 == "eps1").map Prod.snd,
      (r4.1.filter fun p => p.1 == "eps2").map Prod.snd]) ?_).congr ?_
  · refine .cons ?_ (.cons ?_ (.cons ?_ (.cons ?_ (.cons ?_ (.cons (reaches_ok _)
      (.cons (reaches_ok _) .nil))))))
    · simp only [runAct]
      rw [optChild_lookup v _ _ _ (by simp [childViews, List.lookup_cons])]
      exact pygReset_opt v hu
    · simp only [runAct]
      rw [optChild_lookup_ne v _ _ (by decide)]
      simpa [childViews, List.lookup_cons, pygReset] using reaches_ok []
    · simp only [runAct]
      rw [optChild_lookup_ne v _ _ (by decide)]
      simpa [childViews, List.lookup_cons] using s1
    · simp only [runAct]
      rw [optChild_lookup_ne v _ _ (by decide)]
      simpa [childViews, List.lookup_cons] using s2
    · simp only [runAct]
      rw [optChild_lookup_ne v _ _ (by decide)]
      simpa [childViews, List.lookup_cons] using s3
  · intro p
    net_params
    simp only [List.flatten_cons, List.flatten_nil, List.mem_append, List.append_nil, List.mem_map,
      List.mem_filter, beq_iff_eq, List.not_mem_nil, false_or]
    constructor
    · rintro (⟨q, hq, rfl⟩ | h)
      · rcases hn q hq with e | e
        · exact Or.inr (Or.inr (Or.inr (Or.inr (Or.inl ⟨q, ⟨hq, e⟩, rfl⟩))))
        · exact Or.inr (Or.inr (Or.inr (Or.inr (Or.inr ⟨q, ⟨hq, e⟩, rfl⟩))))
      · tauto
    · rintro (h | h | h | h | ⟨q, ⟨hq, -⟩, rfl⟩ | ⟨q, ⟨hq, -⟩, rfl⟩)
      all_goals first | exact Or.inl ⟨q, hq, rfl⟩ | tauto

/-- The part of a level of `CINppConv` that is re-initialised, with its size. -/
theorem newPPLevel_reset {name : String} {norm : Nat → Mod} (hn : getGraphNorm name = .ok norm)
    (v : PygReset) (d hid : Nat) (cob eps : Bool) (n : Nat) :
    ∃ qs, (newPPLevel d hid norm .pointwise cob eps n).1.resetParameters v = .ok qs ∧
      (∀ p ∈ qs, p ∈ (newPPLevel d hid norm .pointwise cob eps n).1.params) ∧
      distinctSize qs = Count.ppLevelReset name d hid cob eps := by
  simp only [newPPLevel, bind_run, pure_run]
  have f1 := msgNet_creates d cob n
  have hu := newMsgNet_reset v d .pointwise cob n
  generalize newMsgNet d .pointwise cob n = u at *
  have f2 := msgNet_creates d cob u.2
  generalize newMsgNet d .pointwise cob u.2 = w at *
  have s1 := newSeq_reset v (updateNet d hid norm .pointwise) w.2
  have f3 := newSeq_creates (updateNet d hid norm .pointwise) w.2
  generalize newSeq (updateNet d hid norm .pointwise) w.2 = r1 at *
  have f4 := newSeq_creates (updateNet d hid norm .pointwise) r1.2
  generalize newSeq (updateNet d hid norm .pointwise) r1.2 = r2 at *
  have s3 := newSeq_reset v (updateNet d hid norm .pointwise) r2.2
  have f5 := newSeq_creates (updateNet d hid norm .pointwise) r2.2
  generalize newSeq (updateNet d hid norm .pointwise) r2.2 = r3 at *
  have s4 := newSeq_reset v [.linear (hid * 3) hid, norm hid, .pointwise] r3.2
  have f6 := newSeq_creates [.linear (hid * 3) hid, norm hid, .pointwise] r3.2
  generalize newSeq [.linear (hid * 3) hid, norm hid, .pointwise] r3.2 = r4 at *
  have f7 : Fresh r4.2
      (((newParams (if eps then [("eps1", 1), ("eps2", 1), ("eps3", 1)] else []) r4.2).1.filter
        fun p => p.1 == "eps1").map Prod.snd ++
      ((newParams (if eps then [("eps1", 1), ("eps2", 1), ("eps3", 1)] else []) r4.2).1.filter
        fun p => p.1 == "eps2").map Prod.snd)
      (newParams (if eps then [("eps1", 1), ("eps2", 1), ("eps3", 1)] else []) r4.2).2
      (if eps then 2 else 0) := by
    cases eps with
    | false => exact Fresh.nil _
    | true =>
      refine ⟨(newParams_fresh _ _).le, ?_, ?_⟩
      · intro p hp
        refine (newParams_fresh _ _).ids p ?_
        simp only [List.mem_append, List.mem_map, List.mem_filter] at hp ⊢
        rcases hp with ⟨q, ⟨hq, -⟩, rfl⟩ | ⟨q, ⟨hq, -⟩, rfl⟩ <;> exact ⟨q, hq, rfl⟩
      · simp only [newParams, newParam, bind_run, pure_run, if_true]
        have : ("eps1" == "eps2") = false := rfl
        have : ("eps2" == "eps1") = false := rfl
        have : ("eps3" == "eps1") = false := rfl
        have : ("eps3" == "eps2") = false := rfl
        simp [distinctSize, List.filter_cons]
  generalize newParams (if eps then [("eps1", 1), ("eps2", 1), ("eps3", 1)] else []) r4.2 = r5 at *
  obtain ⟨qs, e, hq⟩ := body_reaches v
    (own := r5.1)
    (cs := optChild "msg_up_nn" u.1 ++ ([("update_up_nn", r1.1), ("update_boundaries_nn", r3.1),
      ("combine_nn", r4.1)] ++ (optChild "msg_down_nn" w.1 ++ [("update_down_nn", r2.1)])))
    (acts := sparseReset)
    (ps := [optParams u.1, [], r1.1.params, r3.1.params, r4.1.params,
      (r5.1.filter fun p => p.1 == "eps1").map Prod.snd,
      (r5.1.filter fun p => p.1 == "eps2").map Prod.snd])
    (by
      refine .cons ?_ (.cons ?_ (.cons ?_ (.cons ?_ (.cons ?_ (.cons (reaches_ok _)
        (.cons (reaches_ok _) .nil))))))
      · simp only [runAct]
        rw [optChild_lookup v]
        · exact pygReset_opt v hu
        · cases w.1 <;> simp [childViews, List.lookup_cons, optChild]
      · simp only [runAct]
        rw [optChild_lookup_ne v _ _ (by decide)]
        have : (childViews v ([("update_up_nn", r1.1), ("update_boundaries_nn", r3.1),
            ("combine_nn", r4.1)] ++ (optChild "msg_down_nn" w.1 ++ [("update_down_nn", r2.1)]))).lookup
            "msg_boundaries_nn" = none := by
          cases w.1 <;> simp [childViews, List.lookup_cons, optChild]
        rw [this]
        exact reaches_ok []
      · simp only [runAct]
        rw [optChild_lookup_ne v _ _ (by decide)]
        simpa [childViews, List.lookup_cons] using s1
      · simp only [runAct]
        rw [optChild_lookup_ne v _ _ (by decide)]
        simpa [childViews, List.lookup_cons] using s3
      · simp only [runAct]
        rw [optChild_lookup_ne v _ _ (by decide)]
        simpa [childViews, List.lookup_cons] using s4)
  refine ⟨qs, by simpa only [List.append_assoc] using e, ?_, ?_⟩
  · intro p hp
    rw [hq] at hp
    net_params
    simp only [List.flatten_cons, List.flatten_nil, List.mem_append, List.append_nil, List.mem_map,
      List.mem_filter, List.not_mem_nil, false_or] at hp
    rcases hp with h | h | h | h | ⟨q, ⟨hq, -⟩, rfl⟩ | ⟨q, ⟨hq, -⟩, rfl⟩
    all_goals first | exact Or.inl (List.mem_map.2 ⟨q, hq, rfl⟩) | tauto
  · have k1 := f3.weaken f2.le |> f1.append
    have k2 := f5.weaken f4.le |> k1.append
    have k3 := (k2.append f6).append f7
    have e := (k3.congr (qs := qs) fun p => by
      rw [hq]
      simp only [List.flatten_cons, List.flatten_nil, List.mem_append, List.append_nil,
        List.not_mem_nil, false_or]
      tauto).size
    rw [e]
    simp only [updateNet_count hn, List.map_cons, List.map_nil, List.sum_cons, List.sum_nil,
      norm_count hn, Count.ppLevelReset]
    rw [Nat.mul_comm 3 hid]
    simp [Mod.count]
    omega

/-! ## Networks -/

theorem jumpAct_reaches (v : PygReset) (mode : Option String) (own : List (String × NNParam))
    {views : List (String × ResetView)}
    (h : mode ≠ none → views.lookup "jump" = some (jumpModule.view v)) :
    ∃ ps : List (List NNParam),
      List.Forall₂ Reaches ((jumpAct mode).map (runAct v own views)) ps ∧ ps.flatten = [] := by
  cases mode with
  | none => exact ⟨[], .nil, rfl⟩
  | some mode =>
    refine ⟨[[]], .cons ?_ .nil, rfl⟩
    simp only [runAct, h (by simp), jump_call]
    exact reaches_ok []

theorem jumpChild_lookup (v : PygReset) (mode : Option String) {pre post : List (String × NNModule)}
    (h : (childViews v pre).lookup "jump" = none) :
    mode ≠ none → (childViews v (pre ++ jumpChild mode ++ post)).lookup "jump" =
      some (jumpModule.view v) := by
  intro hm
  cases mode with
  | none => exact absurd rfl hm
  | some mode =>
    simp only [childViews_eq_map] at h ⊢
    simp only [List.map_append, List.lookup_append, h, jumpChild, List.map_cons, List.map_nil,
      List.lookup_cons]
    simp

theorem jumpChild_lookup_ne (v : PygReset) (mode : Option String) {pre post : List (String × NNModule)}
    {attr : String} (h : attr ≠ "jump") :
    (childViews v (pre ++ jumpChild mode ++ post)).lookup attr =
      (childViews v (pre ++ post)).lookup attr := by
  have e : (attr == "jump") = false := by simpa using h
  cases mode with
  | none => simp [jumpChild]
  | some mode =>
    simp only [childViews_eq_map, List.map_append, List.lookup_append, jumpChild, List.map_cons,
      List.map_nil, List.lookup_cons, e]
    simp

/-- Statements before and after the jumping knowledge. -/
theorem body_jump_reaches (v : PygReset) {before after : List ResetAct} {mode : Option String}
    {pre post : List (String × NNModule)} {ps qs : List (List NNParam)}
    (hp : (childViews v pre).lookup "jump" = none)
    (h1 : List.Forall₂ Reaches (before.map (runAct v [] (childViews v (pre ++ jumpChild mode ++ post)))) ps)
    (h2 : List.Forall₂ Reaches (after.map (runAct v [] (childViews v (pre ++ jumpChild mode ++ post)))) qs) :
    Reaches ((NNModule.mk (some (before ++ jumpAct mode ++ after)) []
      (pre ++ jumpChild mode ++ post)).resetParameters v) (ps ++ qs).flatten := by
  obtain ⟨js, hj, e⟩ := jumpAct_reaches v mode [] (jumpChild_lookup v mode (post := post) hp)
  refine (body_reaches v (ps := ps ++ js ++ qs) ?_).congr fun p => ?_
  · simp only [List.map_append]
    exact List.rel_append (List.rel_append h1 hj) h2
  · simp [e]

theorem newEdgeNet_complete {a : EdgeArgs} {up : Bool} {b : StateM Nat NNModule}
    (h : a.newEdgeNet up = .ok b) (v : PygReset) (n : Nat) : Complete v (b n).1 := by
  unfold EdgeArgs.newEdgeNet at h
  obtain ⟨_, -, h⟩ := bind_eq_ok.1 h
  obtain ⟨_, -, h⟩ := bind_eq_ok.1 h
  obtain ⟨_, -, h⟩ := bind_eq_ok.1 h
  cases h
  unfold Complete
  simp only [bind_run, pure_run]
  have h1 := newList_each v (bs := (List.range a.numLayers).map fun i =>
    newOrientedConv up (layerDim a.numInput a.hidden i) a.hidden) (by
      intro b hb n
      obtain ⟨i, -, rfl⟩ := List.mem_map.1 hb
      exact newOriented_complete v up _ _ n) n
  generalize newList ((List.range a.numLayers).map fun i =>
    newOrientedConv up (layerDim a.numInput a.hidden i) a.hidden) n = r1 at *
  have h2 := newLinear_complete v a.hidden a.hidden true r1.2
  generalize newLinear a.hidden a.hidden true r1.2 = r2 at *
  have h3 := newLinear_complete v a.hidden a.numClasses true r2.2
  generalize newLinear a.hidden a.numClasses true r2.2 = r3 at *
  refine (body_jump_reaches v (ps := [r1.1.params]) (qs := [r2.1.params, r3.1.params])
    (by simp [childViews, List.lookup_cons]) (.cons ?_ .nil) (.cons ?_ (.cons ?_ .nil))).congr ?_
  · simp only [runAct]
    rw [jumpChild_lookup_ne v _ (by decide)]
    simpa [childViews] using h1
  · simp only [runAct]
    rw [jumpChild_lookup_ne v _ (by decide)]
    simpa [childViews, List.lookup_cons, callChild, view_self, Complete] using h2
  · simp only [runAct]
    rw [jumpChild_lookup_ne v _ (by decide)]
    simpa [childViews, List.lookup_cons, callChild, view_self, Complete] using h3
  · intro p
    net_params
    simp
    try tauto

theorem newGIN_complete {inp L hid classes : Nat} {mode : Option String} {ro nl : String} {eps : Bool}
    {b : StateM Nat NNModule} (h : newGIN inp L hid classes mode ro nl eps = .ok b) (v : PygReset)
    (n : Nat) : Complete v (b n).1 := by
  unfold newGIN at h
  obtain ⟨_, -, h⟩ := bind_eq_ok.1 h
  obtain ⟨act, -, h⟩ := bind_eq_ok.1 h
  obtain ⟨_, -, h⟩ := bind_eq_ok.1 h
  cases h
  unfold Complete
  simp only [bind_run, pure_run]
  have h0 := newGINConv_complete v (ginMod inp hid .norm act) eps n
  generalize newGINConv (ginMod inp hid .norm act) eps n = r0 at *
  have h1 := newList_each v (bs := List.replicate (L - 1) (newGINConv (ginMod hid hid .norm act) eps)) (by
      intro b hb n
      obtain ⟨-, rfl⟩ := List.mem_replicate.1 hb
      exact newGINConv_complete v _ _ n) r0.2
  generalize newList (List.replicate (L - 1) (newGINConv (ginMod hid hid .norm act) eps)) r0.2 = r1 at *
  have h2 := newLinear_complete v (lin1Input mode L hid) hid true r1.2
  generalize newLinear (lin1Input mode L hid) hid true r1.2 = r2 at *
  have h3 := newLinear_complete v hid classes true r2.2
  generalize newLinear hid classes true r2.2 = r3 at *
  refine (body_jump_reaches v (ps := [r0.1.params, r1.1.params]) (qs := [r2.1.params, r3.1.params])
    (by simp [childViews, List.lookup_cons]) (.cons ?_ (.cons ?_ .nil))
    (.cons ?_ (.cons ?_ .nil))).congr ?_
  · simp only [runAct]
    rw [jumpChild_lookup_ne v _ (by decide)]
    simpa [childViews, callChild, view_self, Complete] using h0
  · simp only [runAct]
    rw [jumpChild_lookup_ne v _ (by decide)]
    simpa [childViews, List.lookup_cons] using h1
  · simp only [runAct]
    rw [jumpChild_lookup_ne v _ (by decide)]
    simpa [childViews, List.lookup_cons, callChild, view_self, Complete] using h2
  · simp only [runAct]
    rw [jumpChild_lookup_ne v _ (by decide)]
    simpa [childViews, List.lookup_cons, callChild, view_self, Complete] using h3
  · intro p
    net_params
    simp
    try tauto

theorem newRingGIN_complete {inp L hid classes : Nat} {nl gn : String} {b : StateM Nat NNModule}
    (h : newRingGIN inp L hid classes nl gn = .ok b) (v : PygReset) (n : Nat) :
    Complete v (b n).1 := by
  unfold newRingGIN at h
  obtain ⟨act, -, h⟩ := bind_eq_ok.1 h
  obtain ⟨norm, -, h⟩ := bind_eq_ok.1 h
  cases h
  unfold Complete
  simp only [bind_run, pure_run]
  have h00 := newLinear_complete v inp inp true n
  generalize newLinear inp inp true n = r00 at *
  have h0 := newGINConv_complete v (ginMod inp hid norm act) false r00.2
  generalize newGINConv (ginMod inp hid norm act) false r00.2 = r0 at *
  have h1 := newList_each v (bs := List.replicate (L - 1) (newGINConv (ginMod hid hid norm act) false)) (by
      intro b hb n
      obtain ⟨-, rfl⟩ := List.mem_replicate.1 hb
      exact newGINConv_complete v _ _ n) r0.2
  generalize newList (List.replicate (L - 1) (newGINConv (ginMod hid hid norm act) false)) r0.2 = r1 at *
  have h3 := newLinear_complete v hid classes true r1.2
  generalize newLinear hid classes true r1.2 = r3 at *
  refine (body_reaches v (ps := [r00.1.params, r0.1.params, r1.1.params, r3.1.params])
    ?_).congr ?_
  · refine .cons ?_ (.cons ?_ (.cons ?_ (.cons ?_ .nil)))
    · simpa [runAct, childViews, List.lookup_cons, callChild, view_self, Complete] using h00
    · simpa [runAct, childViews, List.lookup_cons, callChild, view_self, Complete] using h0
    · simpa [runAct, childViews, List.lookup_cons] using h1
    · simpa [runAct, childViews, List.lookup_cons, callChild, view_self, Complete] using h3
  · intro p
    net_params
    simp

theorem newAgnostic_complete {inp classes hid D : Nat} {nl : String} {b : StateM Nat NNModule}
    (h : newAgnostic inp classes hid D nl = .ok b) (v : PygReset) (n : Nat) : Complete v (b n).1 := by
  unfold newAgnostic at h
  obtain ⟨_, -, h⟩ := bind_eq_ok.1 h
  cases h
  unfold Complete
  simp only [bind_run, pure_run]
  have h1 := newList_each v (bs := List.replicate (D + 1) (newLinear inp hid)) (by
      intro b hb n
      obtain ⟨-, rfl⟩ := List.mem_replicate.1 hb
      exact newLinear_complete v _ _ true n) n
  generalize newList (List.replicate (D + 1) (newLinear inp hid)) n = r1 at *
  have h2 := newLinear_complete v hid hid true r1.2
  generalize newLinear hid hid true r1.2 = r2 at *
  have h3 := newLinear_complete v hid classes true r2.2
  generalize newLinear hid classes true r2.2 = r3 at *
  refine (body_reaches v (ps := [r1.1.params, r2.1.params, r3.1.params]) ?_).congr ?_
  · refine .cons ?_ (.cons ?_ (.cons ?_ .nil))
    · simpa [runAct, childViews, List.lookup_cons] using h1
    · simpa [runAct, childViews, List.lookup_cons, callChild, view_self, Complete] using h2
    · simpa [runAct, childViews, List.lookup_cons, callChild, view_self, Complete] using h3
  · intro p
    net_params
    simp

theorem newDummy_complete {inp classes L D : Nat} {ro : String} {b : StateM Nat NNModule}
    (h : newDummy inp classes L D ro = .ok b) (v : PygReset) (n : Nat) : Complete v (b n).1 := by
  unfold newDummy at h
  obtain ⟨_, -, h⟩ := bind_eq_ok.1 h
  cases h
  unfold Complete
  simp only [bind_run, pure_run]
  have h1 := (newList_replicate_creates (newLevels_creates pure_plain_creates D) L n)
  have h1 : (newList (List.replicate L (newLevels D (pure plainModule))) n).1.params = [] := by
    rw [List.eq_nil_iff_forall_not_mem]
    intro p hp
    change p ∈ (NNModule.mk none [] (newMany (List.replicate L (newLevels D (pure plainModule))) n).1).params
      at hp
    rw [params_list, mem_childParams] at hp
    obtain ⟨c, hc, hp⟩ := hp
    have := newMany_mem (P := fun m => m.params = [])
      (bs := List.replicate L (newLevels D (pure plainModule))) (by
        intro b hb n
        obtain ⟨-, rfl⟩ := List.mem_replicate.1 hb
        simp only [newLevels, bind_run, pure_run, params_mk, childParams_cons, childParams_nil,
          List.map_nil, List.nil_append, List.append_nil]
        change (NNModule.mk none [] (newMany (List.replicate (D + 1) (pure plainModule)) n).1).params = []
        rw [params_list, List.eq_nil_iff_forall_not_mem]
        intro q hq
        obtain ⟨d, hd, hq⟩ := mem_childParams.1 hq
        have := newMany_mem (P := fun m => m.params = [])
          (bs := List.replicate (D + 1) (pure plainModule)) (by
            intro b hb n
            obtain ⟨-, rfl⟩ := List.mem_replicate.1 hb
            exact params_plainModule) n d hd
        rw [this] at hq
        cases hq) n c hc
    rw [this] at hp
    cases hp
  generalize newList (List.replicate L (newLevels D (pure plainModule))) n = r1 at *
  have h3 := newLinear_complete v inp classes true r1.2
  generalize newLinear inp classes true r1.2 = r3 at *
  refine (body_reaches v (ps := [r3.1.params]) ?_).congr ?_
  · refine .cons ?_ .nil
    simpa [runAct, childViews, List.lookup_cons, callChild, view_self, Complete] using h3
  · intro p
    net_params
    simp [h1]

theorem embedChildren_lookup (v : PygReset) (x : NNModule) (e : Option NNModule)
    (post : List (String × NNModule)) :
    (childViews v (embedChildren x e ++ post)).lookup "init_conv" =
      some ((initConv x e).view v) := by
  cases e <;> simp [embedChildren, optChild, childViews, List.lookup_cons]

theorem embedChildren_lookup_ne (v : PygReset) (x : NNModule) (e : Option NNModule)
    (post : List (String × NNModule)) {attr : String}
    (h : attr ∉ ["v_embed_init", "e_embed_init", "reduce_init", "init_conv"]) :
    (childViews v (embedChildren x e ++ post)).lookup attr = (childViews v post).lookup attr := by
  simp only [List.mem_cons, List.not_mem_nil, or_false, not_or] at h
  obtain ⟨h1, h2, h3, h4⟩ := h
  rw [← ne_eq, ← beq_eq_false_iff_ne] at h1 h2 h3 h4
  cases e <;> simp [embedChildren, optChild, childViews, List.lookup_cons, h1, h2, h3, h4]

/-- `AbstractEmbedVEWithReduce.reset_parameters`, from `reset` on the embeddings. -/
theorem initConv_reaches (v : PygReset) {x : NNModule} {e : Option NNModule} {ps qs : List NNParam}
    (hx : Reaches (pygReset v (some (x.view v))) ps)
    (he : Reaches (pygReset v (e.map (NNModule.view v))) qs) :
    Reaches ((initConv x e).resetParameters v) (ps ++ qs) := by
  refine (body_reaches v (ps := [ps, qs]) ?_).congr (by simp)
  refine .cons ?_ (.cons ?_ .nil)
  · simpa [runAct, childViews] using hx
  · cases e with
    | none => simpa [runAct, childViews, optChild, List.lookup_cons] using he
    | some e => simpa [runAct, childViews, optChild, List.lookup_cons] using he

theorem newEmbedGIN_complete {a : EmbedArgs} {atoms bonds : Nat} {eps : Bool} {b : StateM Nat NNModule}
    (h : a.newEmbedGIN atoms bonds eps = .ok b) (v : PygReset) (n : Nat) : Complete v (b n).1 := by
  unfold EmbedArgs.newEmbedGIN at h
  obtain ⟨_, -, h⟩ := bind_eq_ok.1 h
  obtain ⟨act, -, h⟩ := bind_eq_ok.1 h
  cases h
  unfold Complete
  simp only [bind_run, pure_run]
  have hv := pygReset_simple v (newEmbedding_simple v atoms a.embed n)
  generalize newEmbedding atoms a.embed n = x at *
  have he : ∀ k ∈ (newOpt (if a.embedEdge then some (newEmbedding bonds a.embed) else none) x.2).1,
      Reaches (pygReset v (some (k.view v))) k.params := by
    intro k hk
    cases he : a.embedEdge with
    | false => rw [he] at hk; cases hk
    | true =>
      rw [he] at hk
      have e : (newOpt (if true then some (newEmbedding bonds a.embed) else none) x.2).1 =
        some (newEmbedding bonds a.embed x.2).1 := rfl
      rw [e] at hk
      cases hk
      exact pygReset_simple v (newEmbedding_simple v bonds a.embed x.2)
  generalize newOpt (if a.embedEdge then some (newEmbedding bonds a.embed) else none) x.2 = y at *
  have hi := initConv_reaches v hv (pygReset_opt v he)
  have h1 := newList_each v (bs := (List.range a.numLayers).map fun i =>
      newGINConv (ginMod (layerDim a.embed a.hidden i) a.hidden .norm act) eps) (by
      intro b hb n
      obtain ⟨i, -, rfl⟩ := List.mem_map.1 hb
      exact newGINConv_complete v _ _ n) y.2
  generalize newList ((List.range a.numLayers).map fun i =>
      newGINConv (ginMod (layerDim a.embed a.hidden i) a.hidden .norm act) eps) y.2 = r1 at *
  have h2 := newLinear_complete v a.hidden a.hidden true r1.2
  generalize newLinear a.hidden a.hidden true r1.2 = r2 at *
  have h3 := newLinear_complete v a.hidden a.numClasses true r2.2
  generalize newLinear a.hidden a.numClasses true r2.2 = r3 at *
  refine (body_reaches v (ps := [r1.1.params, x.1.params ++ optParams y.1, r2.1.params, r3.1.params])
    ?_).congr ?_
  · refine .cons ?_ (.cons ?_ (.cons ?_ (.cons ?_ .nil)))
    · simp only [runAct]
      rw [embedChildren_lookup_ne v _ _ _ (by decide)]
      simpa [childViews] using h1
    · simp only [runAct]
      rw [embedChildren_lookup]
      exact hi
    · simp only [runAct]
      rw [embedChildren_lookup_ne v _ _ _ (by decide)]
      simpa [childViews, List.lookup_cons, callChild, view_self, Complete] using h2
    · simp only [runAct]
      rw [embedChildren_lookup_ne v _ _ _ (by decide)]
      simpa [childViews, List.lookup_cons, callChild, view_self, Complete] using h3
  · intro p
    net_params
    simp only [childParams_embed, List.flatten_cons, List.flatten_nil, List.mem_append, List.append_nil]
    tauto

/-! ## Networks whose `reset_parameters` raises -/

theorem newLevels_none (D : Nat) (b : StateM Nat NNModule) (n : Nat) :
    ∃ own cs, (newLevels D b n).1 = .mk none own cs := ⟨_, _, rfl⟩

theorem range_map_ne {L : Nat} (h : L ≠ 0) {α : Type} (f : Nat → α) : (List.range L).map f ≠ [] := by
  cases L with
  | zero => exact absurd rfl h
  | succ L => simp [List.range_succ_eq_map]

theorem newSparseCIN_raises {a : SparseArgs} {eps : Bool} {b : StateM Nat NNModule}
    (h : a.newSparseCIN eps = .ok b) (v : PygReset) (n : Nat) :
    (b n).1.resetParameters v = .error .attribute := by
  unfold SparseArgs.newSparseCIN at h
  obtain ⟨_, -, h⟩ := bind_eq_ok.1 h
  obtain ⟨norm, hn, h⟩ := bind_eq_ok.1 h
  obtain ⟨act, ha, h⟩ := bind_eq_ok.1 h
  obtain ⟨_, -, h⟩ := bind_eq_ok.1 h
  cases h
  simp only [bind_run, pure_run]
  refine reset_error v (act := .call "lin1s") (by simp) ?_
  simp only [runAct]
  rw [jumpChild_lookup_ne v _ (by decide)]
  simpa [childViews, List.lookup_cons, newLin1s] using newList_call_error v _ _

theorem newCINpp_raises {a : SparseArgs} {eps : Bool} {b : StateM Nat NNModule}
    (h : a.newCINpp eps = .ok b) (v : PygReset) (n : Nat) :
    (b n).1.resetParameters v = .error .attribute := by
  unfold SparseArgs.newCINpp at h
  obtain ⟨sup, hs, h⟩ := bind_eq_ok.1 h
  obtain ⟨norm, hn, h⟩ := bind_eq_ok.1 h
  obtain ⟨act, ha, h⟩ := bind_eq_ok.1 h
  cases h
  unfold SparseArgs.newSparseCIN at hs
  obtain ⟨_, -, hs⟩ := bind_eq_ok.1 hs
  obtain ⟨norm', hn', hs⟩ := bind_eq_ok.1 hs
  obtain ⟨act', ha', hs⟩ := bind_eq_ok.1 hs
  obtain ⟨_, -, hs⟩ := bind_eq_ok.1 hs
  cases hs
  simp only [replaceConvs, bind_run, pure_run]
  rw [← List.nil_append [("convs", _)], setChild_convs _ _ _ _ _ _ (by simp) (by simp)]
  refine reset_error v (act := .call "lin1s") (by simp) ?_
  simp only [runAct]
  rw [jumpChild_lookup_ne v _ (by decide)]
  simpa [childViews, List.lookup_cons, newLin1s] using newList_call_error v _ _

theorem newEmbedNet_raises {a : EmbedArgs} {newV newE : StateM Nat NNModule} {eps : Bool}
    {b : StateM Nat NNModule} (h : a.newEmbedNet newV newE eps = .ok b) (v : PygReset) (n : Nat) :
    (b n).1.resetParameters v = .error .attribute := by
  unfold EmbedArgs.newEmbedNet at h
  obtain ⟨norm, hn, h⟩ := bind_eq_ok.1 h
  obtain ⟨act, ha, h⟩ := bind_eq_ok.1 h
  obtain ⟨_, -, h⟩ := bind_eq_ok.1 h
  cases h
  simp only [bind_run, pure_run]
  refine reset_error v (act := .call "lin1s") (by simp) ?_
  simp only [runAct]
  rw [jumpChild_lookup_ne v _ (by decide), List.append_assoc,
    embedChildren_lookup_ne v _ _ _ (by decide)]
  simpa [childViews, List.lookup_cons, newLin1s] using newList_call_error v _ _

theorem embedChildren_names (x : NNModule) (e : Option NNModule) :
    ∀ c ∈ embedChildren x e, c.1 ≠ "convs" := by
  cases e <;> simp [embedChildren, optChild]

theorem newEmbedPP_raises {a : EmbedArgs} {newV newE : StateM Nat NNModule} {eps : Bool}
    {b : StateM Nat NNModule} (h : a.newEmbedPP (a.newEmbedNet newV newE eps) eps = .ok b)
    (v : PygReset) (n : Nat) : (b n).1.resetParameters v = .error .attribute := by
  unfold EmbedArgs.newEmbedPP at h
  obtain ⟨sup, hs, h⟩ := bind_eq_ok.1 h
  obtain ⟨norm, hn, h⟩ := bind_eq_ok.1 h
  obtain ⟨act, ha, h⟩ := bind_eq_ok.1 h
  cases h
  unfold EmbedArgs.newEmbedNet at hs
  obtain ⟨norm', hn', hs⟩ := bind_eq_ok.1 hs
  obtain ⟨act', ha', hs⟩ := bind_eq_ok.1 hs
  obtain ⟨_, -, hs⟩ := bind_eq_ok.1 hs
  cases hs
  simp only [replaceConvs, bind_run, pure_run]
  rw [setChild_convs _ _ _ _ _ _ (embedChildren_names _ _) (by simp)]
  refine reset_error v (act := .call "lin1s") (by simp) ?_
  simp only [runAct]
  rw [jumpChild_lookup_ne v _ (by decide), List.append_assoc,
    embedChildren_lookup_ne v _ _ _ (by decide)]
  simpa [childViews, List.lookup_cons, newLin1s] using newList_call_error v _ _

theorem newCIN0_raises {a : CINArgs} {b : StateM Nat NNModule} (h : a.newCIN0 = .ok b)
    (hL : a.numLayers ≠ 0) (v : PygReset) (n : Nat) :
    (b n).1.resetParameters v = .error .attribute := by
  unfold CINArgs.newCIN0 at h
  obtain ⟨_, -, h⟩ := bind_eq_ok.1 h
  obtain ⟨act, ha, h⟩ := bind_eq_ok.1 h
  obtain ⟨_, -, h⟩ := bind_eq_ok.1 h
  cases h
  simp only [bind_run, pure_run]
  refine reset_error v (act := .each "convs") (by simp) ?_
  simp only [runAct]
  rw [jumpChild_lookup_ne v _ (by decide)]
  simpa [childViews, List.lookup_cons] using newList_each_error v (range_map_ne hL _) (by
    intro b hb n
    obtain ⟨i, -, rfl⟩ := List.mem_map.1 hb
    exact ⟨_, _, rfl⟩) n

theorem newEdgeCIN0_raises {a : CINArgs} {b : StateM Nat NNModule} (h : a.newEdgeCIN0 = .ok b)
    (hL : a.numLayers ≠ 0) (v : PygReset) (n : Nat) :
    (b n).1.resetParameters v = .error .attribute := by
  unfold CINArgs.newEdgeCIN0 at h
  obtain ⟨_, -, h⟩ := bind_eq_ok.1 h
  obtain ⟨act, ha, h⟩ := bind_eq_ok.1 h
  obtain ⟨_, -, h⟩ := bind_eq_ok.1 h
  cases h
  simp only [bind_run, pure_run]
  refine reset_error v (act := .each "convs") (by simp) ?_
  simp only [runAct]
  rw [jumpChild_lookup_ne v _ (by decide)]
  simpa [childViews, List.lookup_cons] using newList_each_error v (range_map_ne hL _) (by
    intro b hb n
    obtain ⟨i, -, rfl⟩ := List.mem_map.1 hb
    exact ⟨_, _, rfl⟩) n

theorem newRingSparseCIN_raises {inp classes L hid D : Nat} {nl gn : String} {cob eps : Bool}
    {b : StateM Nat NNModule} (h : newRingSparseCIN inp classes L hid D nl gn cob eps = .ok b)
    (hL : L ≠ 0) (v : PygReset) (n : Nat) : (b n).1.resetParameters v = .error .attribute := by
  unfold newRingSparseCIN at h
  obtain ⟨act, ha, h⟩ := bind_eq_ok.1 h
  obtain ⟨norm, hn, h⟩ := bind_eq_ok.1 h
  cases h
  simp only [bind_run, pure_run]
  refine reset_error v (act := .each "convs") (by simp) ?_
  simp only [runAct]
  simpa [childViews, List.lookup_cons, newSparseConvs] using newList_each_error v (range_map_ne hL _) (by
    intro b hb n
    obtain ⟨i, -, rfl⟩ := List.mem_map.1 hb
    exact newLevels_none _ _ n) (newLinear inp inp true n).2

/-! ## The same networks without layers -/

theorem newCIN0_complete {a : CINArgs} {b : StateM Nat NNModule} (h : a.newCIN0 = .ok b)
    (hL : a.numLayers = 0) (v : PygReset) (n : Nat) : Complete v (b n).1 := by
  unfold CINArgs.newCIN0 at h
  obtain ⟨_, -, h⟩ := bind_eq_ok.1 h
  obtain ⟨act, -, h⟩ := bind_eq_ok.1 h
  obtain ⟨_, -, h⟩ := bind_eq_ok.1 h
  cases h
  unfold Complete
  simp only [bind_run, pure_run]
  rw [hL, List.range_zero, List.map_nil]
  have h1 := newList_each v (bs := []) (by simp) n
  generalize newList [] n = r1 at *
  have h2 := newLinear_complete v (lin1Input a.jumpMode 0 a.hidden) a.hidden true r1.2
  generalize newLinear (lin1Input a.jumpMode 0 a.hidden) a.hidden true r1.2 = r2 at *
  have h3 := newLinear_complete v a.hidden a.numClasses true r2.2
  generalize newLinear a.hidden a.numClasses true r2.2 = r3 at *
  refine (body_jump_reaches v (ps := [r1.1.params]) (qs := [r2.1.params, r3.1.params])
    (by simp [childViews, List.lookup_cons]) (.cons ?_ .nil) (.cons ?_ (.cons ?_ .nil))).congr ?_
  · simp only [runAct]
    rw [jumpChild_lookup_ne v _ (by decide)]
    simpa [childViews] using h1
  · simp only [runAct]
    rw [jumpChild_lookup_ne v _ (by decide)]
    simpa [childViews, List.lookup_cons, callChild, view_self, Complete] using h2
  · simp only [runAct]
    rw [jumpChild_lookup_ne v _ (by decide)]
    simpa [childViews, List.lookup_cons, callChild, view_self, Complete] using h3
  · intro p
    net_params
    simp

theorem newEdgeCIN0_complete {a : CINArgs} {b : StateM Nat NNModule} (h : a.newEdgeCIN0 = .ok b)
    (hL : a.numLayers = 0) (v : PygReset) (n : Nat) : Complete v (b n).1 := by
  unfold CINArgs.newEdgeCIN0 at h
  obtain ⟨_, -, h⟩ := bind_eq_ok.1 h
  obtain ⟨act, -, h⟩ := bind_eq_ok.1 h
  obtain ⟨_, -, h⟩ := bind_eq_ok.1 h
  cases h
  unfold Complete
  simp only [bind_run, pure_run]
  rw [hL, List.range_zero, List.map_nil, List.map_nil, ite_self]
  have h1 := newList_each v (bs := []) (by simp) n
  generalize newList [] n = r1 at *
  have h4 := newList_each v (bs := []) (by simp) r1.2
  generalize newList [] r1.2 = r4 at *
  have h2 := newLinear_complete v (lin1Input a.jumpMode 0 a.hidden) a.hidden true r4.2
  generalize newLinear (lin1Input a.jumpMode 0 a.hidden) a.hidden true r4.2 = r2 at *
  have h3 := newLinear_complete v a.hidden a.numClasses true r2.2
  generalize newLinear a.hidden a.numClasses true r2.2 = r3 at *
  refine (body_jump_reaches v (ps := [r1.1.params]) (qs := [r2.1.params, r3.1.params, r4.1.params])
    (by simp [childViews, List.lookup_cons]) (.cons ?_ .nil)
    (.cons ?_ (.cons ?_ (.cons ?_ .nil)))).congr ?_
  · simp only [runAct]
    rw [jumpChild_lookup_ne v _ (by decide)]
    simpa [childViews] using h1
  · simp only [runAct]
    rw [jumpChild_lookup_ne v _ (by decide)]
    simpa [childViews, List.lookup_cons, callChild, view_self, Complete] using h2
  · simp only [runAct]
    rw [jumpChild_lookup_ne v _ (by decide)]
    simpa [childViews, List.lookup_cons, callChild, view_self, Complete] using h3
  · simp only [runAct]
    rw [jumpChild_lookup_ne v _ (by decide)]
    simpa [childViews, List.lookup_cons] using h4
  · intro p
    net_params
    simp
    tauto

theorem newRingSparseCIN_complete {inp classes hid D : Nat} {nl gn : String} {cob eps : Bool}
    {b : StateM Nat NNModule} (h : newRingSparseCIN inp classes 0 hid D nl gn cob eps = .ok b)
    (v : PygReset) (n : Nat) : Complete v (b n).1 := by
  unfold newRingSparseCIN at h
  obtain ⟨act, ha, h⟩ := bind_eq_ok.1 h
  obtain ⟨norm, hn, h⟩ := bind_eq_ok.1 h
  cases h
  unfold Complete
  simp only [bind_run, pure_run, newSparseConvs]
  rw [List.range_zero, List.map_nil]
  have h0 := newLinear_complete v inp inp true n
  generalize newLinear inp inp true n = r0 at *
  have h1 := newList_each v (bs := []) (by simp) r0.2
  generalize newList [] r0.2 = r1 at *
  have h3 := newLinear_complete v hid classes true r1.2
  generalize newLinear hid classes true r1.2 = r3 at *
  refine (body_reaches v (ps := [r0.1.params, r1.1.params, r3.1.params]) ?_).congr ?_
  · refine .cons ?_ (.cons ?_ (.cons ?_ .nil))
    · simpa [runAct, childViews, List.lookup_cons, callChild, view_self, Complete] using h0
    · simpa [runAct, childViews, List.lookup_cons] using h1
    · simpa [runAct, childViews, List.lookup_cons, callChild, view_self, Complete] using h3
  · intro p
    net_params
    simp

/-! ## Encoders of OGB -/

theorem newEncoder_children (dims : List Nat) (dim : Nat) (n : Nat) :
    pygReset .children (some ((newEncoder dims dim n).1.view .children)) = .ok [] := by
  have e : (newEncoder dims dim n).1 = .mk none [] [("embedding_list", .mk none []
    (newMany (dims.map fun num => newEmbedding num dim) n).1)] := rfl
  rw [e]
  simp [NNModule.view, childViews, pygReset, callAll]

theorem newEncoder_deep (dims : List Nat) (dim : Nat) (n : Nat) :
    Reaches (pygReset .deep (some ((newEncoder dims dim n).1.view .deep)))
      (newEncoder dims dim n).1.params := by
  have e : (newEncoder dims dim n).1 = .mk none [] [("embedding_list", .mk none []
    (newMany (dims.map fun num => newEmbedding num dim) n).1)] := rfl
  rw [e]
  have h := pygReset_list .deep (cs := (newMany (dims.map fun num => newEmbedding num dim) n).1)
    (newMany_mem (by
      intro b hb n
      obtain ⟨num, -, rfl⟩ := List.mem_map.1 hb
      exact newEmbedding_simple .deep num dim n) n)
  simp only [params_mk, List.map_nil, List.nil_append, childParams_cons, childParams_nil,
    List.append_nil]
  rw [NNModule.view]
  simp only [pygReset, deepReset, childViews, List.map_cons, List.map_nil]
  exact (callAll_reaches (ps := [childParams (newMany (dims.map fun num =>
    newEmbedding num dim) n).1]) (.cons h .nil)).congr (by simp)

/-! ## The specification -/

theorem hasParam_iff : (m : NNModule) → (p : NNParam) → (HasParam m p ↔ p ∈ m.params) := by
  have h1 : ∀ m p, HasParam m p → p ∈ m.params := by
    intro m p h
    induction h with
    | own h =>
      rw [params_mk]
      exact List.mem_append_left _ (List.mem_map.2 ⟨_, h, rfl⟩)
    | child h _ ih =>
      rw [params_mk]
      exact List.mem_append_right _ (mem_childParams.2 ⟨_, h, ih⟩)
  intro m p
  refine ⟨h1 m p, ?_⟩
  exact NNModule.rec (motive_1 := fun m => p ∈ m.params → HasParam m p)
    (motive_2 := fun cs => ∀ c ∈ cs, p ∈ c.2.params → HasParam c.2 p)
    (motive_3 := fun c => p ∈ c.2.params → HasParam c.2 p)
    (fun r own cs ih h => by
      rw [params_mk, List.mem_append] at h
      rcases h with h | h
      · obtain ⟨q, hq, rfl⟩ := List.mem_map.1 h
        exact .own (name := q.1) hq
      · obtain ⟨c, hc, hp⟩ := mem_childParams.1 h
        exact .child (name := c.1) hc (ih c hc hp))
    (fun c hc => by cases hc)
    (fun c cs h ih d hd => by
      rcases List.mem_cons.1 hd with rfl | hd
      · exact h
      · exact ih d hd)
    (fun _ m h => h) m

theorem resetsAll_of_complete {v : PygReset} {m : NNModule} (h : Complete v m) : ResetsAll v m := by
  obtain ⟨ps, e, hp⟩ := h
  exact ⟨ps, e, fun p => by rw [hp, hasParam_iff]⟩

theorem total_of_creates {b : StateM Nat NNModule} {c : Nat} (h : Creates b c) (n : Nat) :
    (b n).1.totalParams = c := by rw [totalParams_eq, (h n).size]

end Verif
