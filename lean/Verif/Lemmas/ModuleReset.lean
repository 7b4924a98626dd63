import Verif.Lemmas.ModuleCounts

/-!
# Lemmas on `reset_parameters`
-/

namespace Verif

/-! ## Only `AttributeError` -/

/-- The only exception is `AttributeError`. -/
def OnlyAttr (x : Py (List NNParam)) : Prop := ∀ e, x = .error e → e = .attribute

theorem onlyAttr_ok (ps : List NNParam) : OnlyAttr (.ok ps) := fun _ h => by cases h

theorem onlyAttr_error : OnlyAttr (.error .attribute) := fun _ h => by cases h; rfl

theorem callAll_onlyAttr {cs : List (Py (List NNParam))} (h : ∀ c ∈ cs, OnlyAttr c) :
    OnlyAttr (callAll cs) := by
  induction cs with
  | nil => exact onlyAttr_ok _
  | cons c cs ih =>
    have hc := h c List.mem_cons_self
    have hr := ih fun c hc => h c (List.mem_cons_of_mem _ hc)
    intro e he
    unfold callAll at he
    cases c with
    | error e' => cases he; exact hc _ rfl
    | ok ps =>
      cases hcs : callAll cs with
      | error e' => rw [hcs] at he; cases he; exact hr _ hcs
      | ok qs => rw [hcs] at he; cases he

/-- A view of a module that only raises `AttributeError`. -/
structure ResetView.Attr (s : ResetView) : Prop where
  self : OnlyAttr s.self
  kids : ∀ k ∈ s.kids, OnlyAttr k.2
  deep : OnlyAttr s.deep

theorem pygReset_onlyAttr (v : PygReset) {s : Option ResetView} (h : ∀ t ∈ s, t.Attr) :
    OnlyAttr (pygReset v s) := by
  cases s with
  | none => exact onlyAttr_ok _
  | some s =>
    have hs := h s rfl
    cases v with
    | deep => exact hs.deep
    | children =>
      unfold pygReset
      simp only
      split
      · split
        · exact hs.self
        · exact onlyAttr_ok _
      · refine callAll_onlyAttr fun c hc => ?_
        simp only [List.mem_map, List.mem_filter] at hc
        obtain ⟨k, ⟨hk, -⟩, rfl⟩ := hc
        exact hs.kids k hk

theorem lookup_mem_view {kids : List (String × ResetView)} {attr : String} {s : ResetView}
    (h : kids.lookup attr = some s) : ∃ k ∈ kids, k.2 = s := by
  induction kids with
  | nil => cases h
  | cons k kids ih =>
    obtain ⟨name, t⟩ := k
    rw [List.lookup_cons] at h
    split at h
    · cases h; exact ⟨_, List.mem_cons_self, rfl⟩
    · obtain ⟨k, hk, e⟩ := ih h
      exact ⟨k, List.mem_cons_of_mem _ hk, e⟩

theorem runBody_onlyAttr (v : PygReset) (own : List (String × NNParam))
    {kids : List (String × ResetView)} (h : ∀ k ∈ kids, k.2.Attr) (r : Option (List ResetAct)) :
    OnlyAttr (runBody v own kids r) := by
  have hl : ∀ attr, ∀ t ∈ kids.lookup attr, t.Attr := by
    intro attr t ht
    obtain ⟨k, hk, rfl⟩ := lookup_mem_view ht
    exact h k hk
  cases r with
  | none => exact onlyAttr_error
  | some acts =>
    refine callAll_onlyAttr fun c hc => ?_
    obtain ⟨act, -, rfl⟩ := List.mem_map.1 hc
    cases act with
    | call attr =>
      change OnlyAttr (callChild (kids.lookup attr))
      cases hk : kids.lookup attr with
      | none => exact onlyAttr_error
      | some s => exact (hl attr s hk).self
    | each attr =>
      change OnlyAttr (callKids (kids.lookup attr))
      cases hk : kids.lookup attr with
      | none => exact onlyAttr_error
      | some s =>
        refine callAll_onlyAttr fun c hc => ?_
        obtain ⟨k, hk', rfl⟩ := List.mem_map.1 hc
        exact (hl attr s hk).kids k hk'
    | soft attr => exact pygReset_onlyAttr v (hl attr)
    | fill name => exact onlyAttr_ok _

mutual
theorem view_attr (v : PygReset) : (m : NNModule) → (m.view v).Attr
  | .mk r own cs => by
    have h := childViews_attr v cs
    rw [NNModule.view]
    refine ⟨runBody_onlyAttr v own h r, ?_, ?_⟩
    · intro k hk
      obtain ⟨c, hc, rfl⟩ := List.mem_map.1 hk
      exact (h c hc).self
    · cases r with
      | none =>
        refine callAll_onlyAttr fun c hc => ?_
        obtain ⟨k, hk, rfl⟩ := List.mem_map.1 hc
        exact (h k hk).deep
      | some acts => exact runBody_onlyAttr v own h (some acts)

theorem childViews_attr (v : PygReset) :
    (cs : List (String × NNModule)) → ∀ k ∈ childViews v cs, k.2.Attr
  | [] => by simp [childViews]
  | (name, m) :: cs => by
    intro k hk
    rw [childViews] at hk
    rcases List.mem_cons.1 hk with rfl | hk
    · exact view_attr v m
    · exact childViews_attr v cs k hk
end

theorem callAll_error {cs : List (Py (List NNParam))} (h : ∀ c ∈ cs, OnlyAttr c)
    (he : Except.error PyErr.attribute ∈ cs) : callAll cs = .error .attribute := by
  induction cs with
  | nil => simp at he
  | cons c cs ih =>
    unfold callAll
    cases c with
    | error e => cases h _ List.mem_cons_self e rfl; rfl
    | ok ps =>
      have := ih (fun c hc => h c (List.mem_cons_of_mem _ hc)) (by simpa using he)
      rw [this]
      rfl

/-- A body raises as soon as one of its statements does. -/
theorem reset_error (v : PygReset) {acts : List ResetAct} {own : List (String × NNParam)}
    {cs : List (String × NNModule)} {act : ResetAct} (ha : act ∈ acts)
    (h : runAct v own (childViews v cs) act = .error .attribute) :
    (NNModule.mk (some acts) own cs).resetParameters v = .error .attribute := by
  unfold NNModule.resetParameters
  rw [NNModule.view]
  refine callAll_error (fun c hc => ?_) (List.mem_map.2 ⟨act, ha, h⟩)
  obtain ⟨a, -, rfl⟩ := List.mem_map.1 hc
  have := runBody_onlyAttr v own (childViews_attr v cs) (some [a])
  intro e he
  refine this e ?_
  simp only [runBody, List.map_cons, List.map_nil, callAll, he]
  rfl

/-! ## Complete resets -/

/-- The action re-initialises exactly the parameters `ps`. -/
def Reaches (x : Py (List NNParam)) (ps : List NNParam) : Prop :=
  ∃ qs, x = .ok qs ∧ ∀ p, p ∈ qs ↔ p ∈ ps

theorem callAll_reaches {cs : List (Py (List NNParam))} {ps : List (List NNParam)}
    (h : List.Forall₂ Reaches cs ps) : Reaches (callAll cs) ps.flatten := by
  induction h with
  | nil => exact ⟨[], rfl, by simp⟩
  | cons hc _ ih =>
    obtain ⟨qs, rfl, hq⟩ := hc
    obtain ⟨rs, e, hr⟩ := ih
    refine ⟨qs ++ rs, ?_, fun p => by simp [hq, hr]⟩
    unfold callAll
    rw [e]
    rfl

theorem Reaches.congr {x : Py (List NNParam)} {ps qs : List NNParam} (h : Reaches x ps)
    (e : ∀ p, p ∈ qs ↔ p ∈ ps) : Reaches x qs := by
  obtain ⟨rs, hx, hr⟩ := h
  exact ⟨rs, hx, fun p => by rw [hr, e]⟩

/-- A module whose `reset_parameters` re-initialises all its parameters. -/
def Complete (v : PygReset) (m : NNModule) : Prop := Reaches (m.resetParameters v) m.params

theorem childViews_eq_map (v : PygReset) (cs : List (String × NNModule)) :
    childViews v cs = cs.map fun c => (c.1, c.2.view v) := by
  induction cs with
  | nil => simp [childViews]
  | cons c cs ih => obtain ⟨name, m⟩ := c; simp [childViews, ih]

theorem childParams_eq (cs : List (String × NNModule)) :
    childParams cs = (cs.map fun c => c.2.params).flatten := by
  induction cs with
  | nil => simp [childParams]
  | cons c cs ih => obtain ⟨name, m⟩ := c; simp [childParams, ih]

theorem view_self (v : PygReset) (m : NNModule) : (m.view v).self = m.resetParameters v := rfl

/-- Resetting every child. -/
theorem callKids_reaches (v : PygReset) {cs : List (String × NNModule)}
    (h : ∀ c ∈ cs, Complete v c.2) (r : Option (List ResetAct)) (own : List (String × NNParam)) :
    Reaches (callKids (some ((NNModule.mk r own cs).view v))) (childParams cs) := by
  rw [childParams_eq]
  unfold callKids
  rw [NNModule.view, childViews_eq_map]
  refine callAll_reaches ?_
  simp only [List.map_map]
  induction cs with
  | nil => exact .nil
  | cons c cs ih =>
    refine .cons (h c List.mem_cons_self) (ih fun c hc => h c (List.mem_cons_of_mem _ hc))

/-- Modules of torch: they have the method, or they have no parameters; they have no children. -/
def SimpleModule (v : PygReset) (m : NNModule) : Prop :=
  ((∃ acts own, m = .mk (some acts) own []) ∧ Complete v m) ∨ m = plainModule

theorem fills_complete (v : PygReset) {names : List String} {own : List (String × NNParam)}
    (h : ∀ p ∈ own, p.1 ∈ names) :
    Complete v (.mk (some (names.map .fill)) own []) := by
  unfold Complete NNModule.resetParameters
  rw [NNModule.view]
  simp only [runBody, params_mk, childParams_nil, List.append_nil, List.map_map]
  refine (callAll_reaches (ps := names.map fun n => (own.filter fun p => p.1 == n).map Prod.snd)
    ?_).congr ?_
  · clear h
    induction names with
    | nil => exact .nil
    | cons n names ih => exact .cons ⟨_, rfl, fun _ => Iff.rfl⟩ ih
  · intro p
    simp only [List.mem_map, List.mem_flatten, exists_exists_and_eq_and, List.mem_filter]
    constructor
    · rintro ⟨q, hq, rfl⟩
      exact ⟨q.1, h q hq, q, ⟨hq, by simp⟩, rfl⟩
    · rintro ⟨n, -, q, ⟨hq, -⟩, rfl⟩
      exact ⟨q, hq, rfl⟩

theorem newLeaf_eq (sizes : List (String × Nat)) (n : Nat) :
    (newLeaf sizes n).1 =
      .mk (some ((sizes.map Prod.fst).map .fill)) (newParams sizes n).1 [] := by
  simp [newLeaf, bind_run, pure_run, List.map_map, Function.comp_def]

theorem newLeaf_simple (v : PygReset) (sizes : List (String × Nat)) (n : Nat) :
    SimpleModule v (newLeaf sizes n).1 := by
  rw [newLeaf_eq]
  refine Or.inl ⟨⟨_, _, rfl⟩, fills_complete v fun p hp => ?_⟩
  rw [← newParams_names sizes n]
  exact List.mem_map_of_mem hp

theorem newLinear_simple (v : PygReset) (i o : Nat) (bias : Bool) (n : Nat) :
    SimpleModule v (newLinear i o bias n).1 := newLeaf_simple v _ n

theorem newEmbedding_simple (v : PygReset) (i o : Nat) (n : Nat) :
    SimpleModule v (newEmbedding i o n).1 := newLeaf_simple v _ n

theorem newMod_simple (v : PygReset) (m : Mod) (n : Nat) : SimpleModule v (newMod m n).1 := by
  cases m with
  | linear i o => exact newLeaf_simple v _ n
  | norm k => exact newLeaf_simple v _ n
  | pointwise => exact Or.inr rfl

theorem newLinear_complete (v : PygReset) (i o : Nat) (bias : Bool) (n : Nat) :
    Complete v (newLinear i o bias n).1 := by
  rcases newLinear_simple v i o bias n with h | h
  · exact h.2
  · unfold newLinear at h
    rw [newLeaf_eq] at h
    cases h

/-- `reset` on a module of torch. -/
theorem pygReset_simple (v : PygReset) {m : NNModule} (h : SimpleModule v m) :
    Reaches (pygReset v (some (m.view v))) m.params := by
  rcases h with ⟨⟨acts, own, rfl⟩, h⟩ | rfl
  · unfold Complete NNModule.resetParameters at h
    rw [NNModule.view] at h ⊢
    cases v <;> simpa [pygReset, childViews, deepReset] using h
  · unfold plainModule
    rw [NNModule.view]
    refine ⟨[], ?_, by simp [params_mk, childParams_nil]⟩
    cases v <;> simp [pygReset, childViews, deepReset, runBody, callAll]

theorem plain_has (v : PygReset) : (plainModule.view v).has = false := by
  simp [plainModule, NNModule.view]

theorem called_reaches {cs : List (String × NNModule)} (h : ∀ c ∈ cs, SimpleModule .children c.2) :
    Reaches (callAll (((cs.map fun c => ((c.2.view .children).has, (c.2.view .children).self)).filter
      Prod.fst).map Prod.snd)) (childParams cs) := by
  induction cs with
  | nil => exact ⟨[], rfl, by simp [childParams_nil]⟩
  | cons c cs ih =>
    have hr := ih fun c hc => h c (List.mem_cons_of_mem _ hc)
    obtain ⟨name, m⟩ := c
    rcases h (name, m) List.mem_cons_self with ⟨⟨acts, own, e⟩, hm⟩ | e
    · have hh : (m.view .children).has = true := by
        change m = _ at e
        rw [e, NNModule.view]; rfl
      rw [List.map_cons, List.filter_cons_of_pos (by exact hh), List.map_cons, childParams_cons]
      obtain ⟨qs, eq, hq⟩ := hr
      obtain ⟨rs, er, hr⟩ := hm
      refine ⟨rs ++ qs, ?_, fun p => by simp [hr, hq]⟩
      unfold callAll
      rw [view_self, er, eq]
      rfl
    · change m = _ at e
      rw [List.map_cons, List.filter_cons_of_neg (by simp [e, plain_has]), childParams_cons, e,
        params_plainModule]
      exact hr

/-- `reset` on a `Sequential` of modules of torch. -/
theorem pygReset_list (v : PygReset) {cs : List (String × NNModule)}
    (h : ∀ c ∈ cs, SimpleModule v c.2) :
    Reaches (pygReset v (some ((NNModule.mk none [] cs).view v))) (childParams cs) := by
  cases v with
  | deep =>
    rw [childParams_eq, NNModule.view]
    simp only [pygReset, deepReset, childViews_eq_map, List.map_map]
    refine callAll_reaches ?_
    induction cs with
    | nil => exact .nil
    | cons c cs ih =>
      exact .cons (pygReset_simple .deep (h c List.mem_cons_self))
        (ih fun c hc => h c (List.mem_cons_of_mem _ hc))
  | children =>
    have hc := called_reaches h
    rw [NNModule.view]
    simp only [pygReset, childViews_eq_map, List.map_map, Function.comp_def]
    cases cs with
    | nil => exact ⟨[], by simp, by simp [childParams_nil]⟩
    | cons c cs => exact hc

theorem newMany_mem {bs : List (StateM Nat NNModule)} {P : NNModule → Prop}
    (h : ∀ b ∈ bs, ∀ n, P (b n).1) (n : Nat) : ∀ c ∈ (newMany bs n).1, P c.2 := by
  induction bs generalizing n with
  | nil => intro c hc; cases hc
  | cons b bs ih =>
    intro c hc
    change c ∈ ("", (b n).1) :: (newMany bs (b n).2).1 at hc
    rcases List.mem_cons.1 hc with rfl | hc
    · exact h b List.mem_cons_self n
    · exact ih (fun b hb => h b (List.mem_cons_of_mem _ hb)) _ c hc

theorem newSeq_eq (ms : List Mod) (n : Nat) :
    (newSeq ms n).1 = .mk none [] (newMany (ms.map newMod) n).1 := rfl

/-- `reset(Sequential(…))`. -/
theorem newSeq_reset (v : PygReset) (ms : List Mod) (n : Nat) :
    Reaches (pygReset v (some ((newSeq ms n).1.view v))) (newSeq ms n).1.params := by
  rw [newSeq_eq]
  have := pygReset_list v (cs := (newMany (ms.map newMod) n).1) (newMany_mem (by
    intro b hb n
    obtain ⟨m, -, rfl⟩ := List.mem_map.1 hb
    exact newMod_simple v m n) n)
  simpa [params_mk] using this

theorem params_list (cs : List (String × NNModule)) : (NNModule.mk none [] cs).params = childParams cs := by
  simp [params_mk]

/-- `for child in self.attr: child.reset_parameters()` over a `ModuleList`. -/
theorem newList_each (v : PygReset) {bs : List (StateM Nat NNModule)}
    (h : ∀ b ∈ bs, ∀ n, Complete v (b n).1) (n : Nat) :
    Reaches (callKids (some ((newList bs n).1.view v))) (newList bs n).1.params := by
  change Reaches (callKids (some ((NNModule.mk none [] (newMany bs n).1).view v)))
    (NNModule.mk none [] (newMany bs n).1).params
  rw [params_list]
  exact callKids_reaches v (newMany_mem h n) _ _

/-- `for child in self.attr: child.reset_parameters()` over modules without the method. -/
theorem newList_each_error (v : PygReset) {bs : List (StateM Nat NNModule)} (hne : bs ≠ [])
    (h : ∀ b ∈ bs, ∀ n, ∃ own cs, (b n).1 = .mk none own cs) (n : Nat) :
    callKids (some ((newList bs n).1.view v)) = .error .attribute := by
  cases bs with
  | nil => exact absurd rfl hne
  | cons b bs =>
    obtain ⟨own, cs, e⟩ := h b List.mem_cons_self n
    change callKids (some ((NNModule.mk none [] (("", (b n).1) :: (newMany bs (b n).2).1)).view v)) = _
    rw [NNModule.view, childViews, e, NNModule.view]
    rfl

/-- A `ModuleList` has no `reset_parameters`. -/
theorem newList_call_error (v : PygReset) (bs : List (StateM Nat NNModule)) (n : Nat) :
    callChild (some ((newList bs n).1.view v)) = .error .attribute := by
  change callChild (some ((NNModule.mk none [] (newMany bs n).1).view v)) = _
  rw [NNModule.view]
  rfl

theorem jump_call (v : PygReset) : callChild (some (jumpModule.view v)) = .ok [] := by
  simp [jumpModule, NNModule.view, callChild, runBody, callAll]

/-! ## Bodies -/

/-- The body of a `reset_parameters`, statement by statement. -/
theorem body_reaches (v : PygReset) {acts : List ResetAct} {own : List (String × NNParam)}
    {cs : List (String × NNModule)} {ps : List (List NNParam)}
    (h : List.Forall₂ Reaches (acts.map (runAct v own (childViews v cs))) ps) :
    Reaches ((NNModule.mk (some acts) own cs).resetParameters v) ps.flatten := by
  unfold NNModule.resetParameters
  rw [NNModule.view]
  exact callAll_reaches h

end Verif
