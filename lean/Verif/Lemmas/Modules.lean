import Verif.Model.Modules
import Verif.Spec.Modules
import Mathlib.Algebra.BigOperators.Group.Finset.Basic
import Mathlib.Tactic.Ring

/-!
# Lemmas on modules and their parameters
-/

namespace Verif

open Finset

/-! ## Counting without repetitions -/

/-- The number of elements of the distinct parameters. -/
def distinctSize (ps : List NNParam) : Nat := ∑ p ∈ ps.toFinset, p.numel

theorem mem_skipSeen (seen ps : List NNParam) (q : NNParam) :
    q ∈ skipSeen seen ps ↔ q ∈ ps ∧ q ∉ seen := by
  induction ps generalizing seen with
  | nil => simp [skipSeen]
  | cons p ps ih =>
    unfold skipSeen
    by_cases hp : p ∈ seen
    · simp only [hp, if_true, ih, List.mem_cons]
      constructor
      · rintro ⟨h, h'⟩
        exact ⟨Or.inr h, h'⟩
      · rintro ⟨h | h, h'⟩
        · exact absurd hp (h ▸ h')
        · exact ⟨h, h'⟩
    · simp only [hp, if_false, List.mem_cons, ih, not_or]
      constructor
      · rintro (h | ⟨h, -, h'⟩)
        · exact ⟨Or.inl h, h ▸ hp⟩
        · exact ⟨Or.inr h, h'⟩
      · rintro ⟨h | h, h'⟩
        · exact Or.inl h
        · by_cases e : q = p
          · exact Or.inl e
          · exact Or.inr ⟨h, e, h'⟩

theorem nodup_skipSeen (seen ps : List NNParam) : (skipSeen seen ps).Nodup := by
  induction ps generalizing seen with
  | nil => simp [skipSeen]
  | cons p ps ih =>
    unfold skipSeen
    split
    · exact ih seen
    · refine List.nodup_cons.2 ⟨fun h => ?_, ih _⟩
      exact ((mem_skipSeen _ _ _).1 h).2 List.mem_cons_self

theorem foldl_numel (ps : List NNParam) (n : Nat) :
    ps.foldl (fun total p => total + p.numel) n = n + (ps.map NNParam.numel).sum := by
  induction ps generalizing n with
  | nil => simp
  | cons p ps ih => simp [ih]; omega

theorem totalParams_eq (m : NNModule) : m.totalParams = distinctSize m.params := by
  unfold NNModule.totalParams NNModule.namedParameters distinctSize
  rw [foldl_numel, Nat.zero_add, ← List.sum_toFinset _ (nodup_skipSeen _ _)]
  congr 1
  ext q
  simp [mem_skipSeen]

theorem distinctSize_congr {ps qs : List NNParam} (h : ∀ p, p ∈ ps ↔ p ∈ qs) :
    distinctSize ps = distinctSize qs := by
  unfold distinctSize
  congr 1
  ext p
  simp [h]

theorem distinctSize_nil : distinctSize [] = 0 := rfl

theorem distinctSize_append {ps qs : List NNParam} (h : ∀ p ∈ ps, p ∉ qs) :
    distinctSize (ps ++ qs) = distinctSize ps + distinctSize qs := by
  unfold distinctSize
  rw [List.toFinset_append, sum_union]
  rw [Finset.disjoint_left]
  intro p hp hq
  exact h p (List.mem_toFinset.1 hp) (List.mem_toFinset.1 hq)

/-! ## Fresh identities -/

/-- The parameters `ps` were created while the next free identity went from `n` to `n'`, and have `c`
elements. -/
structure Fresh (n : Nat) (ps : List NNParam) (n' c : Nat) : Prop where
  le : n ≤ n'
  ids : ∀ p ∈ ps, n ≤ p.id ∧ p.id < n'
  size : distinctSize ps = c

theorem Fresh.nil (n : Nat) : Fresh n [] n 0 := ⟨le_rfl, by simp, distinctSize_nil⟩

theorem Fresh.append {n n' n'' c d : Nat} {ps qs : List NNParam} (h : Fresh n ps n' c)
    (h' : Fresh n' qs n'' d) : Fresh n (ps ++ qs) n'' (c + d) where
  le := h.le.trans h'.le
  ids p hp := by
    rcases List.mem_append.1 hp with hp | hp
    · exact ⟨(h.ids p hp).1, (h.ids p hp).2.trans_le h'.le⟩
    · exact ⟨h.le.trans (h'.ids p hp).1, (h'.ids p hp).2⟩
  size := by
    rw [distinctSize_append, h.size, h'.size]
    intro p hp hq
    have := (h.ids p hp).2
    have := (h'.ids p hq).1
    omega

theorem Fresh.congr {n n' c : Nat} {ps qs : List NNParam} (h : Fresh n ps n' c)
    (hq : ∀ p, p ∈ qs ↔ p ∈ ps) : Fresh n qs n' c where
  le := h.le
  ids p hp := h.ids p ((hq p).1 hp)
  size := by rw [distinctSize_congr hq, h.size]

/-- A part of the parameters, with a gap before it. -/
theorem Fresh.weaken {m n n' c : Nat} {ps : List NNParam} (h : Fresh n ps n' c) (hm : m ≤ n) :
    Fresh m ps n' c where
  le := hm.trans h.le
  ids p hp := ⟨hm.trans (h.ids p hp).1, (h.ids p hp).2⟩
  size := h.size

/-- A constructor creates modules whose parameters have `c` elements. -/
def Creates (b : StateM Nat NNModule) (c : Nat) : Prop := ∀ n, Fresh n (b n).1.params (b n).2 c

/-- A constructor of several modules. -/
def CreatesAll (b : StateM Nat (List (String × NNModule))) (c : Nat) : Prop :=
  ∀ n, Fresh n (childParams (b n).1) (b n).2 c

/-- The parameters of an optional module. -/
def optParams (m : Option NNModule) : List NNParam := (m.map NNModule.params).getD []

/-- A constructor of an optional module. -/
def CreatesOpt (b : StateM Nat (Option NNModule)) (c : Nat) : Prop :=
  ∀ n, Fresh n (optParams (b n).1) (b n).2 c

theorem childParams_append (cs ds : List (String × NNModule)) :
    childParams (cs ++ ds) = childParams cs ++ childParams ds := by
  induction cs with
  | nil => simp [childParams]
  | cons c cs ih => obtain ⟨name, m⟩ := c; simp [childParams, ih]

theorem childParams_cons (name : String) (m : NNModule) (cs : List (String × NNModule)) :
    childParams ((name, m) :: cs) = m.params ++ childParams cs := by simp [childParams]

theorem childParams_nil : childParams [] = [] := by simp [childParams]

theorem params_mk (r : Option (List ResetAct)) (own : List (String × NNParam))
    (cs : List (String × NNModule)) :
    (NNModule.mk r own cs).params = own.map Prod.snd ++ childParams cs := by simp [NNModule.params]

theorem childParams_optChild (name : String) (m : Option NNModule) :
    childParams (optChild name m) = optParams m := by
  cases m <;> simp [optChild, optParams, childParams]

theorem mem_childParams {cs : List (String × NNModule)} {p : NNParam} :
    p ∈ childParams cs ↔ ∃ c ∈ cs, p ∈ c.2.params := by
  induction cs with
  | nil => simp [childParams]
  | cons c cs ih => obtain ⟨name, m⟩ := c; simp [childParams, ih]

theorem newParams_fresh (sizes : List (String × Nat)) (n : Nat) :
    Fresh n ((newParams sizes n).1.map Prod.snd) (newParams sizes n).2 (sizes.map Prod.snd).sum := by
  induction sizes generalizing n with
  | nil => exact Fresh.nil n
  | cons s sizes ih =>
    have h1 : Fresh n [{ id := n, numel := s.2 }] (n + 1) s.2 :=
      ⟨by omega, by simp, by simp [distinctSize]⟩
    exact h1.append (ih (n + 1))

theorem newParams_names (sizes : List (String × Nat)) (n : Nat) :
    (newParams sizes n).1.map Prod.fst = sizes.map Prod.fst := by
  induction sizes generalizing n with
  | nil => rfl
  | cons s sizes ih => exact congrArg (s.1 :: ·) (ih (n + 1))

theorem newLeaf_creates (sizes : List (String × Nat)) :
    Creates (newLeaf sizes) (sizes.map Prod.snd).sum := by
  intro n
  have := newParams_fresh sizes n
  refine this.congr fun p => ?_
  change p ∈ (NNModule.mk _ (newParams sizes n).1 []).params ↔ _
  simp [params_mk, childParams_nil]

theorem newLinear_creates (i o : Nat) : Creates (newLinear i o) (Count.linear i o) := by
  have := newLeaf_creates [("weight", o * i), ("bias", o)]
  simpa [newLinear, Count.linear, Nat.mul_comm] using this

theorem newLinear_creates_noBias (i o : Nat) : Creates (newLinear i o false) (i * o) := by
  have := newLeaf_creates [("weight", o * i)]
  simpa [newLinear, Nat.mul_comm] using this

theorem newNorm_creates (m : Nat) : Creates (newNorm m) (2 * m) := by
  have := newLeaf_creates [("weight", m), ("bias", m)]
  simpa [newNorm, Nat.two_mul] using this

theorem newEmbedding_creates (num dim : Nat) : Creates (newEmbedding num dim) (num * dim) := by
  have := newLeaf_creates [("weight", num * dim)]
  simpa [newEmbedding] using this

theorem pure_plain_creates : Creates (pure plainModule) 0 := by
  intro n
  exact (Fresh.nil n).congr fun p => by
    change p ∈ plainModule.params ↔ _
    simp [plainModule, params_mk, childParams_nil]

/-- The size of a module given by its sizes. -/
def Mod.count : Mod → Nat
  | .linear i o => Count.linear i o
  | .norm n => 2 * n
  | .pointwise => 0

theorem newMod_creates (m : Mod) : Creates (newMod m) m.count := by
  cases m with
  | linear i o => exact newLinear_creates i o
  | norm n => exact newNorm_creates n
  | pointwise => exact pure_plain_creates

theorem newMany_creates {bs : List (StateM Nat NNModule)} {cs : List Nat}
    (h : List.Forall₂ Creates bs cs) : CreatesAll (newMany bs) cs.sum := by
  induction h with
  | nil => intro n; exact (Fresh.nil n).congr fun p => by change p ∈ childParams [] ↔ _; simp [childParams]
  | @cons b c bs cs hb hbs ih =>
    intro n
    have h1 := hb n
    have h2 := ih (b n).2
    have h3 := h1.append h2
    rw [List.sum_cons]
    exact h3.congr fun p => by
      change p ∈ childParams (("", (b n).1) :: (newMany bs (b n).2).1) ↔ _
      simp [childParams]

theorem newList_creates {bs : List (StateM Nat NNModule)} {cs : List Nat}
    (h : List.Forall₂ Creates bs cs) : Creates (newList bs) cs.sum := by
  intro n
  refine (newMany_creates h n).congr fun p => ?_
  change p ∈ (NNModule.mk none [] (newMany bs n).1).params ↔ _
  simp [params_mk]

theorem newSeq_creates (ms : List Mod) : Creates (newSeq ms) (ms.map Mod.count).sum := by
  refine newList_creates ?_
  induction ms with
  | nil => exact .nil
  | cons m ms ih => exact .cons (newMod_creates m) ih

theorem newList_replicate_creates {b : StateM Nat NNModule} {c : Nat} (h : Creates b c) (k : Nat) :
    Creates (newList (List.replicate k b)) (k * c) := by
  have : List.Forall₂ Creates (List.replicate k b) (List.replicate k c) := by
    induction k with
    | zero => exact .nil
    | succ k ih => exact .cons h ih
  simpa using newList_creates this

theorem sum_layerDim (f : Nat → Nat) (inp h L : Nat) :
    ((List.range L).map fun i => f (layerDim inp h i)).sum = Count.stack L (f inp) (f h) := by
  cases L with
  | zero => rfl
  | succ L =>
    rw [List.range_succ_eq_map, List.map_cons, List.sum_cons, List.map_map]
    have : ((fun i => f (layerDim inp h i)) ∘ Nat.succ) = fun _ => f h := by
      funext i; simp [layerDim]
    rw [this]
    simp [Count.stack, layerDim]

theorem newList_layers_creates {b : Nat → StateM Nat NNModule} {c : Nat → Nat}
    (h : ∀ d, Creates (b d) (c d)) (inp hid L : Nat) :
    Creates (newList ((List.range L).map fun i => b (layerDim inp hid i)))
      (Count.stack L (c inp) (c hid)) := by
  rw [← sum_layerDim]
  refine newList_creates ?_
  generalize List.range L = l
  induction l with
  | nil => exact .nil
  | cons i l ih => exact .cons (h _) ih

theorem newOpt_creates_none : CreatesOpt (newOpt none) 0 := fun n => Fresh.nil n

theorem newOpt_creates_some {b : StateM Nat NNModule} {c : Nat} (h : Creates b c) :
    CreatesOpt (newOpt (some b)) c := fun n => (h n).congr fun p => by
  change p ∈ optParams (some (b n).1) ↔ _
  simp [optParams]

theorem bind_run {α β : Type} (b : StateM Nat α) (f : α → StateM Nat β) (n : Nat) :
    (b >>= f) n = f (b n).1 (b n).2 := rfl

theorem pure_run {α : Type} (a : α) (n : Nat) : (pure a : StateM Nat α) n = (a, n) := rfl

/-! ## Convolutions -/

theorem norm_count {name : String} {norm : Nat → Mod} (h : getGraphNorm name = .ok norm) (n : Nat) :
    (norm n).count = Count.norm name n := by
  unfold getGraphNorm at h
  unfold Count.norm
  split at h
  · cases h; subst_vars; simp [Mod.count]
  · split at h
    · cases h; subst_vars; simp [Mod.count]
    · split at h
      · cases h; simp_all [Mod.count]
      · cases h

theorem act_count {name : String} {act : Mod} (h : getNonlinearity name = .ok act) : act = .pointwise := by
  unfold getNonlinearity at h
  repeat' split at h
  all_goals cases h <;> rfl

theorem updateNet_count {name : String} {norm : Nat → Mod} (h : getGraphNorm name = .ok norm)
    (d hid : Nat) : ((updateNet d hid norm .pointwise).map Mod.count).sum = Count.mlp name d hid := by
  simp only [updateNet, List.map_cons, List.map_nil, List.sum_cons, List.sum_nil, norm_count h]
  simp only [Mod.count, Count.mlp]
  omega

theorem msgNet_creates (d : Nat) (cob : Bool) :
    CreatesOpt (newMsgNet d .pointwise cob) (Count.message cob d) := by
  cases cob with
  | false => exact newOpt_creates_none
  | true =>
    have := newOpt_creates_some
      (newSeq_creates [.pointwise, .linear (d * 2) d, .pointwise])
    simpa [newMsgNet, msgUpNet, Mod.count, Count.message, Nat.mul_comm d 2] using this

theorem sparseLevel_creates {name : String} {norm : Nat → Mod} (h : getGraphNorm name = .ok norm)
    (d hid : Nat) (cob eps : Bool) :
    Creates (newSparseLevel d hid norm .pointwise cob eps) (Count.sparseLevel name d hid cob eps) := by
  intro n
  have h1 := msgNet_creates d cob n
  have h2 := newSeq_creates (updateNet d hid norm .pointwise) _ |> h1.append
  have h3 := newSeq_creates (updateNet d hid norm .pointwise) _ |> h2.append
  have h4 := newSeq_creates [.linear (hid * 2) hid, norm hid, .pointwise] _ |> h3.append
  have h5 := newParams_fresh (if eps then [("eps1", 1), ("eps2", 1)] else []) _ |> h4.append
  have e : Count.message cob d + ((updateNet d hid norm .pointwise).map Mod.count).sum +
      ((updateNet d hid norm .pointwise).map Mod.count).sum +
      (([.linear (hid * 2) hid, norm hid, .pointwise] : List Mod).map Mod.count).sum +
      ((if eps then [("eps1", 1), ("eps2", 1)] else [] : List (String × Nat)).map Prod.snd).sum =
      Count.sparseLevel name d hid cob eps := by
    simp only [updateNet_count h, List.map_cons, List.map_nil, List.sum_cons, List.sum_nil,
      norm_count h, Count.sparseLevel]
    rw [Nat.mul_comm 2 hid]
    cases eps <;> simp [Mod.count] <;> omega
  rw [e] at h5
  refine h5.congr fun p => ?_
  simp only [newSparseLevel, bind_run, pure_run, params_mk, childParams_append, childParams_cons,
    childParams_nil, childParams_optChild, List.mem_append, List.append_nil]
  tauto

theorem ppLevel_creates {name : String} {norm : Nat → Mod} (h : getGraphNorm name = .ok norm)
    (d hid : Nat) (cob eps : Bool) :
    Creates (newPPLevel d hid norm .pointwise cob eps) (Count.ppLevel name d hid cob eps) := by
  intro n
  have h1 := msgNet_creates d cob n
  have h2 := msgNet_creates d cob _ |> h1.append
  have h3 := newSeq_creates (updateNet d hid norm .pointwise) _ |> h2.append
  have h4 := newSeq_creates (updateNet d hid norm .pointwise) _ |> h3.append
  have h5 := newSeq_creates (updateNet d hid norm .pointwise) _ |> h4.append
  have h6 := newSeq_creates [.linear (hid * 3) hid, norm hid, .pointwise] _ |> h5.append
  have h7 := newParams_fresh (if eps then [("eps1", 1), ("eps2", 1), ("eps3", 1)] else []) _ |> h6.append
  have e : Count.message cob d + Count.message cob d +
      ((updateNet d hid norm .pointwise).map Mod.count).sum +
      ((updateNet d hid norm .pointwise).map Mod.count).sum +
      ((updateNet d hid norm .pointwise).map Mod.count).sum +
      (([.linear (hid * 3) hid, norm hid, .pointwise] : List Mod).map Mod.count).sum +
      ((if eps then [("eps1", 1), ("eps2", 1), ("eps3", 1)] else [] : List (String × Nat)).map
        Prod.snd).sum =
      Count.ppLevel name d hid cob eps := by
    simp only [updateNet_count h, List.map_cons, List.map_nil, List.sum_cons, List.sum_nil,
      norm_count h, Count.ppLevel]
    rw [Nat.mul_comm 3 hid]
    cases eps <;> simp [Mod.count] <;> omega
  rw [e] at h7
  refine h7.congr fun p => ?_
  simp only [newPPLevel, bind_run, pure_run, params_mk, childParams_append, childParams_cons,
    childParams_nil, childParams_optChild, List.mem_append, List.append_nil]
  tauto

theorem newLevels_creates {b : StateM Nat NNModule} {c : Nat} (h : Creates b c) (D : Nat) :
    Creates (newLevels D b) ((D + 1) * c) := by
  intro n
  refine (newList_replicate_creates h (D + 1) n).congr fun p => ?_
  simp only [newLevels, bind_run, pure_run, params_mk, childParams_cons, childParams_nil,
    List.map_nil, List.nil_append, List.append_nil]

theorem cinUpdate_count (d hid : Nat) : ((cinUpdate d hid .pointwise).map Mod.count).sum =
    Count.linear d hid + Count.linear hid hid + 2 * hid := by
  simp [cinUpdate, Mod.count]; omega

theorem cinMsg_count (i d : Nat) :
    ((cinMsg i d .pointwise).map Mod.count).sum = Count.linear i d + 2 * d := by
  simp [cinMsg, Mod.count]

theorem mem_params_cinLevel (up update : NNModule) (down : Option NNModule) (p : NNParam) :
    p ∈ (cinLevel up down update).params ↔ p ∈ up.params ∨ p ∈ optParams down ∨ p ∈ update.params := by
  simp [cinLevel, params_mk, childParams_append, childParams_cons, childParams_nil,
    childParams_optChild]

theorem newCINConv_creates (D d hid : Nat) :
    Creates (newCINConv D d hid .pointwise) (Count.cin0Layer d hid) := by
  intro n
  have h1 := newSeq_creates (cinUpdate d hid .pointwise) n
  have h2 := newSeq_creates (cinMsg (d * 2) d .pointwise) _ |> h1.append
  have h3 := newSeq_creates (cinMsg (d * 2) d .pointwise) _ |> h2.append
  rw [cinUpdate_count, cinMsg_count] at h3
  have e : Count.linear d hid + Count.linear hid hid + 2 * hid + (Count.linear (d * 2) d + 2 * d) +
      (Count.linear (d * 2) d + 2 * d) = Count.cin0Layer d hid := by
    rw [Nat.mul_comm d 2]; simp only [Count.cin0Layer]; omega
  rw [e] at h3
  refine h3.congr fun p => ?_
  simp only [newCINConv, bind_run, pure_run, params_mk, childParams_cons,
    childParams_nil, List.mem_append, List.append_nil, List.map_nil, List.nil_append, mem_childParams,
    List.mem_replicate]
  constructor
  · rintro ⟨c, ⟨-, rfl⟩, hc⟩
    simp only [mem_params_cinLevel, optParams, Option.map_some, Option.getD_some] at hc
    tauto
  · intro hp
    refine ⟨_, ⟨by omega, rfl⟩, ?_⟩
    simp only [mem_params_cinLevel, optParams, Option.map_some, Option.getD_some]
    tauto

theorem newEdgeCINConv_creates (d hid : Nat) (top : Bool) :
    Creates (newEdgeCINConv d hid .pointwise top) (Count.edgeLayer d hid top) := by
  intro n
  have h1 := newSeq_creates (cinUpdate d hid .pointwise) n
  have h2 := newSeq_creates (cinUpdate d hid .pointwise) _ |> h1.append
  have h3 := newSeq_creates (cinMsg (d * 2) d .pointwise) _ |> h2.append
  have h4 := newSeq_creates (cinMsg (d * 2) d .pointwise) _ |> h3.append
  have h5 := newSeq_creates (cinMsg (if top then d * 2 else d) d .pointwise) _ |> h4.append
  rw [cinUpdate_count, cinMsg_count, cinMsg_count] at h5
  have e : Count.linear d hid + Count.linear hid hid + 2 * hid +
      (Count.linear d hid + Count.linear hid hid + 2 * hid) + (Count.linear (d * 2) d + 2 * d) +
      (Count.linear (d * 2) d + 2 * d) + (Count.linear (if top then d * 2 else d) d + 2 * d) =
      Count.edgeLayer d hid top := by
    rw [Nat.mul_comm d 2]; simp only [Count.edgeLayer]; omega
  rw [e] at h5
  refine h5.congr fun p => ?_
  simp only [newEdgeCINConv, bind_run, pure_run, params_mk, childParams_cons,
    childParams_nil, List.mem_append, List.append_nil, List.map_nil, List.nil_append,
    mem_params_cinLevel, optParams, Option.map_some, Option.map_none, Option.getD_none,
    Option.getD_some, List.not_mem_nil]
  tauto

theorem newOriented_creates (up : Bool) (d hid : Nat) :
    Creates (newOrientedConv up d hid) ((if up then 3 else 2) * (d * hid)) := by
  intro n
  have h1 : Fresh n (optParams ((newOpt (if up then some (newLinear d hid false) else none)) n).1)
      ((newOpt (if up then some (newLinear d hid false) else none)) n).2
      (if up then d * hid else 0) := by
    cases up with
    | false => exact newOpt_creates_none n
    | true => exact newOpt_creates_some (newLinear_creates_noBias d hid) n
  have h2 := newLinear_creates_noBias d hid _ |> h1.append
  have h3 := newLinear_creates_noBias d hid _ |> h2.append
  have e : (if up then d * hid else 0) + d * hid + d * hid = (if up then 3 else 2) * (d * hid) := by
    cases up <;> simp <;> omega
  rw [e] at h3
  refine h3.congr fun p => ?_
  simp only [newOrientedConv, bind_run, pure_run, params_mk, childParams_append, childParams_cons,
    childParams_nil, childParams_optChild, List.mem_append, List.append_nil, List.map_nil,
    List.nil_append]
  tauto

theorem newGINConv_creates (ms : List Mod) (eps : Bool) :
    Creates (newGINConv ms eps) ((ms.map Mod.count).sum + if eps then 1 else 0) := by
  intro n
  have h1 := newSeq_creates ms n
  have h2 := newParams_fresh (if eps then [("eps", 1)] else []) _ |> h1.append
  have e : ((if eps then [("eps", 1)] else [] : List (String × Nat)).map Prod.snd).sum =
      if eps then 1 else 0 := by cases eps <;> rfl
  rw [e] at h2
  refine h2.congr fun p => ?_
  simp only [newGINConv, bind_run, pure_run, params_mk, childParams_cons,
    childParams_nil, List.mem_append, List.append_nil]
  tauto

theorem newEncoder_creates (dims : List Nat) (dim : Nat) :
    Creates (newEncoder dims dim) (dims.sum * dim) := by
  intro n
  have h : List.Forall₂ Creates (dims.map fun num => newEmbedding num dim) (dims.map (· * dim)) := by
    induction dims with
    | nil => exact .nil
    | cons k dims ih => exact .cons (newEmbedding_creates k dim) ih
  have e : (dims.map (· * dim)).sum = dims.sum * dim := by
    induction dims with
    | nil => simp
    | cons k dims ih => simp [ih, Nat.add_mul] at *; exact ih h.2
  have h1 := newList_creates h n
  rw [e] at h1
  refine h1.congr fun p => ?_
  simp only [newEncoder, bind_run, pure_run, params_mk, childParams_cons,
    childParams_nil, List.append_nil, List.map_nil, List.nil_append]

end Verif
