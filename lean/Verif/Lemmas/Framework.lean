import Verif.Model.Framework
import Verif.Lemmas.Scatter

/-!
# Lemmas on the message passing framework
-/

namespace Verif

variable {R : Type}

/-! ## The same results, up to the exception -/

/-- Two computations that succeed in the same cases, with the same results. -/
def OkEq {α : Type} (x y : Py α) : Prop := ∀ r, x = .ok r ↔ y = .ok r

theorem OkEq.refl {α : Type} (x : Py α) : OkEq x x := fun _ => Iff.rfl

theorem OkEq.bind {α β : Type} {x y : Py α} {f g : α → Py β} (h : OkEq x y)
    (hf : ∀ a, OkEq (f a) (g a)) : OkEq (x >>= f) (y >>= g) := by
  intro r
  rw [bind_eq_ok, bind_eq_ok]
  exact ⟨fun ⟨a, ha, hr⟩ => ⟨a, (h a).mp ha, (hf a r).mp hr⟩,
    fun ⟨a, ha, hr⟩ => ⟨a, (h a).mpr ha, (hf a r).mpr hr⟩⟩

/-! ## One argument -/

/-- What an argument needs of the sizes: nothing, or that the axis `dim` has the size of the rows. -/
def applySize (s : Sizes) : Option (Nat × List R) → Py Sizes
  | none => .ok s
  | some (dim, rows) => setSize s dim (.tensor rows)

/-- What becomes of an argument apart from the sizes: the value to store (`none`: the argument is
skipped) and the demand on the sizes. -/
def liftPlan (flow : Flow) (index : Adj R) (arg : String) (dim : Nat) (data sizeData : Val R) :
    Py (Option (Val R) × Option (Nat × List R)) :=
  match data with
  | .tensor rows => do
    let rows' ← lift rows index (if argSuffix arg = "_j" then flow.dims.2 else flow.dims.1)
    match sizeData with
    | .tensor sized => .ok (some (.tensor rows'), some (dim, sized))
    | _ => .error .attribute
  | .seq => .error .value
  | .ids _ => .error .index
  | data => .ok (some data, none)

/-- See `liftPlan`. -/
def argPlan (flow : Flow) (index : Adj R) (a : AdjKind) (kwargs : ArgDict R) (arg : String) :
    Py (Option (Val R) × Option (Nat × List R)) :=
  if argSuffix arg ≠ "_i" ∧ argSuffix arg ≠ "_j" then .ok (some (kwargs.get arg), none)
  else if index.isNone then .ok (none, none)
  else
    match argData a kwargs arg (if argSuffix arg = "_j" then 0 else 1) with
    | none => .ok (none, none)
    | some (data, sizeData) =>
      liftPlan flow index arg (if argSuffix arg = "_j" then 0 else 1) data sizeData

/-- `d[k] = v`, or nothing. -/
def ArgDict.setOpt (d : ArgDict R) (k : String) : Option (Val R) → ArgDict R
  | none => d
  | some v => d.set k v

theorem setSize_of_ok {s s' : Sizes} {dim : Nat} {v : Val R} (h : setSize s dim v = .ok s') :
    ∃ rows, v = .tensor rows := by
  cases v <;> simp [setSize] at h ⊢

theorem collectArg_ok {flow : Flow} {index : Adj R} {a : AdjKind} {kwargs : ArgDict R}
    {st st' : ArgDict R × Sizes} {arg : String} :
    collectArg flow index a kwargs st arg = .ok st' ↔
      ∃ v t, argPlan flow index a kwargs arg = .ok (v, t) ∧ applySize st.2 t = .ok st'.2 ∧
        st'.1 = st.1.setOpt arg v := by
  obtain ⟨d', s'⟩ := st'
  unfold collectArg argPlan
  split
  · constructor
    · intro h
      cases h
      exact ⟨_, _, rfl, rfl, rfl⟩
    · rintro ⟨v, t, h, h2, h3⟩
      cases h
      cases h2
      rw [ok_inj]
      exact Prod.ext h3.symm rfl
  · split
    · constructor
      · intro h
        cases h
        exact ⟨_, _, rfl, rfl, rfl⟩
      · rintro ⟨v, t, h, h2, h3⟩
        cases h
        cases h2
        rw [ok_inj]
        exact Prod.ext h3.symm rfl
    · cases argData a kwargs arg (if argSuffix arg = "_j" then 0 else 1) with
      | none =>
        constructor
        · intro h
          cases h
          exact ⟨_, _, rfl, rfl, rfl⟩
        · rintro ⟨v, t, h, h2, h3⟩
          cases h
          cases h2
          dsimp only
          rw [ok_inj]
          exact Prod.ext h3.symm rfl
      | some p =>
        obtain ⟨data, sizeData⟩ := p
        dsimp only
        generalize (if argSuffix arg = "_j" then 0 else 1) = dim
        cases data with
        | tensor rows =>
          simp only [liftArg, liftPlan]
          constructor
          · intro h
            obtain ⟨r, hr, h⟩ := bind_eq_ok.mp h
            obtain ⟨s, hs, hr⟩ := bind_eq_ok.mp hr
            obtain ⟨rows', hl, hr⟩ := bind_eq_ok.mp hr
            cases hr
            cases h
            obtain ⟨sized, rfl⟩ := setSize_of_ok hs
            exact ⟨some (.tensor rows'), some (dim, sized), by rw [hl, ok_bind], hs, rfl⟩
          · rintro ⟨v, t, h, h2, h3⟩
            obtain ⟨rows', hl, h⟩ := bind_eq_ok.mp h
            cases sizeData with
            | tensor sized =>
              cases h
              have h2 : setSize st.2 dim (.tensor sized) = .ok s' := h2
              rw [h2, ok_bind, hl, ok_bind]
              dsimp only [pure_eq_ok]
              rw [ok_bind, ok_inj]
              exact Prod.ext h3.symm rfl
            | _ => simp at h
        | seq => simp [liftArg, liftPlan, bind, Except.bind]
        | ids l =>
          simp only [liftArg, liftPlan]
          constructor
          · intro h
            obtain ⟨r, hr, h⟩ := bind_eq_ok.mp h
            obtain ⟨s, hs, hr⟩ := bind_eq_ok.mp hr
            cases hr
          · rintro ⟨v, t, h, -⟩
            cases h
        | _ =>
          simp only [liftArg, liftPlan, ok_bind, pure_eq_ok, ok_inj]
          constructor
          · intro h
            cases h
            exact ⟨_, _, rfl, rfl, rfl⟩
          · rintro ⟨v, t, h, h2, h3⟩
            cases h
            cases h2
            exact Prod.ext h3.symm rfl

/-! ## The order of the arguments -/

theorem applySize_comm {s s₁ s₂ : Sizes} {t₁ t₂ : Option (Nat × List R)}
    (h₁ : applySize s t₁ = .ok s₁) (h₂ : applySize s₁ t₂ = .ok s₂) :
    ∃ s₁', applySize s t₂ = .ok s₁' ∧ applySize s₁' t₁ = .ok s₂ := by
  cases t₁ with
  | none => cases h₁; exact ⟨s₂, h₂, rfl⟩
  | some p₁ =>
    cases t₂ with
    | none => cases h₂; exact ⟨s, rfl, h₁⟩
    | some p₂ =>
      obtain ⟨d₁, r₁⟩ := p₁
      obtain ⟨d₂, r₂⟩ := p₂
      obtain ⟨a, b⟩ := s
      by_cases e₁ : d₁ = 0 <;> by_cases e₂ : d₂ = 0 <;> cases a <;> cases b <;>
        simp_all [applySize, setSize, Sizes.get, Sizes.set] <;> grind

theorem ArgDict.setOpt_comm (d : ArgDict R) {k l : String} (h : k ≠ l) (v w : Option (Val R)) :
    (d.setOpt k v).setOpt l w = (d.setOpt l w).setOpt k v := by
  cases v <;> cases w <;> try rfl
  funext x
  simp only [ArgDict.setOpt, ArgDict.set]
  by_cases h1 : x = k <;> by_cases h2 : x = l <;> simp_all

theorem collectArgs_perm {flow : Flow} {index : Adj R} {a : AdjKind} {kwargs : ArgDict R}
    {args args' : List String} (hp : args.Perm args') {st st' : ArgDict R × Sizes}
    (h : collectArgs flow index a kwargs args st = .ok st') :
    collectArgs flow index a kwargs args' st = .ok st' := by
  induction hp generalizing st st' with
  | nil => exact h
  | cons x _ ih =>
    obtain ⟨s, hs, h⟩ := bind_eq_ok.mp (show (_ >>= _) = _ from h)
    exact bind_eq_ok.mpr ⟨s, hs, ih h⟩
  | swap x y l =>
    by_cases hxy : x = y
    · subst hxy; exact h
    obtain ⟨s, hs, h⟩ := bind_eq_ok.mp (show (_ >>= _) = _ from h)
    obtain ⟨s₂, hs₂, h⟩ := bind_eq_ok.mp (show (_ >>= _) = _ from h)
    obtain ⟨v, t, hv, ht, he⟩ := collectArg_ok.mp hs
    obtain ⟨w, u, hw, hu, he₂⟩ := collectArg_ok.mp hs₂
    obtain ⟨m, hm, hm₂⟩ := applySize_comm ht hu
    refine bind_eq_ok.mpr ⟨(st.1.setOpt x w, m), collectArg_ok.mpr ⟨w, u, hw, hm, rfl⟩,
      bind_eq_ok.mpr ⟨s₂, collectArg_ok.mpr ⟨v, t, hv, hm₂, ?_⟩, h⟩⟩
    rw [he₂, he, ArgDict.setOpt_comm _ (Ne.symm hxy)]
  | trans _ _ ih₁ ih₂ => exact ih₂ (ih₁ h)

theorem collect_perm {flow : Flow} {args args' : List String} (hp : args.Perm args')
    (index : Adj R) (size : Sizes) (a : AdjKind) (kwargs : ArgDict R) :
    OkEq (collect flow args index size a kwargs) (collect flow args' index size a kwargs) :=
  OkEq.bind (fun _ => ⟨collectArgs_perm hp, collectArgs_perm hp.symm⟩) fun _ => OkEq.refl _

theorem objectMessages_perm (o : MPObject R) {user user' fused fused' : List String}
    (hu : user.Perm user') (hf : fused.Perm fused') (index : Adj R) (a : AdjKind) (size : Sizes)
    (kwargs : ArgDict R) :
    OkEq (o.messageAndAggregate user fused index a size kwargs)
      (o.messageAndAggregate user' fused' index a size kwargs) := by
  have h : OkEq (MPObject.messageAndAggregate.unfused o user index a size kwargs)
      (MPObject.messageAndAggregate.unfused o user' index a size kwargs) :=
    OkEq.bind (collect_perm hu _ _ _ _) fun _ => OkEq.refl _
  unfold MPObject.messageAndAggregate
  split
  · cases index with
    | sparse s => exact OkEq.bind (collect_perm hf _ _ _ _) fun _ => OkEq.refl _
    | dense cols => exact h
    | _ => exact OkEq.refl _
  · exact h

theorem part_perm (o : MPObject R) {user user' fused fused' : List String}
    (hu : user.Perm user') (hf : fused.Perm fused') (wanted : Bool) (index : Adj R) (a : AdjKind)
    (size : Sizes) (kwargs : ArgDict R) :
    OkEq (o.part user fused wanted index a size kwargs)
      (o.part user' fused' wanted index a size kwargs) := by
  unfold MPObject.part
  split
  · exact objectMessages_perm o hu hf _ _ _ _
  · exact OkEq.refl _

theorem propagate_perm (o : MPObject R) {user user' fused fused' upd upd' : List String}
    (hu : user.Perm user') (hf : fused.Perm fused') (hd : upd.Perm upd') (up down boundary : Adj R)
    (upSize downSize boundarySize : Option Sizes) (kwargs : ArgDict R) :
    OkEq (o.propagate user fused upd up down boundary upSize downSize boundarySize kwargs)
      (o.propagate user' fused' upd' up down boundary upSize downSize boundarySize kwargs) := by
  unfold MPObject.propagate
  refine (OkEq.refl _).bind fun _ => (OkEq.refl _).bind fun _ => (OkEq.refl _).bind fun _ =>
    (OkEq.refl _).bind fun _ => ?_
  refine OkEq.bind (part_perm o hu hf _ _ _ _ _) fun _ => OkEq.bind (part_perm o hu hf _ _ _ _ _) fun _ =>
    OkEq.bind (part_perm o hu hf _ _ _ _ _) fun _ => ?_
  exact OkEq.bind (collect_perm hd _ _ _ _) fun _ => OkEq.bind (collect_perm hd _ _ _ _) fun _ => OkEq.refl _

end Verif
