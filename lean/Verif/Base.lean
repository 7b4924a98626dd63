import Mathlib.Data.List.Basic
import Mathlib.Algebra.BigOperators.Group.List.Basic

/-!
# Base definitions

Python exceptions as values, and list traversals that stop at the first exception.
-/

namespace Verif

/-- The Python exception classes that the modelled code can raise. -/
inductive PyErr
  | assertion | value | notImplemented | type | index | key | attribute | zeroDivision | runtime | name
  deriving DecidableEq, Repr

/-- The result of a Python function: a value or the exception it raised. -/
abbrev Py (α : Type) := Except PyErr α

deriving instance DecidableEq for Except

/-- Python's `assert`. -/
def pyAssert (b : Bool) : Py Unit := if b then .ok () else .error .assertion

/-- `[f(a) for a in l]` where `f` may raise: the first exception wins. -/
def mapE {α β : Type} (f : α → Py β) : List α → Py (List β)
  | [] => .ok []
  | a :: l => do
    let b ← f a
    let bs ← mapE f l
    return b :: bs

/-- `torch.index_select(rows, 0, idx)`: the rows at the given positions; a position out of
range raises `IndexError`. (External contract of torch.) -/
def indexSelect {α : Type} (rows : List α) (idx : List Nat) : Py (List α) :=
  mapE (fun i => match rows[i]? with
    | some r => .ok r
    | none => .error .index) idx

@[simp] theorem ok_bind {α β : Type} (a : α) (f : α → Py β) :
    ((Except.ok a : Py α) >>= f) = f a := rfl

@[simp] theorem error_bind {α β : Type} (e : PyErr) (f : α → Py β) :
    ((Except.error e : Py α) >>= f) = .error e := rfl

@[simp] theorem pure_eq_ok {α : Type} (a : α) : (pure a : Py α) = .ok a := rfl

@[simp] theorem map_ok {α β : Type} (a : α) (f : α → β) :
    (f <$> (Except.ok a : Py α)) = .ok (f a) := rfl

@[simp] theorem map_error {α β : Type} (e : PyErr) (f : α → β) :
    (f <$> (Except.error e : Py α)) = .error e := rfl

@[simp] theorem ok_inj {α : Type} {a b : α} : ((Except.ok a : Py α) = .ok b) ↔ a = b :=
  ⟨fun h => by injection h, fun h => by rw [h]⟩

theorem bind_eq_ok {α β : Type} {x : Py α} {f : α → Py β} {b : β} :
    (x >>= f) = .ok b ↔ ∃ a, x = .ok a ∧ f a = .ok b := by
  cases x with
  | ok a => simp
  | error e => simp

theorem map_eq_ok {α β : Type} {x : Py α} {f : α → β} {b : β} :
    (f <$> x) = .ok b ↔ ∃ a, x = .ok a ∧ f a = b := by
  cases x with
  | ok a => simp
  | error e => simp

@[simp] theorem pyAssert_true : pyAssert true = .ok () := rfl
@[simp] theorem pyAssert_false : pyAssert false = .error .assertion := rfl

theorem pyAssert_eq_ok {b : Bool} {u : Unit} : pyAssert b = .ok u ↔ b = true := by
  cases b <;> simp

@[simp] theorem mapE_nil {α β : Type} (f : α → Py β) : mapE f [] = .ok [] := rfl

theorem mapE_cons {α β : Type} (f : α → Py β) (a : α) (l : List α) :
    mapE f (a :: l) = (f a >>= fun b => mapE f l >>= fun bs => .ok (b :: bs)) := rfl

theorem mapE_ok {α β : Type} {f : α → Py β} {g : α → β} {l : List α}
    (h : ∀ a ∈ l, f a = .ok (g a)) : mapE f l = .ok (l.map g) := by
  induction l with
  | nil => rfl
  | cons a l ih =>
    rw [mapE_cons, h a (by simp), ok_bind, ih (fun b hb => h b (by simp [hb]))]
    rfl

theorem mapE_append {α β : Type} (f : α → Py β) (l₁ l₂ : List α) :
    mapE f (l₁ ++ l₂) = (mapE f l₁ >>= fun a => mapE f l₂ >>= fun b => .ok (a ++ b)) := by
  induction l₁ with
  | nil =>
    simp only [List.nil_append, mapE_nil, ok_bind]
    cases mapE f l₂ <;> rfl
  | cons a l ih =>
    rw [List.cons_append, mapE_cons, mapE_cons, ih]
    cases f a with
    | error e => rfl
    | ok b =>
      simp only [ok_bind]
      cases mapE f l with
      | error e => rfl
      | ok bs =>
        simp only [ok_bind]
        cases mapE f l₂ <;> rfl

theorem mapE_eq_ok_iff {α β : Type} {f : α → Py β} {l : List α} {r : List β} :
    mapE f l = .ok r ↔ List.Forall₂ (fun a b => f a = .ok b) l r := by
  induction l generalizing r with
  | nil => cases r <;> simp
  | cons a l ih =>
    rw [mapE_cons]
    constructor
    · intro h
      obtain ⟨b, hb, h⟩ := bind_eq_ok.mp h
      obtain ⟨bs, hbs, h⟩ := bind_eq_ok.mp h
      cases h
      exact .cons hb (ih.mp hbs)
    · intro h
      cases h with
      | cons hb hbs => rw [hb, ok_bind, ih.mpr hbs]; rfl

theorem mapE_length {α β : Type} {f : α → Py β} {l : List α} {r : List β}
    (h : mapE f l = .ok r) : r.length = l.length :=
  (List.Forall₂.length_eq (mapE_eq_ok_iff.mp h)).symm

theorem mapE_map {α β γ : Type} (f : β → Py γ) (g : α → β) (l : List α) :
    mapE f (l.map g) = mapE (fun a => f (g a)) l := by
  induction l with
  | nil => rfl
  | cons a l ih => rw [List.map_cons, mapE_cons, mapE_cons, ih]

theorem mapE_congr {α β : Type} {f g : α → Py β} {l : List α}
    (h : ∀ a ∈ l, f a = g a) : mapE f l = mapE g l := by
  induction l with
  | nil => rfl
  | cons a l ih => rw [mapE_cons, mapE_cons, h a (by simp), ih (fun b hb => h b (by simp [hb]))]

/-- `index_select` succeeds when all positions are in range, and then reads those positions. -/
theorem indexSelect_eq_ok_iff {α : Type} {rows : List α} {idx : List Nat} {out : List α} :
    indexSelect rows idx = .ok out ↔ idx.map (rows[·]?) = out.map some := by
  unfold indexSelect
  rw [mapE_eq_ok_iff]
  constructor
  · intro h
    induction h with
    | nil => rfl
    | cons hab _ ih =>
      rename_i i b _ _ _
      cases hr : rows[i]? with
      | none => simp [hr] at hab
      | some r =>
        simp only [hr] at hab
        injection hab with hab
        simp [hr, hab, ih]
  · intro h
    induction idx generalizing out with
    | nil => cases out <;> simp_all
    | cons i idx ih =>
      cases out with
      | nil => simp at h
      | cons b out =>
        simp only [List.map_cons, List.cons.injEq] at h
        exact .cons (by simp [h.1]) (ih h.2)

theorem indexSelect_ok {α : Type} [Inhabited α] {rows : List α} {idx : List Nat}
    (h : ∀ i ∈ idx, i < rows.length) :
    indexSelect rows idx = .ok (idx.map (fun i => rows[i]?.getD default)) := by
  unfold indexSelect
  apply mapE_ok
  intro i hi
  simp [List.getElem?_eq_getElem (h i hi)]

end Verif
