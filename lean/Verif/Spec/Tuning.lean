import Verif.Model.Tuning

/-! # Specification of the grids (C101) -/

namespace Verif

/-- The place of the value of list `k` in combination `h` when the lists have these sizes and the last list changes
fastest: `h` is written in the mixed radix of the sizes. -/
def gridDigit (sizes : List Nat) (h k : Nat) : Nat := h / (sizes.drop (k + 1)).prod % sizes.getD k 0

/-- Eight processes, one for each remainder. -/
def EightProcesses (idxs : List Int) : Prop := (idxs.map fun i => i % 8).Perm [0, 1, 2, 3, 4, 5, 6, 7]

/-- The option that a name stands for: the one of this name or else the only one that begins so. -/
def StandsFor (name : String) (o : String × ArgKind) : Prop :=
  o ∈ parserOptions ∧ (o.1 = name ∨ (∀ o' ∈ parserOptions, o'.1 ≠ name) ∧ name.toList <+: o.1.toList ∧
    ∀ o' ∈ parserOptions, name.toList <+: o'.1.toList → o' = o)

/-- Texts that an option with a value takes. -/
def Takes (syn : NumberSyntax) : ArgKind → String → Prop
  | .int, t | .ints, t => ∃ n, syn.int t = some n
  | .float, t => syn.float t = true
  | .str, _ => True
  | .choice texts, t => t ∈ texts
  | .flag, _ => False

/-- Texts that cannot be mistaken for options. -/
def PlainText (syn : NumberSyntax) (t : String) : Prop := t.toList.head? ≠ some '-' ∨ syn.negative t = true

/-- The command line takes the value for this name. -/
def Understood (syn : NumberSyntax) (name value : String) : Prop :=
  PlainText syn value ∧ ∃ o, StandsFor name o ∧ Takes syn o.2 value

/-- Contract for numbers: written numbers can be read, and nothing that begins with two dashes is a negative number. -/
structure NumberSyntax.Ok (syn : NumberSyntax) : Prop where
  int : ∀ i : Int, syn.int (toString i) = some i
  negative : ∀ n : Nat, syn.negative (toString (-(n + 1 : Nat) : Int)) = true
  dashes : ∀ t, syn.negative ("--" ++ t) = false

/-- All values of a grid are understood. -/
def TuneConf.Understood (syn : NumberSyntax) (conf : TuneConf) : Prop :=
  ∀ h ∈ conf.hypers, ∀ v ∈ h.2, Verif.Understood syn h.1 v.format

/-- Different entries of the grid stand for different options. -/
def TuneConf.Distinct (conf : TuneConf) : Prop :=
  conf.hypers.Pairwise fun h h' => ∀ o o', StandsFor h.1 o → StandsFor h'.1 o' → o.1 ≠ o'.1

/-- No entry of the grid stands for this option. -/
def TuneConf.Leaves (conf : TuneConf) (name : String) : Prop := ∀ h ∈ conf.hypers, ∀ o, StandsFor h.1 o → o.1 ≠ name

end Verif
