import Verif.Model.Modules

/-!
# Numbers of parameters of the networks

Closed forms in the sizes that a user passes to the constructors: `d` columns in, `h` hidden, `norm` the
name of the normalisation.
-/

namespace Verif

namespace Count

/-- A linear layer with bias. -/
def linear (i o : Nat) : Nat := i * o + o

/-- A normalisation: scale and shift, nothing for the identity. -/
def norm (name : String) (n : Nat) : Nat := if name = "id" then 0 else 2 * n

/-- A perceptron with two linear layers, each followed by a normalisation. -/
def mlp (name : String) (d h : Nat) : Nat := linear d h + norm name h + (linear h h + norm name h)

/-- A network on messages with coboundary features. -/
def message (cob : Bool) (d : Nat) : Nat := if cob then linear (2 * d) d else 0

/-- A dimension of a layer of CIN: two perceptrons and the combination. -/
def sparseLevel (name : String) (d h : Nat) (cob eps : Bool) : Nat :=
  message cob d + 2 * mlp name d h + (linear (2 * h) h + norm name h) + (if eps then 2 else 0)

/-- A dimension of a layer of CIN++: three perceptrons and the combination, two networks on messages. -/
def ppLevel (name : String) (d h : Nat) (cob eps : Bool) : Nat :=
  2 * message cob d + 3 * mlp name d h + (linear (3 * h) h + norm name h) + (if eps then 3 else 0)

/-- What resetting a dimension of a layer of CIN++ reaches: two of the three perceptrons, one of the two
networks on messages, two of the three scalars. -/
def ppLevelReset (name : String) (d h : Nat) (cob eps : Bool) : Nat :=
  message cob d + 2 * mlp name d h + (linear (3 * h) h + norm name h) + (if eps then 2 else 0)

/-- A layer of CIN0, whatever the dimension: the update and the two networks on messages. -/
def cin0Layer (d h : Nat) : Nat :=
  linear d h + linear h h + 2 * h + 2 * (linear (2 * d) d + 2 * d)

/-- A layer on vertices and edges: two updates and three networks on messages. -/
def edgeLayer (d h : Nat) (top : Bool) : Nat :=
  2 * (linear d h + linear h h + 2 * h) + 2 * (linear (2 * d) d + 2 * d) +
    (linear (if top then 2 * d else d) d + 2 * d)

/-- The first of `layers` layers and the others. -/
def stack (layers first other : Nat) : Nat := if layers = 0 then 0 else first + (layers - 1) * other

/-- The columns that the first dense layer gets. -/
def jumpWidth (mode : Option String) (layers h : Nat) : Nat :=
  if mode = some "cat" then layers * h else h

/-- The dense layers of the networks for complexes of dimension `D`: one per dimension, without biases
if the layers are concatenated, and the last one. -/
def head (mode : Option String) (D layers h mult classes : Nat) : Nat :=
  (D + 1) * (if mode = some "cat" then (layers * h) * (mult * h) else linear h (mult * h)) +
    linear (mult * h) classes

end Count

/-- A parameter is registered in a module or in one of its children. -/
inductive HasParam : NNModule → NNParam → Prop
  | own {reset own children} {name : String} {p : NNParam} (h : (name, p) ∈ own) :
      HasParam (.mk reset own children) p
  | child {reset own children} {name : String} {m : NNModule} {p : NNParam} (h : (name, m) ∈ children)
      (hp : HasParam m p) : HasParam (.mk reset own children) p

/-- `reset_parameters` works and re-initialises exactly the parameters of the module. -/
def ResetsAll (v : PygReset) (m : NNModule) : Prop :=
  ∃ ps, m.resetParameters v = .ok ps ∧ ∀ p, p ∈ ps ↔ HasParam m p

end Verif
