import Verif.Model.Widths

/-!
# Specification: arguments and batches that fit together

The hypotheses of the theorems on sizes, in terms of the arguments of the constructors and of the
columns of the batch; no sizes of modules occur here.
-/

namespace Verif

/-- The supported names of nonlinearities, normalisations, readouts and jumping knowledge. -/
def okNonlinearity (s : String) : Prop := s ∈ ["relu", "elu", "id", "sigmoid", "tanh"]

/-- See `okNonlinearity`. -/
def okNorm (s : String) : Prop := s ∈ ["bn", "ln", "id"]

/-- See `okNonlinearity`. -/
def okReadout (s : String) : Prop := s ∈ ["sum", "mean"]

/-- See `okNonlinearity`. -/
def okJump (s : Option String) : Prop := s ∈ [none, some "cat", some "max"]

instance (s : String) : Decidable (okNonlinearity s) := inferInstanceAs (Decidable (_ ∈ _))
instance (s : String) : Decidable (okNorm s) := inferInstanceAs (Decidable (_ ∈ _))
instance (s : String) : Decidable (okReadout s) := inferInstanceAs (Decidable (_ ∈ _))
instance (s : Option String) : Decidable (okJump s) := inferInstanceAs (Decidable (_ ∈ _))

/-- The names that the constructors of `SparseCIN` and `CINpp` look up are supported. -/
structure SparseArgs.Buildable (a : SparseArgs) : Prop where
  readout : okReadout a.readout
  norm : okNorm a.graphNorm
  nonlinearity : okNonlinearity a.nonlinearity
  jump : okJump a.jumpMode

/-- All the arguments of `SparseCIN` and `CINpp` name supported things. -/
structure SparseArgs.Named (a : SparseArgs) : Prop extends a.Buildable where
  final : okReadout a.finalReadout

/-- The exception for the first unsupported name. -/
def SparseArgs.nameError (a : SparseArgs) : Option PyErr :=
  if ¬ okReadout a.readout then some .notImplemented
  else if ¬ okNorm a.graphNorm then some .value
  else if ¬ okNonlinearity a.nonlinearity then some .notImplemented
  else if ¬ okJump a.jumpMode then some .assertion
  else none

/-- The arguments of `CIN0` and `EdgeCIN0` name supported things. -/
structure CINArgs.Named (a : CINArgs) : Prop where
  nonlinearity : okNonlinearity a.nonlinearity
  readout : okReadout a.readout
  jump : okJump a.jumpMode

/-- The arguments of `EdgeOrient` and `EdgeMPNN` name supported things. -/
structure EdgeArgs.Named (a : EdgeArgs) : Prop where
  nonlinearity : okNonlinearity a.nonlinearity
  readout : okReadout a.readout
  jump : okJump a.jumpMode

/-- Some dimension that is processed is read out. -/
def SparseArgs.ReadsOut (a : SparseArgs) : Prop :=
  match a.readoutDims with
  | none => True
  | some dims => ∃ d ∈ dims, d ≤ a.maxDim

/-- The batch has vertices and the features of the dimensions up to `maxDim` have `w` columns. -/
def Columns (data : List LevelShape) (maxDim w : Nat) : Prop :=
  data ≠ [] ∧ ∀ (d : Nat), d ≤ maxDim → ∀ l : LevelShape, data[d]? = some l → l.x = some w

/-- The batch has vertices and all the features have `w` columns. -/
def AllColumns (data : List LevelShape) (w : Nat) : Prop :=
  data ≠ [] ∧ ∀ l ∈ data, l.x = some w

/-- The batch has no cells above `maxDim`. -/
def UpTo (data : List LevelShape) (maxDim : Nat) : Prop := data.length ≤ maxDim + 1

/-- Vertices have no lower adjacency. -/
def NoLowerVertices (data : List LevelShape) : Prop :=
  ∀ l : LevelShape, data[0]? = some l → l.down = false

/-- The cells of dimensions 1 to `maxDim` have their boundary incidence. -/
def HasBoundaries (data : List LevelShape) (maxDim : Nat) : Prop :=
  ∀ (d : Nat), 1 ≤ d → d ≤ maxDim → ∀ l : LevelShape, data[d]? = some l → l.boundary = true

/-- The raw features of molecules: vertices have between one and `vmax` columns, edges have none, or
between one and `emax` of them and then they are embedded. -/
def RawFeatures (data : List LevelShape) (vmax emax : Nat) (embedEdge : Bool) : Prop :=
  (∃ v w, data[0]? = some v ∧ v.x = some w ∧ 1 ≤ w ∧ w ≤ vmax) ∧
    ∀ e : LevelShape, data[1]? = some e → ∀ w, e.x = some w →
      embedEdge = true ∧ 1 ≤ w ∧ w ≤ emax

/-- The rows of a feature matrix have the number of columns of the shape. -/
def RowsHave {α : Type} (rows : Option (List (List α))) (w : Option Nat) : Prop :=
  match rows, w with
  | none, none => True
  | some rows, some w => ∀ r ∈ rows, r.length = w
  | _, _ => False

/-- The shape describes the cochain. -/
structure Cochain.HasShape {α L : Type} (c : Cochain (List α) L) (s : LevelShape) : Prop where
  x : RowsHave c.x s.x
  up : s.up = c.upperIndex.isSome
  down : s.down = c.lowerIndex.isSome
  boundary : s.boundary = c.boundaryIndex.isSome

/-- The shape describes the parameters. -/
structure MPParams.HasShape {α : Type} (p : MPParams (List α)) (s : ParamShape) : Prop where
  x : RowsHave p.x s.x
  up : s.up = p.upIndex.isSome
  upAttr : RowsHave p.upAttr s.upAttr
  down : s.down = p.downIndex.isSome
  downAttr : RowsHave p.downAttr s.downAttr
  boundary : s.boundary = p.boundaryIndex.isSome
  boundaryAttr : RowsHave p.boundaryAttr s.boundaryAttr

end Verif
