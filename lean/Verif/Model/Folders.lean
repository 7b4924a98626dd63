import Verif.Base

/-!
# The folders of processed datasets (data/datasets/*.py, `processed_dir`)

The root folder is the same for both datasets that are compared and is left out (`osp.join` puts it in front).
-/

namespace Verif

/-- `ComplexDataset.processed_dir` (data/datasets/dataset.py:80-84). -/
def baseFolder (cellular : Bool) (maxDim : Nat) (initMethod : String) : String :=
  (if cellular then "cell_" else "") ++ "complex_dim" ++ toString maxDim ++ "_" ++ initMethod

/-- `f"_{max_ring_size}rings" if self._cellular else ""`. -/
def ringSuffix : Option Nat → String
  | none => ""
  | some k => "_" ++ toString k ++ "rings"

/-- A suffix that is there if the option is set. -/
def flag (b : Bool) (s : String) : String := if b then s else ""

/-- The processing options of the TU and SR datasets (data/datasets/tu.py:39-52, sr.py:48-60). The dataset
is cellular iff a ring size is given (tu.py:45, sr.py:55). -/
structure TUOptions where
  maxDim : Nat
  initMethod : String
  maxRingSize : Option Nat
  includeDown : Bool
  /-- Only in the TU datasets (tu.py:42); it selects the raw file (tu.py:92). -/
  degreeAsTag : Bool
  deriving DecidableEq

/-- `processed_dir` of the TU and SR datasets (data/datasets/tu.py:77-82, sr.py:69-74). -/
def tuFolder (o : TUOptions) : String :=
  baseFolder o.maxRingSize.isSome o.maxDim o.initMethod ++ ringSuffix o.maxRingSize ++
    flag o.includeDown "_down_adj"

/-- The processing options of ZINC (data/datasets/zinc.py:12-22). Dimension 2, cellular and `init_method=None`
are fixed. -/
structure ZincOptions where
  maxRingSize : Nat
  useEdgeFeatures : Bool
  subset : Bool
  includeDown : Bool
  deriving DecidableEq

/-- `processed_dir` of ZINC (data/datasets/zinc.py:103-110); Python prints the missing init method as `None`. -/
def zincFolder (o : ZincOptions) : String :=
  baseFolder true 2 "None" ++ flag (!o.subset) "_full" ++ ringSuffix (some o.maxRingSize) ++
    flag o.useEdgeFeatures "-E"

/-- The processing options of the OGB datasets (data/datasets/ogb.py:12-23). Dimension 2 and cellular are
fixed. -/
structure OGBOptions where
  maxRingSize : Nat
  useEdgeFeatures : Bool
  initMethod : String
  includeDown : Bool
  simple : Bool
  deriving DecidableEq

/-- `processed_dir` of the OGB datasets (data/datasets/ogb.py:38-45). -/
def ogbFolder (o : OGBOptions) : String :=
  baseFolder true 2 o.initMethod ++ ringSuffix (some o.maxRingSize) ++ flag o.useEdgeFeatures "-E" ++
    flag o.simple "-S"

/-- The options of the flow dataset (data/datasets/flow.py:13-23). -/
structure FlowOptions where
  numPoints : Nat
  trainSamples : Nat
  valSamples : Nat
  trainOrient : String
  testOrient : String
  deriving DecidableEq

/-- `processed_dir` of the flow dataset (data/datasets/flow.py:40-43). -/
def flowFolder (o : FlowOptions) : String :=
  "flow" ++ toString o.numPoints ++ "_orient_" ++ o.trainOrient ++ "_" ++ o.testOrient

/-- `processed_dir` of the ocean dataset (data/datasets/ocean.py:43-46). -/
def oceanFolder (trainOrient testOrient : String) : String := "complex_" ++ trainOrient ++ "_" ++ testOrient

/-- `processed_dir` of CSL (data/datasets/csl.py:116-121). Dimension 2 and cellular are fixed (csl.py:23-25). -/
def cslFolder (maxRingSize : Nat) (initMethod : String) : String :=
  baseFolder true 2 initMethod ++ ringSuffix (some maxRingSize)

/-- The processing options of the peptides (data/datasets/peptides_functional.py:49-74, peptides_structural.py:55-80).
Dimension 2, cellular and edge features are fixed. -/
structure PeptidesOptions where
  maxRingSize : Nat
  initMethod : String
  includeDown : Bool
  deriving DecidableEq

/-- `processed_dir` of the peptides (data/datasets/peptides_functional.py:93-99, peptides_structural.py:98-104). -/
def peptidesFolder (o : PeptidesOptions) : String :=
  baseFolder true 2 o.initMethod ++ ringSuffix (some o.maxRingSize) ++ flag true "-E"

end Verif
