import Verif.Model.Config

/-! # Specification of the experiments -/

namespace Verif

/-- The TUDatasets with their numbers of classes, and whether `--include_down_adj` reaches them. -/
def tuDatasets : List (String × Nat × Bool) :=
  [("IMDBBINARY", 2, false), ("IMDBMULTI", 3, false), ("REDDITBINARY", 2, false), ("REDDITMULTI5K", 5, false),
   ("PROTEINS", 2, true), ("NCI1", 2, true), ("NCI109", 2, true), ("PTC", 2, true), ("MUTAG", 2, true)]

/-- The three OGB datasets of regression. -/
def ogbRegression : List String := ["MOLESOL", "MOLFREESOLV", "MOLLIPO"]

/-- The datasets that `validate_args` knows, apart from strongly regular graphs. -/
def Ruled (name : String) : Prop :=
  name = "CSL" ∨ name = "RING-TRANSFER" ∨ name = "RING-LOOKUP" ∨ beginsWith "ZINC" name = true ∨
  name ∈ ogbNames.map Prod.fst ∨ name = "FLOW" ∨ name = "OCEAN"

/-- All names of datasets of complexes, apart from strongly regular graphs. -/
def datasetNames : List String :=
  ["CLUSTER", "IMDBBINARY", "IMDBMULTI", "REDDITBINARY", "REDDITMULTI5K", "PROTEINS", "NCI1", "NCI109", "PTC", "MUTAG",
   "FLOW", "OCEAN", "RING-TRANSFER", "RING-LOOKUP", "ZINC", "ZINC-FULL", "CSL", "MOLHIV", "MOLPCBA", "MOLTOX21",
   "MOLTOXCAST", "MOLMUV", "MOLBACE", "MOLBBBP", "MOLCLINTOX", "MOLSIDER", "MOLESOL", "MOLFREESOLV", "MOLLIPO", "DUMMY",
   "DUMMYM", "PEPTIDES-F", "PEPTIDES-S"]

/-- All names of datasets of graphs, apart from strongly regular ones. -/
def graphDatasetNames : List String :=
  ["IMDBBINARY", "IMDBMULTI", "REDDITBINARY", "REDDITMULTI5K", "PROTEINS", "NCI1", "NCI109", "PTC", "MUTAG", "ZINC",
   "PEPTIDES-F", "PEPTIDES-S", "ZINC-FULL", "MOLHIV", "MOLPCBA", "MOLTOX21", "MOLTOXCAST", "MOLMUV", "MOLBACE",
   "MOLBBBP", "MOLCLINTOX", "MOLSIDER", "MOLESOL", "MOLFREESOLV", "MOLLIPO", "RING-TRANSFER", "RING-LOOKUP"]

end Verif
