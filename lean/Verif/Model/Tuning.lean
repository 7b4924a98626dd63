import Verif.Model.Folders
import Verif.Model.Config

/-!
# The grids of the TUDatasets: exp/run_tu_tuning.py, exp/prepare_tu_tuning.py and the command line

A process that ends with a message about its command line (`SystemExit`) is `none`.
-/

namespace Verif

/-- The values in the lists of a YAML file. Simplified: the text of a real number is kept as written. -/
inductive Yaml where
  | int (n : Nat)
  | real (text : String)
  | text (t : String)
  | bool (b : Bool)
  | null
  deriving DecidableEq, Repr

/-- `'{}'.format(value)`. -/
def Yaml.format : Yaml → String
  | .int n => toString n
  | .real t => t
  | .text t => t
  | .bool true => "True"
  | .bool false => "False"
  | .null => "None"

/-- A configuration (exp/tuning_configurations/template.yml): the name of the dataset and the lists of values, in the
order of the file. Simplified: all other entries are lists. -/
structure TuneConf where
  dataset : Option String
  hypers : List (String × List Yaml)

/-- `itertools.product`: the last place changes fastest. (External contract.) -/
def gridProduct {V : Type} : List (List V) → List (List V)
  | [] => [[]]
  | vs :: rest => vs.flatMap fun v => (gridProduct rest).map (v :: ·)

/-- The numbered combinations of the process `idx` (exp/run_tu_tuning.py:31-35); `__max_devices__` is 8. -/
def expQueue {V : Type} (idx : Int) (grid : List (List V)) : List (Nat × List V) :=
  (grid.zipIdx.map fun p => (p.2, p.1)).filter fun p => decide ((p.1 : Int) % 8 = idx % 8)

/-- `base_args` (exp/run_tu_tuning.py:38-43). -/
def tuneBase (root dataset code : String) (idx : Int) : List String :=
  ["--device", toString idx, "--task_type", "classification", "--eval_metric", "accuracy", "--dataset", dataset,
    "--result_folder", root ++ "/exp/results/" ++ dataset ++ "_tuning_" ++ code]

/-- The command line of a combination (exp/run_tu_tuning.py:46-52). -/
def tuneArgs (root dataset code : String) (idx : Int) (names : List String) (exp : Nat × List Yaml) : List String :=
  tuneBase root dataset code idx ++ (["--exp_name", toString exp.1] ++
    (names.zip exp.2).flatMap fun p => ["--" ++ p.1, p.2.format])

/-- The command lines of the process `idx`, in order (exp/run_tu_tuning.py:20-52). -/
def tuneLines (root code : String) (conf : TuneConf) (idx : Int) : Py (List (List String)) :=
  match conf.dataset with
  | none => .error .key
  | some dataset => .ok ((expQueue idx (gridProduct (conf.hypers.map Prod.snd))).map
      (tuneArgs root dataset code idx (conf.hypers.map Prod.fst)))

/-! ## The command line -/

/-- What an option takes. -/
inductive ArgKind where
  | int
  | float
  | str
  | choice (texts : List String)
  | ints
  | flag
  deriving DecidableEq, Repr

/-- The options of `get_parser` (exp/parser.py:8-117), without the leading dashes. -/
def parserOptions : List (String × ArgKind) :=
  [("seed", .int), ("start_seed", .int), ("stop_seed", .int), ("device", .int), ("model", .str),
   ("use_coboundaries", .str), ("include_down_adj", .flag), ("indrop_rate", .float), ("drop_rate", .float),
   ("drop_position", .str), ("nonlinearity", .str), ("readout", .str), ("final_readout", .str), ("readout_dims", .ints),
   ("jump_mode", .str), ("graph_norm", .choice ["bn", "ln", "id"]), ("lr", .float), ("lr_scheduler", .str),
   ("lr_scheduler_decay_steps", .int), ("lr_scheduler_decay_rate", .float), ("lr_scheduler_patience", .float),
   ("lr_scheduler_min", .float), ("num_layers", .int), ("emb_dim", .int), ("batch_size", .int), ("epochs", .int),
   ("num_workers", .int), ("dataset", .str), ("task_type", .str), ("eval_metric", .str), ("iso_eps", .int),
   ("minimize", .flag), ("max_dim", .int), ("max_ring_size", .int), ("result_folder", .str), ("exp_name", .str),
   ("dump_curves", .flag), ("untrained", .flag), ("fold", .int), ("folds", .int), ("init_method", .str),
   ("train_eval_period", .int), ("tune", .flag), ("flow_points", .int), ("flow_classes", .int), ("train_orient", .str),
   ("test_orient", .str), ("fully_orient_invar", .flag), ("use_edge_features", .flag), ("simple_features", .flag),
   ("early_stop", .flag), ("paraid", .int), ("preproc_jobs", .int)]

/-- What Python takes for numbers: `int(text)`, whether `float(text)` works, and whether `argparse` takes a text for a
negative number. (External contract.) -/
structure NumberSyntax where
  int : String → Option Int
  float : String → Bool
  negative : String → Bool

/-- `parser._get_option_tuples` of `argparse`: the option of this name, or the only one whose name begins so. (External
contract.) Simplified: no `--name=value`. -/
def findOption (options : List (String × ArgKind)) (name : String) : Option (String × ArgKind) :=
  match options.find? fun o => o.1 == name with
  | some o => some o
  | none =>
    match options.filter fun o => beginsWith name o.1 with
    | [o] => some o
    | _ => none

/-- Whether `argparse` takes a text for a value and not for an option. Simplified: without the exception of texts that
contain spaces. -/
def isValue (syn : NumberSyntax) (text : String) : Bool := !beginsWith "-" text || syn.negative text

/-- Whether the text is accepted as value of an option. -/
def acceptsValue (syn : NumberSyntax) : ArgKind → String → Bool
  | .int, t => (syn.int t).isSome
  | .float, t => syn.float t
  | .str, _ => true
  | .choice texts, t => decide (t ∈ texts)
  | .ints, t => (syn.int t).isSome
  | .flag, _ => false

/-- `parser.parse_args` (of `argparse`, for a parser without positional arguments): the options that are given, in order,
with their values; `none` is `parser.error`, i.e. `SystemExit`. -/
def parseLine (syn : NumberSyntax) (options : List (String × ArgKind)) :
    Nat → List String → Option (List (String × List String))
  | _, [] => some []
  | 0, _ => none
  | fuel + 1, w :: ws =>
    if beginsWith "--" w then
      match findOption options (String.ofList (w.toList.drop 2)) with
      | none => none
      | some (name, .flag) => (parseLine syn options fuel ws).map ((name, []) :: ·)
      | some (name, .ints) =>
        let values := ws.takeWhile (isValue syn)
        if values ≠ [] ∧ values.all (acceptsValue syn .ints) = true then
          (parseLine syn options fuel (ws.dropWhile (isValue syn))).map ((name, values) :: ·)
        else none
      | some (name, kind) =>
        match ws with
        | v :: ws =>
          if isValue syn v && acceptsValue syn kind v then
            (parseLine syn options fuel ws).map ((name, [v]) :: ·)
          else none
        | [] => none
    else none

/-- `parser.parse_args` on a whole command line. -/
def parseArgs (syn : NumberSyntax) (line : List String) : Option (List (String × List String)) :=
  parseLine syn parserOptions line.length line

/-- The value of an option with one argument: the last one that is given. -/
def givenValue (given : List (String × List String)) (name : String) : Option String :=
  (given.reverse.find? fun o => o.1 == name).bind fun o => o.2.head?

/-- The loop of exp/run_tu_tuning.py:45-53: the experiments that are begun, with their arguments. `exp_main` parses the
command line first (exp/run_tu_exp.py:23-24); `done` says whether it ends without exception. -/
def beginExps (syn : NumberSyntax) (done : List (String × List String) → Bool) :
    List (List String) → List (List (String × List String))
  | [] => []
  | line :: rest =>
    match parseArgs syn line with
    | none => []
    | some given => given :: if done given then beginExps syn done rest else []

/-- The command lines of the ten folds of an experiment (exp/run_tu_exp.py:28-30). -/
def foldLines (line : List String) : List (List String) := (List.range 10).map fun i : Nat => line ++ ["--fold", toString i]

/-- The file with the result of an experiment (exp/run_tu_exp.py:71), given folder, dataset and name. -/
def resultFile (folder dataset name : String) : String := folder ++ "/" ++ dataset ++ "-" ++ name ++ "/result.txt"

/-! ## Preparing the datasets -/

/-- The call of `load_dataset` in exp/prepare_tu_tuning.py:23 for the TUDatasets (data/data_loading.py:113-153,
data/datasets/tu.py:39-48): `kwargs['include_down_adj']` is looked up for five of them.
Simplified: other names are not TUDatasets and end with an exception. -/
def prepareOne (name : String) (maxDim : Nat) (ring : Option Nat) (init : String) : Py TUOptions := do
  let tags ←
    if name = "IMDBBINARY" ∨ name = "IMDBMULTI" then .ok true
    else if name = "REDDITBINARY" ∨ name = "REDDITMULTI5K" then .ok false
    else if name = "PROTEINS" ∨ name = "NCI1" ∨ name = "NCI109" ∨ name = "PTC" ∨ name = "MUTAG" then .error .key
    else .error .notImplemented
  pyAssert (ring.all fun n => decide (3 < n))
  pyAssert (ring.isNone || maxDim == 2)
  return { maxDim := maxDim, initMethod := init, maxRingSize := ring, includeDown := false, degreeAsTag := tags }

/-- `conf[key]`. -/
def TuneConf.get (conf : TuneConf) (key : String) : Py (List Yaml) :=
  match conf.hypers.find? fun h => h.1 == key with
  | some h => .ok h.2
  | none => .error .key

/-- A dimension; simplified: other values raise `TypeError`. -/
def Yaml.dim : Yaml → Py Nat
  | .int n => .ok n
  | _ => .error .type

/-- A ring size or `None`; simplified: other values raise `TypeError`. -/
def Yaml.ring : Yaml → Py (Option Nat)
  | .int n => .ok (some n)
  | .null => .ok none
  | _ => .error .type

/-- A name; simplified: other values raise `TypeError`. -/
def Yaml.name : Yaml → Py String
  | .text t => .ok t
  | _ => .error .type

/-- exp/prepare_tu_tuning.py:11-23: the datasets that are built, in order. -/
def prepareTuning (conf : TuneConf) : Py (List TUOptions) :=
  match conf.dataset with
  | none => .error .key
  | some name => do
    let dims ← conf.get "max_dim"
    let rings ← conf.get "max_ring_size"
    let inits ← conf.get "init_method"
    mapE (fun t : Yaml × Yaml × Yaml => do
        let d ← t.1.dim
        let r ← t.2.1.ring
        let i ← t.2.2.name
        prepareOne name d r i)
      (dims.flatMap fun d => rings.flatMap fun r => inits.map fun i => (d, r, i))

end Verif
