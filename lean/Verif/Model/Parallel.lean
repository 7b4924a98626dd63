import Verif.Model.Convert
import Verif.Model.Checks

/-!
# Parallel conversion (data/parallel.py, data/utils.py:512-545, data/test_parallel.py)

The scheduler of joblib is external. It is modelled as a machine that dispatches tasks in the order of the input and finishes
them in any order. Simplified: batches have one task.
-/

namespace Verif

variable {A B F L : Type}

/-- What a joblib `Parallel` keeps: the tasks its generator has not yielded yet and the list of jobs, in the order of their
dispatch, each with its result when it is complete. -/
structure Pool (A B : Type) where
  waiting : List A
  jobs : List (A × Option (Py B))

/-- A task is dispatched, or a worker finishes a job. -/
inductive PoolEvent
  | dispatch
  | finish (job : Nat)

/-- One event (external contract of joblib). An event that is not possible changes nothing. -/
def Pool.step (f : A → Py B) (s : Pool A B) : PoolEvent → Pool A B
  | .dispatch =>
    match s.waiting with
    | [] => s
    | a :: rest => { waiting := rest, jobs := s.jobs ++ [(a, none)] }
  | .finish i => { s with jobs := s.jobs.modify i fun job => (job.1, some (f job.1)) }

/-- The machine after some events. -/
def Pool.run (f : A → Py B) (s : Pool A B) (events : List PoolEvent) : Pool A B := events.foldl (Pool.step f) s

/-- `n_dispatched_tasks`. -/
def Pool.dispatched (s : Pool A B) : Nat := s.jobs.length

/-- `n_completed_tasks`. -/
def Pool.completed (s : Pool A B) : Nat := s.jobs.countP fun job => job.2.isSome

/-- `ProgressParallel.print_progress` (data/parallel.py:16-20): the position and the total of the bar. -/
def Pool.bar (total : Option Nat) (s : Pool A B) : Nat × Nat := (s.completed, total.getD s.dispatched)

/-- `Parallel.retrieve` (external contract of joblib): the results in the order of the jobs. The first exception is raised,
`none` means that the program still waits. -/
def retrieve : List (A × Option (Py B)) → Option (Py (List B))
  | [] => some (.ok [])
  | (_, none) :: _ => none
  | (_, some (.error e)) :: _ => some (.error e)
  | (_, some (.ok b)) :: jobs => (retrieve jobs).map fun r => do
    let bs ← r
    return b :: bs

/-- `Parallel.__call__`: a list is returned when all tasks have been dispatched and are complete. -/
def Pool.result (s : Pool A B) : Option (Py (List B)) :=
  match retrieve s.jobs with
  | none => none
  | some (.error e) => some (.error e)
  | some (.ok bs) => if s.waiting.isEmpty then some (.ok bs) else none

/-- `ProgressParallel.__call__` (data/parallel.py:12-14) on a generator of tasks. The bar does not change the result. -/
def progressParallel (f : A → Py B) (items : List A) (events : List PoolEvent) : Option (Py (List B)) :=
  (Pool.run f { waiting := items, jobs := [] } events).result

/-- The loop after the conversion, on the list that joblib returned (data/utils.py:522-545). -/
def checkConverted [DecidableEq F] [DecidableEq L] (width : F → Nat) (dataset : List (GraphData F L))
    (complexes : List (Complex F L)) : Py (Converted F L) := do
  let s ← foldE (ringConvertStep width) (none, [none, none, none]) (complexes.zip dataset)
  return { complexes := complexes, dimension := s.1, numFeatures := upToDim s.1 s.2 }

/-- `convert_graph_dataset_with_rings` (data/utils.py:501-545) with the schedule of joblib. -/
def convertParallel [DecidableEq F] [DecidableEq L] (g : Gudhi) (lib : RingLib) (agg : List F → F)
    (width : F → Nat) (dataset : List (GraphData F L)) (maxRingSize : Nat) (includeDown initEdges initRings : Bool)
    (events : List PoolEvent) : Option (Py (Converted F L)) :=
  (progressParallel (fun data => ringComplex g lib agg data.x data.edgeIndex data.edgeAttr data.numNodes
    data.y maxRingSize includeDown initEdges initRings) dataset events).map fun r => do
      let complexes ← r
      checkConverted width dataset complexes

/-- `test_parallel_conversion_returns_same_order` (data/test_parallel.py:9-19) on any graphs: two conversions, with the
schedules of one and of two jobs, and the comparison. -/
def parallelTest [DecidableEq F] [DecidableEq L] (g : Gudhi) (lib : RingLib) (agg : List F → F) (width : F → Nat)
    (graphs : List (GraphData F L)) (one two : List PoolEvent) : Option (Py Unit) :=
  match convertParallel g lib agg width graphs 7 false true true one, convertParallel g lib agg width graphs 7 false true true two with
  | some seq, some par => some do
    let s ← seq
    let p ← par
    let _ ← mapE (fun pair => compareComplexes pair.1 pair.2 true) (s.complexes.zip p.complexes)
    return ()
  | _, _ => none

end Verif
