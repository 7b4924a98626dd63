import Verif.Model.MessagePassing

/-!
# The message passing framework as written (mp/cell_mp.py, mp/cell_mp_inspector.py)

`Verif.Model.MessagePassing` models what `propagate` computes for the layers of the library. Here is
the machinery of the base class itself: the inspection of method signatures, the dictionaries of
collected arguments, declared sizes, and the adjacencies given as `torch_sparse.SparseTensor`.

All feature matrices are lists of rows of one type `R` (`node_dim = -2`, the default that every class
of the library keeps).
-/

namespace Verif

variable {R : Type}

/-- `torch_sparse.SparseTensor` (external contract): the entries (row, column) sorted by row, with
optional values, and the two sparse sizes. -/
structure SparseAdj (R : Type) where
  rows : Nat
  cols : Nat
  entries : List (Nat × Nat)
  values : Option (List R)

/-- `storage.row()`. -/
def SparseAdj.row (s : SparseAdj R) : List Nat := s.entries.map Prod.fst

/-- `storage.col()`. -/
def SparseAdj.col (s : SparseAdj R) : List Nat := s.entries.map Prod.snd

/-- `storage.rowptr()` (external contract): entry `k` is the number of entries in rows below `k`. -/
def SparseAdj.rowptr (s : SparseAdj R) : List Nat :=
  (List.range (s.rows + 1)).map fun k => s.row.countP (· < k)

/-- The argument `index` of the functions of the framework. -/
inductive Adj (R : Type)
  /-- `None` -/
  | none
  /-- a long tensor of shape `[2, E]` -/
  | dense (cols : List (Nat × Nat))
  /-- a tensor of another shape or type -/
  | malformed
  | sparse (s : SparseAdj R)
  /-- any other object -/
  | other

/-- The kinds of adjacency, strings in the code. -/
inductive AdjKind
  | up | down | boundary
  deriving DecidableEq

/-- The string that the code uses for the adjacency. -/
def AdjKind.str : AdjKind → String
  | .up => "up"
  | .down => "down"
  | .boundary => "boundary"

/-- The two entries of a size list, `None` when unknown. -/
abbrev Sizes := Option Nat × Option Nat

/-- The objects that keyword arguments and collected arguments can be. Feature and attribute matrices
are `tensor`s.
Simplified: no keyword argument of a layer is an index matrix, so `adj` only occurs among collected
arguments. -/
inductive Val (R : Type)
  /-- `inspect.Parameter.empty` -/
  | empty
  | none
  | tensor (rows : List R)
  /-- a tuple or a list -/
  | seq
  | adj (a : Adj R)
  /-- a vector of indices -/
  | ids (l : List Nat)
  | int (n : Nat)
  | sizes (s : Sizes)
  /-- any other object that is neither `None` nor a tensor nor a sequence -/
  | other

/-- A dictionary with string keys. -/
abbrev ArgDict (R : Type) := String → Option (Val R)

/-- `d[k] = v`. -/
def ArgDict.set (d : ArgDict R) (k : String) (v : Val R) : ArgDict R := fun k' => if k' = k then some v else d k'

/-- `d.get(k, Parameter.empty)`. -/
def ArgDict.get (d : ArgDict R) (k : String) : Val R := (d k).getD .empty

/-- `d.update(e)`. -/
def ArgDict.update (d e : ArgDict R) : ArgDict R := fun k => (e k).or (d k)

/-- The empty dictionary. -/
def ArgDict.nil : ArgDict R := fun _ => Option.none

/-! ## Strings -/

/-- `arg[-2:]`. -/
def argSuffix (arg : String) : String := String.ofList (arg.toList.drop (arg.toList.length - 2))

/-- `arg[k:-2]`. -/
def argStem (k : Nat) (arg : String) : String :=
  String.ofList ((arg.toList.take (arg.toList.length - 2)).drop k)

/-- `arg.startswith(p)`. -/
def startsWith (p arg : String) : Bool := p.toList.isPrefixOf arg.toList

/-! ## Signatures -/

/-- A parameter of a method with its default. -/
structure Param (R : Type) where
  name : String
  default : Option (Val R) := Option.none

/-- The value of one parameter, see `distribute`. -/
def fillParam (d : ArgDict R) (p : Param R) : Py (Val R) :=
  match d.get p.name, p.default with
  | .empty, Option.none => .error .type
  | .empty, some v => .ok v
  | v, _ => .ok v

/-- `Inspector.distribute` (torch_geometric, external contract): the value of every parameter, its
default if it is empty, `TypeError` without default. The values are listed in the order of the
parameters. -/
def distribute : List (Param R) → ArgDict R → Py (List (Val R))
  | [], _ => .ok []
  | p :: ps, d => do
    let v ← fillParam d p
    let vs ← distribute ps d
    return v :: vs

/-- `special_args` (mp/cell_mp.py:70-79). -/
def specialArgs : List String :=
  ["up_index", "up_adj_t", "up_index_i", "up_index_j", "up_size",
   "up_size_i", "up_size_j", "up_ptr", "agg_up_index", "up_dim_size",
   "down_index", "down_adj_t", "down_index_i", "down_index_j", "down_size",
   "down_size_i", "down_size_j", "down_ptr", "agg_down_index", "down_dim_size",
   "boundary_index", "boundary_adj_t", "boundary_index_i", "boundary_index_j", "boundary_size",
   "boundary_size_i", "boundary_size_j", "boundary_ptr", "agg_boundary_index", "boundary_dim_size"]

/-- A method `message_*`: its parameters and what it does with their values. -/
structure MsgFunc (R : Type) where
  params : List (Param R)
  run : List (Val R) → Py (Val R)

/-- A method `aggregate_*` or `message_and_aggregate_*`: the first argument is not among the inspected
parameters (`pop_first_n=1`, mp/cell_mp.py:121-126). -/
structure AggFunc (α R : Type) where
  params : List (Param R)
  run : α → List (Val R) → Py (Val R)

/-- `update`: the first three arguments are not inspected (mp/cell_mp.py:127). -/
structure UpdFunc (R : Type) where
  params : List (Param R)
  run : Val R → Val R → Val R → List (Val R) → Py (Val R × Val R × Val R)

/-- A class as far as `__implements__` sees it: name, keys of `__dict__`, bases. -/
inductive PyClass
  | mk (name : String) (dict : List String) (bases : List PyClass)

mutual
/-- `CellularInspector.__implements__` (mp/cell_mp_inspector.py:36-41). -/
def implements (f : String) : PyClass → Bool
  | .mk name dict bases =>
    if name = "CochainMessagePassing" then false
    else if f ∈ dict then true
    else implementsAny f bases
/-- `any(self.__implements__(c, func_name) for c in cls.__bases__)` (mp/cell_mp_inspector.py:41). -/
def implementsAny (f : String) : List PyClass → Bool
  | [] => false
  | c :: cs => implements f c || implementsAny f cs
end

/-- An object of a subclass of `CochainMessagePassing` (mp/cell_mp.py:81-144).
Simplified: the message sizes, which `update` uses for rows of zeros, are part of `update`. -/
structure MPObject (R : Type) where
  cls : PyClass
  message : AdjKind → MsgFunc R
  aggregate : AdjKind → AggFunc (Val R) R
  fused : AdjKind → AggFunc (SparseAdj R) R
  update : UpdFunc R
  useDown : Bool := true
  useBoundary : Bool := true
  flow : Flow := .sourceToTarget

/-- `Inspector.keys` (torch_geometric, external contract): the names of the parameters. -/
def sigNames (ps : List (Param R)) : List String := ps.map Param.name

/-- `inspector.keys(…).difference(special_args)` (mp/cell_mp.py:131-139), as a list without
repetition; the iteration order of the set in the code is not determined. -/
def withoutSpecial (names : List String) : List String := (names.filter (· ∉ specialArgs)).dedup

/-- `__user_args__` (mp/cell_mp.py:131-133). -/
def MPObject.userArgs (o : MPObject R) : List String :=
  withoutSpecial (sigNames (o.message .up).params ++ sigNames (o.message .down).params ++
    sigNames (o.message .boundary).params ++ sigNames (o.aggregate .up).params ++
    sigNames (o.aggregate .down).params ++ sigNames (o.aggregate .boundary).params)

/-- `__fused_user_args__` (mp/cell_mp.py:134-137). -/
def MPObject.fusedArgs (o : MPObject R) : List String :=
  withoutSpecial (sigNames (o.fused .up).params ++ sigNames (o.fused .down).params ++
    sigNames (o.fused .boundary).params)

/-- `__update_user_args__` (mp/cell_mp.py:138-139). -/
def MPObject.updateArgs (o : MPObject R) : List String := withoutSpecial (sigNames o.update.params)

/-- `get_fuse_boolean` (mp/cell_mp.py:141-144, 314-322). -/
def MPObject.fuse (o : MPObject R) (a : AdjKind) : Bool :=
  implements ("message_and_aggregate_" ++ a.str) o.cls

/-! ## Checks of the inputs -/

/-- `__check_input_separately__` (mp/cell_mp.py:153-184). `size` is what was declared, `None` by
default. -/
def checkSeparately (flow : Flow) (index : Adj R) (size : Option Sizes) : Py Sizes :=
  match index with
  | .dense _ => .ok (size.getD (Option.none, Option.none))
  | .malformed => .error .assertion
  | .sparse s =>
    match flow with
    | .targetToSource => .error .value
    | .sourceToTarget => .ok (some s.cols, some s.rows)
  | .none => .ok (Option.none, Option.none)
  | .other => .error .value

/-- Whether the index is `None`. -/
def Adj.isNone : Adj R → Bool
  | .none => true
  | _ => false

/-- `__check_input_together__` (mp/cell_mp.py:146-151). The sizes are lists here, never `None`. -/
def checkTogether (up down : Adj R) (upSize downSize : Sizes) : Py Unit :=
  if up.isNone || down.isNone then .ok ()
  else do
    pyAssert (upSize.1 == downSize.1)
    pyAssert (upSize.2 == downSize.2)

/-- `size[dim] = n`. -/
def Sizes.set (size : Sizes) (dim : Nat) (n : Nat) : Sizes :=
  if dim = 0 then (some n, size.2) else (size.1, some n)

/-- `size[dim]`. -/
def Sizes.get (size : Sizes) (dim : Nat) : Option Nat := if dim = 0 then size.1 else size.2

/-- `__set_size__` (mp/cell_mp.py:186-193); `src.size` is an `AttributeError` unless `src` is a
tensor. A vector has no axis `-2`. -/
def setSize (size : Sizes) (dim : Nat) (src : Val R) : Py Sizes :=
  match src with
  | .tensor rows =>
    match size.get dim with
    | Option.none => .ok (size.set dim rows.length)
    | some n => if n = rows.length then .ok size else .error .value
  | .ids _ => .error .index
  | _ => .error .attribute

/-! ## Collecting arguments -/

/-- `torch_scatter.gather_csr(src, rowptr)` (external contract): row `k` of `src` is repeated
`rowptr[k+1] - rowptr[k]` times; `src` has to have one row per segment or none at all. -/
def gatherCsr (src : List R) (ptr : List Nat) : Py (List R) :=
  if src.length = 0 || src.length = ptr.length - 1 then
    .ok ((src.zip (ptr.zip ptr.tail)).flatMap fun p => List.replicate (p.2.2 - p.2.1) p.1)
  else .error .runtime

/-- `__lift__` (mp/cell_mp.py:195-207). -/
def lift (src : List R) (index : Adj R) (dim : Nat) : Py (List R) :=
  match index with
  | .dense cols => indexSelect src (cols.map (if dim = 0 then Prod.fst else Prod.snd))
  | .sparse s =>
    if dim = 1 then gatherCsr src s.rowptr
    else if dim = 0 then indexSelect src s.col
    else .error .value
  | _ => .error .value

/-- The pair `(i, j)` of rows of the index (mp/cell_mp.py:210). -/
def Flow.dims : Flow → Nat × Nat
  | .sourceToTarget => (1, 0)
  | .targetToSource => (0, 1)

/-- The arguments `data` and `size_data` for a name that ends in `_i` or `_j` (mp/cell_mp.py:221-239);
`none` where the code continues with the next argument. -/
def argData (a : AdjKind) (kwargs : ArgDict R) (arg : String) (dim : Nat) : Option (Val R × Val R) :=
  if a = .up ∧ startsWith "up_" arg then
    some (kwargs.get (argStem 3 arg), kwargs.get (argStem 3 arg))
  else if a = .down ∧ startsWith "down_" arg then
    some (kwargs.get (argStem 5 arg), kwargs.get (argStem 5 arg))
  else if a = .boundary ∧ startsWith "boundary_" arg then
    if dim = 0 then some (kwargs.get "boundary_attr", kwargs.get (argStem 9 arg))
    else some (kwargs.get (argStem 9 arg), kwargs.get (argStem 9 arg))
  else Option.none

/-- The lifting of `data` (mp/cell_mp.py:241-253): the value stored for the argument and the sizes.
A vector as `data` is a tensor without axis `-2`. -/
def liftArg (flow : Flow) (index : Adj R) (size : Sizes) (arg : String) (dim : Nat)
    (data sizeData : Val R) : Py (Val R × Sizes) :=
  match data with
  | .seq => .error .value
  | .tensor rows => do
    let size ← setSize size dim sizeData
    let rows ← lift rows index (if argSuffix arg = "_j" then flow.dims.2 else flow.dims.1)
    return (.tensor rows, size)
  | .ids _ => do
    let _ ← setSize size dim sizeData
    .error .index
  | data => .ok (data, size)

/-- One turn of the loop of `__collect__` (mp/cell_mp.py:214-255). -/
def collectArg (flow : Flow) (index : Adj R) (a : AdjKind) (kwargs : ArgDict R)
    (st : ArgDict R × Sizes) (arg : String) : Py (ArgDict R × Sizes) :=
  if argSuffix arg ≠ "_i" ∧ argSuffix arg ≠ "_j" then .ok (st.1.set arg (kwargs.get arg), st.2)
  else if index.isNone then .ok st
  else
    match argData a kwargs arg (if argSuffix arg = "_j" then 0 else 1) with
    | Option.none => .ok st
    | some (data, sizeData) => do
      let r ← liftArg flow index st.2 arg (if argSuffix arg = "_j" then 0 else 1) data sizeData
      return (st.1.set arg r.1, r.2)

/-- `__collect__`, the loop (mp/cell_mp.py:213-255). -/
def collectArgs (flow : Flow) (index : Adj R) (a : AdjKind) (kwargs : ArgDict R) :
    List String → ArgDict R × Sizes → Py (ArgDict R × Sizes)
  | [], st => .ok st
  | arg :: args, st => do
    let st ← collectArg flow index a kwargs st arg
    collectArgs flow index a kwargs args st

/-- `a or b` for numbers and `None`. -/
def pyOr : Option Nat → Option Nat → Option Nat
  | some (n + 1), _ => some (n + 1)
  | _, b => b

/-- A number or `None`. -/
def optInt : Option Nat → Val R
  | Option.none => .none
  | some n => .int n

/-- A matrix or `None`. -/
def optTensor : Option (List R) → Val R
  | Option.none => .none
  | some l => .tensor l

/-- The arguments that depend on the kind of index (mp/cell_mp.py:259-276). -/
def indexArgs (flow : Flow) (index : Adj R) (a : AdjKind) (d : ArgDict R) : ArgDict R :=
  match index with
  | .dense cols =>
    let row (k : Nat) : Val R := .ids (cols.map (if k = 0 then Prod.fst else Prod.snd))
    ((((((d.set (a.str ++ "_adj_t") .none).set (a.str ++ "_ptr") .none).set
      (a.str ++ "_index") (.adj index)).set (a.str ++ "_index_i") (row flow.dims.1)).set
      (a.str ++ "_index_j") (row flow.dims.2)).set ("agg_" ++ a.str ++ "_index") (row flow.dims.1))
  | .sparse s =>
    (((((((((d.set "edge_index" .none).set (a.str ++ "_adj_t") (.adj index)).set
      (a.str ++ "_index_i") (.ids s.row)).set (a.str ++ "_index_j") (.ids s.col)).set
      (a.str ++ "_ptr") (.ids s.rowptr)).set (a.str ++ "_weight") (optTensor s.values)).set
      (a.str ++ "_attr") (optTensor s.values)).set (a.str ++ "_type") (optTensor s.values)).set
      ("agg_" ++ a.str ++ "_index") (.ids s.row))
  | _ => d

/-- The arguments with sizes (mp/cell_mp.py:278-281). -/
def sizeArgs (a : AdjKind) (size : Sizes) (d : ArgDict R) : ArgDict R :=
  (((d.set (a.str ++ "_size") (.sizes size)).set (a.str ++ "_size_i") (optInt (pyOr size.2 size.1))).set
    (a.str ++ "_size_j") (optInt (pyOr size.1 size.2))).set
    (a.str ++ "_dim_size") (optInt (pyOr size.2 size.1))

/-- `__collect__` (mp/cell_mp.py:209-282): the dictionary, and the list of sizes as changed. -/
def collect (flow : Flow) (args : List String) (index : Adj R) (size : Sizes) (a : AdjKind)
    (kwargs : ArgDict R) : Py (ArgDict R × Sizes) := do
  let r ← collectArgs flow index a kwargs args (ArgDict.nil, size)
  return (sizeArgs a r.2 (indexArgs flow index a r.1), r.2)

/-! ## Propagation -/

/-- `__message_and_aggregate__` (mp/cell_mp.py:324-355): the result and the list of sizes as changed.
`user` and `fused` are the sets of arguments in the order of iteration. Without index, and with a fused
function, neither branch is taken and the result is `None`. -/
def MPObject.messageAndAggregate (o : MPObject R) (user fused : List String) (index : Adj R)
    (a : AdjKind) (size : Sizes) (kwargs : ArgDict R) : Py (Val R × Sizes) :=
  if o.fuse a then
    match index with
    | .sparse s => do
      let r ← collect o.flow fused index size a kwargs
      let vs ← distribute (o.fused a).params r.1
      let out ← (o.fused a).run s vs
      return (out, r.2)
    | .dense _ => unfused
    | _ => .ok (.none, size)
  else unfused
where
  /-- Message and aggregation one after the other (mp/cell_mp.py:344-355). -/
  unfused : Py (Val R × Sizes) := do
    let r ← collect o.flow user index size a kwargs
    let vs ← distribute (o.message a).params r.1
    let msgs ← (o.message a).run vs
    let ws ← distribute (o.aggregate a).params r.1
    let out ← (o.aggregate a).run msgs ws
    return (out, r.2)

/-- The messages along an index, `None` if they are not wanted. -/
def MPObject.part (o : MPObject R) (user fused : List String) (wanted : Bool) (index : Adj R)
    (a : AdjKind) (size : Sizes) (kwargs : ArgDict R) : Py (Val R × Sizes) :=
  if wanted then o.messageAndAggregate user fused index a size kwargs else .ok (.none, size)

/-- Whether `'boundary_attr' in kwargs and kwargs['boundary_attr'] is not None`
(mp/cell_mp.py:381). -/
def hasBoundaryAttr (kwargs : ArgDict R) : Bool :=
  match kwargs "boundary_attr" with
  | Option.none => false
  | some .none => false
  | some _ => true

/-- `propagate` (mp/cell_mp.py:357-392). `user`, `fused` and `upd` are the three sets of arguments in
the order of iteration. -/
def MPObject.propagate (o : MPObject R) (user fused upd : List String) (up down boundary : Adj R)
    (upSize downSize boundarySize : Option Sizes) (kwargs : ArgDict R) :
    Py (Val R × Val R × Val R) := do
  let upSize ← checkSeparately o.flow up upSize
  let downSize ← checkSeparately o.flow down downSize
  let boundarySize ← checkSeparately o.flow boundary boundarySize
  checkTogether up down upSize downSize
  let u ← o.part user fused (!up.isNone) up .up upSize kwargs
  let d ← o.part user fused (o.useDown && !down.isNone) down .down downSize kwargs
  let b ← o.part user fused (o.useBoundary && hasBoundaryAttr kwargs) boundary .boundary
    boundarySize kwargs
  let cu ← collect o.flow upd up u.2 .up kwargs
  let cd ← collect o.flow upd down d.2 .down kwargs
  let vs ← distribute o.update.params (cu.1.update cd.1)
  o.update.run u.1 d.1 b.1 vs

/-! ## The methods of the base class -/

/-- `torch_scatter.scatter` where `dim_size` may be `None` (external contract): then there are as many
rows as the largest index asks for. -/
def scatterOpt (agg : List R → R) (n : Option Nat) (idx : List Nat) (src : List R) : Py (List R) :=
  match n with
  | some n => scatter agg n idx src
  | Option.none => scatter agg (idx.foldl (fun m i => max m (i + 1)) 0) idx src

/-- `torch_scatter.segment_csr(src, ptr, reduce)` (external contract): segment `k` holds the rows
`ptr[k]`, …, `ptr[k+1] - 1`. -/
def segmentCsr (agg : List R → R) (ptr : List Nat) (src : List R) : List R :=
  (ptr.zip ptr.tail).map fun p => agg ((src.take p.2).drop p.1)

/-- `aggregate_up`, `aggregate_down`, `aggregate_boundary` (mp/cell_mp.py:423-479). -/
def baseAggregate (agg : List R → R) (a : AdjKind) : AggFunc (Val R) R where
  params := [⟨"agg_" ++ a.str ++ "_index", Option.none⟩, ⟨a.str ++ "_ptr", some .none⟩,
    ⟨a.str ++ "_dim_size", some .none⟩]
  run := fun inputs vs =>
    match inputs, vs with
    | .tensor src, [.ids idx, .none, .int n] => .tensor <$> scatter agg n idx src
    | .tensor src, [.ids idx, .none, .none] => .tensor <$> scatterOpt agg Option.none idx src
    | .tensor src, [_, .ids ptr, _] => .ok (.tensor (segmentCsr agg ptr src))
    | _, _ => .error .attribute

/-- `message_and_aggregate_up`, … of the base class (mp/cell_mp.py:481-509). -/
def baseFused : AggFunc (SparseAdj R) R where
  params := []
  run := fun _ _ => .error .notImplemented

/-- The name of the features of the other cell: `up_x_j`, … -/
def xjName (a : AdjKind) : String := a.str ++ "_x_j"

/-- `message_up` and `message_down` (mp/cell_mp.py:394-412, mp/layers.py:23-31, 94-103, 210-211,
240-241, 462-470): every class of the library has the parameters `up_x_j, up_attr` and
`down_x_j, down_attr`. -/
def attrMessage (msg : Msg R R R) (a : AdjKind) : MsgFunc R where
  params := [⟨xjName a, Option.none⟩, ⟨a.str ++ "_attr", Option.none⟩]
  run := fun vs =>
    match vs with
    | [.tensor xs, .none] => .tensor <$> msg.apply xs Option.none
    | [.tensor xs, .tensor as] => .tensor <$> msg.apply xs (some as)
    | _ => .error .type

/-- `message_boundary` (mp/cell_mp.py:414-421, mp/layers.py:213-214), with the parameter
`boundary_x_j`. -/
def boundaryMessage (msg : R → R) : MsgFunc R where
  params := [⟨xjName .boundary, Option.none⟩]
  run := fun vs =>
    match vs with
    | [.tensor xs] => .ok (.tensor (xs.map msg))
    | _ => .error .type

/-- `torch.zeros(x.size(0), …)` for `None` (mp/cell_mp.py:517-522). -/
def zeroUnless [Zero R] (v : Val R) (x : Val R) : Py (Val R) :=
  match v with
  | .none =>
    match x with
    | .tensor rows => .ok (.tensor (zeroRows rows.length))
    | .ids l => .ok (.tensor (zeroRows l.length))
    | _ => .error .attribute
  | v => .ok v

/-- `update` (mp/cell_mp.py:511-524), with the parameter `x`. -/
def baseUpdate [Zero R] : UpdFunc R where
  params := [⟨"x", Option.none⟩]
  run := fun u d b vs =>
    match vs with
    | [x] => do
      let u ← zeroUnless u x
      let d ← zeroUnless d x
      let b ← zeroUnless b x
      return (u, d, b)
    | _ => .error .type

/-- An object of one of the classes of the library: the methods of the base class, with the message
functions and reductions of `cfg`, and no fused functions. -/
def libraryObject [Zero R] (cls : PyClass) (cfg : MPConfig R R R) : MPObject R where
  cls := cls
  message
    | .up => attrMessage cfg.msgUp .up
    | .down => attrMessage cfg.msgDown .down
    | .boundary => boundaryMessage cfg.msgBoundary
  aggregate
    | .up => baseAggregate cfg.aggUp .up
    | .down => baseAggregate cfg.aggDown .down
    | .boundary => baseAggregate cfg.aggBoundary .boundary
  fused := fun _ => baseFused
  update := baseUpdate
  useDown := cfg.useDown
  useBoundary := cfg.useBoundary
  flow := cfg.flow

/-- The classes of the library (mp/layers.py:14-41, 62-103, 154-214, 216-262, 430-470; mp/cell_mp.py:42):
none has fused functions. `torch.nn.Module` and its bases have no methods of these names either. -/
def baseClass : PyClass := .mk "CochainMessagePassing" ["message_and_aggregate_up",
  "message_and_aggregate_down", "message_and_aggregate_boundary"] [.mk "Module" [] []]

/-- The subclasses of the library, see `baseClass`. -/
def libraryClasses : List PyClass :=
  [baseClass,
   .mk "DummyCochainMessagePassing" ["message_up", "message_down", "forward"] [baseClass],
   .mk "CINCochainConv" ["forward", "reset_parameters", "message_up", "message_down"] [baseClass],
   .mk "SparseCINCochainConv" ["forward", "reset_parameters", "message_up", "message_boundary"]
     [baseClass],
   .mk "CINppCochainConv" ["message_down", "forward"]
     [.mk "SparseCINCochainConv" ["forward", "reset_parameters", "message_up", "message_boundary"]
       [baseClass]],
   .mk "OrientedConv" ["forward", "reset_parameters", "message_up", "message_down"] [baseClass]]

end Verif
