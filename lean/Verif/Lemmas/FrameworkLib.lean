import Verif.Lemmas.Framework
import Verif.Spec.Framework

/-!
# The framework run on the classes of the library
-/

namespace Verif

variable {R : Type}

/-- The arguments of the message functions of the library, in one order. -/
def libraryArgs : List String := ["up_x_j", "up_attr", "down_x_j", "down_attr", "boundary_x_j"]

theorem library_userArgs [Zero R] (cls : PyClass) (cfg : MPConfig R R R) :
    (libraryObject cls cfg).userArgs = libraryArgs := by rfl

theorem library_updateArgs [Zero R] (cls : PyClass) (cfg : MPConfig R R R) :
    (libraryObject cls cfg).updateArgs = ["x"] := by rfl

theorem library_fuse [Zero R] {cls : PyClass} (hc : cls ∈ libraryClasses) (cfg : MPConfig R R R)
    (a : AdjKind) : (libraryObject cls cfg).fuse a = false := by
  have h : ∀ a ∈ [AdjKind.up, .down, .boundary], libraryClasses.all
      (fun c => !implements ("message_and_aggregate_" ++ a.str) c) = true := by decide +kernel
  have := List.all_eq_true.mp (h a (by cases a <;> simp)) cls hc
  simpa [MPObject.fuse, libraryObject] using this

/-- The attribute that the message function gets. -/
def attrOf (index : Adj R) (a : AdjKind) (kwargs : ArgDict R) : Val R :=
  match index with
  | .sparse t => optTensor t.values
  | _ => kwargs.get (a.str ++ "_attr")

/-- The indices at which the messages are aggregated. -/
def aggOf (flow : Flow) : Adj R → Val R
  | .dense cols => .ids (cols.map flow.i)
  | .sparse t => .ids t.row
  | _ => .empty

/-- The row pointers. -/
def ptrOf : Adj R → Val R
  | .dense _ => .none
  | .sparse t => .ids t.rowptr
  | _ => .empty

/-- The values of the collected arguments that the methods of the library use. -/
structure LibraryDict (flow : Flow) (ind : Adj R) (a : AdjKind) (kwargs : ArgDict R) (rows : List R)
    (s : Sizes) (d : ArgDict R) : Prop where
  xj : d.get (xjName a) = .tensor rows
  attr : a ≠ .boundary → d.get (a.str ++ "_attr") = attrOf ind a kwargs
  index : d.get ("agg_" ++ a.str ++ "_index") = aggOf flow ind
  ptr : d.get (a.str ++ "_ptr") = ptrOf ind
  dimSize : d.get (a.str ++ "_dim_size") = optInt (pyOr s.2 s.1)

theorem map_flow_i (flow : Flow) (cols : List (Nat × Nat)) :
    cols.map (if flow.dims.1 = 0 then Prod.fst else Prod.snd) = cols.map flow.i := by
  cases flow <;> rfl

theorem map_flow_j (flow : Flow) (cols : List (Nat × Nat)) :
    cols.map (if flow.dims.2 = 0 then Prod.fst else Prod.snd) = cols.map flow.j := by
  cases flow <;> rfl

theorem a_up : argSuffix "up_x_j" = "_j" := by rfl
theorem a_upAttr : argSuffix "up_attr" = "tr" := by rfl
theorem a_down : argSuffix "down_x_j" = "_j" := by rfl
theorem a_downAttr : argSuffix "down_attr" = "tr" := by rfl
theorem a_boundary : argSuffix "boundary_x_j" = "_j" := by rfl
theorem b_up_up : startsWith "up_" "up_x_j" = true := by rfl
theorem b_up_down : startsWith "up_" "down_x_j" = false := by rfl
theorem b_up_boundary : startsWith "up_" "boundary_x_j" = false := by rfl
theorem b_down_up : startsWith "down_" "up_x_j" = false := by rfl
theorem b_down_down : startsWith "down_" "down_x_j" = true := by rfl
theorem b_down_boundary : startsWith "down_" "boundary_x_j" = false := by rfl
theorem b_boundary_up : startsWith "boundary_" "up_x_j" = false := by rfl
theorem b_boundary_down : startsWith "boundary_" "down_x_j" = false := by rfl
theorem b_boundary_boundary : startsWith "boundary_" "boundary_x_j" = true := by rfl
theorem c_up : argStem 3 "up_x_j" = "x" := by rfl
theorem c_down : argStem 5 "down_x_j" = "x" := by rfl
theorem c_boundary : argStem 9 "boundary_x_j" = "x" := by rfl

theorem collect_up (flow : Flow) (index : Adj R) (kwargs : ArgDict R) (hi : index.isNone = false)
    {x : List R} (hx : kwargs.get "x" = .tensor x) (size : Sizes) :
    ∃ d : List R → Sizes → ArgDict R, collect flow libraryArgs index size .up kwargs = (do
      let s ← setSize size 0 (.tensor x)
      let xj ← lift x index flow.dims.2
      return (d xj s, s)) ∧ ∀ xj s, LibraryDict flow index .up kwargs xj s (d xj s) := by
  refine ⟨fun xj s => sizeArgs .up s (indexArgs flow index .up
    ((((ArgDict.nil.set "up_x_j" (.tensor xj)).set "up_attr" (kwargs.get "up_attr")).set "down_attr"
      (kwargs.get "down_attr")))), ?_, ?_⟩
  · simp [collect, libraryArgs, collectArgs, collectArg, a_up, a_upAttr, a_down, a_downAttr,
      a_boundary, b_up_up, b_up_down, b_up_boundary, c_up, argData, hi, hx, liftArg]
  · intro xj s
    cases index with
    | dense cols =>
      constructor <;> simp [sizeArgs, indexArgs, ArgDict.get, ArgDict.set, xjName, AdjKind.str,
        map_flow_i, attrOf, aggOf, ptrOf]
    | sparse t =>
      constructor <;> simp [sizeArgs, indexArgs, ArgDict.get, ArgDict.set, xjName, AdjKind.str, attrOf,
        aggOf, ptrOf]
    | _ =>
      constructor <;> simp [sizeArgs, indexArgs, ArgDict.get, ArgDict.set, xjName, AdjKind.str, ArgDict.nil,
        attrOf, aggOf, ptrOf]

theorem collect_down (flow : Flow) (index : Adj R) (kwargs : ArgDict R) (hi : index.isNone = false)
    {x : List R} (hx : kwargs.get "x" = .tensor x) (size : Sizes) :
    ∃ d : List R → Sizes → ArgDict R, collect flow libraryArgs index size .down kwargs = (do
      let s ← setSize size 0 (.tensor x)
      let xj ← lift x index flow.dims.2
      return (d xj s, s)) ∧ ∀ xj s, LibraryDict flow index .down kwargs xj s (d xj s) := by
  refine ⟨fun xj s => sizeArgs .down s (indexArgs flow index .down
    ((((ArgDict.nil.set "up_attr" (kwargs.get "up_attr")).set "down_x_j" (.tensor xj)).set "down_attr"
      (kwargs.get "down_attr")))), ?_, ?_⟩
  · simp [collect, libraryArgs, collectArgs, collectArg, a_up, a_upAttr, a_down, a_downAttr,
      a_boundary, b_down_up, b_down_down, b_down_boundary, c_down, argData, hi, hx, liftArg]
  · intro xj s
    cases index with
    | dense cols =>
      constructor <;> simp [sizeArgs, indexArgs, ArgDict.get, ArgDict.set, xjName, AdjKind.str,
        map_flow_i, attrOf, aggOf, ptrOf]
    | sparse t =>
      constructor <;> simp [sizeArgs, indexArgs, ArgDict.get, ArgDict.set, xjName, AdjKind.str, attrOf,
        aggOf, ptrOf]
    | _ =>
      constructor <;> simp [sizeArgs, indexArgs, ArgDict.get, ArgDict.set, xjName, AdjKind.str, ArgDict.nil,
        attrOf, aggOf, ptrOf]

theorem collect_boundary (flow : Flow) (index : Adj R) (kwargs : ArgDict R) (hi : index.isNone = false)
    {x battr : List R} (hx : kwargs.get "x" = .tensor x)
    (hb : kwargs.get "boundary_attr" = .tensor battr) (size : Sizes) :
    ∃ d : List R → Sizes → ArgDict R, collect flow libraryArgs index size .boundary kwargs = (do
      let s ← setSize size 0 (.tensor x)
      let xj ← lift battr index flow.dims.2
      return (d xj s, s)) ∧ ∀ xj s, LibraryDict flow index .boundary kwargs xj s (d xj s) := by
  refine ⟨fun xj s => sizeArgs .boundary s (indexArgs flow index .boundary
    ((((ArgDict.nil.set "up_attr" (kwargs.get "up_attr")).set "down_attr" (kwargs.get "down_attr"))).set
      "boundary_x_j" (.tensor xj))), ?_, ?_⟩
  · simp [collect, libraryArgs, collectArgs, collectArg, a_up, a_upAttr, a_down, a_downAttr,
      a_boundary, b_boundary_up, b_boundary_down, b_boundary_boundary, c_boundary, argData, hi, hx, hb,
      liftArg]
  · intro xj s
    cases index with
    | dense cols =>
      constructor <;> simp [sizeArgs, indexArgs, ArgDict.get, ArgDict.set, xjName, AdjKind.str,
        map_flow_i, aggOf, ptrOf]
    | sparse t =>
      constructor <;> simp [sizeArgs, indexArgs, ArgDict.get, ArgDict.set, xjName, AdjKind.str,
        aggOf, ptrOf]
    | _ =>
      constructor <;> simp [sizeArgs, indexArgs, ArgDict.get, ArgDict.set, xjName, AdjKind.str, ArgDict.nil,
        aggOf, ptrOf]

/-! ## The parts of `propagate` -/

/-- A keyword argument that is not passed, passed as `None`, or passed as a matrix. -/
def kwVal (v : Option (Option (List R))) : Val R := (v.map optTensor).getD .empty

theorem map_eq_bind {α β : Type} (f : α → β) (x : Py α) : f <$> x = x >>= fun a => .ok (f a) := by
  cases x <;> rfl

theorem distribute_attr_empty {a : AdjKind} {d : ArgDict R} {rows : List R} (msg : Msg R R R)
    (hx : d.get (xjName a) = .tensor rows) (hv : d.get (a.str ++ "_attr") = .empty) :
    distribute (attrMessage msg a).params d = .error .type := by
  simp only [attrMessage, distribute, fillParam, hx, hv, ok_bind]
  rfl

theorem distribute_attr {a : AdjKind} {d : ArgDict R} {rows : List R} {v : Option (List R)}
    (msg : Msg R R R) (hx : d.get (xjName a) = .tensor rows)
    (hv : d.get (a.str ++ "_attr") = optTensor v) :
    distribute (attrMessage msg a).params d = .ok [.tensor rows, optTensor v] := by
  simp only [attrMessage, distribute, fillParam, hx, hv, ok_bind]
  cases v <;> rfl

theorem distribute_agg {flow : Flow} {index : Adj R} {a : AdjKind} {kwargs : ArgDict R}
    {rows : List R} {s : Sizes} {d : ArgDict R} (h : LibraryDict flow index a kwargs rows s d)
    (agg : List R → R) {idx : List Nat} (hi : aggOf flow index = .ids idx) {n : Nat}
    (hn : pyOr s.2 s.1 = some n) {p : Val R} (hp : ptrOf index = p) (hpe : p = .none ∨ ∃ l, p = .ids l) :
    distribute (baseAggregate agg a).params d = .ok [.ids idx, p, .int n] := by
  simp only [baseAggregate, distribute, fillParam, h.index, hi, h.ptr, hp, h.dimSize, hn, optInt, ok_bind]
  rcases hpe with rfl | ⟨l, rfl⟩ <;> rfl

theorem attr_run (msg : Msg R R R) (a : AdjKind) (xs : List R) (v : Option (List R)) :
    (attrMessage msg a).run [.tensor xs, optTensor v] = .tensor <$> msg.apply xs v := by
  cases v <;> rfl

/-- Dense messages with attributes through the framework. -/
theorem unfused_attr_dense [Zero R] {cls : PyClass} {cfg : MPConfig R R R} {kwargs : ArgDict R}
    {x : List R} {attr : Option (Option (List R))} {cols : List (Nat × Nat)} {a : AdjKind}
    {msg : Msg R R R} {agg : List R → R}
    (hm : (libraryObject cls cfg).message a = attrMessage msg a)
    (ha : (libraryObject cls cfg).aggregate a = baseAggregate agg a) (hab : a ≠ .boundary)
    (hk : kwargs.get (a.str ++ "_attr") = kwVal attr)
    (hc : ∃ d : List R → Sizes → ArgDict R,
      collect cfg.flow libraryArgs (.dense cols) (none, none) a kwargs = (do
        let s ← setSize (none, none) 0 (.tensor x)
        let xj ← lift x (.dense cols) cfg.flow.dims.2
        return (d xj s, s)) ∧
      ∀ xj s, LibraryDict cfg.flow (.dense cols) a kwargs xj s (d xj s)) :
    MPObject.messageAndAggregate.unfused (libraryObject cls cfg) libraryArgs (.dense cols) a
        (none, none) kwargs =
      (fun m => (.tensor m, (some x.length, none))) <$>
        messageAndAggregate msg agg cfg.flow x.length x cols attr := by
  obtain ⟨d, hd, hD⟩ := hc
  unfold MPObject.messageAndAggregate.unfused messageAndAggregate
  have hs : setSize (R := R) (none, none) 0 (.tensor x) = .ok (some x.length, none) := rfl
  rw [show (libraryObject cls cfg).flow = cfg.flow from rfl, hd, hs, ok_bind, hm, ha]
  simp only [lift, map_flow_j, map_eq_bind, bind_assoc, pure_bind]
  refine bind_congr fun xj => ?_
  have h := hD xj (some x.length, none)
  have hattr := h.attr hab
  simp only [attrOf, hk] at hattr
  rw [distribute_agg h agg rfl (n := x.length) rfl rfl (.inl rfl)]
  cases attr with
  | none => rw [distribute_attr_empty msg h.xj hattr]; rfl
  | some v =>
    rw [distribute_attr msg h.xj hattr, ok_bind, attr_run]
    simp only [map_eq_bind, bind_assoc, ok_bind]
    refine bind_congr fun msgs => ?_
    simp only [baseAggregate, ptrOf, map_eq_bind, bind_assoc, ok_bind]
    rfl

theorem unfused_boundary_dense [Zero R] {cls : PyClass} {cfg : MPConfig R R R} {kwargs : ArgDict R}
    {x battr : List R} {cols : List (Nat × Nat)} (hx : kwargs.get "x" = .tensor x)
    (hb : kwargs.get "boundary_attr" = .tensor battr) :
    MPObject.messageAndAggregate.unfused (libraryObject cls cfg) libraryArgs (.dense cols) .boundary
        (none, none) kwargs =
      (fun m => (.tensor m, (some x.length, none))) <$>
        messageAndAggregate (A := Unit) (.plain cfg.msgBoundary) cfg.aggBoundary cfg.flow x.length
          battr cols (some none) := by
  obtain ⟨d, hd, hD⟩ := collect_boundary cfg.flow (.dense cols) kwargs rfl hx hb (none, none)
  unfold MPObject.messageAndAggregate.unfused messageAndAggregate
  have hs : setSize (R := R) (none, none) 0 (.tensor x) = .ok (some x.length, none) := rfl
  rw [show (libraryObject cls cfg).flow = cfg.flow from rfl, hd, hs, ok_bind,
    show (libraryObject cls cfg).message .boundary = boundaryMessage cfg.msgBoundary from rfl,
    show (libraryObject cls cfg).aggregate .boundary = baseAggregate cfg.aggBoundary .boundary from rfl]
  simp only [lift, map_flow_j, map_eq_bind, bind_assoc, pure_bind]
  refine bind_congr fun xj => ?_
  have h := hD xj (some x.length, none)
  rw [distribute_agg h cfg.aggBoundary rfl (n := x.length) rfl rfl (.inl rfl)]
  have : distribute (boundaryMessage cfg.msgBoundary).params (d xj (some x.length, none)) =
      .ok [.tensor xj] := by
    simp only [boundaryMessage, distribute, fillParam, h.xj, ok_bind]
    rfl
  rw [this]
  simp only [ok_bind, boundaryMessage, Msg.apply, baseAggregate, ptrOf, map_eq_bind, bind_assoc]
  rfl

theorem unfused_boundary_none [Zero R] {cls : PyClass} {cfg : MPConfig R R R} {kwargs : ArgDict R} :
    MPObject.messageAndAggregate.unfused (libraryObject cls cfg) libraryArgs .none .boundary
        (none, none) kwargs = .error .type := by
  unfold MPObject.messageAndAggregate.unfused
  have : ∃ d : ArgDict R, collect cfg.flow libraryArgs .none (none, none) .boundary kwargs =
      .ok (d, (none, none)) ∧ d.get (xjName .boundary) = .empty := by
    refine ⟨sizeArgs .boundary (none, none) ((ArgDict.nil.set "up_attr" (kwargs.get "up_attr")).set
      "down_attr" (kwargs.get "down_attr")), ?_, ?_⟩
    · simp [collect, libraryArgs, collectArgs, collectArg, a_up, a_upAttr, a_down, a_downAttr,
        a_boundary, Adj.isNone, indexArgs]
    · simp [sizeArgs, ArgDict.get, ArgDict.set, xjName, AdjKind.str, ArgDict.nil]
  obtain ⟨d, hd, he⟩ := this
  rw [show (libraryObject cls cfg).flow = cfg.flow from rfl, hd, ok_bind,
    show (libraryObject cls cfg).message .boundary = boundaryMessage cfg.msgBoundary from rfl]
  simp only [boundaryMessage, distribute, fillParam, he]
  rfl

theorem collect_update (flow : Flow) (index : Adj R) (size : Sizes) (a : AdjKind)
    (kwargs : ArgDict R) : ∃ d : ArgDict R, collect flow ["x"] index size a kwargs = .ok (d, size) ∧
      d "x" = some (kwargs.get "x") := by
  have hs : argSuffix "x" = "x" := by rfl
  refine ⟨sizeArgs a size (indexArgs flow index a (ArgDict.nil.set "x" (kwargs.get "x"))), ?_, ?_⟩
  · simp [collect, collectArgs, collectArg, hs]
  · cases a <;> cases index <;> simp [sizeArgs, indexArgs, ArgDict.set, AdjKind.str]

/-- The last step of `propagate` in the library. -/
theorem library_update [Zero R] {cls : PyClass} {cfg : MPConfig R R R} {kwargs : ArgDict R} {x : List R}
    (hx : kwargs.get "x" = .tensor x) (up down : Adj R) (u d b : Val R) (su sd : Sizes) :
    (do
      let cu ← collect cfg.flow ["x"] up su .up kwargs
      let cd ← collect cfg.flow ["x"] down sd .down kwargs
      let vs ← distribute (libraryObject cls cfg).update.params (cu.1.update cd.1)
      (libraryObject cls cfg).update.run u d b vs) = (do
      let u ← zeroUnless u (.tensor x)
      let d ← zeroUnless d (.tensor x)
      let b ← zeroUnless b (.tensor x)
      return (u, d, b)) := by
  obtain ⟨du, hu, hux⟩ := collect_update cfg.flow up su .up kwargs
  obtain ⟨dd, hd, hdx⟩ := collect_update cfg.flow down sd .down kwargs
  rw [hu, ok_bind, hd, ok_bind]
  have : (du.update dd).get "x" = .tensor x := by simpa [ArgDict.get, ArgDict.update, hdx] using hx
  have hdist : distribute (libraryObject cls cfg).update.params (du.update dd) =
      .ok [.tensor x] := by
    simp only [libraryObject, baseUpdate, distribute, fillParam, this, ok_bind]
    rfl
  rw [hdist]
  rfl

/-- A part of `propagate` in the framework is the same part in the simple model: `None` stands for rows
of zeros. -/
def SamePart [Zero R] (x : List R) (p : Py (Val R × Sizes)) (q : Py (List R)) : Prop :=
  (∃ e, p = .error e ∧ q = .error e) ∨
    ∃ v s m, p = .ok (v, s) ∧ q = .ok m ∧ zeroUnless v (.tensor x) = .ok (.tensor m)

theorem samePart_map [Zero R] {x : List R} (q : Py (List R)) (s : Sizes) :
    SamePart x ((fun m => (.tensor m, s)) <$> q) q := by
  cases q with
  | error e => exact .inl ⟨e, rfl, rfl⟩
  | ok m => exact .inr ⟨_, _, m, rfl, rfl, rfl⟩

theorem samePart_none [Zero R] {x : List R} (s : Sizes) :
    SamePart x (.ok (.none, s)) (.ok (zeroRows x.length)) :=
  .inr ⟨_, _, _, rfl, rfl, rfl⟩

theorem samePart_boundary [Zero R] {cls : PyClass} (hc : cls ∈ libraryClasses)
    (cfg : MPConfig R R R) {kwargs : ArgDict R} {x : List R}
    {upAttr downAttr : Option (Option (List R))} {boundaryAttr : Option (List R)}
    (hk : Passes kwargs x upAttr downAttr boundaryAttr)
    (boundaryIndex : Option (List (Nat × Nat))) :
    SamePart x ((libraryObject cls cfg).part libraryArgs []
      ((libraryObject cls cfg).useBoundary && hasBoundaryAttr kwargs)
      (denseOf boundaryIndex) .boundary (none, none) kwargs)
      (aggregateBoundary cfg.msgBoundary cfg.aggBoundary cfg.flow x.length
        (if cfg.useBoundary then boundaryAttr else none) boundaryIndex) := by
  have hx : kwargs.get "x" = .tensor x := by simp [ArgDict.get, hk.x]
  rw [show (libraryObject cls cfg).useBoundary = cfg.useBoundary from rfl]
  cases cfg.useBoundary with
  | false => exact samePart_none _
  | true =>
    cases boundaryAttr with
    | none =>
      have : hasBoundaryAttr kwargs = false := by
        rcases hk.noBoundary rfl with h | h <;> simp [hasBoundaryAttr, h]
      rw [this]
      exact samePart_none _
    | some b =>
      have hkb := hk.boundary b rfl
      have : hasBoundaryAttr kwargs = true := by simp [hasBoundaryAttr, hkb]
      rw [this]
      cases boundaryIndex with
      | none =>
        simp only [MPObject.part, MPObject.messageAndAggregate, library_fuse hc, denseOf,
          Bool.and_self, if_true, Bool.false_eq_true, if_false, aggregateBoundary,
          unfused_boundary_none]
        exact .inl ⟨_, rfl, rfl⟩
      | some cols =>
        simp only [MPObject.part, MPObject.messageAndAggregate, library_fuse hc, denseOf,
          Bool.and_self, if_true, Bool.false_eq_true, if_false, aggregateBoundary]
        rw [unfused_boundary_dense hx (battr := b) (by simp [ArgDict.get, hkb])]
        exact samePart_map _ _

theorem library_finish [Zero R] {cls : PyClass} {cfg : MPConfig R R R} {kwargs : ArgDict R}
    {x : List R} (hx : kwargs.get "x" = .tensor x) {up down : Adj R} {pu pd pb : Py (Val R × Sizes)}
    {qu qd qb : Py (List R)} (hup : SamePart x pu qu) (hdown : SamePart x pd qd)
    (hbound : SamePart x pb qb) :
    (do
      let u ← pu
      let d ← pd
      let b ← pb
      let cu ← collect cfg.flow ["x"] up u.2 .up kwargs
      let cd ← collect cfg.flow ["x"] down d.2 .down kwargs
      let vs ← distribute (libraryObject cls cfg).update.params (cu.1.update cd.1)
      (libraryObject cls cfg).update.run u.1 d.1 b.1 vs) =
      (fun r => (.tensor r.1, .tensor r.2.1, .tensor r.2.2)) <$> (do
        let u ← qu
        let d ← qd
        let b ← qb
        return (u, d, b)) := by
  rcases hup with ⟨e, h1, h2⟩ | ⟨u, su, mu, h1, h2, hu⟩
  · rw [h1, h2]; rfl
  rw [h1, h2, ok_bind, ok_bind]
  rcases hdown with ⟨e, h1, h2⟩ | ⟨dn, sd, md, h1, h2, hd⟩
  · rw [h1, h2]; rfl
  rw [h1, h2, ok_bind, ok_bind]
  rcases hbound with ⟨e, h1, h2⟩ | ⟨b, sb, mb, h1, h2, hb⟩
  · rw [h1, h2]; rfl
  rw [h1, h2, ok_bind, ok_bind, library_update hx, hu, ok_bind, hd, ok_bind, hb, ok_bind]
  rfl

theorem library_propagate [Zero R] {cls : PyClass} (hc : cls ∈ libraryClasses)
    (cfg : MPConfig R R R) {kwargs : ArgDict R} {x : List R}
    {upAttr downAttr : Option (Option (List R))} {boundaryAttr : Option (List R)}
    (hk : Passes kwargs x upAttr downAttr boundaryAttr)
    (upIndex downIndex boundaryIndex : Option (List (Nat × Nat))) :
    (libraryObject cls cfg).propagate libraryArgs [] ["x"] (denseOf upIndex) (denseOf downIndex)
        (denseOf boundaryIndex) none none none kwargs =
      (fun r => (.tensor r.1, .tensor r.2.1, .tensor r.2.2)) <$>
        propagate cfg upIndex downIndex boundaryIndex (some x) upAttr downAttr boundaryAttr := by
  have hx : kwargs.get "x" = .tensor x := by simp [ArgDict.get, hk.x]
  have hua : kwargs.get (AdjKind.up.str ++ "_attr") = kwVal upAttr := by
    simp [ArgDict.get, AdjKind.str, hk.up, kwVal]
  have hda : kwargs.get (AdjKind.down.str ++ "_attr") = kwVal downAttr := by
    simp [ArgDict.get, AdjKind.str, hk.down, kwVal]
  have hcheck : ∀ i : Option (List (Nat × Nat)),
      checkSeparately (R := R) cfg.flow (denseOf i) none = .ok (none, none) := by
    intro i; cases i <;> rfl
  have hboth : checkTogether (R := R) (denseOf upIndex) (denseOf downIndex) (none, none) (none, none) =
      .ok () := by
    unfold checkTogether
    split <;> rfl
  have hf : (libraryObject cls cfg).flow = cfg.flow := rfl
  have hup : SamePart x ((libraryObject cls cfg).part libraryArgs [] (!(denseOf upIndex : Adj R).isNone)
      (denseOf upIndex) .up (none, none) kwargs)
      (aggregateOrZero cfg.msgUp cfg.aggUp cfg.flow x.length x upIndex upAttr) := by
    cases upIndex with
    | none => exact samePart_none _
    | some cols =>
      simp only [MPObject.part, MPObject.messageAndAggregate, library_fuse hc, denseOf, Adj.isNone,
        Bool.not_false, if_true, Bool.false_eq_true, if_false, aggregateOrZero]
      rw [unfused_attr_dense (cls := cls) rfl rfl (by simp) hua (collect_up _ _ _ rfl hx _)]
      exact samePart_map _ _
  have hdown : SamePart x ((libraryObject cls cfg).part libraryArgs []
      ((libraryObject cls cfg).useDown && !(denseOf downIndex : Adj R).isNone)
      (denseOf downIndex) .down (none, none) kwargs)
      (aggregateOrZero cfg.msgDown cfg.aggDown cfg.flow x.length x
        (if cfg.useDown then downIndex else none) downAttr) := by
    rw [show (libraryObject cls cfg).useDown = cfg.useDown from rfl]
    cases cfg.useDown with
    | false => exact samePart_none _
    | true =>
      cases downIndex with
      | none => exact samePart_none _
      | some cols =>
        simp only [MPObject.part, MPObject.messageAndAggregate, library_fuse hc, denseOf, Adj.isNone,
          Bool.not_false, Bool.and_self, if_true, Bool.false_eq_true, if_false, aggregateOrZero]
        rw [unfused_attr_dense (cls := cls) rfl rfl (by simp) hda (collect_down _ _ _ rfl hx _)]
        exact samePart_map _ _
  have hbound := samePart_boundary hc cfg hk boundaryIndex
  unfold MPObject.propagate propagate
  rw [hf, hcheck, ok_bind, hcheck, ok_bind, hcheck, ok_bind, hboth, ok_bind]
  exact library_finish hx hup hdown hbound

end Verif
