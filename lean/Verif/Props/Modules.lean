import Verif.Lemmas.ModuleNets
import Verif.Props.Widths

/-!
# Properties of the parameters of the networks (C87)
-/

namespace Verif

namespace ModulesEx

open WidthsEx

/-- Two levels that share a network, and a parameter of their own. -/
def shared : NNModule :=
  let net : NNModule := .mk (some [.fill "weight"]) [("weight", ⟨0, 6⟩)] []
  .mk none [("eps", ⟨1, 1⟩)] [("a", .mk none [] [("nn", net)]), ("b", .mk none [] [("nn", net)])]

/-- The arguments of exp/scripts/cwn-zinc-small.sh. -/
def zincSmall : EmbedArgs :=
  { numInput := 0, numClasses := 1, numLayers := 2, hidden := 48, useCoboundaries := true,
    embedEdge := true }

/-- The arguments of exp/scripts/cin++-zinc-500k.sh. -/
def zinc500k : EmbedArgs :=
  { numInput := 0, numClasses := 1, numLayers := 3, hidden := 64, useCoboundaries := true,
    embedEdge := true }

/-- Arguments of `EdgeOrient` and `EdgeMPNN`. -/
def edgeArgs : EdgeArgs :=
  { numInput := 1, numClasses := 2, numLayers := 3, hidden := 5, jumpMode := some "cat" }

end ModulesEx

open ModulesEx WidthsEx

/-- `named_parameters` visits every parameter once, also those of networks that several modules share,
and `total_params` is the number of their elements. -/
theorem C87_named_parameters (m : NNModule) :
    m.namedParameters.Nodup ∧ (∀ p, p ∈ m.namedParameters ↔ HasParam m p) ∧
      m.totalParams = (m.namedParameters.map NNParam.numel).sum := by
  refine ⟨nodup_skipSeen _ _, fun p => ?_, ?_⟩
  · rw [hasParam_iff]
    simp [NNModule.namedParameters, mem_skipSeen]
  · unfold NNModule.totalParams
    rw [foldl_numel, Nat.zero_add]

example : shared.params.length = 3 ∧ shared.namedParameters.length = 2 ∧ shared.totalParams = 7 := by
  decide

/-! ## How many parameters -/

/-- `SparseCIN`. -/
theorem C87_sparse_cin_parameters {a : SparseArgs} {trainEps : Bool} {b : StateM Nat NNModule}
    (h : a.newSparseCIN trainEps = .ok b) (n : Nat) :
    (b n).1.totalParams =
      Count.stack a.numLayers
        ((a.maxDim + 1) * Count.sparseLevel a.graphNorm a.numInput a.hidden a.useCoboundaries trainEps)
        ((a.maxDim + 1) * Count.sparseLevel a.graphNorm a.hidden a.hidden a.useCoboundaries trainEps) +
      Count.head a.jumpMode a.maxDim a.numLayers a.hidden a.multiplier a.numClasses :=
  total_of_creates (newSparseCIN_creates h) n

example : (args.newSparseCIN true).toOption.map (fun b => (b 0).1.totalParams) = some 6903 := by
  decide +kernel

/-- `CINpp`: a third perceptron and a second network on messages per dimension. -/
theorem C87_cinpp_parameters {a : SparseArgs} {trainEps : Bool} {b : StateM Nat NNModule}
    (h : a.newCINpp trainEps = .ok b) (n : Nat) :
    (b n).1.totalParams =
      Count.stack a.numLayers
        ((a.maxDim + 1) * Count.ppLevel a.graphNorm a.numInput a.hidden a.useCoboundaries trainEps)
        ((a.maxDim + 1) * Count.ppLevel a.graphNorm a.hidden a.hidden a.useCoboundaries trainEps) +
      Count.head a.jumpMode a.maxDim a.numLayers a.hidden a.multiplier a.numClasses :=
  total_of_creates (newCINpp_creates h) n

example : (args.newCINpp true).toOption.map (fun b => (b 0).1.totalParams) = some 10107 := by
  decide +kernel

/-- `EmbedSparseCIN`: the embeddings are counted once, although `init_conv` has them as well. -/
theorem C87_embed_sparse_cin_parameters {a : EmbedArgs} {atoms bonds : Nat} {trainEps : Bool}
    {b : StateM Nat NNModule} (h : a.newEmbedSparseCIN atoms bonds trainEps = .ok b) (n : Nat) :
    (b n).1.totalParams =
      atoms * a.embed + (if a.embedEdge then bonds * a.embed else 0) + (Count.stack a.numLayers
        ((a.maxDim + 1) * Count.sparseLevel a.graphNorm a.embed a.hidden a.useCoboundaries trainEps)
        ((a.maxDim + 1) * Count.sparseLevel a.graphNorm a.hidden a.hidden a.useCoboundaries trainEps) +
      Count.head a.jumpMode a.maxDim a.numLayers a.hidden a.multiplier a.numClasses) :=
  total_of_creates (newEmbedNet_creates (newEmbedding_creates _ _) (newEmbedding_creates _ _) h) n

/-- The model of exp/scripts/cwn-zinc-small.sh. -/
example : (zincSmall.newEmbedSparseCIN 28 4 false).toOption.map (fun b => (b 0).1.totalParams) =
    some 130945 := by
  decide +kernel

/-- `OGBEmbedSparseCIN`. -/
theorem C87_ogb_embed_sparse_cin_parameters {a : EmbedArgs} {atoms bonds : List Nat} {trainEps : Bool}
    {b : StateM Nat NNModule} (h : a.newOGBEmbedSparseCIN atoms bonds trainEps = .ok b) (n : Nat) :
    (b n).1.totalParams =
      atoms.sum * a.embed + (if a.embedEdge then bonds.sum * a.embed else 0) + (Count.stack a.numLayers
        ((a.maxDim + 1) * Count.sparseLevel a.graphNorm a.embed a.hidden a.useCoboundaries trainEps)
        ((a.maxDim + 1) * Count.sparseLevel a.graphNorm a.hidden a.hidden a.useCoboundaries trainEps) +
      Count.head a.jumpMode a.maxDim a.numLayers a.hidden a.multiplier a.numClasses) :=
  total_of_creates (newEmbedNet_creates (newEncoder_creates _ _) (newEncoder_creates _ _) h) n

example : (embedArgs.newOGBEmbedSparseCIN [3, 2] [4] true).toOption.map
    (fun b => (b 0).1.totalParams) = some 8034 := by
  decide +kernel

/-- `EmbedCINpp`. -/
theorem C87_embed_cinpp_parameters {a : EmbedArgs} {atoms bonds : Nat} {trainEps : Bool}
    {b : StateM Nat NNModule} (h : a.newEmbedCINpp atoms bonds trainEps = .ok b) (n : Nat) :
    (b n).1.totalParams =
      atoms * a.embed + (if a.embedEdge then bonds * a.embed else 0) + (Count.stack a.numLayers
        ((a.maxDim + 1) * Count.ppLevel a.graphNorm a.embed a.hidden a.useCoboundaries trainEps)
        ((a.maxDim + 1) * Count.ppLevel a.graphNorm a.hidden a.hidden a.useCoboundaries trainEps) +
      Count.head a.jumpMode a.maxDim a.numLayers a.hidden a.multiplier a.numClasses) :=
  total_of_creates (newEmbedPP_creates (newEmbedding_creates _ _) (newEmbedding_creates _ _) h) n

/-- The model of exp/scripts/cin++-zinc-500k.sh. -/
example : (zinc500k.newEmbedCINpp 28 4 false).toOption.map (fun b => (b 0).1.totalParams) =
    some 519617 := by
  decide +kernel

/-- `OGBEmbedCINpp`. -/
theorem C87_ogb_embed_cinpp_parameters {a : EmbedArgs} {atoms bonds : List Nat} {trainEps : Bool}
    {b : StateM Nat NNModule} (h : a.newOGBEmbedCINpp atoms bonds trainEps = .ok b) (n : Nat) :
    (b n).1.totalParams =
      atoms.sum * a.embed + (if a.embedEdge then bonds.sum * a.embed else 0) + (Count.stack a.numLayers
        ((a.maxDim + 1) * Count.ppLevel a.graphNorm a.embed a.hidden a.useCoboundaries trainEps)
        ((a.maxDim + 1) * Count.ppLevel a.graphNorm a.hidden a.hidden a.useCoboundaries trainEps) +
      Count.head a.jumpMode a.maxDim a.numLayers a.hidden a.multiplier a.numClasses) :=
  total_of_creates (newEmbedPP_creates (newEncoder_creates _ _) (newEncoder_creates _ _) h) n

example : (embedArgs.newOGBEmbedCINpp [3, 2] [4] true).toOption.map
    (fun b => (b 0).1.totalParams) = some 12102 := by
  decide +kernel

/-- `EmbedSparseCINNoRings`: vertices and edges only. -/
theorem C87_no_rings_parameters {a : EmbedArgs} {atoms bonds : Nat} {trainEps : Bool}
    {b : StateM Nat NNModule} (h : a.newEmbedSparseCINNoRings atoms bonds trainEps = .ok b) (n : Nat) :
    (b n).1.totalParams =
      atoms * a.embed + (if a.embedEdge then bonds * a.embed else 0) + (Count.stack a.numLayers
        (2 * Count.sparseLevel a.graphNorm a.embed a.hidden a.useCoboundaries trainEps)
        (2 * Count.sparseLevel a.graphNorm a.hidden a.hidden a.useCoboundaries trainEps) +
      2 * Count.linear a.hidden (a.multiplier * a.hidden) +
        Count.linear (a.multiplier * a.hidden) a.numClasses) := by
  refine (total_of_creates
    (newEmbedNet_creates (newEmbedding_creates _ _) (newEmbedding_creates _ _) h) n).trans ?_
  simp [Count.head, EmbedArgs.embed]
  omega

example : (embedArgs.newEmbedSparseCINNoRings 3 2 true).toOption.map
    (fun b => (b 0).1.totalParams) = some 4810 := by
  decide +kernel

/-- `CIN0`: the dimensions share the networks, so `max_dim` makes no difference. -/
theorem C87_cin0_parameters {a : CINArgs} {b : StateM Nat NNModule} (h : a.newCIN0 = .ok b) (n : Nat) :
    (b n).1.totalParams =
      Count.stack a.numLayers (Count.cin0Layer a.numInput a.hidden)
        (Count.cin0Layer a.hidden a.hidden) +
      Count.linear (Count.jumpWidth a.jumpMode a.numLayers a.hidden) a.hidden +
      Count.linear a.hidden a.numClasses :=
  total_of_creates (newCIN0_creates h) n

/-- Two networks that differ in `max_dim` only have the same number of parameters. -/
theorem C87_cin0_max_dim {a a' : CINArgs} {b b' : StateM Nat NNModule} (h : a.newCIN0 = .ok b)
    (h' : a'.newCIN0 = .ok b') (e : a' = { a with maxDim := a'.maxDim }) (n n' : Nat) :
    (b' n').1.totalParams = (b n).1.totalParams := by
  rw [C87_cin0_parameters h, C87_cin0_parameters h', e]

example : (cinArgs.newCIN0).toOption.map (fun b => (b 0).1.totalParams) = some 1340 ∧
    (CINArgs.newCIN0 { cinArgs with maxDim := 5 }).toOption.map (fun b => (b 0).1.totalParams) = some 1340 := by
  decide +kernel

/-- `EdgeCIN0`. -/
theorem C87_edge_cin0_parameters {a : CINArgs} {b : StateM Nat NNModule} (h : a.newEdgeCIN0 = .ok b)
    (n : Nat) :
    (b n).1.totalParams =
      Count.stack a.numLayers (Count.edgeLayer a.numInput a.hidden a.includeTop)
        (Count.edgeLayer a.hidden a.hidden a.includeTop) +
      (if a.includeTop && a.updateTop then
        Count.stack (a.numLayers - 1)
          (Count.linear a.numInput a.hidden + Count.linear a.hidden a.hidden + 2 * a.hidden)
          (Count.linear a.hidden a.hidden + Count.linear a.hidden a.hidden + 2 * a.hidden) else 0) +
      Count.linear (Count.jumpWidth a.jumpMode a.numLayers a.hidden) a.hidden +
      Count.linear a.hidden a.numClasses :=
  total_of_creates (newEdgeCIN0_creates h) n

example : (cinArgs.newEdgeCIN0).toOption.map (fun b => (b 0).1.totalParams) = some 2550 := by
  decide +kernel

/-- `RingSparseCIN`. -/
theorem C87_ring_sparse_cin_parameters {inp classes L hid D : Nat} {nl gn : String}
    {cob trainEps : Bool} {b : StateM Nat NNModule}
    (h : newRingSparseCIN inp classes L hid D nl gn cob trainEps = .ok b) (n : Nat) :
    (b n).1.totalParams =
      Count.linear inp inp + Count.stack L ((D + 1) * Count.sparseLevel gn inp hid cob trainEps)
      ((D + 1) * Count.sparseLevel gn hid hid cob trainEps) + Count.linear hid classes :=
  total_of_creates (newRingSparseCIN_creates h) n

example : (newRingSparseCIN 3 5 2 7 2 "relu" "id" true false).toOption.map
    (fun b => (b 0).1.totalParams) = some 2236 := by
  decide +kernel

/-- `RingGIN`. -/
theorem C87_ring_gin_parameters {inp L hid classes : Nat} {nl gn : String} {b : StateM Nat NNModule}
    (h : newRingGIN inp L hid classes nl gn = .ok b) (n : Nat) :
    (b n).1.totalParams =
      Count.linear inp inp + Count.mlp gn inp hid + (L - 1) * Count.mlp gn hid hid +
      Count.linear hid classes :=
  total_of_creates (newRingGIN_creates h) n

example : (newRingGIN 3 4 7 5 "relu" "bn").toOption.map (fun b => (b 0).1.totalParams) = some 584 := by
  decide +kernel

/-- `GIN0`, `GIN0WithJK`, `GIN` and `GINWithJK`. -/
theorem C87_gin_parameters {inp L hid classes : Nat} {mode : Option String} {ro nl : String}
    {trainEps : Bool} {b : StateM Nat NNModule}
    (h : newGIN inp L hid classes mode ro nl trainEps = .ok b) (n : Nat) :
    (b n).1.totalParams =
      Count.mlp "bn" inp hid + (if trainEps then 1 else 0) +
      (L - 1) * (Count.mlp "bn" hid hid + if trainEps then 1 else 0) +
      Count.linear (Count.jumpWidth mode L hid) hid + Count.linear hid classes :=
  total_of_creates (newGIN_creates h) n

example : (newGIN 3 4 7 5 (some "cat") "sum" "relu" true).toOption.map
    (fun b => (b 0).1.totalParams) = some 779 := by
  decide +kernel

/-- `EmbedGIN`. -/
theorem C87_embed_gin_parameters {a : EmbedArgs} {atoms bonds : Nat} {trainEps : Bool}
    {b : StateM Nat NNModule} (h : a.newEmbedGIN atoms bonds trainEps = .ok b) (n : Nat) :
    (b n).1.totalParams =
      atoms * a.embed + (if a.embedEdge then bonds * a.embed else 0) +
      (Count.stack a.numLayers (Count.mlp "bn" a.embed a.hidden + if trainEps then 1 else 0)
        (Count.mlp "bn" a.hidden a.hidden + if trainEps then 1 else 0) +
      Count.linear a.hidden a.hidden + Count.linear a.hidden a.numClasses) :=
  total_of_creates (newEmbedGIN_creates h) n

example : (embedArgs.newEmbedGIN 3 2 false).toOption.map (fun b => (b 0).1.totalParams) = some 739 := by
  decide +kernel

/-- `EdgeOrient` (`up` is `true`) and `EdgeMPNN`. -/
theorem C87_edge_net_parameters {a : EdgeArgs} {up : Bool} {b : StateM Nat NNModule}
    (h : a.newEdgeNet up = .ok b) (n : Nat) :
    (b n).1.totalParams =
      Count.stack a.numLayers ((if up then 3 else 2) * (a.numInput * a.hidden))
        ((if up then 3 else 2) * (a.hidden * a.hidden)) +
      Count.linear a.hidden a.hidden + Count.linear a.hidden a.numClasses :=
  total_of_creates (newEdgeNet_creates h) n

example : (edgeArgs.newEdgeNet true).toOption.map (fun b => (b 0).1.totalParams) = some 207 := by
  decide +kernel

/-- `Dummy`. -/
theorem C87_dummy_parameters {inp classes L D : Nat} {ro : String} {b : StateM Nat NNModule}
    (h : newDummy inp classes L D ro = .ok b) (n : Nat) :
    (b n).1.totalParams = Count.linear inp classes :=
  total_of_creates (newDummy_creates h) n

example : (newDummy 3 5 4 2 "sum").toOption.map (fun b => (b 0).1.totalParams) = some 20 := by
  decide +kernel

/-- `MessagePassingAgnostic`. -/
theorem C87_agnostic_parameters {inp classes hid D : Nat} {nl : String} {b : StateM Nat NNModule}
    (h : newAgnostic inp classes hid D nl = .ok b) (n : Nat) :
    (b n).1.totalParams =
      (D + 1) * Count.linear inp hid + Count.linear hid hid + Count.linear hid classes :=
  total_of_creates (newAgnostic_creates h) n

example : (newAgnostic 3 5 7 2 "relu").toOption.map (fun b => (b 0).1.totalParams) = some 180 := by
  decide +kernel

/-! ## `reset_parameters` -/

/-- `reset_parameters` of `GIN0`, `GIN0WithJK`, `GIN` and `GINWithJK` re-initialises everything. -/
theorem C87_gin_reset {inp L hid classes : Nat} {mode : Option String} {ro nl : String}
    {trainEps : Bool} {b : StateM Nat NNModule}
    (h : newGIN inp L hid classes mode ro nl trainEps = .ok b) (v : PygReset) (n : Nat) :
    ResetsAll v (b n).1 := resetsAll_of_complete (newGIN_complete h v n)

/-- The numbers of parameters that `reset_parameters` initialises, or `none` if it raises. -/
def ModulesEx.resetCount (v : PygReset) (b : Py (StateM Nat NNModule)) : Option (Option Nat) :=
  b.toOption.map fun b => ((b 0).1.resetParameters v).toOption.map fun ps =>
    (ps.dedup.map NNParam.numel).sum

example : resetCount .children (newGIN 3 4 7 5 (some "cat") "sum" "relu" true) = some (some 779) := by
  decide +kernel

/-- `RingGIN`. -/
theorem C87_ring_gin_reset {inp L hid classes : Nat} {nl gn : String} {b : StateM Nat NNModule}
    (h : newRingGIN inp L hid classes nl gn = .ok b) (v : PygReset) (n : Nat) :
    ResetsAll v (b n).1 := resetsAll_of_complete (newRingGIN_complete h v n)

example : resetCount .children (newRingGIN 3 4 7 5 "relu" "bn") = some (some 584) := by
  decide +kernel

/-- `EmbedGIN`. -/
theorem C87_embed_gin_reset {a : EmbedArgs} {atoms bonds : Nat} {trainEps : Bool}
    {b : StateM Nat NNModule} (h : a.newEmbedGIN atoms bonds trainEps = .ok b) (v : PygReset)
    (n : Nat) : ResetsAll v (b n).1 := resetsAll_of_complete (newEmbedGIN_complete h v n)

example : resetCount .deep (embedArgs.newEmbedGIN 3 2 true) = some (some 743) := by
  decide +kernel

/-- `EdgeOrient` and `EdgeMPNN`. -/
theorem C87_edge_net_reset {a : EdgeArgs} {up : Bool} {b : StateM Nat NNModule}
    (h : a.newEdgeNet up = .ok b) (v : PygReset) (n : Nat) : ResetsAll v (b n).1 :=
  resetsAll_of_complete (newEdgeNet_complete h v n)

example : resetCount .children (edgeArgs.newEdgeNet true) = some (some 207) := by
  decide +kernel

/-- `Dummy`. -/
theorem C87_dummy_reset {inp classes L D : Nat} {ro : String} {b : StateM Nat NNModule}
    (h : newDummy inp classes L D ro = .ok b) (v : PygReset) (n : Nat) : ResetsAll v (b n).1 :=
  resetsAll_of_complete (newDummy_complete h v n)

example : resetCount .children (newDummy 3 5 4 2 "sum") = some (some 20) := by
  decide +kernel

/-- `MessagePassingAgnostic`. -/
theorem C87_agnostic_reset {inp classes hid D : Nat} {nl : String} {b : StateM Nat NNModule}
    (h : newAgnostic inp classes hid D nl = .ok b) (v : PygReset) (n : Nat) : ResetsAll v (b n).1 :=
  resetsAll_of_complete (newAgnostic_complete h v n)

example : resetCount .children (newAgnostic 3 5 7 2 "relu") = some (some 180) := by
  decide +kernel

/-- `SparseCIN.reset_parameters` raises `AttributeError`, whatever the arguments: `lin1s` is a
`ModuleList`. -/
theorem C87_sparse_cin_reset {a : SparseArgs} {trainEps : Bool} {b : StateM Nat NNModule}
    (h : a.newSparseCIN trainEps = .ok b) (v : PygReset) (n : Nat) :
    (b n).1.resetParameters v = .error .attribute := newSparseCIN_raises h v n

example : resetCount .deep ({ args with numLayers := 0 }.newSparseCIN true) = some none := by
  decide +kernel

/-- `CINpp` inherits the method. -/
theorem C87_cinpp_reset {a : SparseArgs} {trainEps : Bool} {b : StateM Nat NNModule}
    (h : a.newCINpp trainEps = .ok b) (v : PygReset) (n : Nat) :
    (b n).1.resetParameters v = .error .attribute := newCINpp_raises h v n

example : resetCount .children (args.newCINpp true) = some none := by
  decide +kernel

/-- `EmbedSparseCIN` and `EmbedSparseCINNoRings`. -/
theorem C87_embed_sparse_cin_reset {a : EmbedArgs} {atoms bonds : Nat} {trainEps : Bool}
    {b : StateM Nat NNModule} (h : a.newEmbedSparseCIN atoms bonds trainEps = .ok b ∨
      a.newEmbedSparseCINNoRings atoms bonds trainEps = .ok b) (v : PygReset) (n : Nat) :
    (b n).1.resetParameters v = .error .attribute := by
  rcases h with h | h
  · exact newEmbedNet_raises h v n
  · exact newEmbedNet_raises h v n

example : resetCount .children (embedArgs.newEmbedSparseCIN 3 2 true) = some none ∧
    resetCount .deep (embedArgs.newEmbedSparseCINNoRings 3 2 true) = some none := by
  decide +kernel

/-- `OGBEmbedSparseCIN`, `EmbedCINpp` and `OGBEmbedCINpp`. -/
theorem C87_embed_cinpp_reset {a : EmbedArgs} {atoms bonds : Nat} {atomDims bondDims : List Nat}
    {trainEps : Bool} {b : StateM Nat NNModule}
    (h : a.newEmbedCINpp atoms bonds trainEps = .ok b ∨
      a.newOGBEmbedSparseCIN atomDims bondDims trainEps = .ok b ∨
      a.newOGBEmbedCINpp atomDims bondDims trainEps = .ok b) (v : PygReset) (n : Nat) :
    (b n).1.resetParameters v = .error .attribute := by
  rcases h with h | h | h
  · exact newEmbedPP_raises h v n
  · exact newEmbedNet_raises h v n
  · exact newEmbedPP_raises h v n

example : resetCount .children (embedArgs.newEmbedCINpp 3 2 true) = some none ∧
    resetCount .deep (embedArgs.newOGBEmbedCINpp [3, 2] [2] true) = some none := by
  decide +kernel

/-- `CIN0.reset_parameters` raises `AttributeError` as soon as there is a layer: `CINConv` has no such
method. Without layers it re-initialises everything. -/
theorem C87_cin0_reset {a : CINArgs} {b : StateM Nat NNModule} (h : a.newCIN0 = .ok b) (v : PygReset)
    (n : Nat) :
    (a.numLayers ≠ 0 → (b n).1.resetParameters v = .error .attribute) ∧
      (a.numLayers = 0 → ResetsAll v (b n).1) :=
  ⟨fun hL => newCIN0_raises h hL v n, fun hL => resetsAll_of_complete (newCIN0_complete h hL v n)⟩

example : resetCount .deep cinArgs.newCIN0 = some none ∧
    resetCount .deep (CINArgs.newCIN0 { cinArgs with numLayers := 0 }) = some (some 96) := by
  decide +kernel

/-- `EdgeCIN0`. -/
theorem C87_edge_cin0_reset {a : CINArgs} {b : StateM Nat NNModule} (h : a.newEdgeCIN0 = .ok b)
    (v : PygReset) (n : Nat) :
    (a.numLayers ≠ 0 → (b n).1.resetParameters v = .error .attribute) ∧
      (a.numLayers = 0 → ResetsAll v (b n).1) :=
  ⟨fun hL => newEdgeCIN0_raises h hL v n,
    fun hL => resetsAll_of_complete (newEdgeCIN0_complete h hL v n)⟩

example : resetCount .deep cinArgs.newEdgeCIN0 = some none ∧
    resetCount .deep (CINArgs.newEdgeCIN0 { cinArgs with numLayers := 0 }) = some (some 96) := by
  decide +kernel

/-- `RingSparseCIN`. -/
theorem C87_ring_sparse_cin_reset {inp classes L hid D : Nat} {nl gn : String}
    {cob trainEps : Bool} {b : StateM Nat NNModule}
    (h : newRingSparseCIN inp classes L hid D nl gn cob trainEps = .ok b) (v : PygReset) (n : Nat) :
    (L ≠ 0 → (b n).1.resetParameters v = .error .attribute) ∧ (L = 0 → ResetsAll v (b n).1) := by
  refine ⟨fun hL => newRingSparseCIN_raises h hL v n, fun hL => ?_⟩
  subst hL
  exact resetsAll_of_complete (newRingSparseCIN_complete h v n)

example : resetCount .children (newRingSparseCIN 3 5 2 7 2 "relu" "id" true false) = some none ∧
    resetCount .children (newRingSparseCIN 3 5 0 7 2 "relu" "id" true false) = some (some 52) := by
  decide +kernel

/-! ## `reset_parameters` of the levels -/

/-- A level of `SparseCINConv` re-initialises everything. -/
theorem C87_sparse_level_reset (v : PygReset) (d hid : Nat) (norm : Nat → Mod) (act : Mod)
    (cob trainEps : Bool) (n : Nat) :
    ResetsAll v (newSparseLevel d hid norm act cob trainEps n).1 :=
  resetsAll_of_complete (newSparseLevel_complete v d hid norm act cob trainEps n)

example : resetCount .children (.ok (newSparseLevel 3 7 .norm .pointwise true true)) =
    some (some 366) := by
  decide +kernel

/-- A level of `CINppConv` inherits `reset_parameters` and re-initialises two of three perceptrons, one
of two networks on messages and two of three scalars; the others keep their values. -/
theorem C87_pp_level_reset {gn nl : String} {norm : Nat → Mod} {act : Mod}
    (hn : getGraphNorm gn = .ok norm) (ha : getNonlinearity nl = .ok act) (v : PygReset) (d hid : Nat)
    (cob trainEps : Bool) (n : Nat) :
    let m := (newPPLevel d hid norm act cob trainEps n).1
    m.totalParams = Count.ppLevel gn d hid cob trainEps ∧
      ∃ ps, m.resetParameters v = .ok ps ∧ (∀ p ∈ ps, HasParam m p) ∧
        (ps.dedup.map NNParam.numel).sum = Count.ppLevelReset gn d hid cob trainEps ∧
        (0 < hid → ∃ p, HasParam m p ∧ p ∉ ps) := by
  obtain rfl := act_count ha
  intro m
  have ht : m.totalParams = Count.ppLevel gn d hid cob trainEps :=
    total_of_creates (ppLevel_creates hn d hid cob trainEps) n
  obtain ⟨ps, h, hp, hs⟩ := newPPLevel_reset hn v d hid cob trainEps n
  refine ⟨ht, ps, h, fun p hq => (hasParam_iff _ _).2 (hp p hq), ?_, fun h0 => ?_⟩
  · rw [← hs]
    unfold distinctSize
    rw [← List.sum_toFinset _ (List.nodup_dedup _)]
    congr 1
    ext p
    simp
  · by_contra hc
    have e : distinctSize m.params = distinctSize ps := distinctSize_congr fun p =>
      ⟨fun hm => by
        by_contra hq
        exact hc ⟨p, (hasParam_iff _ _).2 hm, hq⟩, fun hm => hp p hm⟩
    rw [totalParams_eq, e, hs] at ht
    simp only [Count.ppLevel, Count.ppLevelReset, Count.mlp, Count.linear] at ht
    split at ht <;> omega

example : resetCount .children (.ok (newPPLevel 3 7 .norm .pointwise true true)) = some (some 415) ∧
    (newPPLevel 3 7 .norm .pointwise true true 0).1.totalParams = 549 := by
  decide +kernel

/-- The encoders of OGB have no `reset_parameters` and no children with one. `reset` of PyG 1.6.3 leaves
them alone, so that `init_conv.reset_parameters()` does nothing; that of later versions reaches the
tables. -/
theorem C87_encoder_reset (atomDims bondDims : List Nat) (dim k n : Nat) :
    let x := (newEncoder atomDims dim k).1
    let e := (newEncoder bondDims dim n).1
    (initConv x (some e)).resetParameters .children = .ok [] ∧
      ResetsAll .deep (initConv x (some e)) := by
  intro x e
  constructor
  · have h1 := newEncoder_children atomDims dim k
    have h2 := newEncoder_children bondDims dim n
    change pygReset .children (some (x.view .children)) = _ at h1
    change pygReset .children (some (e.view .children)) = _ at h2
    unfold initConv NNModule.resetParameters
    rw [NNModule.view]
    simp [runBody, callAll, runAct, childViews, optChild, List.lookup_cons, h1, h2]
  · refine resetsAll_of_complete ((initConv_reaches .deep (newEncoder_deep atomDims dim k)
      (e := some e) (newEncoder_deep bondDims dim n)).congr fun p => ?_)
    simp [initConv, params_mk, optChild, childParams_cons, childParams_nil, plainModule, x, e]

example : ((initConv (newEncoder [3, 2] 4 0).1 (some (newEncoder [2] 4 2).1)).resetParameters
    .deep).toOption.map List.length = some 3 := by
  decide +kernel

end Verif
