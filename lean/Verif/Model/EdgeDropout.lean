import Verif.Model.Dropout
import Verif.Model.Embed
import Verif.Model.Oriented

/-!
# Dropout in the networks for edge flows and in `EmbedGIN`

As in Model/Dropout, the random numbers are inputs.
-/

namespace Verif

section
variable {𝕜 ι L : Type} [Field 𝕜] [LinearOrder 𝕜]

/-- `EdgeOrient.forward` and `EdgeMPNN.forward` with dropout (mp/models.py:522-547, 590-616): the rows in front of the dropout
are those of the model with the identity in place of `lin2`. -/
def OrientNet.forwardDrop (conf : DropConf 𝕜) (m : Mask ι) (net : OrientNet (ι → 𝕜)) (data : Cochain (ι → 𝕜) L) :
    Py (List (ι → 𝕜)) :=
  lastLayer conf m net.lin2 (OrientNet.forward 𝕜 { net with lin2 := id } data)

/-- `xs[0] = F.dropout(xs[0], …)` (mp/molec_models.py:574): an empty list raises `IndexError`. -/
def dropNodes (conf : DropConf 𝕜) (mi : Nat → ι → Bool) (xs : List (List (ι → 𝕜))) : Py (List (List (ι → 𝕜))) :=
  match xs with
  | [] => .error .index
  | x :: xs => do
    let x ← dropout conf mi x
    return x :: xs

/-- `if self.apply_dropout_before in ['final_readout', 'lin2']` (mp/molec_models.py:600-601). -/
def dropGINLin2 (conf : DropConf 𝕜) (m : Nat → ι → Bool) (x : List (ι → 𝕜)) : Py (List (ι → 𝕜)) :=
  if conf.before = "final_readout" ∨ conf.before = "lin2" then dropout conf m x else .ok x

/-- `EmbedGIN.forward` with dropout (mp/molec_models.py:559-603), `mi` for the embedded vertices and `m` for the rows of the
readout. -/
def EmbedGIN.forwardDrop (conf : DropConf 𝕜) (mi m : Nat → ι → Bool) (net : EmbedGIN 𝕜 (ι → 𝕜))
    (data : Complex (ι → 𝕜) L) : Py (List (ι → 𝕜)) := do
  checkNodes data
  let ps ← data.getAllCochainParams 1 true false
  let xs ← net.init.forward ps
  let xs ← dropNodes conf mi xs
  let data ← data.setXs (xs.map some)
  let p ← data.getCochainParams 0 0 true false
  let e ← ginEdges p
  let x ← runGINE e.1 e.2 (p.x.getD []) net.convs
  let n ← batchSize data
  let pool ← getPoolingFn net.readout
  let pooled ← poolDim 𝕜 pool data 0 n (x, 0)
  let pooled ← dropLin1 conf m pooled
  let new ← dropGINLin2 conf m (pooled.map fun r => net.act (net.lin1 r))
  return new.map net.lin2

end

end Verif
