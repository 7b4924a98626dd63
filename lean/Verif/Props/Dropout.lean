import Verif.Lemmas.Dropout
import Verif.Props.TrainMode
import Verif.Props.GINTrain
import Verif.Props.CINTrain
import Mathlib.Data.Rat.Cast.Order
import Mathlib.Tactic.NormNum

/-!
# C112: dropout
-/

namespace Verif

variable {𝕜 ι L : Type} [Field 𝕜] [LinearOrder 𝕜]

/-! ### Evaluation mode -/

theorem CINNet.forward_lin2 {Lv : Type} (level : Lv → MPParams (ι → 𝕜) → Py (List (ι → 𝕜))) (net : CINNet (ι → 𝕜) Lv)
    (data : Complex (ι → 𝕜) L) : net.forward 𝕜 level data =
      CINNet.forward 𝕜 level { net with lin2 := id } data >>= fun x => .ok (x.map net.lin2) := by
  unfold CINNet.forward
  simp only [bind_assoc, pure_bind, List.map_map]
  rfl

theorem EdgeNet.run_lin2 {Lv : Type} (level : Lv → MPParams (ι → 𝕜) → Py (List (ι → 𝕜))) (net : EdgeNet (ι → 𝕜) Lv)
    (convs : List (List Lv)) (c : Nat) (data : Complex (ι → 𝕜) L) :
    EdgeNet.run level { net with lin2 := id } c data convs = net.run level c data convs := by
  induction convs generalizing c data with
  | nil => rfl
  | cons conv convs ih =>
    unfold EdgeNet.run
    simp only [ih]
    rfl

theorem EdgeNet.forward_lin2 {Lv : Type} (level : Lv → MPParams (ι → 𝕜) → Py (List (ι → 𝕜)))
    (net : EdgeNet (ι → 𝕜) Lv) (data : Complex (ι → 𝕜) L) : net.forward 𝕜 level data =
      EdgeNet.forward 𝕜 level { net with lin2 := id } data >>= fun x => .ok (x.map net.lin2) := by
  unfold EdgeNet.forward
  rw [EdgeNet.run_lin2]
  simp only [bind_assoc, pure_bind, List.map_map]
  rfl

theorem AgnosticNet.forward_lin2 (net : AgnosticNet (ι → 𝕜)) (data : Complex (ι → 𝕜) L) : net.forward 𝕜 data =
      AgnosticNet.forward 𝕜 { net with lin2 := id } data >>= fun x => .ok (x.map net.lin2) := by
  unfold AgnosticNet.forward
  simp only [bind_assoc, pure_bind, List.map_map]
  rfl

theorem GINNet.forward_lin2 (net : GINNet 𝕜 (ι → 𝕜)) (data : GData (ι → 𝕜)) : net.forward data =
      GINNet.forward { net with lin2 := id } data >>= fun x => .ok (x.map net.lin2) := by
  unfold GINNet.forward
  simp only [bind_assoc, pure_bind, List.map_map]
  rfl

theorem GINTrainNet.forward_lin2 (net : GINTrainNet 𝕜 (ι → 𝕜)) (data : GData (ι → 𝕜)) : net.forward data =
      GINTrainNet.forward { net with lin2 := id } data >>= fun x => .ok (x.map net.lin2) := by
  unfold GINTrainNet.forward
  simp only [bind_assoc, pure_bind, List.map_map]
  rfl

theorem SparseNet.readoutDrop_eval {Lv : Type} (conf : DropConf 𝕜) (h : conf.Proper) (ht : conf.training = false)
    (m : Mask ι) (net : SparseNet (ι → 𝕜) Lv) (data : Complex (ι → 𝕜) L) (outs : List (List (List (ι → 𝕜)))) :
    net.readoutDrop conf m data outs = net.readoutPart 𝕜 data outs := by
  have h1 : net.readoutDrop conf m data outs = net.newXs data outs >>= net.headDrop conf m := by
    by_cases hb : conf.before = "lin1"
    · unfold SparseNet.readoutDrop SparseNet.newXs SparseNet.headDrop
      simp only [bind_assoc, dropLin1, if_pos hb, ok_bind, dropout_eval conf h ht]
      have h : ∀ sel : List (List (ι → 𝕜)), mapE (fun (xd : (List (ι → 𝕜) × Nat) × Nat) => (do
          let lin1 ← listGet net.lin1s xd.1.2
          return xd.1.1.map fun r => net.act (lin1 r) : Py (List (ι → 𝕜)))) (sel.zip net.dims).zipIdx =
          mapE (fun (xd : List (ι → 𝕜) × Nat) => do
            let lin1 ← listGet net.lin1s xd.2
            return xd.1.map fun r => net.act (lin1 r)) (sel.zip net.dims) := fun sel =>
        mapE_zipIdx (fun (xd : List (ι → 𝕜) × Nat) => (do
          let lin1 ← listGet net.lin1s xd.2
          return xd.1.map fun r => net.act (lin1 r) : Py (List (ι → 𝕜)))) _ 0
      simp only [h]
    · exact net.readoutDrop_newXs conf hb m data outs
  rw [h1, net.readoutPart_newXs]
  congr 1
  funext new
  exact net.headDrop_eval conf h ht m new

theorem runConvsDrop_eval {Cv : Type} (conf : DropConf 𝕜) (h : conf.Proper) (ht : conf.training = false)
    (ms : Nat → Mask ι) (params : Complex (ι → 𝕜) L → Py (List (MPParams (ι → 𝕜))))
    (conv : Cv → List (MPParams (ι → 𝕜)) → Py (List (List (ι → 𝕜)))) (cs : List Cv) (c : Nat)
    (data : Complex (ι → 𝕜) L) : runConvsDrop conf ms params conv c data cs = runConvs params conv data cs := by
  induction cs generalizing c data with
  | nil => rfl
  | cons cv cs ih =>
    unfold runConvsDrop runConvs
    simp only [dropDims_eval conf h ht, ok_bind, ih]

/-- **C112** In evaluation mode dropout does nothing, wherever it is applied and whatever the random numbers: all models
compute what they compute without it. -/
theorem C112_evaluation_mode {Lv : Type} (conf confIn : DropConf 𝕜) (h : conf.Proper) (hi : confIn.Proper)
    (ht : conf.training = false) (hti : confIn.training = false) (m mi : Mask ι) (ms : Nat → Mask ι)
    (level : Lv → MPParams (ι → 𝕜) → Py (List (ι → 𝕜))) (data : Complex (ι → 𝕜) L) (graph : GData (ι → 𝕜)) :
    (∀ net : SparseNet (ι → 𝕜) Lv, net.forwardDrop conf m level data = net.forward 𝕜 level data) ∧
    (∀ net : EmbedNet (ι → 𝕜) Lv, net.forwardDrop conf mi m level data = net.forward 𝕜 level data) ∧
    (∀ net : EmbedNet (ι → 𝕜) Lv, net.forwardDropOGB confIn conf mi ms m level data = net.forward 𝕜 level data) ∧
    (∀ net : CINNet (ι → 𝕜) Lv, net.forwardDrop conf m level data = net.forward 𝕜 level data) ∧
    (∀ net : EdgeNet (ι → 𝕜) Lv, net.forwardDrop conf m level data = net.forward 𝕜 level data) ∧
    (∀ net : AgnosticNet (ι → 𝕜), net.forwardDrop conf m data = net.forward 𝕜 data) ∧
    (∀ net : GINNet 𝕜 (ι → 𝕜), net.forwardDrop conf m graph = net.forward graph) ∧
    ∀ net : GINTrainNet 𝕜 (ι → 𝕜), net.forwardDrop conf m graph = net.forward graph := by
  have hs : ∀ net : SparseNet (ι → 𝕜) Lv, ∀ data : Complex (ι → 𝕜) L,
      net.forwardDrop conf m level data = net.forward 𝕜 level data := by
    intro net data
    unfold SparseNet.forwardDrop SparseNet.forward
    simp only [net.readoutDrop_eval conf h ht m]
  refine ⟨fun net => hs net data, fun net => ?_, fun net => ?_, fun net => ?_, fun net => ?_, fun net => ?_,
    fun net => ?_, fun net => ?_⟩
  · unfold EmbedNet.forwardDrop EmbedNet.forward
    simp only [dropDims_eval conf h ht, ok_bind, hs]
  · unfold EmbedNet.forwardDropOGB EmbedNet.forward SparseNet.forward
    simp only [dropDims_eval confIn hi hti, ok_bind, runConvsDrop_eval conf h ht, net.net.readoutDrop_eval conf h ht m]
  · exact (lastLayer_eval conf h ht m _ _).trans (net.forward_lin2 level data).symm
  · exact (lastLayer_eval conf h ht m _ _).trans (net.forward_lin2 level data).symm
  · exact (lastLayer_eval conf h ht m _ _).trans (net.forward_lin2 data).symm
  · exact (lastLayer_eval conf h ht m _ _).trans (net.forward_lin2 graph).symm
  · exact (lastLayer_eval conf h ht m _ _).trans (net.forward_lin2 graph).symm

/-! ### Expected predictions -/

section
variable [Fintype ι] [DecidableEq ι]

theorem Unbiased.bind {A : Type} {p : 𝕜} {D N : Nat} {x : Py A} {drop : Mask ι → A → Py (List (ι → 𝕜))}
    {plain : A → Py (List (ι → 𝕜))} (h : ∀ a, x = .ok a → Unbiased p D N (fun m => drop m a) (plain a)) :
    Unbiased p D N (fun m => x >>= drop m) (x >>= plain) := by
  cases x with
  | error e => exact ⟨fun e' he m => he, (by intro out ho; cases ho)⟩
  | ok a =>
    obtain ⟨h1, h2⟩ := h a rfl
    exact ⟨fun e he m => h1 e he m, fun out ho hN => h2 out ho hN⟩

theorem mapE_length' {A B : Type} {f : A → Py B} {l : List A} {r : List B} (h : mapE f l = .ok r) :
    r.length = l.length := by
  induction l generalizing r with
  | nil => cases h; rfl
  | cons a l ih =>
    unfold mapE at h
    obtain ⟨b, -, h⟩ := bind_eq_ok.mp h
    obtain ⟨bs, hb, h⟩ := bind_eq_ok.mp h
    cases h
    rw [List.length_cons, List.length_cons, ih hb]

theorem SparseNet.newXs_length {Lv : Type} (net : SparseNet (ι → 𝕜) Lv) (data : Complex (ι → 𝕜) L)
    (outs : List (List (List (ι → 𝕜)))) (new : List (List (ι → 𝕜))) (h : net.newXs data outs = .ok new) :
    new.length ≤ net.dims.length := by
  unfold SparseNet.newXs at h
  obtain ⟨xs, -, h⟩ := bind_eq_ok.mp h
  obtain ⟨pool, -, h⟩ := bind_eq_ok.mp h
  obtain ⟨pooled, -, h⟩ := bind_eq_ok.mp h
  obtain ⟨sel, -, h⟩ := bind_eq_ok.mp h
  rw [mapE_length' h, List.length_zip]
  exact Nat.min_le_right _ _

/-- **C112** SparseCIN and CIN++ with dropout in front of the final readout or of the last linear map, with layers in
training or in evaluation mode: the expected value of every prediction is the prediction without dropout. -/
theorem C112_sparse_cin_is_unbiased {Lv : Type} (conf : DropConf 𝕜) (h : conf.Proper) (ht : conf.training = true)
    (hb : conf.before ≠ "lin1") (level : Lv → MPParams (ι → 𝕜) → Py (List (ι → 𝕜))) (net : SparseNet (ι → 𝕜) Lv)
    (hl : IsAffine 𝕜 net.lin2) (data : Complex (ι → 𝕜) L) (D N : Nat) (hD : net.dims.length ≤ D) :
    Unbiased conf.rate D N (fun m => net.forwardDrop conf m level data) (net.forward 𝕜 level data) := by
  refine Unbiased.bind (drop := fun m (out : Complex (ι → 𝕜) L × List (List (List (ι → 𝕜)))) => net.readoutDrop conf m out.1 out.2)
    fun out _ => ?_
  simp only [net.readoutDrop_newXs conf hb, net.readoutPart_newXs]
  refine Unbiased.bind fun new hnew => ?_
  exact net.headDrop_unbiased conf h ht hb hl new ((net.newXs_length _ _ _ hnew).trans hD)

/-- **C112** CIN0, EdgeCIN0, MessagePassingAgnostic and the graph baselines: likewise. -/
theorem C112_other_models_are_unbiased {Lv : Type} (conf : DropConf 𝕜) (h : conf.Proper) (ht : conf.training = true)
    (level : Lv → MPParams (ι → 𝕜) → Py (List (ι → 𝕜))) (data : Complex (ι → 𝕜) L) (graph : GData (ι → 𝕜))
    (D N : Nat) (hD : 0 < D) :
    (∀ net : CINNet (ι → 𝕜) Lv, IsAffine 𝕜 net.lin2 →
      Unbiased conf.rate D N (fun m => net.forwardDrop conf m level data) (net.forward 𝕜 level data)) ∧
    (∀ net : EdgeNet (ι → 𝕜) Lv, IsAffine 𝕜 net.lin2 →
      Unbiased conf.rate D N (fun m => net.forwardDrop conf m level data) (net.forward 𝕜 level data)) ∧
    (∀ net : AgnosticNet (ι → 𝕜), IsAffine 𝕜 net.lin2 →
      Unbiased conf.rate D N (fun m => net.forwardDrop conf m data) (net.forward 𝕜 data)) ∧
    (∀ net : GINNet 𝕜 (ι → 𝕜), IsAffine 𝕜 net.lin2 →
      Unbiased conf.rate D N (fun m => net.forwardDrop conf m graph) (net.forward graph)) ∧
    ∀ net : GINTrainNet 𝕜 (ι → 𝕜), IsAffine 𝕜 net.lin2 →
      Unbiased conf.rate D N (fun m => net.forwardDrop conf m graph) (net.forward graph) := by
  refine ⟨fun net hl => ?_, fun net hl => ?_, fun net hl => ?_, fun net hl => ?_, fun net hl => ?_⟩
  · rw [net.forward_lin2]
    exact lastLayer_unbiased conf h ht hl _ hD
  · rw [net.forward_lin2]
    exact lastLayer_unbiased conf h ht hl _ hD
  · rw [net.forward_lin2]
    exact lastLayer_unbiased conf h ht hl _ hD
  · rw [net.forward_lin2]
    exact lastLayer_unbiased conf h ht hl _ hD
  · rw [net.forward_lin2]
    exact lastLayer_unbiased conf h ht hl _ hD

/-- **C112** SparseCIN with batch normalisation and dropout in training mode: the expected prediction for a complex of the
batch is what the network would compute for it alone in evaluation mode with the statistics of the batch. -/
theorem C112_training_mode (conf : DropConf 𝕜) (h : conf.Proper) (ht : conf.training = true)
    (hb : conf.before ≠ "lin1") (net : SparseNet (ι → 𝕜) (SparseTrain 𝕜 (ι → 𝕜))) (hn : net.Fits)
    (hl : IsAffine 𝕜 net.lin2) (cs : List (Complex (ι → 𝕜) L)) (hne : cs ≠ []) (hr : ∀ c ∈ cs, c.Ready)
    (h0 : ∀ c ∈ cs, 0 < c.cellsIn 0) (mB : Nat) (hlone : ¬ LonelyCell SparseTrain.isBatch net cs mB) :
    ∃ f : (Fin net.dims.length × Fin cs.length × ι → Bool) → List (ι → 𝕜),
      (∀ m, (fromComplexList cs mB >>= net.forwardDrop conf (spread m) SparseTrain.forward) = .ok (f m) ∧
        (f m).length = cs.length) ∧
      ∀ i c, cs[i]? = some c → expect conf.rate (fun m => (f m).getD i 0) =
        (net.frozen SparseTrain.freeze SparseLevel.rule (cs.map fun c => c.view.upTo mB)).predict 𝕜 SparseLevel.rule
          (c.view.upTo mB) := by
  have h1 := (C95_sparse_cin_in_training_mode net hn cs hne hr h0 mB).2 hlone
  obtain ⟨B, hB, h2⟩ := bind_eq_ok.mp h1
  obtain ⟨f, hf, he⟩ := (C112_sparse_cin_is_unbiased conf h ht hb SparseTrain.forward net hl B net.dims.length cs.length
    (Nat.le_refl _)).2 _ h2 (by simp)
  refine ⟨f, fun m => ?_, fun i c hc => ?_⟩
  · rw [hB, ok_bind]
    exact ⟨(hf m).1, by rw [(hf m).2, List.length_map]⟩
  · exact he i _ (by rw [List.getElem?_map, hc]; rfl)

end

/-! ### Rates -/

theorem dropout_rejects (conf : DropConf 𝕜) (h : conf.rate < 0 ∨ 1 < conf.rate) (m : Nat → ι → Bool)
    (x : List (ι → 𝕜)) : dropout conf m x = .error .value := by
  unfold dropout
  rw [if_pos h]

theorem lastLayer_rejects (conf : DropConf 𝕜) (h : conf.rate < 0 ∨ 1 < conf.rate) (m : Mask ι)
    (lin2 : (ι → 𝕜) → ι → 𝕜) (rows : Py (List (ι → 𝕜))) (out : List (ι → 𝕜)) : lastLayer conf m lin2 rows ≠ .ok out := by
  unfold lastLayer
  simp only [dropout_rejects conf h]
  cases rows <;> exact fun hh => by cases hh

/-- **C112** A rate outside of the interval from 0 to 1 is rejected by all models, in evaluation mode too. -/
theorem C112_rates {Lv : Type} (conf : DropConf 𝕜) (h : conf.rate < 0 ∨ 1 < conf.rate) (m : Mask ι)
    (level : Lv → MPParams (ι → 𝕜) → Py (List (ι → 𝕜))) (data : Complex (ι → 𝕜) L) (graph : GData (ι → 𝕜))
    (out : List (ι → 𝕜)) :
    (∀ net : SparseNet (ι → 𝕜) Lv, net.forwardDrop conf m level data ≠ .ok out) ∧
    (∀ net : CINNet (ι → 𝕜) Lv, net.forwardDrop conf m level data ≠ .ok out) ∧
    (∀ net : EdgeNet (ι → 𝕜) Lv, net.forwardDrop conf m level data ≠ .ok out) ∧
    (∀ net : AgnosticNet (ι → 𝕜), net.forwardDrop conf m data ≠ .ok out) ∧
    (∀ net : GINNet 𝕜 (ι → 𝕜), net.forwardDrop conf m graph ≠ .ok out) ∧
    ∀ net : GINTrainNet 𝕜 (ι → 𝕜), net.forwardDrop conf m graph ≠ .ok out := by
  refine ⟨fun net hh => ?_, fun net => lastLayer_rejects conf h m _ _ out, fun net => lastLayer_rejects conf h m _ _ out,
    fun net => lastLayer_rejects conf h m _ _ out, fun net => lastLayer_rejects conf h m _ _ out,
    fun net => lastLayer_rejects conf h m _ _ out⟩
  unfold SparseNet.forwardDrop SparseNet.readoutDrop at hh
  obtain ⟨o, -, hh⟩ := bind_eq_ok.mp hh
  obtain ⟨xs, -, hh⟩ := bind_eq_ok.mp hh
  obtain ⟨pool, -, hh⟩ := bind_eq_ok.mp hh
  obtain ⟨pooled, -, hh⟩ := bind_eq_ok.mp hh
  obtain ⟨sel, -, hh⟩ := bind_eq_ok.mp hh
  obtain ⟨new, hnew, hh⟩ := bind_eq_ok.mp hh
  obtain ⟨u, hs, hh⟩ := bind_eq_ok.mp hh
  have hne : new ≠ [] := by
    rintro rfl
    cases hs
  simp only [dropLin1, dropout_rejects conf h] at hnew
  by_cases h1 : conf.before = "lin1"
  · simp only [if_pos h1] at hnew
    have hl := mapE_length' hnew
    cases hz : (sel.zip net.dims).zipIdx with
    | nil =>
      rw [hz] at hl
      exact hne (List.length_eq_zero_iff.mp hl)
    | cons a l =>
      rw [hz] at hnew
      unfold mapE at hnew
      obtain ⟨b, hb, -⟩ := bind_eq_ok.mp hnew
      cases hb
  · obtain ⟨new', hn', hh⟩ := bind_eq_ok.mp hh
    obtain ⟨x, -, hh⟩ := bind_eq_ok.mp hh
    by_cases h2 : conf.before = "final_readout"
    · unfold dropStack dropDims at hn'
      simp only [if_pos h2, dropout_rejects conf h] at hn'
      cases hz : new.zipIdx with
      | nil => exact hne (by simpa using hz)
      | cons a l =>
        rw [hz] at hn'
        unfold mapE at hn'
        obtain ⟨b, hb, -⟩ := bind_eq_ok.mp hn'
        cases hb
    · unfold dropLin2 at hh
      rw [if_pos ⟨h1, h2⟩, dropout_rejects conf h] at hh
      cases hh

/-! ### Masks of different complexes -/

/-- Both raise the same, or both give values that `P` relates. -/
def PyRel {A B : Type} (P : A → B → Prop) (a : Py A) (b : Py B) : Prop :=
  (∃ e, a = .error e ∧ b = .error e) ∨ ∃ x y, a = .ok x ∧ b = .ok y ∧ P x y

theorem PyRel.bind {A B C D : Type} {P : A → B → Prop} {Q : C → D → Prop} {a : Py A} {b : Py B} {f : A → Py C}
    {g : B → Py D} (h : PyRel P a b) (hf : ∀ x y, P x y → PyRel Q (f x) (g y)) : PyRel Q (a >>= f) (b >>= g) := by
  rcases h with ⟨e, rfl, rfl⟩ | ⟨x, y, rfl, rfl, h⟩
  · exact .inl ⟨e, rfl, rfl⟩
  · exact hf x y h

theorem PyRel.refl {A : Type} {P : A → A → Prop} (hP : ∀ x, P x x) (a : Py A) : PyRel P a a := by
  cases a with
  | error e => exact .inl ⟨e, rfl, rfl⟩
  | ok x => exact .inr ⟨x, x, rfl, rfl, hP x⟩

theorem PyRel.mapE {A B C D : Type} {P : A → B → Prop} {Q : C → D → Prop} {f : A → Py C} {g : B → Py D} {l : List A}
    {l' : List B} (h : List.Forall₂ P l l') (hf : ∀ x y, P x y → PyRel Q (f x) (g y)) :
    PyRel (List.Forall₂ Q) (Verif.mapE f l) (Verif.mapE g l') := by
  induction h with
  | nil => exact .inr ⟨[], [], rfl, rfl, .nil⟩
  | cons h1 _ ih =>
    unfold Verif.mapE
    exact (hf _ _ h1).bind fun x y hxy => ih.bind fun xs ys hxs => .inr ⟨_, _, rfl, rfl, .cons hxy hxs⟩

/-- Two tensors have equally many rows, and the same row `r`. -/
def RowEq {X : Type} (r : Nat) (x y : List X) : Prop := x.length = y.length ∧ x[r]? = y[r]?

theorem RowEq.map {X Y : Type} {r : Nat} {x y : List X} (h : RowEq r x y) (f : X → Y) : RowEq r (x.map f) (y.map f) := by
  refine ⟨by simp [h.1], ?_⟩
  rw [List.getElem?_map, List.getElem?_map, h.2]

theorem RowEq.dropout {r : Nat} {x y : List (ι → 𝕜)} (h : RowEq r x y) (conf : DropConf 𝕜) {m m' : Nat → ι → Bool}
    (hm : m r = m' r) : PyRel (RowEq r) (dropout conf m x) (dropout conf m' y) := by
  unfold Verif.dropout
  by_cases h1 : conf.rate < 0 ∨ 1 < conf.rate
  · rw [if_pos h1, if_pos h1]
    exact .inl ⟨_, rfl, rfl⟩
  · rw [if_neg h1, if_neg h1]
    by_cases h2 : conf.training = true
    · rw [if_pos h2, if_pos h2]
      refine .inr ⟨_, _, rfl, rfl, ?_, ?_⟩
      · simp [h.1]
      · have e1 := dropRows_get conf.rate m x r
        have e2 := dropRows_get conf.rate m' y r
        unfold dropRows at e1 e2
        rw [e1, e2, h.2, hm]
    · rw [if_neg h2, if_neg h2]
      exact .inr ⟨_, _, rfl, rfl, h⟩

theorem forall₂_zipIdx {X : Type} {P : X → X → Prop} {l l' : List X} (h : List.Forall₂ P l l') (k : Nat) :
    List.Forall₂ (fun a b : X × Nat => P a.1 b.1 ∧ a.2 = b.2) (l.zipIdx k) (l'.zipIdx k) := by
  induction h generalizing k with
  | nil => exact .nil
  | cons h1 _ ih =>
    rw [List.zipIdx_cons, List.zipIdx_cons]
    exact .cons ⟨h1, rfl⟩ (ih _)

theorem all_lengths {r n : Nat} {xs ys : List (List (ι → 𝕜))} (h : List.Forall₂ (RowEq r) xs ys) :
    (xs.all fun y => y.length == n) = ys.all fun y => y.length == n := by
  induction h with
  | nil => rfl
  | cons h1 _ ih => rw [List.all_cons, List.all_cons, ih, h1.1]

theorem stackable_rowEq {r : Nat} {xs ys : List (List (ι → 𝕜))} (h : List.Forall₂ (RowEq r) xs ys) :
    stackable xs = stackable ys := by
  cases h with
  | nil => rfl
  | cons h1 h2 =>
    unfold stackable
    dsimp only
    rw [all_lengths h2, h1.1]

theorem filterMap_rowEq {r : Nat} {xs ys : List (List (ι → 𝕜))} (h : List.Forall₂ (RowEq r) xs ys) :
    (xs.filterMap fun y => y[r]?) = ys.filterMap fun y => y[r]? := by
  induction h with
  | nil => rfl
  | cons h1 _ ih => rw [List.filterMap_cons, List.filterMap_cons, ih, h1.2]

theorem stackReduce_rowEq {r : Nat} (fr : String) {xs ys : List (List (ι → 𝕜))} (h : List.Forall₂ (RowEq r) xs ys) :
    PyRel (RowEq r) (stackReduce 𝕜 fr xs) (stackReduce 𝕜 fr ys) := by
  cases h with
  | nil => exact .inl ⟨_, rfl, rfl⟩
  | @cons x y xs ys h1 h2 =>
    have hf := filterMap_rowEq (List.Forall₂.cons h1 h2)
    unfold stackReduce
    dsimp only
    rw [all_lengths h2, h1.1]
    split
    · split
      · refine .inr ⟨_, _, rfl, rfl, by simp, ?_⟩
        rw [List.getElem?_map, List.getElem?_map]
        by_cases hr : r < y.length
        · rw [List.getElem?_range hr, Option.map_some, Option.map_some, hf]
        · rw [List.getElem?_eq_none (by simpa using hr)]
          rfl
      · split
        · refine .inr ⟨_, _, rfl, rfl, by simp, ?_⟩
          rw [List.getElem?_map, List.getElem?_map]
          by_cases hr : r < y.length
          · rw [List.getElem?_range hr, Option.map_some, Option.map_some, hf]
          · rw [List.getElem?_eq_none (by simpa using hr)]
            rfl
        · exact .inl ⟨_, rfl, rfl⟩
    · exact .inl ⟨_, rfl, rfl⟩

theorem SparseNet.readoutDrop_rowEq {Lv : Type} (conf : DropConf 𝕜) {m m' : Mask ι} {r : Nat}
    (hm : ∀ d, m d r = m' d r) (net : SparseNet (ι → 𝕜) Lv) (data : Complex (ι → 𝕜) L)
    (outs : List (List (List (ι → 𝕜)))) :
    PyRel (RowEq r) (net.readoutDrop conf m data outs) (net.readoutDrop conf m' data outs) := by
  have hrefl : ∀ x : List (ι → 𝕜), RowEq r x x := fun x => ⟨rfl, rfl⟩
  unfold SparseNet.readoutDrop
  refine (PyRel.refl (P := Eq) (fun _ => rfl) _).bind ?_
  rintro xs _ rfl
  refine (PyRel.refl (P := Eq) (fun _ => rfl) _).bind ?_
  rintro pool _ rfl
  refine (PyRel.refl (P := Eq) (fun _ => rfl) _).bind ?_
  rintro pooled _ rfl
  refine (PyRel.refl (P := Eq) (fun _ => rfl) _).bind ?_
  rintro sel _ rfl
  refine (PyRel.mapE (P := Eq) (Q := RowEq r) (List.forall₂_same.mpr fun _ _ => rfl) ?_).bind ?_
  · rintro xd _ rfl
    have h1 : PyRel (RowEq r) (dropLin1 conf (m xd.2) xd.1.1) (dropLin1 conf (m' xd.2) xd.1.1) := by
      unfold dropLin1
      split
      · exact (hrefl _).dropout conf (hm _)
      · exact .inr ⟨_, _, rfl, rfl, hrefl _⟩
    refine h1.bind fun x y hxy => (PyRel.refl (P := Eq) (fun _ => rfl) _).bind ?_
    rintro lin1 _ rfl
    exact .inr ⟨_, _, rfl, rfl, hxy.map _⟩
  · intro new new' hnew
    rw [stackable_rowEq hnew]
    refine (PyRel.refl (P := Eq) (fun _ => rfl) _).bind ?_
    rintro u _ rfl
    have h2 : PyRel (List.Forall₂ (RowEq r)) (dropStack conf m new) (dropStack conf m' new') := by
      unfold dropStack
      split
      · refine PyRel.mapE (forall₂_zipIdx hnew 0) ?_
        rintro a b ⟨hab, hi⟩
        rw [hi]
        exact hab.dropout conf (hm _)
      · exact .inr ⟨_, _, rfl, rfl, hnew⟩
    refine h2.bind fun ns ns' hns => (stackReduce_rowEq _ hns).bind fun x y hxy => ?_
    have h3 : PyRel (RowEq r) (dropLin2 conf (m 0) x) (dropLin2 conf (m' 0) y) := by
      unfold dropLin2
      split
      · exact hxy.dropout conf (hm _)
      · exact .inr ⟨_, _, rfl, rfl, hxy⟩
    exact h3.bind fun x y hxy => .inr ⟨_, _, rfl, rfl, hxy.map _⟩

theorem lastLayer_rowEq (conf : DropConf 𝕜) {m m' : Mask ι} {r : Nat} (hm : ∀ d, m d r = m' d r)
    (lin2 : (ι → 𝕜) → ι → 𝕜) (rows : Py (List (ι → 𝕜))) :
    PyRel (RowEq r) (lastLayer conf m lin2 rows) (lastLayer conf m' lin2 rows) := by
  refine (PyRel.refl (P := RowEq r) (fun x => ⟨rfl, rfl⟩) rows).bind fun x y hxy => ?_
  exact (hxy.dropout conf (hm 0)).bind fun x y hxy => .inr ⟨_, _, rfl, rfl, hxy.map _⟩

/-- **C112** Behind the pooling, the random numbers of one complex do not touch the others: prediction `r` depends on the
rows `r` of the masks only, and which exception is raised does not depend on the masks. -/
theorem C112_own_random_numbers {Lv : Type} (conf : DropConf 𝕜) (m m' : Mask ι) (r : Nat) (hm : ∀ d, m d r = m' d r)
    (level : Lv → MPParams (ι → 𝕜) → Py (List (ι → 𝕜))) (data : Complex (ι → 𝕜) L) (graph : GData (ι → 𝕜)) :
    (∀ net : SparseNet (ι → 𝕜) Lv,
      PyRel (RowEq r) (net.forwardDrop conf m level data) (net.forwardDrop conf m' level data)) ∧
    (∀ net : CINNet (ι → 𝕜) Lv,
      PyRel (RowEq r) (net.forwardDrop conf m level data) (net.forwardDrop conf m' level data)) ∧
    (∀ net : EdgeNet (ι → 𝕜) Lv,
      PyRel (RowEq r) (net.forwardDrop conf m level data) (net.forwardDrop conf m' level data)) ∧
    (∀ net : AgnosticNet (ι → 𝕜), PyRel (RowEq r) (net.forwardDrop conf m data) (net.forwardDrop conf m' data)) ∧
    (∀ net : GINNet 𝕜 (ι → 𝕜), PyRel (RowEq r) (net.forwardDrop conf m graph) (net.forwardDrop conf m' graph)) ∧
    ∀ net : GINTrainNet 𝕜 (ι → 𝕜),
      PyRel (RowEq r) (net.forwardDrop conf m graph) (net.forwardDrop conf m' graph) := by
  refine ⟨fun net => ?_, fun net => lastLayer_rowEq conf hm _ _, fun net => lastLayer_rowEq conf hm _ _,
    fun net => lastLayer_rowEq conf hm _ _, fun net => lastLayer_rowEq conf hm _ _,
    fun net => lastLayer_rowEq conf hm _ _⟩
  refine (PyRel.refl (P := Eq) (fun _ => rfl) _).bind ?_
  rintro out _ rfl
  exact net.readoutDrop_rowEq conf hm out.1 out.2

/-! ### The layers of the embedding networks -/

/-- **C112** The loop over the layers of the OGB networks: every layer has a mask of its own, which is applied to its
outputs before the next layer sees them. -/
theorem C112_every_layer_has_its_mask {Cv : Type} (conf : DropConf 𝕜) (ms : Nat → Mask ι)
    (params : Complex (ι → 𝕜) L → Py (List (MPParams (ι → 𝕜))))
    (conv : Cv → List (MPParams (ι → 𝕜)) → Py (List (List (ι → 𝕜)))) (data out : Complex (ι → 𝕜) L) (cvs : List Cv)
    (outs : List (List (List (ι → 𝕜)))) (h : runConvsDrop conf ms params conv 0 data cvs = .ok (out, outs)) :
    outs.length = cvs.length ∧ ∃ datas : List (Complex (ι → 𝕜) L), datas.length = cvs.length + 1 ∧
      datas.head? = some data ∧ datas.getLast? = some out ∧
      ∀ (c : Nat) (cv : Cv) (before after : Complex (ι → 𝕜) L) (xs : List (List (ι → 𝕜))), cvs[c]? = some cv →
        datas[c]? = some before → datas[c + 1]? = some after → outs[c]? = some xs →
        ∃ ps ys, params before = .ok ps ∧ conv cv ps = .ok ys ∧ dropDims conf (ms c) ys = .ok xs ∧
          before.setXs (xs.map some) = .ok after := by
  suffices key : ∀ (cvs : List Cv) (k : Nat) (data : Complex (ι → 𝕜) L) (outs : List (List (List (ι → 𝕜)))),
      runConvsDrop conf ms params conv k data cvs = .ok (out, outs) →
      outs.length = cvs.length ∧ ∃ datas : List (Complex (ι → 𝕜) L), datas.length = cvs.length + 1 ∧
        datas.head? = some data ∧ datas.getLast? = some out ∧
        ∀ (c : Nat) (cv : Cv) (before after : Complex (ι → 𝕜) L) (xs : List (List (ι → 𝕜))), cvs[c]? = some cv →
          datas[c]? = some before → datas[c + 1]? = some after → outs[c]? = some xs →
          ∃ ps ys, params before = .ok ps ∧ conv cv ps = .ok ys ∧ dropDims conf (ms (k + c)) ys = .ok xs ∧
            before.setXs (xs.map some) = .ok after by
    simpa using key cvs 0 data outs h
  intro cvs
  induction cvs with
  | nil =>
    intro k data outs h
    unfold runConvsDrop at h
    rw [ok_inj, Prod.mk.injEq] at h
    obtain ⟨rfl, rfl⟩ := h
    exact ⟨rfl, [data], rfl, rfl, rfl, by simp⟩
  | cons cv cvs ih =>
    intro k data outs h
    unfold runConvsDrop at h
    obtain ⟨ps, h1, h⟩ := bind_eq_ok.mp h
    obtain ⟨ys, h2, h⟩ := bind_eq_ok.mp h
    obtain ⟨xs, h3, h⟩ := bind_eq_ok.mp h
    obtain ⟨data', h4, h⟩ := bind_eq_ok.mp h
    obtain ⟨rest, h5, h⟩ := bind_eq_ok.mp h
    rw [pure_eq_ok, ok_inj, Prod.mk.injEq] at h
    obtain ⟨rfl, rfl⟩ := h
    obtain ⟨i1, datas, i2, i3, i4, i5⟩ := ih (k + 1) data' rest.2 h5
    refine ⟨by simp [i1], data :: datas, by simp [i2], rfl, ?_, ?_⟩
    · rw [List.getLast?_cons, i4]
      rfl
    · intro c cv' before after zs g1 g2 g3 g4
      cases c with
      | zero =>
        simp only [List.getElem?_cons_zero, Option.some.injEq] at g1 g2 g4
        subst g1 g2 g4
        rw [Nat.zero_add, List.getElem?_cons_succ, ← List.head?_eq_getElem?, i3, Option.some.injEq] at g3
        subst g3
        exact ⟨ps, ys, h1, h2, h3, h4⟩
      | succ c =>
        rw [List.getElem?_cons_succ] at g1 g2 g3 g4
        have := i5 c cv' before after zs g1 g2 g3 g4
        rwa [show k + 1 + c = k + (c + 1) by omega] at this

/-! ### Numberings -/

theorem SparseNet.forwardDrop_last {Lv : Type} (conf : DropConf 𝕜) (h1 : conf.before ≠ "lin1")
    (h2 : conf.before ≠ "final_readout") (m : Mask ι) (level : Lv → MPParams (ι → 𝕜) → Py (List (ι → 𝕜)))
    (net : SparseNet (ι → 𝕜) Lv) (data : Complex (ι → 𝕜) L) : net.forwardDrop conf m level data =
      lastLayer conf m net.lin2 (SparseNet.forward 𝕜 level { net with lin2 := id } data) := by
  have hh : ∀ new : List (List (ι → 𝕜)), net.headDrop conf m new =
      lastLayer conf m net.lin2 (stackReduce 𝕜 net.finalReadout new) := by
    intro new
    unfold SparseNet.headDrop lastLayer
    simp only [dropStack, if_neg h2, ok_bind, dropLin2, if_pos (show conf.before ≠ "lin1" ∧
      conf.before ≠ "final_readout" from ⟨h1, h2⟩)]
    cases hs : stackable new with
    | error e => rw [stackReduce_of_error _ hs]; rfl
    | ok u => rfl
  unfold SparseNet.forwardDrop SparseNet.forward
  simp only [net.readoutDrop_newXs conf h1, SparseNet.readoutPart_newXs]
  unfold lastLayer
  simp only [bind_assoc]
  congr 1
  funext out
  have hnew : SparseNet.newXs { net with lin2 := id } out.1 out.2 = net.newXs out.1 out.2 := rfl
  rw [hnew]
  congr 1
  funext new
  rw [hh]
  unfold lastLayer
  congr 1
  funext x
  rw [ok_bind, List.map_id]

/-- **C112** With dropout in front of the last linear map and batch normalisation, in training mode: batches of
renumbered complexes get the same predictions from the same random numbers, or raise the same. -/
theorem C112_numbering (conf : DropConf 𝕜) (h1 : conf.before ≠ "lin1") (h2 : conf.before ≠ "final_readout") (m : Mask ι)
    (sparse : SparseNet (ι → 𝕜) (SparseTrain 𝕜 (ι → 𝕜))) (hs : sparse.Fits)
    (pp : SparseNet (ι → 𝕜) (PPTrain 𝕜 (ι → 𝕜))) (hpp : pp.Fits)
    (cin : CINNet (ι → 𝕜) (CINTrain 𝕜 (ι → 𝕜))) (hc : cin.Fits)
    (cs cs' : List (Complex (ι → 𝕜) L)) (hne : cs ≠ []) (hr : ∀ c ∈ cs, c.Ready) (hr' : ∀ c ∈ cs', c.Ready)
    (h0 : ∀ c ∈ cs, 0 < c.cellsIn 0) (hren : RenumberedBatch cs cs') (mB : Nat) :
    (fromComplexList cs mB >>= sparse.forwardDrop conf m SparseTrain.forward) =
        (fromComplexList cs' mB >>= sparse.forwardDrop conf m SparseTrain.forward) ∧
      (fromComplexList cs mB >>= pp.forwardDrop conf m PPTrain.forward) =
        (fromComplexList cs' mB >>= pp.forwardDrop conf m PPTrain.forward) ∧
      (fromComplexList cs mB >>= cin.forwardDrop conf m CINTrain.forward) =
        (fromComplexList cs' mB >>= cin.forwardDrop conf m CINTrain.forward) := by
  have hlast : ∀ (x : Py (Complex (ι → 𝕜) L)) (f : Complex (ι → 𝕜) L → Py (List (ι → 𝕜)))
      (lin2 : (ι → 𝕜) → ι → 𝕜),
      (x >>= fun data => lastLayer conf m lin2 (f data)) = lastLayer conf m lin2 (x >>= f) := by
    intro x f lin2
    unfold lastLayer
    rw [bind_assoc]
  have hfs : (SparseNet.Fits { sparse with lin2 := id }) := ⟨hs.1, hs.2, hs.3, hs.4, hs.5, hs.6⟩
  have hfp : (SparseNet.Fits { pp with lin2 := id }) := ⟨hpp.1, hpp.2, hpp.3, hpp.4, hpp.5, hpp.6⟩
  have hfc : (CINNet.Fits { cin with lin2 := id }) := ⟨hc.1, hc.2, hc.3⟩
  obtain ⟨e1, e2⟩ := C95_training_does_not_depend_on_numbering _ hfs _ hfp cs cs cs' hne hr hr' h0 (List.Perm.refl _)
    hren mB
  have e3 := C109_training_does_not_depend_on_numbering _ hfc cs cs cs' hne hr hr' h0 (List.Perm.refl _) hren mB
  have heq : ∀ {a b : Py (List (ι → 𝕜))}, ((a = .error .value ∧ b = .error .value) ∨
      ∃ g : Complex (ι → 𝕜) L → ι → 𝕜, a = .ok (cs.map g) ∧ b = .ok (cs.map g)) → a = b := by
    rintro a b (⟨rfl, rfl⟩ | ⟨g, rfl, rfl⟩) <;> rfl
  refine ⟨?_, ?_, ?_⟩
  · simp only [show sparse.forwardDrop conf m SparseTrain.forward (L := L) = fun data => _ from
      funext fun data => sparse.forwardDrop_last conf h1 h2 m SparseTrain.forward data]
    rw [hlast, hlast, heq e1]
  · simp only [show pp.forwardDrop conf m PPTrain.forward (L := L) = fun data => _ from
      funext fun data => pp.forwardDrop_last conf h1 h2 m PPTrain.forward data]
    rw [hlast, hlast, heq e2]
  · unfold CINNet.forwardDrop
    rw [hlast, hlast, heq e3]

/-- **C112** The graph baselines: graphs that the Weisfeiler-Lehman test does not tell apart get the same predictions from
the same random numbers. -/
theorem C112_same_colours (conf : DropConf 𝕜) (m : Mask ι) (net : GINTrainNet 𝕜 (ι → 𝕜))
    (hread : net.readout = "sum" ∨ net.readout = "mean") (n : Nat) (hn : net.convs.length + 1 ≤ n)
    (gs hs : List (GData (ι → 𝕜))) (hne : gs ≠ []) (hg : ∀ g ∈ gs, g.Ok) (hh : ∀ h ∈ hs, h.Ok)
    (hsame : List.Forall₂ (fun g h => SameNodes g h n) gs hs) :
    net.forwardDrop conf m (gBatch gs) = net.forwardDrop conf m (gBatch hs) := by
  unfold GINTrainNet.forwardDrop
  rcases C110_same_colours_same_prediction { net with lin2 := id } hread n hn gs gs hs hne hg hh (List.Perm.refl _)
    hsame with ⟨h1, h2⟩ | ⟨f, h1, h2⟩
  · rw [h1, h2]
  · rw [h1, h2]

/-! ### In front of the first linear maps -/

section Examples
open Fixtures

/-- A layer that changes nothing. -/
def passOn (_ : Unit) (p : MPParams (Unit → ℚ)) : Py (List (Unit → ℚ)) :=
  match p.x with
  | none => .error .attribute
  | some x => .ok x

/-- One vertex with the feature 2, as a batch. -/
def twoU : Complex (Unit → ℚ) Nat where
  cochains := [{ dim := 0, x := some [fun _ => 2], batch := some [0], numCellsAttr := some (some 1) }]
  dimension := 0

/-- `relu(x - 1)` and the identity. -/
def reluNetU : SparseNet (Unit → ℚ) Unit where
  convs := [[()]]
  maxDim := 0
  act x := fun i => if 0 < x i then x i else 0
  lin1s := [fun x i => x i - 1]
  lin2 := id

theorem reluNetU_affine : IsAffine ℚ reluNetU.lin2 := ⟨LinearMap.id, 0, fun x => by simp [reluNetU]⟩

/-- **C112** (negative) Dropout in front of the first linear maps changes the expected prediction: here it is 3/2 instead
of 1. -/
theorem C112_in_front_of_lin1_is_biased :
    IsAffine ℚ reluNetU.lin2 ∧ reluNetU.forward ℚ passOn twoU = .ok [fun _ => 1] ∧
      ¬ Unbiased (1 / 2 : ℚ) 1 1 (fun m => reluNetU.forwardDrop ⟨1 / 2, "lin1", true⟩ m passOn twoU)
        (reluNetU.forward ℚ passOn twoU) := by
  have h1 : reluNetU.forward ℚ passOn twoU = .ok [fun _ => 1] := by decide +kernel
  refine ⟨reluNetU_affine, h1, fun hu => ?_⟩
  obtain ⟨f, hf, he⟩ := hu.2 _ h1 (by simp)
  have hk : ∀ m : Fin 1 × Fin 1 × Unit → Bool, reluNetU.forwardDrop ⟨1 / 2, "lin1", true⟩ (spread m) passOn twoU =
      .ok [fun _ => if m (0, 0, ()) then 3 else 0] := by decide +kernel
  have h2 := congrFun (he 0 _ rfl) ()
  have hg : ∀ m, (f m).getD 0 0 () = if m (0, 0, ()) then 3 else 0 := by
    intro m
    have h3 := (hf m).1
    dsimp only at h3
    rw [hk, ok_inj] at h3
    rw [← h3]
    rfl
  unfold expect at h2
  rw [Finset.sum_apply] at h2
  simp only [Pi.smul_apply, smul_eq_mul, hg] at h2
  rw [sum_maskWeight_entry] at h2
  norm_num at h2

/-- Half of the entries are dropped. -/
def halfConf : DropConf ℚ := ⟨1 / 2, "lin2", true⟩

theorem halfConf_proper : halfConf.Proper := ⟨by norm_num [halfConf], by norm_num [halfConf]⟩

/-- In evaluation mode, with all random numbers bad. -/
example := C112_evaluation_mode (⟨1 / 2, "lin1", false⟩ : DropConf ℚ) ⟨1 / 3, "lin2", false⟩
  ⟨by norm_num, by norm_num⟩ ⟨by norm_num, by norm_num⟩ rfl rfl (fun _ _ (_ : Unit) => false) (fun _ _ _ => false)
  (fun _ _ _ _ => false) passOn twoU { x := [fun _ => 2], edges := [] }

/-- Kept, the entry is doubled; dropped, it is 0; what is expected is the prediction without dropout. -/
example : (∀ m : Fin 1 × Fin 1 × Unit → Bool, reluNetU.forwardDrop halfConf (spread m) passOn twoU =
      .ok [fun _ => if m (0, 0, ()) then 2 else 0]) ∧
    Unbiased (1 / 2 : ℚ) 1 1 (fun m => reluNetU.forwardDrop halfConf m passOn twoU) (reluNetU.forward ℚ passOn twoU) :=
  ⟨by decide +kernel, C112_sparse_cin_is_unbiased halfConf halfConf_proper rfl (by decide) passOn reluNetU reluNetU_affine
    twoU 1 1 (by decide)⟩

/-- In front of the final readout. -/
example := C112_sparse_cin_is_unbiased (⟨1 / 3, "final_readout", true⟩ : DropConf ℚ) ⟨by norm_num, by norm_num⟩ rfl
  (by decide) passOn reluNetU reluNetU_affine twoU 1 4 (by decide)

/-- A baseline without message passing. -/
def agnosticU : AgnosticNet (Unit → ℚ) where
  maxDim := 0
  act := id
  lin0s := [fun x => x]
  lin1 x := x + x
  lin2 := id

example : agnosticU.forwardDrop halfConf (fun _ _ _ => true) twoU = .ok [fun _ => 8] ∧
    agnosticU.forwardDrop halfConf (fun _ _ _ => false) twoU = .ok [fun _ => 0] ∧
    Unbiased (1 / 2 : ℚ) 1 1 (fun m => agnosticU.forwardDrop halfConf m twoU) (.ok [fun _ => 4]) := by
  have h := (C112_other_models_are_unbiased halfConf halfConf_proper rfl passOn twoU { x := [fun _ => 2], edges := [] }
    1 1 (by decide)).2.2.1 agnosticU ⟨LinearMap.id, 0, fun x => by simp [agnosticU]⟩
  have h4 : agnosticU.forward ℚ twoU = .ok [fun _ => 4] := by decide +kernel
  rw [h4] at h
  exact ⟨by decide +kernel, by decide +kernel, h⟩

/-- A rate of 3/2. -/
example : (reluNetU.forwardDrop ⟨3 / 2, "lin2", false⟩ (fun _ _ _ => true) passOn twoU) ≠ .ok [fun _ => 1] :=
  (C112_rates (⟨3 / 2, "lin2", false⟩ : DropConf ℚ) (.inr (by norm_num)) (fun _ _ _ => true) passOn twoU
    { x := [fun _ => 2], edges := [] } [fun _ => 1]).1 reluNetU

/-- Two layers with a mask each: the first keeps the feature and doubles it, the second drops it. -/
example : (runConvsDrop halfConf (fun c _ _ _ => c == 0) (fun data => data.getAllCochainParams 0 true false)
    (convForward passOn) 0 twoU [[()], [()]]).map Prod.snd = .ok [[[fun _ => 4]], [[fun _ => 0]]] := by
  decide +kernel

/-- Masks that differ for the second complex only. -/
example := C112_own_random_numbers halfConf (fun _ _ (_ : Unit) => true) (fun _ r _ => r != 1) 0 (fun _ => rfl) passOn twoU
  { x := [fun _ => 2], edges := [] }

/-- Batch normalisation of vectors. -/
def normU : NormNet (Unit → ℚ) := .batch (fun x m => (x - m) * (x - m)) (fun m v x => x - m + v) 0 1

/-- An update network. -/
def updateU : UpdateNet (Unit → ℚ) := ⟨fun x => x + 1, normU, fun x => x, fun x => x + x, normU, id⟩

/-- A SparseCIN level. -/
def trainU : SparseTrain ℚ (Unit → ℚ) where
  msgUp := .plain id
  msgBoundary := id
  updateUp := updateU
  updateBoundary := updateU
  lin a b := a + 2 * b
  norm := normU
  act x := x
  eps1 := 0
  eps2 := 1

/-- A CIN++ level. -/
def trainPPU : PPTrain ℚ (Unit → ℚ) where
  msgUp := .plain id
  msgDown := .plain id
  msgBoundary := id
  updateUp := updateU
  updateDown := updateU
  updateBoundary := updateU
  lin a d b := a + 2 * b - d
  norm := normU
  act x := x
  eps1 := 0
  eps2 := 1
  eps3 := 0

/-- A CIN level. -/
def trainCINU : CINTrain ℚ (Unit → ℚ) where
  upAlone x := x
  up x a := x + 2 * a
  upNorm := normU
  down x a := x - a
  downNorm := normU
  pre x := 3 * x + 1
  norm := normU
  eps := 0

/-- Networks. -/
def trainNetU : SparseNet (Unit → ℚ) (SparseTrain ℚ (Unit → ℚ)) where
  convs := [[trainU, trainU, trainU]]
  act x := x
  lin1s := [fun x => x + 1, fun x => x + x, fun x => 3 - x]
  lin2 x := x + fun _ => 5

def trainNetPPU : SparseNet (Unit → ℚ) (PPTrain ℚ (Unit → ℚ)) where
  convs := [[trainPPU, trainPPU, trainPPU]]
  act x := x
  lin1s := [fun x => x + 1, fun x => x + x, fun x => 3 - x]
  lin2 x := x + 5

def trainNetCINU : CINNet (Unit → ℚ) (CINTrain ℚ (Unit → ℚ)) where
  convs := [[trainCINU, trainCINU, trainCINU]]
  act x := x
  lin1 x := x + x
  lin2 x := x + 5

theorem trainNetU_fits : trainNetU.Fits :=
  ⟨by simp [trainNetU], by simp [trainNetU], rfl, .inl rfl, .inl rfl, by simp [SparseNet.dims, trainNetU]⟩

theorem trainNetPPU_fits : trainNetPPU.Fits :=
  ⟨by simp [trainNetPPU], by simp [trainNetPPU], rfl, .inl rfl, .inl rfl, by simp [SparseNet.dims, trainNetPPU]⟩

theorem trainNetCINU_fits : trainNetCINU.Fits := ⟨by simp [trainNetCINU], by simp [trainNetCINU], .inl rfl⟩

/-- The house with vectors as features. -/
def houseU : Complex (Unit → ℚ) Nat := mapX (fun n : Nat => fun _ : Unit => (n : ℚ)) house

theorem houseU_ready : houseU.Ready := ⟨validB_sound (by decide), by unfold Complex.Featured; decide, rfl⟩

/-- Two houses: whatever the random numbers, the network runs, and what is expected are the predictions of evaluation mode
with the statistics of the two houses. -/
example := C112_training_mode halfConf halfConf_proper rfl (by decide) trainNetU trainNetU_fits
  ⟨LinearMap.id, fun _ => 5, fun x => rfl⟩ [houseU, houseU] (by simp) (by simpa using houseU_ready) (by decide) 2 (by
    rintro ⟨conv, hc, d, l, -, -, hd, h1⟩
    have : ∀ d ∈ List.range 3, ([houseU, houseU].map (Complex.cellsIn d)).sum ≠ 1 := by decide
    exact this d (List.mem_range.mpr (by omega)) h1)

/-- Swap the first two vertices and the first two edges. -/
def swapU (d : Nat) : Equiv.Perm Nat := if 2 ≤ houseU.cellsIn d then Equiv.swap 0 1 else Equiv.refl Nat

theorem swapU_permutes : houseU.Permutes swapU := by
  intro d c
  unfold swapU
  split
  · by_cases h0 : c = 0
    · subst h0; simp; omega
    · by_cases h1 : c = 1
      · subst h1; simp; omega
      · rw [Equiv.swap_apply_of_ne_of_ne h0 h1]
  · rfl

/-- A house twice, and renumbered the second time. -/
example (m : Mask Unit) := C112_numbering halfConf (by decide) (by decide) m trainNetU trainNetU_fits trainNetPPU
  trainNetPPU_fits trainNetCINU trainNetCINU_fits [houseU, houseU] [houseU.relabel swapU, houseU.relabel swapU] (by simp)
  (by simpa using houseU_ready) (by simpa using houseU_ready.relabel swapU_permutes) (by decide)
  (.cons ⟨_, houseU_ready.relabels swapU_permutes⟩ (.cons ⟨_, houseU_ready.relabels swapU_permutes⟩ .nil)) 2

/-- The graph baselines with vectors. -/
def trainGINU : GINTrainNet ℚ (Unit → ℚ) where
  conv1 := ⟨updateU, 0⟩
  convs := [⟨updateU, 1 / 2⟩]
  jump := some List.sum
  readout := "mean"
  act := id
  lin1 x := x + x
  lin2 x := x + 5

/-- A graph with six nodes and all features the same. -/
def flatD (edges : List (Nat × Nat)) : GData (Unit → ℚ) := { x := List.replicate 6 fun _ => 1, edges := edges }

theorem flatD_alike (n : Nat) : SameNodes (flatD hexG.edges) (flatD triG.edges) n := by
  have h1 : ∀ e ∈ (flatD hexG.edges).edges, e.1 < 6 ∧ e.2 < 6 := by decide
  have h2 : ∀ e ∈ (flatD triG.edges).edges, e.1 < 6 ∧ e.2 < 6 := by decide
  have h3 : ∀ c < 6, ((flatD hexG.edges).edges.filter fun p => p.2 == c).length = 2 := by decide
  have h4 : ∀ c < 6, ((flatD triG.edges).edges.filter fun p => p.2 == c).length = 2 := by decide
  exact regular_alike ⟨h1, List.cons_ne_nil _ _⟩ ⟨h2, List.cons_ne_nil _ _⟩ rfl
    (fun y hy => List.eq_of_mem_replicate (n := 6) hy) (fun y hy => List.eq_of_mem_replicate (n := 6) hy) h3 h4 n

/-- The hexagon and the two triangles. -/
example (m : Mask Unit) : trainGINU.forwardDrop halfConf m (gBatch [flatD hexG.edges, flatD triG.edges]) =
    trainGINU.forwardDrop halfConf m (gBatch [flatD triG.edges, flatD triG.edges]) :=
  C112_same_colours halfConf m trainGINU (.inr rfl) 2 (by decide) _ _ (by simp)
    (by simpa using ⟨⟨by decide, by decide⟩, by decide, by decide⟩)
    (by simpa using ⟨by decide, by decide⟩) (.cons (flatD_alike 2) (.cons (by
      have h2 : ∀ e ∈ (flatD triG.edges).edges, e.1 < 6 ∧ e.2 < 6 := by decide
      have h4 : ∀ c < 6, ((flatD triG.edges).edges.filter fun p => p.2 == c).length = 2 := by decide
      exact regular_alike ⟨h2, List.cons_ne_nil _ _⟩ ⟨h2, List.cons_ne_nil _ _⟩ rfl
        (fun y hy => List.eq_of_mem_replicate (n := 6) hy) (fun y hy => List.eq_of_mem_replicate (n := 6) hy) h4 h4 2)
      .nil))

end Examples

end Verif
