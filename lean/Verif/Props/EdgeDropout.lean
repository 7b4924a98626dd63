import Verif.Model.EdgeDropout
import Verif.Props.Dropout
import Verif.Props.FlowData
import Mathlib.Tactic.Linarith

/-!
# C114: dropout in the networks for edge flows and in `EmbedGIN`
-/

namespace Verif

variable {𝕜 ι L : Type} [Field 𝕜] [LinearOrder 𝕜]

theorem OrientNet.forward_lin2 (net : OrientNet (ι → 𝕜)) (data : Cochain (ι → 𝕜) L) : net.forward 𝕜 data =
    OrientNet.forward 𝕜 { net with lin2 := id } data >>= fun x => .ok (x.map net.lin2) := by
  unfold OrientNet.forward
  have hp : OrientNet.prepare { net with lin2 := id } data = net.prepare data := rfl
  rw [hp]
  cases net.prepare data with
  | error e => rfl
  | ok data =>
    rw [ok_bind, ok_bind]
    dsimp only
    cases runOriented data net.convs with
    | error e => rfl
    | ok out =>
      rw [ok_bind, ok_bind]
      cases out.2 with
      | none => rfl
      | some x =>
        dsimp only
        cases out.1.batch with
        | none => rfl
        | some b =>
          dsimp only
          simp only [bind_assoc, pure_bind, List.map_map]
          rfl

section
variable [IsStrictOrderedRing 𝕜]

omit [IsStrictOrderedRing 𝕜] in
/-- **C114** In evaluation mode dropout does nothing in the networks for edge flows and in `EmbedGIN`, at any position and
for any random numbers. -/
theorem C114_evaluation_mode (conf : DropConf 𝕜) (h : conf.Proper) (ht : conf.training = false) (m : Mask ι)
    (mi m0 : Nat → ι → Bool) :
    (∀ (net : OrientNet (ι → 𝕜)) (data : Cochain (ι → 𝕜) L), net.forwardDrop conf m data = net.forward 𝕜 data) ∧
    ∀ (net : EmbedGIN 𝕜 (ι → 𝕜)) (data : Complex (ι → 𝕜) L), net.forwardDrop conf mi m0 data = net.forward data := by
  have hd : ∀ (m : Nat → ι → Bool) (x : List (ι → 𝕜)), dropout conf m x = .ok x := by
    intro m x
    unfold dropout
    rw [if_neg (by rintro (g | g); exacts [absurd h.1 (not_le.mpr g), absurd h.2.le (not_le.mpr g)]), ht]
    rfl
  refine ⟨fun net data => (lastLayer_eval conf h ht m _ _).trans (net.forward_lin2 data).symm, fun net data => ?_⟩
  have h1 : ∀ x : List (ι → 𝕜), dropLin1 conf m0 x = .ok x := by
    intro x
    unfold dropLin1
    rw [hd, ite_self]
  have h2 : ∀ x : List (ι → 𝕜), dropGINLin2 conf m0 x = .ok x := by
    intro x
    unfold dropGINLin2
    rw [hd, ite_self]
  unfold EmbedGIN.forwardDrop EmbedGIN.forward
  cases checkNodes data with
  | error e => rfl
  | ok u =>
    rw [ok_bind, ok_bind]
    cases data.getAllCochainParams 1 true false with
    | error e => rfl
    | ok ps =>
      rw [ok_bind, ok_bind]
      cases hx : net.init.forward ps with
      | error e => rfl
      | ok xs =>
        have h3 : dropNodes conf mi xs = .ok xs := by
          cases xs with
          | nil =>
            exfalso
            unfold EmbedInit.forward at hx
            repeat' split at hx
            all_goals first
              | cases hx
              | (obtain ⟨a, -, hx⟩ := bind_eq_ok.mp hx
                 obtain ⟨b, -, hx⟩ := bind_eq_ok.mp hx
                 repeat' split at hx
                 all_goals first
                   | cases hx
                   | (obtain ⟨c, -, hx⟩ := bind_eq_ok.mp hx
                      cases hx))
          | cons x xs =>
            unfold dropNodes
            dsimp only
            rw [hd]
            rfl
        rw [ok_bind, ok_bind, h3, ok_bind]
        simp only [h1, h2, ok_bind, List.map_map]
        rfl

/-- **C114** Training mode, any batch: the expected prediction is the prediction without dropout. -/
theorem C114_edge_flow_networks_are_unbiased [Fintype ι] [DecidableEq ι] (conf : DropConf 𝕜) (h : conf.Proper)
    (ht : conf.training = true) (net : OrientNet (ι → 𝕜)) (hl : IsAffine 𝕜 net.lin2) (data : Cochain (ι → 𝕜) L)
    (D N : Nat) (hD : 0 < D) :
    Unbiased conf.rate D N (fun m => net.forwardDrop conf m data) (net.forward 𝕜 data) := by
  rw [net.forward_lin2]
  exact lastLayer_unbiased conf h ht hl _ hD

theorem OrientNet.Blind.noLin2 {net : OrientNet (ι → 𝕜)} (h : net.Blind) :
    (OrientNet.Blind { net with lin2 := id } : Prop) := ⟨h.abs, h.layers⟩

omit [IsStrictOrderedRing 𝕜] in
/-- What the networks compute in front of the last linear map for items that get a prediction. -/
theorem singles_lin2 (net : OrientNet (ι → 𝕜)) {cs : List (Cochain (ι → 𝕜) L)} {preds : List (ι → 𝕜)}
    (h : List.Forall₂ (fun c p => (fromCochainList [c] >>= net.forward 𝕜) = .ok [p]) cs preds) :
    ∃ rows : List (ι → 𝕜), preds = rows.map net.lin2 ∧
      List.Forall₂ (fun c p => (fromCochainList [c] >>= OrientNet.forward 𝕜 { net with lin2 := id }) = .ok [p]) cs rows := by
  induction h with
  | nil => exact ⟨[], rfl, .nil⟩
  | @cons c p cs ps hcp hrest ih =>
    obtain ⟨rows, rfl, hr⟩ := ih
    obtain ⟨b, hb, hp⟩ := bind_eq_ok.mp hcp
    rw [net.forward_lin2] at hp
    obtain ⟨x, hx, hp⟩ := bind_eq_ok.mp hp
    rw [ok_inj] at hp
    obtain ⟨y, rfl, rfl⟩ : ∃ y, x = [y] ∧ p = net.lin2 y := by
      cases x with
      | nil => simp at hp
      | cons y x =>
        cases x with
        | nil => exact ⟨y, rfl, by simpa using hp.symm⟩
        | cons z x => simp at hp
    exact ⟨y :: rows, rfl, .cons (by rw [hb, ok_bind, hx]) hr⟩

/-- **C114** Batches of edge flows in training mode, for networks that are blind to orientations: the expected prediction
for an item of a batch is the one for the item alone without dropout, and reversing edges, differently in every item,
changes no prediction made with the same random numbers. -/
theorem C114_batches_and_orientations [Fintype ι] [DecidableEq ι] (conf : DropConf 𝕜) (h : conf.Proper)
    (ht : conf.training = true) (net : OrientNet (ι → 𝕜)) (hnet : net.Blind) (hl : IsAffine 𝕜 net.lin2)
    (cs cs' : List (Cochain (ι → 𝕜) L)) (hne : cs ≠ []) (he : ∀ c ∈ cs, EdgeOnly c)
    (hcs : List.Forall₂ Reoriented cs cs') (preds : List (ι → 𝕜))
    (hp : List.Forall₂ (fun c p => (fromCochainList [c] >>= net.forward 𝕜) = .ok [p]) cs preds) :
    (∀ m, (fromCochainList cs >>= net.forwardDrop conf m) = (fromCochainList cs' >>= net.forwardDrop conf m)) ∧
    ∃ f : (Fin 1 × Fin cs.length × ι → Bool) → List (ι → 𝕜),
      (∀ m, (fromCochainList cs >>= net.forwardDrop conf (spread m)) = .ok (f m) ∧ (f m).length = cs.length) ∧
      ∀ i p, preds[i]? = some p → expect conf.rate (fun m => (f m).getD i 0) = p := by
  obtain ⟨rows, rfl, hr⟩ := singles_lin2 net hp
  have hne' : cs' ≠ [] := by
    rintro rfl
    cases hcs
    exact hne rfl
  obtain ⟨he', hr'⟩ := C84_orientations _ hnet.noLin2 cs cs' he hcs rows hr
  have b1 := C84_batches _ cs hne he rows hr
  have b2 := C84_batches _ cs' hne' he' rows hr'
  have push : ∀ (ds : List (Cochain (ι → 𝕜) L)) (m : Mask ι), (fromCochainList ds >>= net.forwardDrop conf m) =
      lastLayer conf m net.lin2 (fromCochainList ds >>= OrientNet.forward 𝕜 { net with lin2 := id }) := by
    intro ds m
    cases fromCochainList ds <;> rfl
  constructor
  · intro m
    rw [push, push, b1, b2]
  · have hlen : rows.length = cs.length := hr.length_eq.symm
    obtain ⟨f, hf, hex⟩ := (lastLayer_unbiased (D := 1) (N := cs.length) conf h ht hl (.ok rows) (by omega)).2
      (rows.map net.lin2) rfl (by simp [hlen])
    refine ⟨f, fun m => ?_, fun i p hi => hex i p hi⟩
    rw [push, b1]
    exact ⟨(hf m).1, by rw [(hf m).2, List.length_map, hlen]⟩

omit [IsStrictOrderedRing 𝕜] in
/-- **C114** A rate outside of the interval from 0 to 1: no predictions, in both modes. -/
theorem C114_rates (conf : DropConf 𝕜) (h : conf.rate < 0 ∨ 1 < conf.rate) (m : Mask ι) (mi m0 : Nat → ι → Bool)
    (out : List (ι → 𝕜)) :
    (∀ (net : OrientNet (ι → 𝕜)) (data : Cochain (ι → 𝕜) L), net.forwardDrop conf m data ≠ .ok out) ∧
    ∀ (net : EmbedGIN 𝕜 (ι → 𝕜)) (data : Complex (ι → 𝕜) L), net.forwardDrop conf mi m0 data ≠ .ok out := by
  refine ⟨fun net data => lastLayer_rejects conf h m _ _ out, fun net data hh => ?_⟩
  unfold EmbedGIN.forwardDrop at hh
  obtain ⟨_, -, hh⟩ := bind_eq_ok.mp hh
  obtain ⟨ps, -, hh⟩ := bind_eq_ok.mp hh
  obtain ⟨xs, -, hh⟩ := bind_eq_ok.mp hh
  obtain ⟨ys, hy, -⟩ := bind_eq_ok.mp hh
  unfold dropNodes at hy
  cases xs with
  | nil => cases hy
  | cons x xs =>
    dsimp only at hy
    rw [dropout_rejects conf h] at hy
    cases hy

omit [IsStrictOrderedRing 𝕜] in
/-- **C114** Behind the pooling, the random numbers of one complex or flow do not touch the others: prediction `r` depends
on row `r` of the masks only, and which exception is raised does not depend on them. -/
theorem C114_own_random_numbers (conf : DropConf 𝕜) (r : Nat) (m m' : Mask ι) (hm : ∀ d, m d r = m' d r)
    (mi m0 m0' : Nat → ι → Bool) (hm0 : m0 r = m0' r) :
    (∀ (net : OrientNet (ι → 𝕜)) (data : Cochain (ι → 𝕜) L),
      PyRel (RowEq r) (net.forwardDrop conf m data) (net.forwardDrop conf m' data)) ∧
    ∀ (net : EmbedGIN 𝕜 (ι → 𝕜)) (data : Complex (ι → 𝕜) L),
      PyRel (RowEq r) (net.forwardDrop conf mi m0 data) (net.forwardDrop conf mi m0' data) := by
  refine ⟨fun net data => lastLayer_rowEq conf hm _ _, fun net data => ?_⟩
  have hrefl : ∀ {A : Type} (a : Py A), PyRel Eq a a := fun a => PyRel.refl (fun _ => rfl) a
  unfold EmbedGIN.forwardDrop
  refine (hrefl _).bind ?_; rintro _ _ rfl
  refine (hrefl _).bind ?_; rintro _ _ rfl
  refine (hrefl _).bind ?_; rintro _ _ rfl
  refine (hrefl _).bind ?_; rintro _ _ rfl
  refine (hrefl _).bind ?_; rintro _ _ rfl
  refine (hrefl _).bind ?_; rintro _ _ rfl
  refine (hrefl _).bind ?_; rintro _ _ rfl
  refine (hrefl _).bind ?_; rintro _ _ rfl
  refine (hrefl _).bind ?_; rintro _ _ rfl
  refine (hrefl _).bind ?_; rintro _ _ rfl
  refine (hrefl _).bind ?_; rintro pooled _ rfl
  have h1 : PyRel (RowEq r) (dropLin1 conf m0 pooled) (dropLin1 conf m0' pooled) := by
    unfold dropLin1
    split
    · exact RowEq.dropout ⟨rfl, rfl⟩ conf hm0
    · exact .inr ⟨_, _, rfl, rfl, rfl, rfl⟩
  refine h1.bind fun x y hxy => ?_
  have h2 : PyRel (RowEq r) (dropGINLin2 conf m0 (x.map fun r => net.act (net.lin1 r)))
      (dropGINLin2 conf m0' (y.map fun r => net.act (net.lin1 r))) := by
    unfold dropGINLin2
    split
    · exact (hxy.map _).dropout conf hm0
    · exact .inr ⟨_, _, rfl, rfl, hxy.map _⟩
  exact h2.bind fun x y hxy => .inr ⟨_, _, rfl, rfl, hxy.map _⟩

omit [IsStrictOrderedRing 𝕜] in
/-- **C114** `EmbedGIN` with a position that is not one of the three known ones applies no dropout behind the pooling,
where the other networks apply it in front of the last linear map. -/
theorem C114_unknown_position (conf : DropConf 𝕜) (h1 : conf.before ≠ "lin1") (h2 : conf.before ≠ "final_readout")
    (h3 : conf.before ≠ "lin2") (mi m0 m0' : Nat → ι → Bool) (net : EmbedGIN 𝕜 (ι → 𝕜)) (data : Complex (ι → 𝕜) L) :
    net.forwardDrop conf mi m0 data = net.forwardDrop conf mi m0' data := by
  unfold EmbedGIN.forwardDrop dropLin1 dropGINLin2
  simp only [if_neg h1, if_neg (not_or.mpr ⟨h2, h3⟩)]

/-- **C114** `EmbedGIN` in training mode, given the dropout of the embedded vertices: `final_readout` and `lin2` are the same
position, and on average dropout there does not change the prediction. -/
theorem C114_embed_gin_is_unbiased [Fintype ι] [DecidableEq ι] (conf : DropConf 𝕜) (h : conf.Proper)
    (ht : conf.training = true) (hb : conf.before = "final_readout" ∨ conf.before = "lin2") (other : String)
    (ho : other ≠ "lin1" ∧ other ≠ "final_readout" ∧ other ≠ "lin2") (mi m0 : Nat → ι → Bool)
    (net : EmbedGIN 𝕜 (ι → 𝕜)) (hl : IsAffine 𝕜 net.lin2) (data : Complex (ι → 𝕜) L) (D N : Nat) (hD : 0 < D) :
    Unbiased conf.rate D N (fun m => net.forwardDrop conf mi (m 0) data)
      (net.forwardDrop { conf with before := other } mi m0 data) := by
  have hb1 : conf.before ≠ "lin1" := by rcases hb with e | e <;> rw [e] <;> decide
  have e1 : ∀ m : Mask ι, net.forwardDrop conf mi (m 0) data = lastLayer conf m net.lin2
      (EmbedGIN.forwardDrop { conf with before := other } mi m0 { net with lin2 := id } data) := by
    intro m
    unfold EmbedGIN.forwardDrop lastLayer dropLin1 dropGINLin2
    simp only [if_neg hb1, if_pos hb, if_neg ho.1, if_neg (not_or.mpr ⟨ho.2.1, ho.2.2⟩), bind_assoc, ok_bind, pure_bind,
      List.map_id]
    rfl
  have e2 : net.forwardDrop { conf with before := other } mi m0 data =
      EmbedGIN.forwardDrop { conf with before := other } mi m0 { net with lin2 := id } data >>=
        fun x => .ok (x.map net.lin2) := by
    unfold EmbedGIN.forwardDrop dropLin1 dropGINLin2
    simp only [if_neg ho.1, if_neg (not_or.mpr ⟨ho.2.1, ho.2.2⟩), bind_assoc, ok_bind, pure_bind, List.map_id]
    rfl
  rw [e2]
  have e3 : (fun m : Mask ι => net.forwardDrop conf mi (m 0) data) = fun m => lastLayer conf m net.lin2
      (EmbedGIN.forwardDrop { conf with before := other } mi m0 { net with lin2 := id } data) := funext e1
  rw [e3]
  exact lastLayer_unbiased conf h ht hl _ hD

end

/-! ### Examples -/

section Examples

/-- Two flows on the edges of a triangle. -/
def flowsU : List (Cochain (Unit → ℚ) Nat) :=
  [⟨1, some [fun _ => 1, fun _ => -2, fun _ => 3], flowQ.upperIndex, flowQ.lowerIndex, none, none, none, flowQ.upperOrient,
    flowQ.lowerOrient, none, none, none, none, none, none, none⟩,
   ⟨1, some [fun _ => 0, fun _ => 1, fun _ => 0], flowQ.upperIndex, flowQ.lowerIndex, none, none, none, flowQ.upperOrient,
    flowQ.lowerOrient, none, none, none, none, none, none, none⟩]

/-- A network with an odd layer. -/
def orientU : OrientNet (Unit → ℚ) where
  convs := [⟨fun x => x + x, id, id, id, true⟩]
  abs x := fun i => if 0 ≤ x i then x i else -x i
  relu x := fun i => if 0 < x i then x i else 0
  lin1 x := x + x
  lin2 x := x + fun _ => 1

theorem orientU_blind : orientU.Blind where
  abs r := by
    funext i
    simp only [orientU, Pi.neg_apply]
    rcases lt_trichotomy (r i) 0 with h | h | h
    · rw [if_pos (by linarith), if_neg (by linarith)]
    · rw [h]
      simp
    · rw [if_neg (by linarith), if_pos (by linarith)]
      simp
  layers := .inl ⟨rfl, fun l hl => by
    simp only [orientU, List.mem_cons, List.not_mem_nil, or_false] at hl
    rw [hl]
    refine ⟨rfl, fun r => ?_, fun r => rfl, fun r => rfl, fun r => rfl⟩
    show -r + -r = -(r + r)
    rw [neg_add]⟩

theorem orientU_affine : IsAffine ℚ orientU.lin2 := ⟨LinearMap.id, fun _ => 1, fun _ => rfl⟩

theorem flowsU_predicted : List.Forall₂ (fun c p => (fromCochainList [c] >>= orientU.forward ℚ) = .ok [p]) flowsU
    [fun _ => 25, fun _ => 7] :=
  .cons (by decide +kernel) (.cons (by decide +kernel) .nil)

/-- The second flow with edges 0 and 2 reversed. -/
example := C114_batches_and_orientations halfConf halfConf_proper rfl orientU orientU_blind orientU_affine flowsU
  (flowsU.map (Cochain.flip flip02)) (by simp [flowsU]) (by
    intro c hc
    simp only [flowsU, List.mem_cons, List.not_mem_nil, or_false] at hc
    rcases hc with rfl | rfl <;> exact ⟨rfl, rfl, rfl⟩)
  (.cons ⟨flip02, fun c => by unfold flip02; split <;> simp, rfl⟩
    (.cons ⟨flip02, fun c => by unfold flip02; split <;> simp, rfl⟩ .nil)) _ flowsU_predicted

example := C114_edge_flow_networks_are_unbiased halfConf halfConf_proper rfl orientU orientU_affine
  (flowsU.headD { dim := 1 }) 1 1 (by decide)

/-- A GIN network. -/
def ginU : EmbedGIN ℚ (Unit → ℚ) where
  init := ⟨fun x => x, some fun x => x, List.sum, id⟩
  convs := []
  act x := x
  lin1 x := x
  lin2 x := x + fun _ => 5

example := C114_evaluation_mode (L := Nat) (⟨1 / 2, "lin1", false⟩ : DropConf ℚ) ⟨by norm_num, by norm_num⟩ rfl
  (fun _ _ (_ : Unit) => false) (fun _ _ => false) (fun _ _ => false)

example := C114_rates (L := Nat) (⟨3 / 2, "lin2", false⟩ : DropConf ℚ) (.inr (by norm_num)) (fun _ _ (_ : Unit) => true)
  (fun _ _ => true) (fun _ _ => true) [fun _ => 1]

example := C114_own_random_numbers (L := Nat) halfConf 0 (fun _ _ (_ : Unit) => true) (fun _ r _ => r != 1) (fun _ => rfl)
  (fun _ _ => true) (fun _ _ => true) (fun r _ => r != 1) rfl

example := C114_unknown_position (⟨1 / 2, "lin3", true⟩ : DropConf ℚ) (by decide) (by decide) (by decide)
  (fun _ (_ : Unit) => true) (fun _ _ => true) (fun _ _ => false) ginU twoU

example := C114_embed_gin_is_unbiased halfConf halfConf_proper rfl (.inr rfl) "none" ⟨by decide, by decide, by decide⟩
  (fun _ (_ : Unit) => true) (fun _ _ => true) ginU ⟨LinearMap.id, fun _ => 5, fun _ => rfl⟩ twoU 1 1 (by decide)

/-- The vertex is kept and doubled, then dropped or kept and doubled again in front of the last linear map; at an unknown
position nothing more happens. -/
example : ginU.forwardDrop halfConf (fun _ _ => true) (fun _ _ => false) twoU = .ok [fun _ => 5] ∧
    ginU.forwardDrop halfConf (fun _ _ => true) (fun _ _ => true) twoU = .ok [fun _ => 13] ∧
    ginU.forwardDrop { halfConf with before := "final_readout" } (fun _ _ => true) (fun _ _ => true) twoU =
      .ok [fun _ => 13] ∧
    ginU.forwardDrop { halfConf with before := "lin3" } (fun _ _ => true) (fun _ _ => true) twoU = .ok [fun _ => 9] := by
  decide +kernel

end Examples

end Verif
