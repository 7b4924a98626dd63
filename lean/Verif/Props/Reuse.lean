import Verif.Spec.Reuse
import Verif.Props.Models
import Verif.Props.Partial
import Verif.Props.RingNets
import Verif.Props.EdgeNet
import Verif.Props.EmbedBatch

/-!
# C122: Networks write into the batch they are given
-/

namespace Verif

variable {𝕜 R L Lv : Type}

theorem runConvs_append {Cv : Type} (params : Complex R L → Py (List (MPParams R)))
    (conv : Cv → List (MPParams R) → Py (List (List R))) : ∀ (a b : List Cv) (data : Complex R L),
    runConvs params conv data (a ++ b) = (do
      let o ← runConvs params conv data a
      let o' ← runConvs params conv o.1 b
      return (o'.1, o.2 ++ o'.2)) := by
  intro a
  induction a with
  | nil =>
    intro b data
    simp only [List.nil_append, runConvs, ok_bind]
    cases runConvs params conv data b <;> rfl
  | cons c a ih =>
    intro b data
    simp only [List.cons_append, runConvs]
    cases params data with
    | error e => rfl
    | ok ps =>
      simp only [ok_bind]
      cases conv c ps with
      | error e => rfl
      | ok xs =>
        simp only [ok_bind]
        cases data.setXs (xs.map some) with
        | error e => rfl
        | ok data' =>
          simp only [ok_bind, ih]
          cases runConvs params conv data' a with
          | error e => rfl
          | ok o =>
            simp only [ok_bind, pure_eq_ok]
            cases runConvs params conv o.1 b <;> rfl

theorem runConvs_outs {Cv : Type} {params : Complex R L → Py (List (MPParams R))}
    {conv : Cv → List (MPParams R) → Py (List (List R))} : ∀ {a : List Cv} {data : Complex R L}
    {o : Complex R L × List (List (List R))}, runConvs params conv data a = .ok o → o.2.length = a.length := by
  intro a
  induction a with
  | nil => intro data o h; cases h; rfl
  | cons c a ih =>
    intro data o h
    unfold runConvs at h
    obtain ⟨ps, -, h⟩ := bind_eq_ok.mp h
    obtain ⟨xs, -, h⟩ := bind_eq_ok.mp h
    obtain ⟨data', -, h⟩ := bind_eq_ok.mp h
    obtain ⟨rest, h1, h⟩ := bind_eq_ok.mp h
    cases ok_inj.mp h
    simp [ih h1]

theorem setXsLoop_only : ∀ {cs : List (Cochain R L)} {xs : List (Option (List R))} {cs' : List (Cochain R L)},
    setXsLoop cs xs = .ok cs' → List.Forall₂ (fun c c' : Cochain R L => c' = { c with x := c'.x }) cs cs' := by
  intro cs
  induction cs with
  | nil =>
    intro xs cs' h
    cases xs with
    | nil => cases h; exact .nil
    | cons x xs => cases h
  | cons c cs ih =>
    intro xs cs' h
    cases xs with
    | nil =>
      cases h
      exact List.forall₂_same.mpr fun c _ => rfl
    | cons x xs =>
      unfold setXsLoop at h
      obtain ⟨c', h1, h⟩ := bind_eq_ok.mp h
      obtain ⟨cs'', h2, h⟩ := bind_eq_ok.mp h
      cases ok_inj.mp h
      refine .cons ?_ (ih h2)
      unfold Cochain.setX at h1
      cases x with
      | none => cases h1; rfl
      | some rows =>
        obtain ⟨n, -, h1⟩ := bind_eq_ok.mp h1
        obtain ⟨u, -, h1⟩ := bind_eq_ok.mp h1
        cases ok_inj.mp h1
        rfl

theorem OnlyFeatures.trans {a b c : Complex R L} (h : OnlyFeatures a b) (h' : OnlyFeatures b c) : OnlyFeatures a c := by
  obtain ⟨h1, h2⟩ := h
  obtain ⟨h3, h4⟩ := h'
  refine ⟨by rw [h3, h1], ?_⟩
  clear h1 h3
  generalize a.cochains = l1 at *
  generalize b.cochains = l2 at *
  generalize c.cochains = l3 at *
  induction h2 generalizing l3 with
  | nil => cases h4; exact .nil
  | cons q _ ih =>
    cases h4 with
    | cons q' r' => exact .cons (by rw [q', q]) (ih _ r')

theorem OnlyFeatures.refl (a : Complex R L) : OnlyFeatures a a := ⟨rfl, List.forall₂_same.mpr fun _ _ => rfl⟩

theorem setXs_only {data data' : Complex R L} {xs : List (Option (List R))} (hd : data.setXs xs = .ok data') :
    OnlyFeatures data data' := by
  unfold Complex.setXs at hd
  obtain ⟨u, -, hd⟩ := bind_eq_ok.mp hd
  obtain ⟨cs, hcs, hd⟩ := bind_eq_ok.mp hd
  cases ok_inj.mp hd
  exact ⟨rfl, setXsLoop_only hcs⟩

theorem setNodes_only {f : R → R} {data data' : Complex R L} (hd : setNodes f data = .ok data') : OnlyFeatures data data' := by
  unfold setNodes at hd
  split at hd
  · cases hd
  · rename_i c cs hc
    split at hd
    · cases hd
    · obtain ⟨c', h1, hd⟩ := bind_eq_ok.mp hd
      cases ok_inj.mp hd
      refine ⟨rfl, ?_⟩
      rw [hc]
      refine .cons ?_ (List.forall₂_same.mpr fun _ _ => rfl)
      unfold Cochain.setX at h1
      obtain ⟨n, -, h1⟩ := bind_eq_ok.mp h1
      obtain ⟨u, -, h1⟩ := bind_eq_ok.mp h1
      cases ok_inj.mp h1
      rfl

theorem edgeRun_only {level : Lv → MPParams R → Py (List R)} {net : EdgeNet R Lv} : ∀ {a : List (List Lv)} {c : Nat}
    {data : Complex R L} {o : Complex R L × List (List (List R))}, net.run level c data a = .ok o → OnlyFeatures data o.1 := by
  intro a
  induction a with
  | nil => intro c data o h; cases h; exact OnlyFeatures.refl _
  | cons cv a ih =>
    intro c data o h
    unfold EdgeNet.run at h
    obtain ⟨ps, -, h⟩ := bind_eq_ok.mp h
    obtain ⟨xs, -, h⟩ := bind_eq_ok.mp h
    obtain ⟨ws, -, h⟩ := bind_eq_ok.mp h
    obtain ⟨data', hd, h⟩ := bind_eq_ok.mp h
    obtain ⟨rest, h1, h⟩ := bind_eq_ok.mp h
    cases ok_inj.mp h
    exact OnlyFeatures.trans (b := data') (setXs_only hd) (ih (o := rest) h1)

theorem runConvs_only {Cv : Type} {params : Complex R L → Py (List (MPParams R))}
    {conv : Cv → List (MPParams R) → Py (List (List R))} : ∀ {a : List Cv} {data : Complex R L}
    {o : Complex R L × List (List (List R))}, runConvs params conv data a = .ok o → OnlyFeatures data o.1 := by
  intro a
  induction a with
  | nil => intro data o h; cases h; exact OnlyFeatures.refl _
  | cons c a ih =>
    intro data o h
    unfold runConvs at h
    obtain ⟨ps, -, h⟩ := bind_eq_ok.mp h
    obtain ⟨xs, -, h⟩ := bind_eq_ok.mp h
    obtain ⟨data', hd, h⟩ := bind_eq_ok.mp h
    obtain ⟨rest, h1, h⟩ := bind_eq_ok.mp h
    cases ok_inj.mp h
    exact OnlyFeatures.trans (b := data') (setXs_only hd) (ih (o := rest) h1)

theorem finalRows_last {pre last : List (List (List R))} (hl : last ≠ []) : finalRows none (pre ++ last) = finalRows none last := by
  unfold finalRows
  rw [List.getLast?_append_of_ne_nil _ hl]

/-- Repeated calls of something that runs layers and then reads out. -/
theorem callAgain_layers {Cv : Type} {params : Complex R L → Py (List (MPParams R))}
    {conv : Cv → List (MPParams R) → Py (List (List R))} {convs : List Cv}
    {readout : Complex R L → List (List (List R)) → Py (List R)} {call : Complex R L → Py (Complex R L × List R)}
    (hcall : ∀ data, call data = (do
      let out ← runConvs params conv data convs
      let pred ← readout out.1 out.2
      return (out.1, pred))) : ∀ (n : Nat) (data : Complex R L) (r : Complex R L × List R), callAgain call n data = .ok r →
    ∃ pre last, runConvs params conv data (List.replicate (n + 1) convs).flatten = .ok (r.1, pre ++ last) ∧
      last.length = convs.length ∧ readout r.1 last = .ok r.2 := by
  intro n
  induction n with
  | zero =>
    intro data r h
    replace h : call data = .ok r := h
    rw [hcall] at h
    obtain ⟨out, h1, h⟩ := bind_eq_ok.mp h
    obtain ⟨pred, h2, h⟩ := bind_eq_ok.mp h
    cases ok_inj.mp h
    exact ⟨[], out.2, by simpa using h1, runConvs_outs h1, h2⟩
  | succ n ih =>
    intro data r h
    unfold callAgain at h
    obtain ⟨r1, hr1, h⟩ := bind_eq_ok.mp h
    rw [hcall] at hr1
    obtain ⟨out, h1, hr1⟩ := bind_eq_ok.mp hr1
    obtain ⟨pred, h2, hr1⟩ := bind_eq_ok.mp hr1
    cases ok_inj.mp hr1
    obtain ⟨pre, last, q1, q2, q3⟩ := ih _ _ h
    refine ⟨out.2 ++ pre, last, ?_, q2, q3⟩
    rw [List.replicate_succ, List.flatten_cons, runConvs_append, h1, ok_bind, q1, ok_bind, List.append_assoc]
    rfl

/-- Conversely, if the deeper networks can be read out, the calls succeed. -/
theorem callAgain_ok {Cv : Type} {params : Complex R L → Py (List (MPParams R))}
    {conv : Cv → List (MPParams R) → Py (List (List R))} {convs : List Cv}
    {readout : Complex R L → List (List (List R)) → Py (List R)} {call : Complex R L → Py (Complex R L × List R)}
    (hcall : ∀ data, call data = (do
      let out ← runConvs params conv data convs
      let pred ← readout out.1 out.2
      return (out.1, pred)))
    (hread : ∀ (d : Complex R L) pre last, last.length = convs.length → readout d (pre ++ last) = readout d last) :
    ∀ (n : Nat) (data : Complex R L),
    (∀ k ≤ n, ∃ p, (do
      let out ← runConvs params conv data (List.replicate (k + 1) convs).flatten
      readout out.1 out.2) = .ok p) → ∃ r, callAgain call n data = .ok r := by
  intro n
  induction n with
  | zero =>
    intro data h
    obtain ⟨p, h⟩ := h 0 (by omega)
    obtain ⟨out, h1, h2⟩ := bind_eq_ok.mp h
    refine ⟨(out.1, p), ?_⟩
    show call data = _
    rw [hcall]
    rw [show (List.replicate (0 + 1) convs).flatten = convs by simp] at h1
    rw [h1, ok_bind, h2]
    rfl
  | succ n ih =>
    intro data h
    obtain ⟨p, h0⟩ := h 0 (by omega)
    obtain ⟨out, h1, h2⟩ := bind_eq_ok.mp h0
    rw [show (List.replicate (0 + 1) convs).flatten = convs by simp] at h1
    have hc : call data = .ok (out.1, p) := by
      rw [hcall, h1, ok_bind, h2]
      rfl
    unfold callAgain
    rw [hc, ok_bind]
    refine ih out.1 fun k hk => ?_
    obtain ⟨q, hq⟩ := h (k + 1) (by omega)
    obtain ⟨out', q1, q2⟩ := bind_eq_ok.mp hq
    rw [List.replicate_succ, List.flatten_cons, runConvs_append, h1, ok_bind] at q1
    obtain ⟨o, q3, q4⟩ := bind_eq_ok.mp q1
    cases ok_inj.mp q4
    refine ⟨q, ?_⟩
    rw [q3, ok_bind]
    have hlen := runConvs_outs q3
    obtain ⟨pre, last, e1, e2⟩ : ∃ pre last, o.2 = pre ++ last ∧ last.length = convs.length := by
      refine ⟨o.2.take (o.2.length - convs.length), o.2.drop (o.2.length - convs.length), (List.take_append_drop _ _).symm, ?_⟩
      rw [List.length_drop]
      have : convs.length ≤ o.2.length := by
        rw [hlen]; simp [List.length_flatten, List.map_replicate, Nat.add_mul]
      omega
    rw [e1, ← List.append_assoc, hread _ _ _ e2] at q2
    rw [e1, hread _ _ _ e2]
    exact q2

variable [Field 𝕜] [AddCommMonoid R] [Module 𝕜 R]

/-- **C122** A call returns the prediction of C16, and leaves a batch that differs from the one given in the features only. -/
theorem C122_what_a_call_leaves (level : Lv → MPParams R → Py (List R)) :
    (∀ (net : SparseNet R Lv) (data : Complex R L), Prod.snd <$> net.call 𝕜 level data = net.forward 𝕜 level data ∧
      ∀ r, net.call 𝕜 level data = .ok r → OnlyFeatures data r.1) ∧
    (∀ (net : CINNet R Lv) (data : Complex R L), Prod.snd <$> net.call 𝕜 level data = net.forward 𝕜 level data ∧
      ∀ r, net.call 𝕜 level data = .ok r → OnlyFeatures data r.1) := by
  refine ⟨fun net data => ⟨?_, fun r h => ?_⟩, fun net data => ⟨?_, fun r h => ?_⟩⟩
  · unfold SparseNet.call SparseNet.forward
    cases runConvs (fun data => data.getAllCochainParams net.maxDim true false) (convForward level) data net.convs with
    | error e => rfl
    | ok out =>
      simp only [ok_bind]
      cases net.readoutPart 𝕜 out.1 out.2 <;> rfl
  · unfold SparseNet.call at h
    obtain ⟨out, h1, h⟩ := bind_eq_ok.mp h
    obtain ⟨p, -, h⟩ := bind_eq_ok.mp h
    cases ok_inj.mp h
    exact runConvs_only h1
  · unfold CINNet.call CINNet.forward
    cases runConvs (fun data => data.getAllCochainParams net.maxDim) (convForward level) data net.convs with
    | error e => rfl
    | ok out =>
      simp only [ok_bind]
      show Prod.snd <$> (net.readoutPart 𝕜 out.1 out.2 >>= fun pred => pure (out.1, pred)) = net.readoutPart 𝕜 out.1 out.2
      cases net.readoutPart 𝕜 out.1 out.2 <;> rfl
  · unfold CINNet.call at h
    obtain ⟨out, h1, h⟩ := bind_eq_ok.mp h
    obtain ⟨p, -, h⟩ := bind_eq_ok.mp h
    cases ok_inj.mp h
    exact runConvs_only h1

/-- **C122** The same for the networks with embeddings, for the ring experiments and for EdgeCIN0. -/
theorem C122_what_the_others_leave (level : Lv → MPParams R → Py (List R)) :
    (∀ (net : EmbedNet R Lv) (data : Complex R L), Prod.snd <$> net.call 𝕜 level data = net.forward 𝕜 level data ∧
      ∀ r, net.call 𝕜 level data = .ok r → OnlyFeatures data r.1) ∧
    (∀ (net : RingNet R Lv) (data : Complex R L), Prod.snd <$> net.call level data = net.forward level data ∧
      ∀ r, net.call level data = .ok r → OnlyFeatures data r.1) ∧
    (∀ (net : EdgeNet R Lv) (data : Complex R L), Prod.snd <$> net.call 𝕜 level data = net.forward 𝕜 level data ∧
      ∀ r, net.call 𝕜 level data = .ok r → OnlyFeatures data r.1) := by
  have base := (C122_what_a_call_leaves (𝕜 := 𝕜) (L := L) level).1
  refine ⟨fun net data => ⟨?_, fun r h => ?_⟩, fun net data => ⟨?_, fun r h => ?_⟩, fun net data => ⟨?_, fun r h => ?_⟩⟩
  · unfold EmbedNet.call EmbedNet.forward
    cases checkNodes data with
    | error e => rfl
    | ok u =>
      simp only [ok_bind]
      cases data.getAllCochainParams net.net.maxDim true false with
      | error e => rfl
      | ok ps =>
        simp only [ok_bind]
        cases net.init.forward ps with
        | error e => rfl
        | ok xs =>
          simp only [ok_bind]
          cases data.setXs (xs.map some) with
          | error e => rfl
          | ok data' => exact (base net.net data').1
  · unfold EmbedNet.call at h
    obtain ⟨u, -, h⟩ := bind_eq_ok.mp h
    obtain ⟨ps, -, h⟩ := bind_eq_ok.mp h
    obtain ⟨xs, -, h⟩ := bind_eq_ok.mp h
    obtain ⟨data', hd, h⟩ := bind_eq_ok.mp h
    exact (setXs_only hd).trans ((base net.net data').2 r h)
  · unfold RingNet.call RingNet.forward
    cases setNodes net.initLayer data with
    | error e => rfl
    | ok data' =>
      simp only [ok_bind]
      cases runConvs (fun data => data.getAllCochainParams net.maxDim true false) (convForward level) data' net.convs with
      | error e => rfl
      | ok out =>
        simp only [ok_bind]
        show Prod.snd <$> (net.readoutPart out.1 out.2 >>= fun pred => pure (out.1, pred)) = net.readoutPart out.1 out.2
        cases net.readoutPart out.1 out.2 <;> rfl
  · unfold RingNet.call at h
    obtain ⟨data', hd, h⟩ := bind_eq_ok.mp h
    obtain ⟨out, h1, h⟩ := bind_eq_ok.mp h
    obtain ⟨p, -, h⟩ := bind_eq_ok.mp h
    cases ok_inj.mp h
    exact (setNodes_only hd).trans (runConvs_only h1)
  · unfold EdgeNet.call EdgeNet.forward
    cases net.run level 0 data net.convs with
    | error e => rfl
    | ok out =>
      simp only [ok_bind]
      cases finalRows net.jump out.2 with
      | error e => rfl
      | ok xs =>
        simp only [ok_bind]
        cases getPoolingFn net.readout with
        | error e => rfl
        | ok pool =>
          simp only [ok_bind]
          cases poolComplex 𝕜 pool out.1 1 xs with
          | error e => rfl
          | ok pooled =>
            simp only [ok_bind]
            cases stackReduce 𝕜 "sum" pooled <;> rfl
  · unfold EdgeNet.call at h
    obtain ⟨out, h1, h⟩ := bind_eq_ok.mp h
    obtain ⟨xs, -, h⟩ := bind_eq_ok.mp h
    obtain ⟨pool, -, h⟩ := bind_eq_ok.mp h
    obtain ⟨pooled, -, h⟩ := bind_eq_ok.mp h
    obtain ⟨x, -, h⟩ := bind_eq_ok.mp h
    cases ok_inj.mp h
    exact edgeRun_only h1

theorem convLoop_length {level : Lv → MPParams R → Py (List R)} : ∀ {levels : List Lv} {ps : List (MPParams R)}
    {xs : List (List R)}, convLoop level levels ps = .ok xs → ps.length ≤ levels.length → xs.length = ps.length := by
  intro levels
  induction levels with
  | nil =>
    intro ps xs h hl
    cases ps with
    | nil => cases h; rfl
    | cons p ps => simp at hl
  | cons l levels ih =>
    intro ps xs h hl
    cases ps with
    | nil => cases h; rfl
    | cons p ps =>
      unfold convLoop at h
      obtain ⟨x, -, h⟩ := bind_eq_ok.mp h
      obtain ⟨rest, h1, h⟩ := bind_eq_ok.mp h
      cases ok_inj.mp h
      simp only [List.length_cons] at hl ⊢
      rw [ih h1 (by omega)]

/-- The outputs of the layers are what the batch holds after them. -/
theorem runConvs_layer {level : Lv → MPParams R → Py (List R)} {maxDim : Nat} : ∀ {convs : List (List Lv)} {data : Complex R L}
    {o : Complex R L × List (List (List R))},
    runConvs (fun data => data.getAllCochainParams maxDim true false) (convForward level) data convs = .ok o →
    ∀ (i : Nat) (xs : List (List R)), o.2[i]? = some xs → xs.length = min maxDim data.dimension + 1 ∧
      ∃ o', runConvs (fun data => data.getAllCochainParams maxDim true false) (convForward level) data (convs.take (i + 1)) = .ok o' ∧
        ∀ (k : Nat) (rows : List R), xs[k]? = some rows → (o'.1.cochains[k]?).bind (·.x) = some rows := by
  intro convs
  induction convs with
  | nil =>
    intro data o h i xs hi
    cases h
    cases hi
  | cons conv convs ih =>
    intro data o h i xs hi
    unfold runConvs at h
    obtain ⟨ps, h1, h⟩ := bind_eq_ok.mp h
    obtain ⟨ys, h2, h⟩ := bind_eq_ok.mp h
    obtain ⟨data', h3, h⟩ := bind_eq_ok.mp h
    obtain ⟨rest, h4, h⟩ := bind_eq_ok.mp h
    cases ok_inj.mp h
    cases i with
    | zero =>
      replace hi : some ys = some xs := hi
      cases hi
      constructor
      · unfold convForward at h2
        obtain ⟨u, h5, h2⟩ := bind_eq_ok.mp h2
        rw [convLoop_length h2 (by simpa using pyAssert_eq_ok.mp h5)]
        have := (mapE_eq_ok_iff.mp h1).length_eq
        simpa using this.symm
      · refine ⟨(data', [xs]), ?_, ?_⟩
        · simp only [Nat.zero_add, List.take_succ_cons, List.take_zero, runConvs]
          rw [h1, ok_bind, h2, ok_bind, h3, ok_bind]
          rfl
        · intro k rows hk
          unfold Complex.setXs at h3
          obtain ⟨u, -, h3⟩ := bind_eq_ok.mp h3
          obtain ⟨cs, hcs, h3⟩ := bind_eq_ok.mp h3
          cases ok_inj.mp h3
          obtain ⟨q1, q2, q3⟩ := setXsLoop_eq_ok.mp hcs
          have hlt : k < data.cochains.length := by
            have := (List.getElem?_eq_some_iff.mp hk).1
            rw [List.length_map] at q1
            omega
          have := q3 k _ (List.getElem?_eq_getElem hlt)
          rw [List.getElem?_map, hk] at this
          dsimp only [Option.map_some] at this ⊢
          rw [this.2]
          rfl
    | succ i =>
      obtain ⟨q1, o', q2, q3⟩ := ih h4 i xs hi
      refine ⟨by rw [q1, setXs_dimension h3], (o'.1, ys :: o'.2), ?_, q3⟩
      rw [List.take_succ_cons, runConvs, h1, ok_bind, h2, ok_bind, h3, ok_bind, q2, ok_bind]
      rfl

/-- **C122** RingSparseCIN with `include_partial=True`: the prediction is the same, it is stored under `out`, and
`layer{i}_{k}` is there exactly for the layers `i` and the dimensions `k` of the batch up to `max_dim`, and is what the batch
holds for the `k`-cells after the initial layer and `i + 1` layers. -/
theorem C122_ring_intermediate_results (level : Lv → MPParams R → Py (List R)) (net : RingNet R Lv) (data : Complex R L) :
    Prod.fst <$> net.forwardPartial level data = net.forward level data ∧
    ∀ preds res, net.forwardPartial level data = .ok (preds, res) → res.lookup .out = some preds ∧
      (∀ k, res.lookup (.pool k) = none) ∧
      ∀ i k rows, res.lookup (.layer i k) = some rows ↔ i < net.convs.length ∧ k ≤ net.maxDim ∧ k ≤ data.dimension ∧
        ∃ start o, setNodes net.initLayer data = .ok start ∧
          runConvs (fun data => data.getAllCochainParams net.maxDim true false) (convForward level) start
            (net.convs.take (i + 1)) = .ok o ∧ (o.1.cochains[k]?).bind (·.x) = some rows := by
  constructor
  · unfold RingNet.forwardPartial RingNet.forward
    cases setNodes net.initLayer data with
    | error e => rfl
    | ok data' =>
      simp only [ok_bind]
      cases runConvs (fun data => data.getAllCochainParams net.maxDim true false) (convForward level) data' net.convs with
      | error e => rfl
      | ok out =>
        simp only [ok_bind]
        show Prod.fst <$> (net.readoutPart out.1 out.2 >>= fun pred => pure (pred, layerResults out.2 ++ [(ResultKey.out, pred)])) =
          net.readoutPart out.1 out.2
        cases net.readoutPart out.1 out.2 <;> rfl
  · intro preds res h
    unfold RingNet.forwardPartial at h
    obtain ⟨start, h1, h⟩ := bind_eq_ok.mp h
    obtain ⟨out, h2, h⟩ := bind_eq_ok.mp h
    obtain ⟨p, h3, h⟩ := bind_eq_ok.mp h
    cases ok_inj.mp h
    obtain ⟨-, r1, r2, r3⟩ := results_lookup out.2 [] preds
    simp only [poolResults, List.zipIdx_nil, List.map_nil, List.append_nil] at r1 r2 r3
    refine ⟨r3, fun k => by simpa using r2 k, fun i k rows => ?_⟩
    rw [r1]
    have hdim : start.dimension = data.dimension := by rw [(setNodes_only h1).1]
    have hlen := runConvs_outs h2
    constructor
    · intro hk
      obtain ⟨xs, hi, hk⟩ := Option.bind_eq_some_iff.mp hk
      obtain ⟨q1, o, q2, q3⟩ := runConvs_layer h2 i xs hi
      have hi' := (List.getElem?_eq_some_iff.mp hi).1
      have hk' := (List.getElem?_eq_some_iff.mp hk).1
      rw [hdim] at q1
      exact ⟨by omega, by omega, by omega, start, o, h1, q2, q3 k rows hk⟩
    · rintro ⟨hi, hk, hd, start', o, e1, e2, e3⟩
      rw [h1] at e1
      cases ok_inj.mp e1
      have hi' : i < out.2.length := by omega
      obtain ⟨q1, o', q2, q3⟩ := runConvs_layer h2 i _ (List.getElem?_eq_getElem hi')
      rw [hdim] at q1
      have hk' : k < out.2[i].length := by omega
      have := q3 k _ (List.getElem?_eq_getElem hk')
      rw [q2] at e2
      cases ok_inj.mp e2
      rw [this] at e3
      rw [List.getElem?_eq_getElem hi', Option.bind_some, List.getElem?_eq_getElem hk']
      exact e3

/-- **C122** Without jumping knowledge the call number `n + 1` with the same batch returns what a network with the layers
repeated `n + 1` times would return for the batch as it was. -/
theorem C122_repeated_calls (level : Lv → MPParams R → Py (List R)) :
    (∀ (net : SparseNet R Lv), net.jump = none → net.convs ≠ [] → ∀ (n : Nat) (data : Complex R L) (r : Complex R L × List R),
      callAgain (net.call 𝕜 level) n data = .ok r → (net.deep (n + 1)).forward 𝕜 level data = .ok r.2) ∧
    (∀ (net : CINNet R Lv), net.jump = none → net.convs ≠ [] → ∀ (n : Nat) (data : Complex R L) (r : Complex R L × List R),
      callAgain (net.call 𝕜 level) n data = .ok r → (net.deep (n + 1)).forward 𝕜 level data = .ok r.2) := by
  refine ⟨fun net hj hne n data r h => ?_, fun net hj hne n data r h => ?_⟩
  · obtain ⟨pre, last, h1, h2, h3⟩ := callAgain_layers (readout := net.readoutPart 𝕜) (fun _ => rfl) n data r h
    unfold SparseNet.forward
    refine bind_eq_ok.mpr ⟨_, h1, ?_⟩
    rw [← h3]
    unfold SparseNet.readoutPart SparseNet.deep
    dsimp only
    rw [hj, finalRows_last (by rintro rfl; simp at h2; exact hne (List.length_eq_zero_iff.mp h2.symm))]
    rfl
  · obtain ⟨pre, last, h1, h2, h3⟩ := callAgain_layers (readout := net.readoutPart 𝕜) (fun _ => rfl) n data r h
    unfold CINNet.forward
    refine bind_eq_ok.mpr ⟨_, h1, ?_⟩
    rw [← h3]
    unfold CINNet.readoutPart CINNet.deep
    dsimp only
    rw [hj, finalRows_last (by rintro rfl; simp at h2; exact hne (List.length_eq_zero_iff.mp h2.symm))]

theorem deep_fits {net : SparseNet R Lv} (h : net.Fits) (n : Nat) : (net.deep (n + 1)).Fits := by
  obtain ⟨h1, h2, h3, h4, h5, h6⟩ := h
  refine ⟨?_, ?_, h3, h4, h5, h6⟩
  · intro h
    simp only [SparseNet.deep, List.replicate_succ, List.flatten_cons, List.append_eq_nil_iff] at h
    exact h1 h.1
  · intro c hc
    obtain ⟨l, hl, hc⟩ := List.mem_flatten.mp hc
    rw [(List.mem_replicate.mp hl).2] at hc
    exact h2 c hc

/-- **C122** On a batch of complexes with features every repeated call of SparseCIN succeeds, with one prediction per complex,
and still without mixing the complexes: each gets what the deeper network gives for it alone. -/
theorem C122_repeated_calls_on_batches (net : SparseNet R (SparseLevel 𝕜 R)) (hn : net.Fits) (hj : net.jump = none)
    (cs : List (Complex R L)) (hne : cs ≠ []) (hr : ∀ c ∈ cs, c.Ready) (h0 : ∀ c ∈ cs, 0 < c.cellsIn 0) (mB n : Nat) :
    ∃ B r, fromComplexList cs mB = .ok B ∧ callAgain (net.call 𝕜 SparseLevel.forward) n B = .ok r ∧
      r.2.length = cs.length ∧ ∀ (i : Nat) (comp : Complex R L), cs[i]? = some comp → ∃ p, r.2[i]? = some p ∧
        (fromComplexList [comp] mB >>= (net.deep (n + 1)).forward 𝕜 SparseLevel.forward) = .ok [p] := by
  have key : ∀ k, ∃ preds, (fromComplexList cs mB >>= (net.deep (k + 1)).forward 𝕜 SparseLevel.forward) = .ok preds ∧
      preds.length = cs.length ∧ ∀ (i : Nat) (comp : Complex R L), cs[i]? = some comp → ∃ p, preds[i]? = some p ∧
        (fromComplexList [comp] mB >>= (net.deep (k + 1)).forward 𝕜 SparseLevel.forward) = .ok [p] := fun k =>
    C16_sparse_cin_predictions_do_not_depend_on_the_batch (net.deep (k + 1)) (deep_fits hn k) cs hne hr h0 mB
  have hconvs : net.convs ≠ [] := hn.1
  obtain ⟨preds, h1, h2, h3⟩ := key n
  obtain ⟨B, hB, h4⟩ := bind_eq_ok.mp h1
  obtain ⟨r, hr'⟩ := callAgain_ok (call := net.call 𝕜 SparseLevel.forward) (readout := net.readoutPart 𝕜) (fun _ => rfl)
    (fun d pre last hl => by
      unfold SparseNet.readoutPart
      rw [hj, finalRows_last (by rintro rfl; simp at hl; exact hconvs (List.length_eq_zero_iff.mp hl.symm))]) n B
    (fun k _ => by
      obtain ⟨p, q1, -, -⟩ := key k
      rw [hB, ok_bind] at q1
      exact ⟨p, q1⟩)
  have h5 := (C122_repeated_calls (𝕜 := 𝕜) SparseLevel.forward).1 net hj hconvs n B r hr'
  rw [h5] at h4
  cases ok_inj.mp h4
  exact ⟨B, r, hB, hr', h2, h3⟩

/-! ### Examples -/

section Examples

open Fixtures

/-- The second call with the same batch gives another prediction than the first, for each of the networks. -/
example : ((fromComplexList [houseQ] 2 >>= callAgain (ppNetQ.call ℚ PPLevel.forward) 1).map Prod.snd) ≠
      (fromComplexList [houseQ] 2 >>= ppNetQ.forward ℚ PPLevel.forward) ∧
    ((fromComplexList [houseQ] 2 >>= callAgain (ppNetQ.call ℚ PPLevel.forward) 1).map Prod.snd) =
      (fromComplexList [houseQ] 2 >>= (ppNetQ.deep 2).forward ℚ PPLevel.forward) ∧
    ((fromComplexList [houseQ] 2 >>= callAgain (cinNetQ.call ℚ CINLevel.forward) 1).map Prod.snd) ≠
      (fromComplexList [houseQ] 2 >>= cinNetQ.forward ℚ CINLevel.forward) := by
  refine ⟨?_, ?_, ?_⟩ <;> decide +kernel

example (n : Nat) := C122_repeated_calls_on_batches (𝕜 := ℚ) { sparseNetQ with jump := none }
  ⟨by simp [sparseNetQ], by simp [sparseNetQ], rfl, .inr rfl, .inl rfl, by decide⟩ rfl [segQ, dotsQ, houseQ] (by simp)
  (by simpa using ⟨segQ_ready, dotsQ_ready, houseQ_ready⟩) (by decide) 2 n

/-- The network of the ring experiments applies its initial layer again; EdgeCIN0 and the embedding networks differ too. -/
example : ((fromComplexList [houseM] 2 >>= callAgain (ringNetQ.call SparseLevel.forward) 1).map Prod.snd) ≠
      (fromComplexList [houseM] 2 >>= ringNetQ.forward SparseLevel.forward) ∧
    ((fromComplexList [houseM] 2 >>= callAgain (ringNetQ.call SparseLevel.forward) 1).map Prod.snd).toOption.isSome ∧
    ((fromComplexList [houseQ] 2 >>= callAgain (edgeQ.call ℚ CINLevel.forward) 1).map Prod.snd) ≠
      (fromComplexList [houseQ] 2 >>= edgeQ.forward ℚ CINLevel.forward) ∧
    ((fromComplexList [houseQ] 2 >>= callAgain (embedPPQ.call ℚ PPLevel.forward) 1).map Prod.snd) ≠
      (fromComplexList [houseQ] 2 >>= embedPPQ.forward ℚ PPLevel.forward) := by
  refine ⟨?_, ?_, ?_, ?_⟩ <;> decide +kernel

/-- The intermediate results of the ring network on the house: three matrices for each of the two layers, and `out`. -/
example : ((fromComplexList [houseM] 2 >>= ringNetQ.forwardPartial SparseLevel.forward).map fun r => r.2.map Prod.fst) =
    .ok [.layer 0 0, .layer 0 1, .layer 0 2, .layer 1 0, .layer 1 1, .layer 1 2, .out] := by
  decide +kernel

end Examples

end Verif
