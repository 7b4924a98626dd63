import Verif.Lemmas.NoRings

/-!
# The GIN baseline on batches
-/

namespace Verif

variable {𝕜 R L : Type} [Field 𝕜] [AddCommMonoid R] [Module 𝕜 R]

theorem gine_layer (l : GINELevel 𝕜 R) {v : View R} (hv : v.InRange) :
    l.forward (v.X 0) ((v.up 0).map Prod.fst) ((v.up 0).map fun q => rowOf (v.X 1) q.2) =
      .ok ((v.layer (fun _ => l.rule) 0 true).X 0) := by
  have h := messageAndAggregate_cols (msg := .withAttr l.msg) (f := l.rule.up) (cols := v.up 0)
    (data := v.X 0) (att := v.X 1) (shared := true) (n := (v.X 0).length)
    (fun q hq => ⟨(hv.up 0 q hq).1, (hv.up 0 q hq).2.1⟩) (by
      intro x a ha
      cases a with
      | none => simp at ha
      | some a => rfl)
  simp only [if_true] at h
  unfold GINELevel.forward
  rw [h, ok_bind, addScaled_range, ok_bind]
  simp only [pure_eq_ok, ok_inj, View.layer, Nat.le_refl, if_true, List.map_map]
  apply List.map_congr_left
  intro c _
  rfl

theorem layer_edges (v : View R) (rules : Nat → Rule R) (top : Bool) :
    ((v.layer rules 0 top).up = v.up) ∧ (v.layer rules 0 top).X 1 = v.X 1 := by
  simp [View.layer]

theorem run_gine {convs : List (GINELevel 𝕜 R)} : ∀ {v : View R}, v.InRange → convs ≠ [] →
    runGINE ((v.up 0).map Prod.fst) ((v.up 0).map fun q => rowOf (v.X 1) q.2) (v.X 0) convs =
      .ok (v.final none (v.run 0 true (convs.map fun l _ => l.rule)) 0) := by
  induction convs with
  | nil => intro v _ h; exact absurd rfl h
  | cons l convs ih =>
    intro v hv _
    unfold runGINE
    rw [gine_layer l hv, ok_bind]
    set w := v.layer (fun _ => l.rule) 0 true with hw
    have hwr : w.InRange := layer_inRange hv _ _ _
    have hlen : (w.X 0).length = (v.X 0).length := layer_X_length _ _ _ _ _
    have hup : w.up = v.up := (layer_edges v _ true).1
    have hX1 : w.X 1 = v.X 1 := (layer_edges v _ true).2
    rw [List.map_cons, View.run, ← hw]
    by_cases hne : convs = []
    · subst hne
      simp only [runGINE, ok_inj, List.map_nil, View.run, View.final, finalRow, List.getLast?_singleton,
        Option.map_some, Option.getD_some]
      rw [← hlen]
      exact rows_range _
    · have := ih hwr hne
      rw [hup, hX1] at this
      rw [this, ok_inj]
      unfold View.final
      rw [hlen]
      apply List.map_congr_left
      intro c _
      have hr : w.run 0 true (convs.map fun l _ => l.rule) ≠ [] := run_ne (by simpa using hne) _ _
      cases hl : w.run 0 true (convs.map fun l _ => l.rule) with
      | nil => exact absurd hl hr
      | cons a t =>
        simp [finalRow, List.getLast?_cons]

theorem poolDim_vertices {cs : List (Complex R L)} {data : Complex R L}
    (hb : data.attr 0 Cochain.batch = some (cs.zipIdx.flatMap fun ci =>
      List.replicate (ci.1.cellsIn 0) ci.2)) (hne : cs ≠ []) (h0 : ∀ c ∈ cs, 0 < c.cellsIn 0)
    (pool : Pooling) (X : Complex R L → List R) (hX : ∀ c ∈ cs, (X c).length = c.cellsIn 0) :
    (batchSize data >>= fun n => poolDim 𝕜 pool data 0 n (cs.flatMap X, 0)) =
      .ok (cs.map fun c => pool.agg 𝕜 (X c)) := by
  obtain ⟨front, last, rfl⟩ := split_last hne
  have h := poolComplex_ok (𝕜 := 𝕜) (front := front) (last := last) (rest := []) (k := 1) (m := 0)
    (data := data) (by
      intro d hd
      have : d = 0 := by omega
      subst this
      exact hb) (h0 last (by simp)) (by simp) (by omega) (by omega) pool
    (fun c d => if d = 0 then X c else []) (by
      intro c hc d hd
      have : d = 0 := by omega
      subst this
      simpa using hX c hc) (by
      intro c _ d hd
      rw [if_neg (by omega)])
  have e : (List.range 1).map (fun d => (front ++ [last]).flatMap
      fun c => if d = 0 then X c else []) = [(front ++ [last]).flatMap X] := by simp [List.range_succ]
  rw [e] at h
  unfold poolComplex at h
  obtain ⟨n, hn, h⟩ := bind_eq_ok.mp h
  rw [hn, ok_bind]
  rw [if_neg (by simp)] at h
  obtain ⟨ps, hps, h⟩ := bind_eq_ok.mp h
  rw [show ([(front ++ [last]).flatMap X].zipIdx) = [((front ++ [last]).flatMap X, 0)] from rfl] at hps
  rw [mapE_eq_ok_iff] at hps
  cases hps with
  | cons h1 h2 =>
    cases h2
    rw [h1]
    simp only [pure_eq_ok, ok_inj] at h
    have h := congrArg List.head? h
    simpa [List.range_succ] using h

/-- The GIN baseline on a batch of complexes cut off above their edges. -/
theorem EmbedGIN.forward_flat {net : EmbedGIN 𝕜 R} (hn : net.convs ≠ [])
    (hread : net.readout = "sum" ∨ net.readout = "mean")
    (hred : ∀ a b : List R, a.Perm b → net.init.reduce a = net.init.reduce b)
    {cs : List (Complex R L)} (hne : cs ≠ []) (h : ∀ c ∈ cs, net.init.Embeds c)
    (hu : UniformFeatures cs) :
    (fromComplexList cs 1 >>= net.forward) = .ok (cs.map net.predict) := by
  obtain ⟨B, B', hB, hB', hRef, hreads, hrows⟩ := embed_batch hred hne h hu 1
    (fun c _ => (Nat.min_le_right _ _).trans (by omega))
  have hrd : ∀ c ∈ cs.map net.init.embed, c.Ready := by
    intro c hc
    obtain ⟨e, he, rfl⟩ := List.mem_map.mp hc
    exact EmbedInit.embed_ready (h e he)
  have hcell : ∀ c ∈ cs, ∀ d, (net.init.embed c).cellsIn d = c.cellsIn d :=
    fun c hc d => (EmbedInit.embed_refeatured (h c hc)).cellsIn d
  have runs := batch_runs hB' hrd
  obtain ⟨ps, hps, hfw⟩ := hreads.forward (batch_dim_le hB).1
  have hnodes : checkNodes B = .ok () := by
    unfold checkNodes
    obtain ⟨c, hc⟩ := hreads.get (Nat.zero_le _)
    have := hreads.nodes
    rw [attr_of hc] at this
    obtain ⟨x, hx⟩ := Option.isSome_iff_exists.mp this
    rw [hc]
    simp only [hx]
  have hset : B.setXs (((List.range (B.dimension + 1)).map (net.init.rows B)).map some) = .ok B' := by
    rw [List.map_map]
    have := hRef.setXs runs.len (by
      intro a ha
      obtain ⟨d, hd⟩ := List.mem_iff_getElem?.mp ha
      exact runs.feat d a hd)
    rw [hrows] at this
    exact this
  rw [hB, ok_bind]
  unfold EmbedGIN.forward
  rw [hnodes, ok_bind, hps, ok_bind, hfw, ok_bind, hset, ok_bind]
  obtain ⟨p, hp, hpo⟩ := runs.params (d := 0) (Nat.zero_le _) 0 true false
  have hin := runs.range
  have hedges : ginEdges p = .ok ((B'.view.up 0).map Prod.fst,
      (B'.view.up 0).map fun q => rowOf (B'.view.X 1) q.2) := by
    unfold ginEdges
    cases hui : p.upIndex with
    | none => rw [hpo.upNone hui]; rfl
    | some cols =>
      obtain ⟨rfl, ha⟩ := hpo.up cols hui
      rw [ha]
      rfl
  rw [hp, ok_bind, hedges, ok_bind]
  dsimp only
  rw [hpo.x, Option.getD_some, run_gine hin hn, ok_bind]
  obtain ⟨pool, hpool, hagg⟩ := getPoolingFn_ok (𝕜 := 𝕜) (R := R) hread
  rw [batch_final hB' hrd _ _ _ _ (Nat.zero_le _)]
  have hpd := poolDim_vertices (𝕜 := 𝕜) (batch_vec hB' hrd (Nat.zero_le _)) (by simpa using hne) (by
    intro c hc
    obtain ⟨e, he, rfl⟩ := List.mem_map.mp hc
    rw [hcell e he]
    exact (h e he).cells 0 (Nat.zero_le _)) pool
    (fun c => (c.view.upTo 1).final none ((c.view.upTo 1).run 0 true
      (net.convs.map fun l _ => l.rule)) 0) (by
      intro c hc
      rw [final_length, upTo_X_length (hrd c hc) (by omega)])
  obtain ⟨n, hn', hpd⟩ := bind_eq_ok.mp hpd
  rw [hn', ok_bind, hpool, ok_bind, hpd, ok_bind]
  simp only [pure_eq_ok, ok_inj, List.map_map]
  apply List.map_congr_left
  intro c hc
  simp only [Function.comp, hagg, EmbedGIN.predict]

/-- The GIN baseline on batches cut off above the 2-cells. -/
theorem EmbedGIN.forward_cut {net : EmbedGIN 𝕜 R} (hn : net.convs ≠ [])
    (hread : net.readout = "sum" ∨ net.readout = "mean")
    (hred : ∀ a b : List R, a.Perm b → net.init.reduce a = net.init.reduce b)
    {cs : List (Complex R L)} (hne : cs ≠ []) (h : ∀ c ∈ cs, net.init.Embeds c)
    (hu : UniformFeatures cs) {mB : Nat} (hs2 : ∀ c ∈ cs, min c.dimension mB ≤ 2) (hm : 1 ≤ mB) :
    (fromComplexList cs mB >>= net.forward) = .ok (cs.map net.predict) := by
  obtain ⟨B, B', hB, -, -, hreads, -⟩ := embed_batch hred hne h hu mB hs2
  have h1 := EmbedGIN.forward_flat hn hread hred hne h hu
  obtain ⟨B1, hB1, h1⟩ := bind_eq_ok.mp h1
  rw [hB, ok_bind]
  have hsame : List.Forall₂ SameGraph cs cs := List.forall₂_same.mpr fun c _ => ⟨rfl, rfl, rfl⟩
  exact (sameBelow_batch hsame le_rfl hm hB1 hB).forwardGIN hreads.upperOk net h1

/-- The GIN baseline on batches. -/
theorem EmbedGIN.forward_all {net : EmbedGIN 𝕜 R} (hn : net.convs ≠ [])
    (hread : net.readout = "sum" ∨ net.readout = "mean")
    (hred : ∀ a b : List R, a.Perm b → net.init.reduce a = net.init.reduce b)
    {cs : List (Complex R L)} (hne : cs ≠ []) (h : ∀ c ∈ cs, net.init.Takes c)
    (hu : UniformFeatures cs) {mB : Nat} (hm : 1 ≤ mB) :
    (fromComplexList cs mB >>= net.forward) = .ok (cs.map net.predict) :=
  EmbedGIN.forward_cut hn hread hred hne (fun c hc => (h c hc).embeds) hu
    (fun c hc => (Nat.min_le_left _ _).trans (h c hc).small) hm

theorem EmbedGIN.predict_relabel {net : EmbedGIN 𝕜 R}
    (hred : ∀ a b : List R, a.Perm b → net.init.reduce a = net.init.reduce b)
    {c c' : Complex R L} {φ : Nat → Nat → Nat} (h : RelabelsCells c c' φ) (hc : net.init.Takes c)
    (hc' : net.init.Takes c') : net.predict c' = net.predict c := by
  unfold EmbedGIN.predict
  dsimp only
  rw [poolOf_perm net.readout (((h.embed hred hc hc').upTo 1).final
    (upTo_inRange (ready_inRange (EmbedInit.embed_ready hc.embeds)) 1) _ _ _ _ 0)]

end Verif
