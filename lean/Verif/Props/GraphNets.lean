import Verif.Lemmas.Power
import Verif.Props.Colour

/-!
# C67: the graph baselines; C68: SparseCIN on ring complexes is more powerful than they are
-/

namespace Verif

variable {𝕜 R L : Type} [Field 𝕜]

section
variable [AddCommMonoid R] [Module 𝕜 R]

/-! ### C67 -/

/-- **C67** GIN0, GIN, GIN0WithJK and GINWithJK do not mix the graphs of a batch: the predictions are those
of the graphs one by one, and each of them is what the layers compute node by node. -/
theorem C67_predictions_do_not_depend_on_the_batch (net : GINNet 𝕜 R)
    (hread : net.readout = "sum" ∨ net.readout = "mean") (gs : List (GData R)) (hne : gs ≠ [])
    (h : ∀ g ∈ gs, g.Ok) :
    net.forward (gBatch gs) = .ok (gs.map net.predict) ∧
      ∀ g ∈ gs, net.forward (gBatch [g]) = .ok [net.predict g] :=
  ⟨net.forward_ok hread hne h, fun g hg => net.forward_ok hread (by simp) (by simpa using h g hg)⟩

/-- **C67** They are at most as powerful as the Weisfeiler-Lehman test: graphs that the test does not tell
apart in as many rounds as the network has layers get the same predictions, whatever the parameters. -/
theorem C67_same_colours_same_prediction (net : GINNet 𝕜 R)
    (hread : net.readout = "sum" ∨ net.readout = "mean") (n : Nat) (hn : net.convs.length + 1 ≤ n)
    (gs hs : List (GData R)) (hne : gs ≠ []) (hg : ∀ g ∈ gs, g.Ok) (hh : ∀ h ∈ hs, h.Ok)
    (hsame : List.Forall₂ (fun g h => SameNodes g h n) gs hs) :
    ∃ preds, net.forward (gBatch gs) = .ok preds ∧ net.forward (gBatch hs) = .ok preds := by
  refine ⟨_, net.forward_ok hread hne hg, ?_⟩
  rw [net.forward_ok hread ?_ hh]
  · congr 1
    clear hne hg hh
    induction hsame with
    | nil => rfl
    | cons h _ ih => rw [List.map_cons, List.map_cons, ih, h.predict hn]
  · rintro rfl
    cases hsame
    exact hne rfl

/-- **C67** In particular isomorphic graphs get the same predictions. -/
theorem C67_isomorphic_graphs_same_prediction (net : GINNet 𝕜 R)
    (hread : net.readout = "sum" ∨ net.readout = "mean") (gs hs : List (GData R)) (hne : gs ≠ [])
    (hg : ∀ g ∈ gs, g.Ok) (hh : ∀ h ∈ hs, h.Ok)
    (hiso : List.Forall₂ (fun g h => ∃ φ, GData.Iso g h φ) gs hs) :
    ∃ preds, net.forward (gBatch gs) = .ok preds ∧ net.forward (gBatch hs) = .ok preds := by
  refine C67_same_colours_same_prediction net hread _ (Nat.le_refl _) gs hs hne hg hh ?_
  rw [List.forall₂_iff_get] at hiso ⊢
  refine ⟨hiso.1, fun i h1 h2 => ?_⟩
  obtain ⟨φ, hφ⟩ := hiso.2 i h1 h2
  exact hφ.colours (hg _ (List.get_mem _ _)) _

end

/-! ### C68 -/

section
variable [AddCommGroup R] [Module 𝕜 R]

/-- A layer that only listens to upper neighbours. -/
def simLevel (l : GINLevel 𝕜 R) : SparseLevel 𝕜 R where
  msgUp := .plain id
  msgBoundary := id
  updateUp := l.nn
  updateBoundary := id
  combine u _ := u
  eps1 := l.eps
  eps2 := 0

/-- The SparseCIN network that does what a GIN does. -/
def simNet (net : GINNet 𝕜 R) : SparseNet R (SparseLevel 𝕜 R) where
  convs := (net.conv1 :: net.convs).map fun l => List.replicate 3 (simLevel l)
  jump := net.jump
  readout := net.readout
  readoutDims := some [0]
  act := net.act
  lin1s := List.replicate 3 net.lin1
  lin2 := net.lin2

theorem sim_run {edges : List (Nat × Nat)} {n : Nat} (he : ∀ e ∈ edges, e.1 < n ∧ e.2 < n) :
    ∀ {ls : List (GINLevel 𝕜 R)} {v : View R} {row : Nat → R}, v.X 0 = (List.range n).map row →
      ((v.up 0).map Prod.fst).Perm edges →
      ((v.run 2 true ((ls.map fun l => List.replicate 3 (simLevel l)).map (rulesOf SparseLevel.rule))).map
        fun w => w.X 0) = (ginRows edges row ls).map fun r => (List.range n).map r := by
  intro ls
  induction ls with
  | nil => intros; rfl
  | cons l ls ih =>
    intro v row hx hp
    have hnew : (v.layer (rulesOf SparseLevel.rule (List.replicate 3 (simLevel l))) 2 true).X 0 =
        (List.range n).map fun c =>
          l.nn (((edges.filter fun p => p.2 == c).map fun p => row p.1).sum + (1 + l.eps) • row c) := by
      simp only [View.layer, Nat.zero_le, if_true]
      rw [hx, List.length_map, List.length_range]
      apply List.map_congr_left
      intro c hc
      have hc := List.mem_range.mp hc
      show l.nn ((((v.up 0).filter fun p => p.1.2 == c).map fun p => rowOf (v.X 0) p.1.1).sum +
        (1 + l.eps) • rowOf (v.X 0) c) = _
      rw [hx, rowOf_range _ hc]
      congr 2
      have h1 : (((v.up 0).filter fun p => p.1.2 == c).map fun p => rowOf ((List.range n).map row) p.1.1) =
          (((v.up 0).map Prod.fst).filter fun p => p.2 == c).map
            fun p => rowOf ((List.range n).map row) p.1 := by
        rw [List.filter_map, List.map_map]
        rfl
      rw [h1, ((hp.filter _).map _).sum_eq]
      congr 1
      apply List.map_congr_left
      intro p hp
      exact rowOf_range _ (he p (List.mem_of_mem_filter hp)).1
    simp only [List.map_cons, View.run, ginRows]
    rw [hnew, ih hnew hp]

theorem simNet_predict {net : GINNet 𝕜 R} {g : GData R} (hg : g.Ok) {v : View R} (hx : v.X 0 = g.x)
    (hp : ((v.up 0).map Prod.fst).Perm g.edges) :
    (simNet net).predict 𝕜 SparseLevel.rule v = net.predict g := by
  have hx' : v.X 0 = (List.range g.x.length).map (rowOf g.x) := by
    rw [hx]
    apply List.ext_getElem (by simp)
    intro i h1 h2
    simp [rowOf, List.getElem?_eq_getElem h1]
  have hrun := sim_run hg.edges (ls := net.conv1 :: net.convs) hx' hp
  unfold SparseNet.predict GINNet.predict
  have hd : (simNet net).dims = [0] := rfl
  rw [hd]
  simp only [List.map_cons, List.map_nil]
  have hfin : v.final net.jump (v.run 2 true ((simNet net).convs.map (rulesOf SparseLevel.rule))) 0 =
      (List.range g.x.length).map (ginLast net.jump (ginRows g.edges (rowOf g.x) (net.conv1 :: net.convs))) := by
    unfold View.final
    rw [hx]
    apply List.map_congr_left
    intro c hc
    have hc := List.mem_range.mp hc
    have hrows : ((v.run 2 true ((simNet net).convs.map (rulesOf SparseLevel.rule))).map
        fun w => rowOf (w.X 0) c) = (ginRows g.edges (rowOf g.x) (net.conv1 :: net.convs)).map fun r => r c := by
      have h0 : ∀ ws : List (View R), (ws.map fun w => rowOf (w.X 0) c) =
          (ws.map fun w => w.X 0).map fun rows => rowOf rows c := fun ws => by rw [List.map_map]; rfl
      rw [h0]
      refine (congrArg _ hrun).trans ?_
      rw [List.map_map]
      apply List.map_congr_left
      intro r _
      exact rowOf_range _ hc
    unfold finalRow ginLast
    cases net.jump with
    | none =>
      have := congrArg List.getLast? hrows
      rw [List.getLast?_map, List.getLast?_map] at this
      simp only [this]
    | some f => simp only [hrows]
  show net.lin2 (poolOf 𝕜 "sum" [net.act (net.lin1 (poolOf 𝕜 net.readout (v.final net.jump
    (v.run 2 true ((simNet net).convs.map (rulesOf SparseLevel.rule))) 0)))]) = _
  rw [hfin]
  simp only [poolOf, List.sum_cons, List.sum_nil, add_zero]
  rfl

theorem simNet_fits (net : GINNet 𝕜 R) (hread : net.readout = "sum" ∨ net.readout = "mean") :
    (simNet net).Fits := by
  refine ⟨by simp [simNet], ?_, rfl, hread, .inl rfl, ?_⟩
  · intro conv hc
    obtain ⟨l, -, rfl⟩ := List.mem_map.mp hc
    rfl
  · show [0] ≠ []
    simp

variable [DecidableEq R]

theorem lift_all {g : Gudhi} (hg : g.Ok) {lib : RingLib} (hl : lib.Ok) (agg : List R → R) (maxK : Nat)
    (down initEdges initRings : Bool) {Gs : List (RGraph R L)} (hG : ∀ G ∈ Gs, G.Ok ∧ Simple G.edges) :
    ∃ cs, mapE (RGraph.lift g lib agg maxK down initEdges initRings) Gs = .ok cs ∧
      List.Forall₂ (fun G c => RingFacts c initEdges initRings ∧ Keeps c G (getRings lib G.edges maxK)) Gs cs := by
  induction Gs with
  | nil => exact ⟨[], rfl, .nil⟩
  | cons G Gs ih =>
    obtain ⟨cs, e, h⟩ := ih fun G hG' => hG G (by simp [hG'])
    obtain ⟨c, ec, hf, hk⟩ := lift_keeps (agg := agg) (maxK := maxK) (down := down) (initEdges := initEdges)
      (initRings := initRings) hg hl (hG G (by simp)).1 (hG G (by simp)).2
    exact ⟨c :: cs, by simp only [mapE_cons, ec, e, ok_bind], .cons ⟨hf, hk⟩ h⟩

/-- **C68** Whatever a GIN computes, some SparseCIN with as many layers computes it on the ring complexes of
the graphs: for every GIN there is one network that gives every batch of ring-lifted graphs the
predictions that the GIN gives the graphs, for any size of rings. -/
theorem C68_cin_simulates_gin (net : GINNet 𝕜 R) (hread : net.readout = "sum" ∨ net.readout = "mean") :
    ∃ cin : SparseNet R (SparseLevel 𝕜 R), cin.Fits ∧ cin.convs.length = net.convs.length + 1 ∧
      ∀ (g : Gudhi) (_ : g.Ok) (lib : RingLib) (_ : lib.Ok) (agg : List R → R) (maxK : Nat) (down : Bool)
        (Gs : List (RGraph R L)) (_ : Gs ≠ []) (_ : ∀ G ∈ Gs, G.Ok ∧ Simple G.edges) (mB : Nat) (_ : 1 ≤ mB),
        ∃ cs preds, mapE (RGraph.lift g lib agg maxK down true true) Gs = .ok cs ∧
          (fromComplexList cs mB >>= cin.forward 𝕜 SparseLevel.forward) = .ok preds ∧
          net.forward (gBatch (Gs.map RGraph.data)) = .ok preds := by
  refine ⟨simNet net, simNet_fits net hread, by simp [simNet], ?_⟩
  intro g hg lib hl agg maxK down Gs hne hG mB hmB
  obtain ⟨cs, ecs, hall⟩ := lift_all hg hl agg maxK down true true hG
  have hready : ∀ c ∈ cs, RingFacts c true true := by
    intro c hc
    obtain ⟨i, hi, rfl⟩ := List.mem_iff_getElem.mp hc
    exact ((List.forall₂_iff_get.mp hall).2 i (by rw [hall.length_eq]; exact hi) hi).1
  have hok : ∀ G ∈ Gs, G.data.Ok := by
    intro G hGm
    have h := (hG G hGm).1
    refine ⟨fun e he => ?_, ?_⟩
    · show e.1 < G.x.length ∧ e.2 < G.x.length
      rw [h.rows]
      exact h.edges e he
    · apply List.ne_nil_of_length_pos
      show 0 < G.x.length
      rw [h.rows]
      exact h.pos
  refine ⟨cs, _, ecs, SparseNet.forward_all (realises_sparse false) (simNet_fits net hread) ?_
    (fun c hc => (hready c hc).ready) (fun c hc => (hready c hc).cells 0 (Nat.zero_le _)) mB, ?_⟩
  · rintro rfl
    cases hall
    exact hne rfl
  · rw [net.forward_ok hread (by simpa using hne) (by simpa using hok)]
    congr 1
    clear hready ecs hne hG
    induction hall with
    | nil => rfl
    | @cons G c Gs cs h _ ih =>
      simp only [List.map_cons]
      rw [← ih fun G' hG' => hok G' (by simp [hG'])]
      congr 1
      rw [simNet_predict (g := G.data) (hok G (by simp))]
      · show (if 0 ≤ mB then c.view.X 0 else []) = _
        rw [if_pos (Nat.zero_le _), h.2.nodes]
        rfl
      · show ((if 0 + 1 ≤ mB then c.view.up 0 else []).map Prod.fst).Perm _
        rw [if_pos (by omega)]
        exact h.2.edges

end

/-- A layer that tells whether a cell has `k` boundary cells. -/
def countLevel (k : Nat) : SparseLevel ℚ ℚ where
  msgUp := .plain id
  msgBoundary _ := 1
  updateUp := id
  updateBoundary b := if b = k then 1 else 0
  combine _ b := b
  eps1 := 0
  eps2 := -1

/-- A network that counts rings of length `k`. -/
def countNet (k : Nat) : SparseNet ℚ (SparseLevel ℚ ℚ) where
  convs := [List.replicate 3 (countLevel k)]
  readoutDims := some [2]
  act := id
  lin1s := List.replicate 3 id
  lin2 := id

theorem countNet_fits (k : Nat) : (countNet k).Fits := by
  refine ⟨by simp [countNet], ?_, rfl, .inl rfl, .inl rfl, ?_⟩
  · intro conv hc
    rw [List.mem_singleton.mp hc]
    rfl
  · show [2] ≠ []
    simp

theorem countNet_predict {k : Nat} {v : View ℚ} {rings : List (List Nat)} (hx : (v.X 2).length = rings.length)
    (hs : ∀ (c : Nat) (r : List Nat), rings[c]? = some r → ((v.bnd 2).filter fun p => p.2 == c).length = r.length) :
    (countNet k).predict ℚ SparseLevel.rule v = ((rings.filter fun r => r.length == k).length : ℚ) := by
  have hrow : ∀ c r, rings[c]? = some r →
      finalRow none (v.run 2 true ((countNet k).convs.map (rulesOf SparseLevel.rule))) 2 c =
        if r.length = k then 1 else 0 := by
    intro c r hc
    have hlt : c < (v.X 2).length := by rw [hx]; exact lt_of_get hc
    show rowOf ((List.range (v.X 2).length).map (v.newRow (countLevel k).rule (decide (2 < 2) || true) 2)) c = _
    rw [rowOf_range _ hlt]
    show (if v.bndSum (countLevel k).rule 2 c + (1 + -1 : ℚ) • rowOf (v.X 2) c = k then (1 : ℚ) else 0) = _
    have hb : v.bndSum (countLevel k).rule 2 c = (r.length : ℚ) := by
      show (((v.bnd 2).filter fun p => p.2 == c).map fun _ => (1 : ℚ)).sum = _
      rw [List.map_const', List.sum_replicate, hs c r hc]
      simp
    rw [hb]
    simp
  show poolOf ℚ "sum" [poolOf ℚ "sum" (v.final none
    (v.run 2 true ((countNet k).convs.map (rulesOf SparseLevel.rule))) 2)] = _
  have hfin : v.final none (v.run 2 true ((countNet k).convs.map (rulesOf SparseLevel.rule))) 2 =
      rings.map fun r => if r.length = k then (1 : ℚ) else 0 := by
    unfold View.final
    apply List.ext_getElem (by simp [hx])
    intro i h1 h2
    simp only [List.length_map] at h2
    simp only [List.getElem_map, List.getElem_range]
    exact hrow i _ (List.getElem?_eq_getElem h2)
  rw [hfin]
  simp only [poolOf, List.sum_cons, List.sum_nil, add_zero]
  rw [if_neg (by decide), if_neg (by decide)]
  clear hfin hrow hs hx
  induction rings with
  | nil => rfl
  | cons r rings ih =>
    rw [List.map_cons, List.sum_cons, ih, List.filter_cons]
    by_cases h : r.length = k
    · simp [h, add_comm]
    · simp [h]

theorem ringCount_unique {edges : List (Nat × Nat)} {k n m : Nat} (h : RingCount edges k n)
    (h' : RingCount edges k m) : n = m := by
  have hle : ∀ {n m}, RingCount edges k n → RingCount edges k m → n ≤ m := by
    rintro n m ⟨l, rfl, hpw, hl, -⟩ ⟨l', rfl, -, -, hall⟩
    have h1 : (l.map Multiset.ofList).Nodup := by
      rw [List.Nodup, List.pairwise_map]
      exact hpw.imp fun hab e => hab (Multiset.coe_eq_coe.mp e)
    have h2 : (l.map Multiset.ofList) ⊆ l'.map Multiset.ofList := by
      intro s hs
      obtain ⟨r, hr, rfl⟩ := List.mem_map.mp hs
      obtain ⟨r', hr', hp⟩ := hall r (hl r hr).1 (hl r hr).2
      exact List.mem_map.mpr ⟨r', hr', Multiset.coe_eq_coe.mpr hp⟩
    simpa using (List.subperm_of_subset h1 h2).length_le
  exact Nat.le_antisymm (hle h h') (hle h' h)

theorem ringCount_rings {lib : RingLib} (hl : lib.Ok) (edges : List (Nat × Nat)) {maxK k : Nat} (h3 : 3 ≤ k)
    (hk : k ≤ maxK) :
    RingCount edges k ((getRings lib edges maxK).filter fun r => r.length == k).length := by
  obtain ⟨h1, h2, hpw⟩ := getRings_spec lib hl.order edges maxK
  refine ⟨_, rfl, hpw.filter _, ?_, ?_⟩
  · intro r hr
    rw [List.mem_filter, beq_iff_eq] at hr
    obtain ⟨j, hj, hrj⟩ := List.mem_flatMap.mp (h1 r hr.1)
    rw [List.mem_range'_1] at hj
    exact ⟨hr.2, ((hl.isos edges j r hj.1).mp hrj).2⟩
  · intro r hr hring
    obtain ⟨r', hr', hp⟩ := h2 r (List.mem_flatMap.mpr ⟨k, List.mem_range'_1.mpr (by omega),
      (hl.isos edges k r h3).mpr ⟨hr, hring⟩⟩)
    exact ⟨r', List.mem_filter.mpr ⟨hr', by simp [hp.length_eq, hr]⟩, hp⟩

/-- **C68** SparseCIN counts rings: for every length `k` there is a network with one layer whose prediction
for a ring-lifted graph is the number of induced cycles of length `k`, if rings of that length are
attached. -/
theorem C68_cin_counts_rings (k : Nat) (h3 : 3 ≤ k) :
    ∃ cin : SparseNet ℚ (SparseLevel ℚ ℚ), cin.Fits ∧ cin.convs.length = 1 ∧
      ∀ (g : Gudhi) (_ : g.Ok) (lib : RingLib) (_ : lib.Ok) (agg : List ℚ → ℚ) (maxK : Nat) (_ : k ≤ maxK)
        (down : Bool) (Gs : List (RGraph ℚ L)) (_ : Gs ≠ []) (_ : ∀ G ∈ Gs, G.Ok ∧ Simple G.edges) (mB : Nat)
        (_ : 2 ≤ mB),
        ∃ cs preds, mapE (RGraph.lift g lib agg maxK down true true) Gs = .ok cs ∧
          (fromComplexList cs mB >>= cin.forward ℚ SparseLevel.forward) = .ok preds ∧
          List.Forall₂ (fun G p => ∃ n : Nat, RingCount G.edges k n ∧ p = (n : ℚ)) Gs preds := by
  refine ⟨countNet k, countNet_fits k, rfl, ?_⟩
  intro g hg lib hl agg maxK hk down Gs hne hG mB hmB
  obtain ⟨cs, ecs, hall⟩ := lift_all hg hl agg maxK down true true hG
  have hready : ∀ c ∈ cs, RingFacts c true true := by
    intro c hc
    obtain ⟨i, hi, rfl⟩ := List.mem_iff_getElem.mp hc
    exact ((List.forall₂_iff_get.mp hall).2 i (by rw [hall.length_eq]; exact hi) hi).1
  refine ⟨cs, _, ecs, SparseNet.forward_all (realises_sparse false) (countNet_fits k) ?_
    (fun c hc => (hready c hc).ready) (fun c hc => (hready c hc).cells 0 (Nat.zero_le _)) mB, ?_⟩
  · rintro rfl
    cases hall
    exact hne rfl
  · rw [List.forall₂_map_right_iff]
    refine hall.imp ?_
    rintro G c ⟨hf, hkeep⟩
    refine ⟨_, ringCount_rings hl G.edges h3 hk, ?_⟩
    apply countNet_predict
    · show (if 2 ≤ mB then c.view.X 2 else []).length = _
      rw [if_pos hmB, ready_X_length hf.ready, hkeep.count]
    · intro i r hi
      show ((if 2 ≤ mB then c.view.bnd 2 else []).filter _).length = _
      rw [if_pos hmB]
      exact hkeep.sides i r hi

/-! ### What GIN does not see -/

/-- Graphs with as many nodes, one feature, and as many neighbours for every node: the test never tells them
apart. -/
theorem regular_alike {g h : GData R} {x : R} {k : Nat} (hg : g.Ok) (hh : h.Ok) (hsize : g.x.length = h.x.length)
    (hgx : ∀ y ∈ g.x, y = x) (hhx : ∀ y ∈ h.x, y = x)
    (hgd : ∀ c < g.x.length, (g.edges.filter fun p => p.2 == c).length = k)
    (hhd : ∀ c < h.x.length, (h.edges.filter fun p => p.2 == c).length = k) (n : Nat) : SameNodes g h n := by
  have hall : ∀ {A B : Type} {rel : A → B → Prop} (l : List A) (m : List B), l.length = m.length →
      (∀ a ∈ l, ∀ b ∈ m, rel a b) → Matched rel l m := by
    intro A B rel l m hl hrel
    refine ⟨m, .refl _, ?_⟩
    rw [List.forall₂_iff_zip]
    exact ⟨hl, fun hab => hrel _ (List.of_mem_zip hab).1 _ (List.of_mem_zip hab).2⟩
  have key : ∀ n c e, c < g.x.length → e < h.x.length → SameNode g h n c e := by
    intro n
    induction n with
    | zero =>
      intro c e hc he
      refine ⟨x, ?_, ?_⟩
      · rw [List.getElem?_eq_getElem hc, hgx _ (List.getElem_mem hc)]
      · rw [List.getElem?_eq_getElem he, hhx _ (List.getElem_mem he)]
    | succ n ih =>
      intro c e hc he
      refine ⟨ih c e hc he, hall _ _ ((hgd c hc).trans (hhd e he).symm) fun p hp q hq => ?_⟩
      exact ih _ _ (hg.edges p (List.mem_of_mem_filter hp)).1 (hh.edges q (List.mem_of_mem_filter hq)).1
  exact hall _ _ (by simpa using hsize) fun c hc e he => key n c e (by simpa using hc) (by simpa using he)

namespace Fixtures

/-- Six nodes in a ring. -/
def hexG : RGraph ℚ Nat where
  size := 6
  x := List.replicate 6 1
  edges := [(0, 1), (1, 0), (1, 2), (2, 1), (2, 3), (3, 2), (3, 4), (4, 3), (4, 5), (5, 4), (5, 0), (0, 5)]
  attr := none
  y := none

/-- Two triangles. -/
def triG : RGraph ℚ Nat where
  size := 6
  x := List.replicate 6 1
  edges := [(0, 1), (1, 0), (1, 2), (2, 1), (2, 0), (0, 2), (3, 4), (4, 3), (4, 5), (5, 4), (5, 3), (3, 5)]
  attr := none
  y := none

theorem hexG_ok : hexG.Ok ∧ Simple hexG.edges := by
  refine ⟨⟨by decide, rfl, by unfold EdgesIn hexG; decide, by unfold NoLoops hexG; decide, ?_, ?_⟩, by decide, ?_⟩
  · intro a h; cases h
  · intro a h; cases h
  · have : ∀ e ∈ hexG.edges, (e.2, e.1) ∈ hexG.edges := by decide
    exact fun u v h => this _ h

theorem triG_ok : triG.Ok ∧ Simple triG.edges := by
  refine ⟨⟨by decide, rfl, by unfold EdgesIn triG; decide, by unfold NoLoops triG; decide, ?_, ?_⟩, by decide, ?_⟩
  · intro a h; cases h
  · intro a h; cases h
  · have : ∀ e ∈ triG.edges, (e.2, e.1) ∈ triG.edges := by decide
    exact fun u v h => this _ h

theorem hexG_alike (n : Nat) : SameNodes hexG.data triG.data n := by
  have h1 : ∀ e ∈ hexG.data.edges, e.1 < 6 ∧ e.2 < 6 := by decide
  have h2 : ∀ e ∈ triG.data.edges, e.1 < 6 ∧ e.2 < 6 := by decide
  have h3 : ∀ c < 6, (hexG.data.edges.filter fun p => p.2 == c).length = 2 := by decide
  have h4 : ∀ c < 6, (triG.data.edges.filter fun p => p.2 == c).length = 2 := by decide
  exact regular_alike ⟨h1, List.cons_ne_nil _ _⟩ ⟨h2, List.cons_ne_nil _ _⟩ rfl
    (fun y hy => List.eq_of_mem_replicate (n := 6) hy) (fun y hy => List.eq_of_mem_replicate (n := 6) hy) h3 h4 n

theorem hexG_no_triangle {n : Nat} (h : RingCount hexG.edges 3 n) : n = 0 := by
  obtain ⟨reps, rfl, -, hr, -⟩ := h
  rw [List.length_eq_zero_iff, List.eq_nil_iff_forall_not_mem]
  intro r hrm
  obtain ⟨hl, hring⟩ := hr r hrm
  obtain ⟨a, b, c, rfl⟩ := List.length_eq_three.mp hl
  have hab := (hring.joined 0 1 a b rfl rfl).mpr (.inl (.inl rfl))
  have hbc := (hring.joined 1 2 b c rfl rfl).mpr (.inl (.inl rfl))
  have hca := (hring.joined 2 0 c a rfl rfl).mpr (.inl (.inr ⟨rfl, rfl⟩))
  have hsym := hexG_ok.2.both
  have no : ∀ e ∈ hexG.edges, ∀ e' ∈ hexG.edges, e.2 = e'.1 → (e'.2, e.1) ∉ hexG.edges := by decide
  have e1 : (a, b) ∈ hexG.edges := hab.2.elim id (hsym _ _)
  have e2 : (b, c) ∈ hexG.edges := hbc.2.elim id (hsym _ _)
  have e3 : (c, a) ∈ hexG.edges := hca.2.elim id (hsym _ _)
  exact no _ e1 _ e2 rfl e3

theorem triG_triangle {n : Nat} (h : RingCount triG.edges 3 n) : n ≠ 0 := by
  obtain ⟨reps, rfl, -, -, hall⟩ := h
  have hring : IsRing triG.edges [0, 1, 2] := by
    refine ⟨Nat.le_refl _, by decide, ?_⟩
    intro i j u v hu hv
    have hi := lt_of_get hu
    have hj := lt_of_get hv
    have key : ∀ i < 3, ∀ j < 3, (Joined triG.edges (([0, 1, 2] : List Nat).getD i 0) (([0, 1, 2] : List Nat).getD j 0) ↔
      Follows 3 i j ∨ Follows 3 j i) := by decide
    have := key i hi j hj
    rw [List.getD_eq_getElem?_getD, List.getD_eq_getElem?_getD, hu, hv] at this
    exact this
  obtain ⟨r, hr, -⟩ := hall [0, 1, 2] rfl hring
  intro e
  rw [List.length_eq_zero_iff.mp e] at hr
  simp at hr

end Fixtures

open Fixtures in
/-- **C68** SparseCIN on ring complexes is strictly more powerful than GIN: there are two graphs to which every
GIN gives the same prediction, and a SparseCIN that gives their ring complexes different ones. -/
theorem C68_cin_sees_more_than_gin : ∃ G H : RGraph ℚ Nat,
    (G.Ok ∧ Simple G.edges) ∧ (H.Ok ∧ Simple H.edges) ∧
    (∀ (net : GINNet ℚ ℚ), net.readout = "sum" ∨ net.readout = "mean" →
      ∃ p, net.forward (gBatch [G.data]) = .ok [p] ∧ net.forward (gBatch [H.data]) = .ok [p]) ∧
    ∃ cin : SparseNet ℚ (SparseLevel ℚ ℚ), cin.Fits ∧
      ∀ (g : Gudhi) (_ : g.Ok) (lib : RingLib) (_ : lib.Ok) (agg : List ℚ → ℚ) (maxK : Nat) (_ : 3 ≤ maxK)
        (down : Bool) (mB : Nat) (_ : 2 ≤ mB), ∃ c d p q,
          G.lift g lib agg maxK down true true = .ok c ∧ H.lift g lib agg maxK down true true = .ok d ∧
          (fromComplexList [c] mB >>= cin.forward ℚ SparseLevel.forward) = .ok [p] ∧
          (fromComplexList [d] mB >>= cin.forward ℚ SparseLevel.forward) = .ok [q] ∧ p ≠ q := by
  have h1 : ∀ e ∈ hexG.data.edges, e.1 < 6 ∧ e.2 < 6 := by decide
  have h2 : ∀ e ∈ triG.data.edges, e.1 < 6 ∧ e.2 < 6 := by decide
  refine ⟨hexG, triG, hexG_ok, triG_ok, ?_, ?_⟩
  · intro net hread
    refine ⟨net.predict hexG.data, net.forward_ok hread (by simp) ?_, ?_⟩
    · intro g hg
      rw [List.mem_singleton.mp hg]
      exact ⟨h1, List.cons_ne_nil _ _⟩
    · rw [(hexG_alike _).predict (Nat.le_refl _)]
      refine net.forward_ok hread (by simp) ?_
      intro g hg
      rw [List.mem_singleton.mp hg]
      exact ⟨h2, List.cons_ne_nil _ _⟩
  · obtain ⟨cin, hfits, -, hc⟩ := C68_cin_counts_rings (L := Nat) 3 (Nat.le_refl _)
    refine ⟨cin, hfits, ?_⟩
    intro g hg lib hl agg maxK hk down mB hmB
    have one : ∀ G : RGraph ℚ Nat, G.Ok ∧ Simple G.edges → ∃ c p n, RGraph.lift g lib agg maxK down true true G = .ok c ∧
        (fromComplexList [c] mB >>= cin.forward ℚ SparseLevel.forward) = .ok [p] ∧ RingCount G.edges 3 n ∧
        p = (n : ℚ) := by
      intro G hG
      obtain ⟨cs, preds, e1, e2, e3⟩ := hc g hg lib hl agg maxK hk down [G] (by simp) (by simpa using hG) mB hmB
      cases e3 with
      | cons hp hrest =>
        cases hrest
        obtain ⟨n, hn, rfl⟩ := hp
        rw [mapE_eq_ok_iff] at e1
        cases e1 with
        | cons h hrest =>
          cases hrest
          exact ⟨_, _, n, h, e2, hn, rfl⟩
    obtain ⟨c, p, n, a1, a2, a3, rfl⟩ := one hexG hexG_ok
    obtain ⟨d, q, m, b1, b2, b3, rfl⟩ := one triG triG_ok
    refine ⟨c, d, _, _, a1, b1, a2, b2, ?_⟩
    rw [hexG_no_triangle a3]
    intro e
    exact triG_triangle b3 (by exact_mod_cast e.symm)

/-! ### Examples -/

section Examples
open Fixtures

/-- A GIN with two layers and jumping knowledge. -/
def jkQ : GINNet ℚ ℚ where
  conv1 := ⟨fun x => x + 1, 0⟩
  convs := [⟨fun x => 2 * x, 1 / 2⟩]
  jump := some List.sum
  readout := "mean"
  act := id
  lin1 := id
  lin2 := id

/-- A path of three nodes. -/
def pathD : GData ℚ := { x := [1, 2, 3], edges := [(0, 1), (1, 0), (1, 2), (2, 1)] }
/-- The same path with nodes `1` and `2` swapped and the edges in another order. -/
def pathD' : GData ℚ := { x := [1, 3, 2], edges := [(2, 1), (1, 2), (0, 2), (2, 0)] }

/-- C67 is not about the empty case: a batch of two graphs with different predictions. -/
example : jkQ.forward (gBatch [pathD, hexG.data]) = .ok [jkQ.predict pathD, jkQ.predict hexG.data] ∧
    jkQ.predict pathD ≠ jkQ.predict hexG.data := by decide +kernel

example : pathD.Ok ∧ pathD'.Ok ∧ pathD.Iso pathD' (fun c => [0, 2, 1].getD c 0) := by
  refine ⟨⟨by decide, by decide⟩, ⟨by decide, by decide⟩, rfl, ?_, ?_, by decide⟩
  · have : ∀ c < 3, ∀ e < 3, ([0, 2, 1] : List Nat).getD c 0 = ([0, 2, 1] : List Nat).getD e 0 → c = e := by decide
    exact fun c e hc he => this c hc e he
  have : ∀ c < 3, pathD'.x[([0, 2, 1] : List Nat).getD c 0]? = pathD.x[c]? := by decide +kernel
  exact this

/-- The hypotheses of C68 are met. -/
example : plainGudhi.Ok ∧ plainRings.Ok ∧ (∀ G ∈ [hexG, triG], G.Ok ∧ Simple G.edges) ∧ RingCount triG.edges 3 2 := by
  refine ⟨plainGudhi_ok, plainRings_ok, ?_, ?_⟩
  · intro G hG
    simp only [List.mem_cons, List.not_mem_nil, or_false] at hG
    rcases hG with rfl | rfl
    · exact hexG_ok
    · exact triG_ok
  · have := ringCount_rings plainRings_ok triG.edges (Nat.le_refl 3) (Nat.le_refl 3)
    have e : ((getRings plainRings triG.edges 3).filter fun r => r.length == 3).length = 2 := by decide +kernel
    rwa [e] at this

end Examples

end Verif
