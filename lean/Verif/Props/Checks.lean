import Verif.Lemmas.Checks
import Verif.Props.Molecules
import Verif.FixturesRing

/-! # The project's own checks (C102) -/

namespace Verif

variable {F L : Type}

/-- **C102** The ring check succeeds on the ring complex of every graph with an edge. -/
theorem C102_ring_check_succeeds [DecidableEq F] (nx : CycleLib) (hnx : nx.Ok) (g : Gudhi) (hg : g.Ok) (lib : RingLib)
    (hl : lib.Ok) (agg : List F → F) (x : List F) (edges : List (Nat × Nat)) (attr : Option (List F)) (size : Nat)
    (y : Option (List L)) (maxK : Nat) (down initEdges initRings : Bool) (he : EdgesIn edges size) (hn : NoLoops edges)
    (h0 : 0 < size) (hx : x.length = size) (hy : ∀ l, y = some l → l.length = 1 ∨ l.length = size)
    (ha : EdgeInput edges attr) (hne : edges ≠ []) :
    ∃ comp, ringComplex g lib agg (some x) edges attr size y maxK down initEdges initRings = .ok comp ∧
      ringTest nx comp maxK = .ok () := by
  obtain ⟨comp, E, up, eBi, h1, h2, -⟩ := seen_rings (agg := agg) (maxK := maxK) (down := down)
    (initEdges := initEdges) (initRings := initRings) hg hl he hn h0 hx hy ha hne
  exact ⟨comp, h1, ringTest_seen hnx hl h2⟩

/-- **C102** What the ring check establishes about any complex: every 2-cell has the vertices of an induced cycle of at most
the given length, and every such cycle has the vertices of exactly one 2-cell. -/
theorem C102_ring_check_is_sound (nx : CycleLib) (hnx : nx.Ok) (comp : Complex F L) (hv : comp.Valid)
    (up : List (Nat × Nat)) (hup : comp.attr 0 Cochain.upperIndex = some up) (hboth : ∀ e ∈ up, e.swap ∈ up)
    (maxRing : Nat) (h : ringTest nx comp maxRing = .ok ()) :
    (∀ c, c < comp.cellsIn 2 → ∃ r, IsRing up r ∧ r.length ≤ maxRing ∧ ∀ v, v ∈ r ↔ comp.OnRing c v) ∧
    ∀ r, IsRing up r → r.length ≤ maxRing → ∃ c, (c < comp.cellsIn 2 ∧ ∀ v, v ∈ r ↔ comp.OnRing c v) ∧
      ∀ c', c' < comp.cellsIn 2 ∧ (∀ v, v ∈ r ↔ comp.OnRing c' v) → c' = c := by
  obtain ⟨expected, hx, hxn, hxm⟩ := nxRings_ok hnx hboth maxRing
  obtain ⟨nodes, h0⟩ := cochain_exists hv.toCoherent (Nat.zero_le _)
  rw [attr_of_get h0] at hup
  rw [← hup] at hx
  cases h2 : comp.cochains[2]? with
  | none =>
    unfold ringTest at h
    rw [cochainAt_eq_ok.mpr h0, ok_bind, hx, ok_bind, h2] at h
    simp only [pyAssert_eq_ok, beq_iff_eq, List.length_eq_zero_iff] at h
    have hcount : comp.cellsIn 2 = 0 := by unfold Complex.cellsIn; rw [h2]; rfl
    refine ⟨fun c hc => by omega, fun r hr hle => ?_⟩
    have := (hxm (sortedNat r)).mpr ⟨r, hr, hle, rfl⟩
    rw [h] at this
    cases this
  | some two =>
    obtain ⟨one, h1⟩ := cochain_exists hv.toCoherent (d := 1) (by
      have := lt_of_get h2
      rw [hv.len] at this
      omega)
    obtain ⟨rings, e1, e2, e3, e4⟩ := (ringTest_two h0 h1 h2 hx).mp h
    rw [numCells_of_valid hv h2, ok_inj, Option.some.injEq] at e3
    obtain ⟨rBi, hr⟩ : ∃ l, two.boundaryIndex = some l := by
      cases ht : two.boundaryIndex with
      | none => rw [ht] at e1; simp [complexRings] at e1
      | some l => exact ⟨l, rfl⟩
    obtain ⟨eBi, hb⟩ : ∃ l, one.boundaryIndex = some l := by
      cases ht : one.boundaryIndex with
      | none => rw [ht, hr] at e1; simp [complexRings] at e1
      | some l => exact ⟨l, rfl⟩
    rw [hr, hb] at e1
    obtain ⟨n1, n2, -⟩ := complexRings_eq_ok e1
    have hon : ∀ c v, comp.OnRing c v ↔ v ∈ verticesVia rBi eBi c := by
      intro c v
      unfold Complex.OnRing
      rw [mem_verticesVia, attr_of_get h2, attr_of_get h1, hr, hb]
      rfl
    have hkeys : ∀ p ∈ getTable rBi, p.1 < comp.cellsIn 2 := by
      rintro ⟨c, l⟩ hp
      obtain ⟨q1, rfl⟩ := mem_getTable.mp hp
      obtain ⟨f, hf⟩ := List.exists_mem_of_ne_nil _ q1
      exact ((hv.valid 2 two h2).boundary _ (by rw [hr]; exact mem_boundariesOf.mp hf)).2
    have hlen := sameSet_length hxn n1 e4
    have hle1 : rings.length ≤ (getTable rBi).length := by
      rw [n2]
      unfold setOf
      exact (List.dedup_sublist _).length_le.trans (by simp)
    have hsub : (getTable rBi).map Prod.fst ⊆ List.range (comp.cellsIn 2) := by
      intro c hc
      obtain ⟨p, hp, rfl⟩ := List.mem_map.mp hc
      exact List.mem_range.mpr (hkeys p hp)
    have hsp := (nodup_getTable rBi).subperm hsub
    have hle2 := hsp.length_le
    rw [List.length_map, List.length_range] at hle2
    have hperm := hsp.perm_of_length_le (by rw [List.length_map, List.length_range]; omega)
    have hall : ∀ c, c < comp.cellsIn 2 → boundariesOf rBi c ≠ [] := by
      intro c hc
      have := hperm.mem_iff.mpr (List.mem_range.mpr hc)
      obtain ⟨⟨c', l⟩, hp, rfl⟩ := List.mem_map.mp this
      obtain ⟨q1, q2⟩ := mem_getTable.mp hp
      exact q2 ▸ q1
    have hnd : ((getTable rBi).map fun item => sortedNat (verticesVia rBi eBi item.1)).Nodup := by
      refine dedup_length_nodup ?_
      have : rings.length = _ := congrArg List.length n2
      unfold setOf at this
      rw [← this, List.length_map]
      omega
    have hinj : ∀ c c', c < comp.cellsIn 2 → c' < comp.cellsIn 2 →
        sortedNat (verticesVia rBi eBi c) = sortedNat (verticesVia rBi eBi c') → c = c' := by
      intro c c' hc hc' e
      have := List.inj_on_of_nodup_map hnd (mem_getTable.mpr ⟨hall c hc, rfl⟩) (mem_getTable.mpr ⟨hall c' hc', rfl⟩) e
      exact congrArg Prod.fst this
    have hmem := sameSet_iff.mp e4
    have hmem2 : ∀ s, s ∈ rings ↔ ∃ c, boundariesOf rBi c ≠ [] ∧ s = sortedNat (verticesVia rBi eBi c) := by
      intro s; rw [n2]; exact mem_complexRings
    refine ⟨fun c hc => ?_, fun r hrr hle => ?_⟩
    · obtain ⟨r, q1, q2, q3⟩ := (hxm _).mp ((hmem _).mpr ((hmem2 _).mpr ⟨c, hall c hc, rfl⟩))
      refine ⟨r, q1, q2, fun v => ?_⟩
      rw [hon]
      exact ((sorted_same (verticesVia_nodup _ _ _) q1.nodup).mp q3 v).symm
    · obtain ⟨c, q1, q2⟩ := (hmem2 _).mp ((hmem _).mp ((hxm _).mpr ⟨r, hrr, hle, rfl⟩))
      have hlt : c < comp.cellsIn 2 := hkeys _ (mem_getTable.mpr ⟨q1, rfl⟩)
      refine ⟨c, ⟨hlt, fun v => ?_⟩, ?_⟩
      · rw [hon]
        exact (sorted_same hrr.nodup (verticesVia_nodup _ _ _)).mp q2 v
      · rintro c' ⟨hc', hvs⟩
        refine hinj c' c hc' hlt ?_
        rw [← q2]
        refine ((sorted_same hrr.nodup (verticesVia_nodup _ _ _)).mpr fun v => ?_).symm
        rw [hvs, hon]

/-- **C102** The check of the converted molecules succeeds on every molecule with a bond. -/
theorem C102_split_check_succeeds [DecidableEq F] [DecidableEq L] (g : Gudhi) (hg : g.Ok) (lib : RingLib)
    (hl : lib.Ok) (agg : List F → F) (maxK : Nat) (down : Bool) (width : F → Nat) (w w' : Nat) (G : GraphData F L)
    (hG : Molecule width w w' G) (hne : G.edgeIndex ≠ []) :
    ∃ comp, G.ringLift g lib agg maxK down = .ok comp ∧ splitTest comp G = .ok () := by
  obtain ⟨x, hok, -⟩ := hG.nodes
  obtain ⟨a, hattr, -⟩ := hG.bonds
  obtain ⟨l, hlab⟩ := hG.label
  obtain ⟨comp, E, up, eBi, h1, h, hx, hy, hrows⟩ := seen_rings (agg := agg) (maxK := maxK) (down := down)
    (initEdges := true) (initRings := false) hg hl hok.edges hG.simple.noLoops hok.pos hok.rows hok.labels
    hG.simple.attr hne
  refine ⟨comp, by unfold GraphData.ringLift; rw [hok.features]; exact h1, ?_⟩
  obtain ⟨rows, r1, r2, r3⟩ := hrows rfl a hattr
  obtain ⟨nodes, h0⟩ := cochain_exists h.valid.toCoherent (Nat.zero_le _)
  obtain ⟨one, h1'⟩ := cochain_exists h.valid.toCoherent (d := 1) h.two
  have hup : nodes.upperIndex = some up := by rw [← attr_of_get h0 Cochain.upperIndex]; exact h.upper
  have hnx : nodes.x = some x := by rw [← attr_of_get h0 Cochain.x]; exact hx
  have hox : one.x = some rows := by rw [← attr_of_get h1' Cochain.x]; exact r1
  have hob : one.boundaryIndex = some eBi := by rw [← attr_of_get h1' Cochain.boundaryIndex]; exact h.ends
  have hnd := hG.simple.nodup
  have hboth := hG.simple.both
  have hn := hG.simple.noLoops
  have hhalf := h.half hnd hboth hn
  have hends := h.ends_perm hnd hboth hn
  have hperm : up.Perm G.edgeIndex := by
    rw [List.perm_ext_iff_of_nodup h.upNodup hnd]
    rintro ⟨u, v⟩
    rw [h.mem_up]
    constructor
    · intro hj
      rcases hj.2 with e | e
      · exact e
      · exact hboth _ e
    · exact fun hm => noLoops_joined hn hm
  have halen := (hG.simple.attr a hattr).1
  have a1 : assertEqual comp.y G.y = .ok () :=
    assertEqual_eq_ok.mpr ⟨by rw [hy, hlab]; rfl, by rw [hy, hlab]; rfl⟩
  have a2 : assertEqual (some x) (some x) = .ok () := assertEqual_eq_ok.mpr ⟨rfl, rfl⟩
  unfold splitTest
  rw [a1, ok_bind, cochainAt_eq_ok.mpr h0, ok_bind, hnx, hok.features, a2, ok_bind, cochainAt_eq_ok.mpr h1', ok_bind,
    hox]
  dsimp only
  rw [(pyAssert_eq_ok (u := ())).mpr (by rw [beq_iff_eq, r2]; omega), ok_bind, hup, hob, hattr]
  have hcheck : checkEdgeIndex (some up) G.edgeIndex = .ok () := by
    unfold checkEdgeIndex
    dsimp only
    rw [(pyAssert_eq_ok (u := ())).mpr (by rw [beq_iff_eq]; exact hperm.length_eq), ok_bind, pyAssert_eq_ok, sameSet_iff]
    intro s
    simp only [List.mem_map, hperm.mem_iff]
  rw [hcheck, ok_bind]
  unfold checkEdgeAttr
  dsimp only
  obtain ⟨e0, hm0⟩ := List.exists_mem_of_ne_nil _ hne
  have hmax : tensorMax (eBi.map Prod.fst) = tensorMax (G.edgeIndex.flatMap fun e => [e.1, e.2]) := by
    refine tensorMax_congr fun v => ?_
    rw [List.mem_map, List.mem_flatMap]
    constructor
    · rintro ⟨p, hp, rfl⟩
      obtain ⟨e, he, rfl⟩ := List.mem_map.mp (hends.mem_iff.mp hp)
      exact ⟨e, he, by simp⟩
    · rintro ⟨e, he, hv⟩
      rcases List.mem_pair.mp hv with rfl | rfl
      · exact ⟨_, hends.mem_iff.mpr (List.mem_map_of_mem he), rfl⟩
      · exact ⟨_, hends.mem_iff.mpr (List.mem_map_of_mem (hboth e he)), rfl⟩
  obtain ⟨m, hm⟩ := tensorMax_ok (l := G.edgeIndex.flatMap fun e => [e.1, e.2])
    (List.ne_nil_of_mem (List.mem_flatMap.mpr ⟨e0, hm0, by simp⟩ : e0.1 ∈ _))
  rw [hmax, hm, ok_bind, ok_bind, (pyAssert_eq_ok (u := ())).mpr (by rw [beq_iff_eq]), ok_bind,
    (pyAssert_eq_ok (u := ())).mpr (by rw [beq_iff_eq, hends.length_eq, List.length_map]), ok_bind]
  have hall : ∀ col ∈ G.edgeIndex.zipIdx, checkColumn (edgeToId eBi) rows a col = .ok () := by
    rintro ⟨e, i⟩ hcol
    have hi : G.edgeIndex[i]? = some e := by
      have := List.mk_mem_zipIdx_iff_getElem?.mp hcol
      simpa using this
    obtain ⟨c, hc⟩ := List.mem_iff_getElem?.mp (h.canon_mem hn (List.mem_of_getElem? hi))
    have hrow := r3 i e c hi hc
    have hlt : c < rows.length := by rw [r2]; exact lt_of_get hc
    have hrc := List.getElem?_eq_getElem hlt
    unfold checkColumn
    have hid := h.edgeToId hc
    unfold canon at hid
    dsimp only
    rw [hid, ok_bind, getAt_of_get? hrc, ok_bind, getAt_of_get? (hrow ▸ hrc), ok_bind]
    simp [pyAssert]
  obtain ⟨us, hus⟩ := mapE_unit_eq_ok.mpr hall
  rw [hus]
  rfl

/-- **C102** A molecule without bonds has no 1-cells, and the check fails with a `KeyError`. -/
theorem C102_split_check_without_bonds [DecidableEq F] [DecidableEq L] (g : Gudhi) (hg : g.Ok) (lib : RingLib)
    (hl : lib.Ok) (agg : List F → F) (maxK : Nat) (down : Bool) (width : F → Nat) (w w' : Nat) (G : GraphData F L)
    (hG : Molecule width w w' G) (hne : G.edgeIndex = []) :
    ∃ comp, G.ringLift g lib agg maxK down = .ok comp ∧ splitTest comp G = .error .key := by
  obtain ⟨x, hok, -⟩ := hG.nodes
  obtain ⟨l, hlab⟩ := hG.label
  obtain ⟨t, comp, h1, h2, h3, h4, h5, h6, ⟨-, hy, -⟩, hx0, -⟩ := ring_lifted (agg := agg) (maxK := maxK)
    (down := down) (initEdges := true) (initRings := false) hg hl hok.edges hG.simple.noLoops hok.pos hok.rows
    hok.labels hG.simple.attr
  refine ⟨comp, by unfold GraphData.ringLift; rw [hok.features]; exact h2, ?_⟩
  have hnone : ∀ u v, ¬ Joined G.edgeIndex u v := by
    rintro u v ⟨-, h | h⟩ <;> (rw [hne] at h; cases h)
  have hrings : getRings lib G.edgeIndex maxK = [] := List.eq_nil_iff_forall_not_mem.mpr fun r hr => by
    have hrr := (getRings_ring hl hr).1
    have hl3 := hrr.long
    exact hnone _ _ ((hrr.joined 0 1 r[0] r[1] (List.getElem?_eq_getElem _) (List.getElem?_eq_getElem _)).mpr
      (.inl (by unfold Follows; omega)))
  have hlow := dims_inserted_le hg hok.edges hok.pos
  have hd : ¬ (g.inserted (insertions G.edgeIndex G.numNodes)).dims = 2 := fun h => by
    obtain ⟨u, v, huv⟩ := (dims_inserted_two hg hok.edges hok.pos).mp h
    exact hnone u v huv
  have h1' := buildTablesWithRings_ok hg hl hok.edges hok.pos maxK rfl rfl
  have hc : t.cells.length = ringDims (g.inserted (insertions G.edgeIndex G.numNodes))
      (getRings lib G.edgeIndex maxK) := by
    rw [h1] at h1'
    rw [Except.ok.inj h1']
    simp
  have hsz := h3.size
  unfold ringDims at hc
  rw [if_pos hrings] at hc
  refine splitTest_flat h4.toCoherent (by omega) (by rw [hy, hlab]; rfl) (by rw [hlab]; rfl)
    (by rw [hx0, hok.features]) (by rw [hok.features]; rfl)

/-- **C102** What the check of the converted molecules establishes: the label, the node features, which nodes are joined, and
for every edge of the graph a 1-cell with its ends that carries its features. -/
theorem C102_split_check_is_sound [DecidableEq F] [DecidableEq L] (comp : Complex F L) (G : GraphData F L)
    (h : splitTest comp G = .ok ()) :
    comp.y = G.y ∧ comp.attr 0 Cochain.x = G.x ∧
    (∀ u v, Joined ((comp.attr 0 Cochain.upperIndex).getD []) u v ↔ Joined G.edgeIndex u v) ∧
    ∃ rows attr, comp.attr 1 Cochain.x = some rows ∧ G.edgeAttr = some attr ∧ rows.length = G.edgeIndex.length / 2 ∧
      ∀ (i : Nat) (e : Nat × Nat), G.edgeIndex[i]? = some e → ∃ c row, rows[c]? = some row ∧ attr[i]? = some row ∧
        ∀ v, (v, c) ∈ (comp.attr 1 Cochain.boundaryIndex).getD [] ↔ v = e.1 ∨ v = e.2 := by
  unfold splitTest at h
  obtain ⟨_, h1, h⟩ := bind_eq_ok.mp h
  obtain ⟨nodes, h2, h⟩ := bind_eq_ok.mp h
  obtain ⟨_, h3, h⟩ := bind_eq_ok.mp h
  obtain ⟨one, h4, h⟩ := bind_eq_ok.mp h
  rw [assertEqual_eq_ok] at h1 h3
  rw [cochainAt_eq_ok] at h2 h4
  rw [attr_of_get h2, attr_of_get h2, attr_of_get h4, attr_of_get h4]
  cases hx : one.x with
  | none => rw [hx] at h; simp at h
  | some rows =>
    rw [hx] at h
    dsimp only at h
    obtain ⟨_, h5, h⟩ := bind_eq_ok.mp h
    obtain ⟨_, h6, h⟩ := bind_eq_ok.mp h
    rw [pyAssert_eq_ok, beq_iff_eq] at h5
    refine ⟨h1.1, h3.1, ?_, ?_⟩
    · cases hup : nodes.upperIndex with
      | none => rw [hup] at h6; simp [checkEdgeIndex] at h6
      | some up =>
        rw [hup] at h6
        unfold checkEdgeIndex at h6
        obtain ⟨_, -, h7⟩ := bind_eq_ok.mp h6
        rw [pyAssert_eq_ok, sameSet_iff] at h7
        have key : ∀ (l m : List (Nat × Nat)), (∀ s, s ∈ l.map (fun e => sortedNat [e.1, e.2]) →
            s ∈ m.map fun e => sortedNat [e.1, e.2]) → ∀ u v, Joined l u v → Joined m u v := by
          intro l m hs u v hj
          obtain ⟨e, he, hc⟩ : ∃ e ∈ m, sortedNat [e.1, e.2] = sortedNat [u, v] := by
            rcases hj.2 with hm | hm
            · obtain ⟨e, he, e1⟩ := List.mem_map.mp (hs _ (List.mem_map_of_mem hm))
              exact ⟨e, he, e1⟩
            · obtain ⟨e, he, e1⟩ := List.mem_map.mp (hs _ (List.mem_map_of_mem hm))
              refine ⟨e, he, e1.trans ((sortedNat_eq_iff _ _).mpr ?_)⟩
              exact List.Perm.swap _ _ _
          refine ⟨hj.1, ?_⟩
          rcases (canon_eq_iff e (u, v)).mp hc with rfl | rfl
          · exact .inl he
          · exact .inr he
        intro u v
        exact ⟨key _ _ (fun s hs => (h7 s).mpr hs) u v, key _ _ (fun s hs => (h7 s).mp hs) u v⟩
    · cases hb : one.boundaryIndex with
      | none => rw [hb] at h; simp [checkEdgeAttr] at h
      | some bi =>
        rw [hb] at h
        unfold checkEdgeAttr at h
        dsimp only at h
        obtain ⟨m, -, h⟩ := bind_eq_ok.mp h
        obtain ⟨m', -, h⟩ := bind_eq_ok.mp h
        obtain ⟨_, -, h⟩ := bind_eq_ok.mp h
        obtain ⟨_, -, h⟩ := bind_eq_ok.mp h
        cases ha : G.edgeAttr with
        | none => rw [ha] at h; simp at h
        | some attr =>
          rw [ha] at h
          dsimp only at h
          obtain ⟨us, hus, -⟩ := bind_eq_ok.mp h
          have hall := mapE_unit_eq_ok.mp ⟨us, hus⟩
          refine ⟨rows, attr, rfl, rfl, h5, fun i e hi => ?_⟩
          have hcol := hall (e, i) (List.mk_mem_zipIdx_iff_getElem?.mpr (by simpa using hi))
          unfold checkColumn at hcol
          obtain ⟨c, q1, hcol⟩ := bind_eq_ok.mp hcol
          obtain ⟨row, q2, hcol⟩ := bind_eq_ok.mp hcol
          obtain ⟨row', q3, hcol⟩ := bind_eq_ok.mp hcol
          rw [pyAssert_eq_ok, decide_eq_true_eq] at hcol
          subst hcol
          refine ⟨c, row, getAt_eq_ok.mp q2, getAt_eq_ok.mp q3, fun v => ?_⟩
          rw [Dict.get_eq_ok] at q1
          rcases get?_foldl_set_some (fun p : Nat × List Nat => sortedNat p.2) Prod.fst _ _ q1 with
            ⟨⟨c', l⟩, hp, e1, rfl⟩ | e1
          · obtain ⟨-, rfl⟩ := mem_getTable.mp hp
            have hpm := (sortedNat_eq_iff _ _).mp e1
            rw [Option.getD_some, ← mem_boundariesOf, hpm.mem_iff]
            simp
          · cases e1

/-- **C102** A valid complex compares equal to itself exactly when it has a label, features in every dimension, a boundary
index exactly in the positive dimensions, nothing below the vertices and nothing above the top. -/
theorem C102_compare_accepts_itself [DecidableEq F] [DecidableEq L] (comp : Complex F L) (hv : comp.Valid)
    (down : Bool) : compareComplexes comp comp down = .ok () ↔ comp.y.isSome ∧
      (∀ d ≤ comp.dimension, (comp.attr d Cochain.x).isSome) ∧
      (∀ d ≤ comp.dimension, (comp.attr d Cochain.boundaryIndex).isSome ↔ 0 < d) ∧
      comp.attr 0 Cochain.lowerIndex = none ∧ comp.attr comp.dimension Cochain.upperIndex = none := by
  rw [compareComplexes_eq_ok]
  constructor
  · rintro ⟨-, ⟨-, h1⟩, h2⟩
    have key : ∀ d ≤ comp.dimension, ∃ c, comp.cochains[d]? = some c ∧ DimAgrees down d comp.dimension c c ∧
        c.x.isSome := by
      intro d hd
      obtain ⟨y, e, q1, q2, q3, q4, q5⟩ := h2 d hd
      rw [q1] at q2
      cases q2
      exact ⟨y, q1, q3, q5⟩
    refine ⟨h1, fun d hd => ?_, fun d hd => ?_, ?_, ?_⟩
    · obtain ⟨c, q1, -, q3⟩ := key d hd
      rw [attr_of_get q1]; exact q3
    · obtain ⟨c, q1, q2, -⟩ := key d hd
      rw [attr_of_get q1]; exact ((dimAgrees_self hv q1).mp q2).1
    · obtain ⟨c, q1, q2, -⟩ := key 0 (by omega)
      rw [attr_of_get q1]; exact ((dimAgrees_self hv q1).mp q2).2.1 rfl
    · obtain ⟨c, q1, q2, -⟩ := key _ le_rfl
      rw [attr_of_get q1]; exact ((dimAgrees_self hv q1).mp q2).2.2 rfl
  · rintro ⟨h1, h2, h3, h4, h5⟩
    refine ⟨rfl, ⟨rfl, h1⟩, fun d hd => ?_⟩
    obtain ⟨c, hc⟩ := cochain_exists hv.toCoherent hd
    refine ⟨c, c, hc, hc, (dimAgrees_self hv hc).mpr ⟨?_, ?_, ?_⟩, rfl, ?_⟩
    · rw [← attr_of_get hc Cochain.boundaryIndex]; exact h3 d hd
    · rintro rfl; rw [← attr_of_get hc Cochain.lowerIndex]; exact h4
    · rintro rfl; rw [← attr_of_get hc Cochain.upperIndex]; exact h5
    · rw [← attr_of_get hc Cochain.x]; exact h2 d hd

/-- **C102** What the comparison establishes, with features in every dimension and without features of the rings. -/
theorem C102_compare_is_sound [DecidableEq F] [DecidableEq L] (a b : Complex F L) (ha : a.Coherent) (hb : b.Coherent)
    (down : Bool) (h : compareComplexes a b down = .ok () ∨ compareComplexesWithout2 a b down = .ok ()) :
    a.AgreesWith b down := by
  rcases h with h | h
  · obtain ⟨h1, h2, h3⟩ := compareComplexes_eq_ok.mp h
    refine agreesWith_of ha hb h1 h2.1 fun d hd => ?_
    obtain ⟨y, e, q1, q2, q3, q4, -⟩ := h3 d hd
    exact ⟨y, e, q1, q2, q3, q4⟩
  · obtain ⟨h1, h2, h3⟩ := compareComplexesWithout2_eq_ok.mp h
    refine agreesWith_of ha hb h1 h2.1 fun d hd => ?_
    obtain ⟨y, e, q1, q2, q3, q4, -⟩ := h3 d hd
    exact ⟨y, e, q1, q2, q3, q4⟩

/-- **C102** Complexes that compare equal give a network the same inputs. -/
theorem C102_compare_then_same_inputs [DecidableEq F] [DecidableEq L] (a b : Complex F L) (ha : a.Coherent)
    (hb : b.Coherent) (down : Bool) (h : compareComplexes a b down = .ok () ∨ compareComplexesWithout2 a b down = .ok ())
    (maxDim : Nat) (includeTop includeDown includeBoundary : Bool) (hle : includeDown = true → down = true) :
    a.getAllCochainParams maxDim includeTop includeDown includeBoundary =
      b.getAllCochainParams maxDim includeTop includeDown includeBoundary := by
  have hag := C102_compare_is_sound a b ha hb down h
  unfold Complex.getAllCochainParams
  rw [hag.dimension]
  exact mapE_congr fun dim _ => getCochainParams_congr ha hb hag hle dim maxDim includeTop includeBoundary

/-- **C102** A complex lifted from a graph with the cliques, stored in a dataset and read again compares equal to what was
stored. -/
theorem C102_stored_clique_complexes_pass [DecidableEq F] [DecidableEq L] (g : Gudhi) (hg : g.Ok) (agg : List F → F)
    (x : List F) (edges : List (Nat × Nat)) (size k : Nat) (l : L) (down down' : Bool) (he : EdgesIn edges size)
    (h0 : 0 < size) (hx : x.length = size) (comp : Complex F L)
    (hlift : cliqueComplex g agg (some x) edges size k (some [l]) down = .ok comp) (cs : List (Complex F L))
    (maxDim : Nat) (st : Storage F L) (hst : collate cs maxDim = .ok st) (i : Nat) (hi : cs[i]? = some comp)
    (hd : comp.dimension ≤ maxDim) (hy : ∀ c ∈ cs, c.y.isSome) :
    ∃ comp', st.read i = .ok comp' ∧ compareComplexes comp' comp down' = .ok () := by
  have H := holds_expanded hg he k
  obtain ⟨e1, e2⟩ := liftTree_ok (agg := agg) (y := some [l]) (down := down) H h0 hx (by
    intro l' h; rw [← Option.some.inj h]; exact .inl rfl)
  have e3 : cliqueComplex g agg (some x) edges size k (some [l]) down = _ := e1
  rw [e3] at hlift
  have hlift := ok_inj.mp hlift
  have cd := cellData_simplices H h0
  have hs : comp.Shaped := by
    rw [← hlift]
    exact complexOf_shaped cd e2 (fun d hd => cellsOf_ne_nil H hd) l
  have hv : comp.Valid := by
    rw [← hlift]
    exact complexOf_valid cd e2 _
  obtain ⟨comp', r1, r2⟩ := C36_reading_gives_the_stored_complex cs maxDim st hst i comp hi hv (Shaped.counted hv hs) hd
    (fun c hc => by rw [hy c hc, hs.label])
  refine ⟨comp', r1, (compare_same hv hs r2 down').1 fun d hd' => ?_⟩
  have hsz := (complexOf_lifts (vy := vertexLabels (some [l])) (down := down) cd e2 (complexLabel (some [l]))).size
  rw [← hlift] at hd' ⊢
  rw [complexOf_attr, if_pos (by omega)]
  rfl

/-- A complex lifted with the rings and with features of edges is valid, has the shape that the comparison asks for, and has
features everywhere but possibly on the rings. -/
theorem ring_lift_shaped [DecidableEq F] [DecidableEq L] (g : Gudhi) (hg : g.Ok) (lib : RingLib)
    (hl : lib.Ok) (agg : List F → F) (x : List F) (edges : List (Nat × Nat)) (attr : Option (List F)) (size maxK : Nat)
    (l : L) (down initRings : Bool) (he : EdgesIn edges size) (hn : NoLoops edges) (h0 : 0 < size)
    (hx : x.length = size) (ha : EdgeInput edges attr) (comp : Complex F L)
    (hlift : ringComplex g lib agg (some x) edges attr size (some [l]) maxK down true initRings = .ok comp) :
    comp.Valid ∧ comp.Shaped ∧ ∀ d ≤ comp.dimension, (comp.attr d Cochain.x).isSome ↔ (initRings = true ∨ d ≠ 2) := by
  obtain ⟨x1, e1, e2, ed⟩ := RGraph.lift_ok (agg := agg) (maxK := maxK) (down := down) (initEdges := true)
    (initRings := initRings) hg hl (G := ⟨size, x, edges, attr, some [l]⟩)
    ⟨h0, hx, he, hn, ha, by intro l' h; rw [← Option.some.inj h]; exact .inl rfl⟩ rfl rfl
  have e3 : ringComplex g lib agg (some x) edges attr size (some [l]) maxK down true initRings = _ := e1
  rw [e3] at hlift
  have hlift := ok_inj.mp hlift
  have rd := ringData_of hg hl he h0 maxK
  dsimp only at e2 hlift ed
  have hone := ed.some
  clear ed e1 e3
  generalize g.inserted (insertions edges size) = tree at *
  generalize getRings lib edges maxK = rings at *
  have hge := ringDims_ge rd
  have htwo : 1 < ringDims tree rings → tree.dims = 2 := by
    intro hd
    have := rd.low
    unfold ringDims at hd
    split at hd
    · omega
    · exact rd.dims_two (by assumption)
  have hfull : ∀ d < ringDims tree rings, ringCells tree size rings d ≠ [] := by
    intro d hd'
    have hle := rd.dims_le
    unfold ringCells
    split
    · next h2 =>
      intro hr
      unfold ringDims at hd'
      rw [if_pos hr] at hd'
      have := rd.low
      omega
    · next h2 =>
      refine cellsOf_ne_nil rd.holds ?_
      rcases Nat.eq_zero_or_pos d with rfl | hpos
      · by_cases hr : rings = []
        · unfold ringDims at hd'
          rw [if_pos hr] at hd'
          exact hd'
        · have := rd.dims_two hr
          omega
      · have := htwo (by omega)
        omega
  have hs : comp.Shaped := by
    rw [← hlift]
    exact complexOf_shaped rd.cellData e2 hfull l
  have hv : comp.Valid := by
    rw [← hlift]
    exact complexOf_valid rd.cellData e2 _
  have hsz := (complexOf_lifts (vy := vertexLabels (some [l])) (down := down) rd.cellData e2
    (complexLabel (some [l]))).size
  have hattr : ∀ d, d ≤ comp.dimension → comp.attr d Cochain.x = ringXs x x1 (ringRows initRings
      (tab (ringDims tree rings) (liftedRows agg x (ringCells tree size rings)))) d ∧ d < ringDims tree rings := by
    intro d hd'
    rw [← hlift] at hd' ⊢
    rw [complexOf_attr, if_pos (by omega)]
    exact ⟨rfl, by omega⟩
  have h1 : 1 < ringDims tree rings → x1.isSome = true := by
    intro h
    rw [hone, htwo h]
    rfl
  have hle := rd.dims_le
  refine ⟨hv, hs, fun d hd' => ?_⟩
  obtain ⟨q1, q2⟩ := hattr d hd'
  rw [q1]
  unfold ringXs
  split
  · next h => simp [h]
  · split
    · next h => simp [h, h1 (by omega)]
    · split
      · next h =>
        subst h
        cases initRings with
        | true =>
          simp only [ringRows, if_true]
          rw [tab_get _ (by omega)]
          simp
        | false => simp [ringRows]
      · omega

/-- **C102** A complex lifted with the rings, with features of edges, stored in a dataset and read again compares equal to what
was stored: with the features of the rings when there are some, by the other comparison when there are none. -/
theorem C102_stored_ring_complexes_pass [DecidableEq F] [DecidableEq L] (g : Gudhi) (hg : g.Ok) (lib : RingLib)
    (hl : lib.Ok) (agg : List F → F) (x : List F) (edges : List (Nat × Nat)) (attr : Option (List F)) (size maxK : Nat)
    (l : L) (down down' initRings : Bool) (he : EdgesIn edges size) (hn : NoLoops edges) (h0 : 0 < size)
    (hx : x.length = size) (ha : EdgeInput edges attr) (comp : Complex F L)
    (hlift : ringComplex g lib agg (some x) edges attr size (some [l]) maxK down true initRings = .ok comp)
    (cs : List (Complex F L)) (maxDim : Nat) (st : Storage F L) (hst : collate cs maxDim = .ok st) (i : Nat)
    (hi : cs[i]? = some comp) (hd : comp.dimension ≤ maxDim) (hy : ∀ c ∈ cs, c.y.isSome) :
    ∃ comp', st.read i = .ok comp' ∧
      if initRings then compareComplexes comp' comp down' = .ok ()
      else compareComplexesWithout2 comp' comp down' = .ok () := by
  obtain ⟨hv, hs, hxs⟩ := ring_lift_shaped g hg lib hl agg x edges attr size maxK l down initRings he hn h0 hx ha comp hlift
  obtain ⟨comp', r1, r2⟩ := C36_reading_gives_the_stored_complex cs maxDim st hst i comp hi hv (Shaped.counted hv hs) hd
    (fun c hc => by rw [hy c hc, hs.label])
  refine ⟨comp', r1, ?_⟩
  cases initRings with
  | true =>
    rw [if_pos rfl]
    exact (compare_same hv hs r2 down').1 fun d hd' => (hxs d hd').mpr (.inl rfl)
  | false =>
    rw [if_neg (by simp)]
    exact (compare_same hv hs r2 down').2 fun d hd' => by simpa using hxs d hd'

/-! ### Examples, and what the checks overlook -/

namespace Fixtures

/-- Whether a list is a circuit. -/
def circuitCheck (edges : List (Nat × Nat)) (r : List Nat) : Bool :=
  !r.isEmpty && decide r.Nodup && (List.range r.length).all fun i => (List.range r.length).all fun j =>
    decide (Follows r.length i j → (r.getD i 0, r.getD j 0) ∈ edges)

theorem circuitCheck_iff {edges : List (Nat × Nat)} {r : List Nat} :
    circuitCheck edges r = true ↔ IsCircuit edges r := by
  unfold circuitCheck
  simp only [Bool.and_eq_true, decide_eq_true_eq, List.all_eq_true, List.mem_range, Bool.not_eq_true',
    List.isEmpty_eq_false_iff]
  constructor
  · rintro ⟨⟨h1, h2⟩, h3⟩
    refine ⟨h1, h2, fun i j u v hi hj hf => ?_⟩
    have := h3 i (lt_of_get hi) j (lt_of_get hj) hf
    rwa [List.getD_eq_getElem?_getD, List.getD_eq_getElem?_getD, hi, hj] at this
  · intro h
    refine ⟨⟨h.nonempty, h.nodup⟩, fun i hi j hj hf => ?_⟩
    rw [List.getD_eq_getElem?_getD, List.getD_eq_getElem?_getD, List.getElem?_eq_getElem hi,
      List.getElem?_eq_getElem hj]
    exact h.edge i j _ _ (List.getElem?_eq_getElem hi) (List.getElem?_eq_getElem hj) hf

/-- A search for circuits that tries all lists of vertices. -/
def plainCycles : CycleLib where
  cycles := fun edges =>
    let vs := (edges.map Prod.fst ++ edges.map Prod.snd).dedup
    (List.range (vs.length + 1)).flatMap fun k => (tuples vs k).filter (circuitCheck edges)

/-- The contract of `networkx.simple_cycles` can be met. -/
theorem plainCycles_ok : plainCycles.Ok where
  sound := fun edges r hr => by
    obtain ⟨k, -, hk⟩ := List.mem_flatMap.mp hr
    exact circuitCheck_iff.mp (List.mem_filter.mp hk).2
  complete := fun edges r h => by
    refine ⟨0, ?_⟩
    rw [List.rotate_zero]
    have hin : ∀ v ∈ r, v ∈ (edges.map Prod.fst ++ edges.map Prod.snd).dedup := by
      intro v hv
      obtain ⟨i, hi⟩ := List.mem_iff_getElem?.mp hv
      obtain ⟨m, hm, hf⟩ := follows_exists (lt_of_get hi)
      have := h.edge i m v _ hi (List.getElem?_eq_getElem hm) hf
      rw [List.mem_dedup, List.mem_append, List.mem_map]
      exact .inl ⟨_, this, rfl⟩
    refine List.mem_flatMap.mpr ⟨r.length, List.mem_range.mpr (Nat.lt_succ_of_le ?_),
      List.mem_filter.mpr ⟨mem_tuples.mpr ⟨rfl, hin⟩, circuitCheck_iff.mpr h⟩⟩
    exact (h.nodup.subperm hin).length_le

/-- The square with its ring; the boundary of the ring is a parameter. -/
def squareWith (bnd : List (Nat × Nat)) : Complex Nat Nat where
  dimension := 2
  y := some [0]
  cochains := [
    { dim := 0, x := some [1, 2, 3, 4],
      upperIndex := some [(0, 1), (1, 0), (0, 3), (3, 0), (1, 2), (2, 1), (2, 3), (3, 2)],
      sharedCoboundaries := some [0, 0, 1, 1, 2, 2, 3, 3], numCellsUpAttr := some (some 4),
      numCellsDownAttr := some none },
    { dim := 1, x := some [5, 6, 7, 8], boundaryIndex := some [(0, 0), (1, 0), (0, 1), (3, 1), (1, 2), (2, 2), (2, 3), (3, 3)],
      numCellsUpAttr := some (some 1), numCellsDownAttr := some (some 4) },
    { dim := 2, x := some [9], boundaryIndex := some bnd, numCellsUpAttr := some (some 0),
      numCellsDownAttr := some (some 4) }]

/-- Two vertices with labels. -/
def twoDots (labels : List Nat) : Complex Nat Nat where
  dimension := 0
  y := some [0]
  cochains := [{ dim := 0, x := some [7, 8], y := some labels }]

/-- A path with two edges; their lower adjacency is a parameter. -/
def pathWith (lower : Option (List (Nat × Nat))) (shared : Option (List Nat)) : Complex Nat Nat where
  dimension := 1
  y := some [0]
  cochains := [
    { dim := 0, x := some [1, 2, 3], numCellsUpAttr := some (some 2) },
    { dim := 1, x := some [4, 5], boundaryIndex := some [(0, 0), (1, 0), (1, 1), (2, 1)], lowerIndex := lower,
      sharedBoundaries := shared, numCellsDownAttr := some (some 3) }]

end Fixtures

/-- **C102, finding.** The ring check only looks at the vertices of a ring: it also accepts a complex in which two of the four
edges are missing from the boundary of the square. -/
theorem C102_ring_check_overlooks_edges :
    ∃ (nx : CycleLib) (good bad : Complex Nat Nat), nx.Ok ∧ good.Valid ∧ bad.Valid ∧
      ringTest nx good 4 = .ok () ∧ ringTest nx bad 4 = .ok () ∧
      good.attr 2 Cochain.boundaryIndex = some [(0, 0), (1, 0), (2, 0), (3, 0)] ∧
      bad.attr 2 Cochain.boundaryIndex = some [(0, 0), (3, 0)] ∧
      good.attr 0 Cochain.upperIndex = bad.attr 0 Cochain.upperIndex ∧
      good.attr 1 Cochain.boundaryIndex = bad.attr 1 Cochain.boundaryIndex :=
  ⟨Fixtures.plainCycles, Fixtures.squareWith [(0, 0), (1, 0), (2, 0), (3, 0)], Fixtures.squareWith [(0, 0), (3, 0)],
    Fixtures.plainCycles_ok, validB_sound (by decide), validB_sound (by decide), by decide +kernel, by decide +kernel,
    rfl, rfl, rfl, rfl⟩

/-- **C102, finding.** The comparison does not look at the labels of the cells, nor, when told to ignore the lower
adjacencies, at whether there are any. -/
theorem C102_compare_overlooks_labels :
    (∃ a b : Complex Nat Nat, a.Valid ∧ b.Valid ∧ compareComplexes a b true = .ok () ∧
      a.attr 0 Cochain.y ≠ b.attr 0 Cochain.y) ∧
    ∃ a b : Complex Nat Nat, a.Valid ∧ b.Valid ∧ compareComplexes a b false = .ok () ∧
      compareComplexes a b true ≠ .ok () := by
  refine ⟨⟨Fixtures.twoDots [1, 1], Fixtures.twoDots [1, 2], validB_sound (by decide), validB_sound (by decide),
    by decide, by decide⟩, Fixtures.pathWith none none, Fixtures.pathWith (some [(0, 1), (1, 0)]) (some [1, 1]),
    validB_sound (by decide), validB_sound (by decide), by decide, by decide⟩

/-- The shed, a square with a triangle beside it, lifted. -/
def shedComplex : Py (Complex Nat Nat) :=
  ringComplex Fixtures.plainGudhi Fixtures.plainRings List.sum (some [1, 2, 3, 4, 5]) Fixtures.shed none 5 (some [7]) 4
    true true true

-- The hypotheses of the ring check are met by the shed, and the check runs.
example : EdgesIn Fixtures.shed 5 ∧ NoLoops Fixtures.shed ∧ Fixtures.shed ≠ [] ∧
    EdgeInput Fixtures.shed (none : Option (List Nat)) :=
  ⟨Fixtures.shed_in, Fixtures.shed_noLoops, by decide, by intro a h; cases h⟩

example : (shedComplex >>= fun comp => ringTest Fixtures.plainCycles comp 4) = .ok () := by decide +kernel

-- With a smaller bound the square is a ring too many.
example : (shedComplex >>= fun comp => ringTest Fixtures.plainCycles comp 3) = .error .assertion := by decide +kernel

-- The check of the splits runs on molecules, and notices another feature of a bond.
example : Molecule (fun _ => 1) 1 1 Fixtures.triMol ∧ Fixtures.triMol.edgeIndex ≠ [] := ⟨Fixtures.molecules_ok _ (by simp), by decide⟩

example : (Fixtures.triMol.ringLift Fixtures.plainGudhi Fixtures.plainRings List.sum 4 true >>= fun comp => splitTest comp Fixtures.triMol) =
    .ok () := by decide +kernel

example : (Fixtures.triMol.ringLift Fixtures.plainGudhi Fixtures.plainRings List.sum 4 true >>= fun comp =>
    splitTest comp { Fixtures.triMol with edgeAttr := Fixtures.triMol.edgeAttr.map fun a => a.map (· + 1) }) =
    .error .assertion := by decide +kernel

-- A molecule of one atom.
example : Molecule (fun _ => 1) 1 1 (⟨some [3], [], some [], 1, some [0]⟩ : GraphData Nat Nat) := by
  refine ⟨⟨[3], ⟨rfl, by decide, rfl, by unfold EdgesIn; decide, ?_⟩, by simp⟩, ⟨by decide, by simp, by unfold NoLoops; simp, ?_, ?_⟩,
    ⟨[], rfl, by simp⟩, ⟨0, rfl⟩⟩
  · intro l h; cases h; exact .inl rfl
  · intro l h; cases h; rfl
  · intro a h
    cases h
    exact ⟨rfl, by intro i j; simp⟩

-- What was stored is read again and compares equal.
example : (do
    let comp ← shedComplex
    let st ← collate [comp] 2
    let comp' ← st.read 0
    compareComplexes comp' comp true) = .ok () := by decide +kernel

-- A complex without its ring, and one with a ring too many, are refused.
example : ringTest Fixtures.plainCycles (Fixtures.squareWith [(0, 0), (1, 0)]) 4 = .error .assertion ∧
    ringTest Fixtures.plainCycles (Fixtures.squareWith [(0, 0), (1, 0), (2, 0), (3, 0)]) 3 = .error .assertion := by
  decide +kernel

-- A complex that compares equal to itself, and two that differ.
example : compareComplexes (Fixtures.squareWith [(0, 0), (1, 0), (2, 0), (3, 0)])
      (Fixtures.squareWith [(0, 0), (1, 0), (2, 0), (3, 0)]) true = .ok () ∧
    compareComplexes (Fixtures.squareWith [(0, 0), (1, 0), (2, 0), (3, 0)])
      (Fixtures.squareWith [(0, 0), (3, 0)]) true = .error .assertion := by decide

end Verif
