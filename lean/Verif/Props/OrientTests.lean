import Verif.Lemmas.OrientTests
import Verif.Props.FlowData
import Mathlib.Tactic.NormNum
import Mathlib.Tactic.Ring

/-!
# C113: the tests of the oriented networks
-/

namespace Verif

variable {𝕜 R L : Type} [AddCommGroup R]

section conv
variable [DecidableEq R]

/-- **C113** The test of the oriented convolution passes for all matrices that fit, whatever the features and the edges
that are reversed. -/
theorem C113_convolution_test (lib : SparseLib) (hlib : lib.Correct) (B1 B2 : Mat) (x : List R)
    (hB : FitEdges B1 B2 x.length) (diag : List Int) (hdiag : IsSigns diag x.length) (label : L) (l : OrientedLevel R)
    (hl : l.orient = true) : orientConvTest lib B1 B2 diag x label l = .ok () := by
  obtain ⟨c, d, hc, hh, hd, hx, -⟩ := built hlib hB label
  have hs := signOf_signs hdiag
  have hlen : d.x.length = x.length := by rw [hx]
  have hfl : (d.flip (signOf diag)).x.length = d.x.length := flipRows_length _ _
  unfold orientConvTest
  rw [orientedPair_ok hlib hdiag hc, ok_bind, sameIndices_flip, ok_bind]
  dsimp only
  rw [orientPropagate_ok l hh hd, ok_bind, orientPropagate_ok l (hh.flip _) (hd.flip _), ok_bind, hfl, hl]
  dsimp only
  have hu : ∀ k, orientedSum true (d.flip (signOf diag)).x (d.flip (signOf diag)).ui (d.flip (signOf diag)).uo k =
      signOf diag k • orientedSum true d.x d.ui d.uo k := fun k => orientedSum_flip hs d.x hd.ulen k
  have hlo : ∀ k, orientedSum true (d.flip (signOf diag)).x (d.flip (signOf diag)).li (d.flip (signOf diag)).lo k =
      signOf diag k • orientedSum true d.x d.li d.lo k := fun k => orientedSum_flip hs d.x hd.llen k
  have e1 : (List.range d.x.length).map (orientedSum true (d.flip (signOf diag)).x (d.flip (signOf diag)).ui
      (d.flip (signOf diag)).uo) =
      flipRows (signOf diag) ((List.range d.x.length).map (orientedSum true d.x d.ui d.uo)) := by
    rw [flipRows_range]
    exact List.map_congr_left fun k _ => hu k
  have e2 : (List.range d.x.length).map (orientedSum true (d.flip (signOf diag)).x (d.flip (signOf diag)).li
      (d.flip (signOf diag)).lo) =
      flipRows (signOf diag) ((List.range d.x.length).map (orientedSum true d.x d.li d.lo)) := by
    rw [flipRows_range]
    exact List.map_congr_left fun k _ => hlo k
  rw [e1, e2, dotRows_diag hdiag (by simp [hlen]), ok_bind, decide_eq_true rfl]
  show (dotRows _ _ >>= _) = _
  rw [dotRows_diag hdiag (by simp [hlen]), ok_bind, decide_eq_true rfl]
  show (orientTotal _ _ >>= _) = _
  generalize hU : (List.range d.x.length).map (orientedSum true d.x d.ui d.uo) = U
  generalize hL : (List.range d.x.length).map (orientedSum true d.x d.li d.lo) = D
  have lu : U.length = d.x.length := by simp [← hU]
  have ld : D.length = d.x.length := by simp [← hL]
  have z : ∀ {a b : List R}, a.length = b.length → zipRows (· + ·) a b = .ok (List.zipWith (· + ·) a b) := by
    intro a b hab
    unfold zipRows
    rw [if_pos hab]
  have t1 : orientTotal c (U, D, zeroRows d.x.length) =
      .ok (List.zipWith (· + ·) (List.zipWith (· + ·) d.x U) D) := by
    unfold orientTotal
    rw [hh.hx]
    dsimp only
    rw [z lu.symm, ok_bind, z (by simp [lu, ld])]
  have t2 : orientTotal (c.flip (signOf diag)) (flipRows (signOf diag) U, flipRows (signOf diag) D,
      zeroRows d.x.length) =
      .ok (flipRows (signOf diag) (List.zipWith (· + ·) (List.zipWith (· + ·) d.x U) D)) := by
    unfold orientTotal
    rw [(hh.flip (signOf diag)).hx]
    dsimp only
    rw [z (by rw [hfl, flipRows_length, lu]), ok_bind, z (by simp [hfl, flipRows_length, lu, ld])]
    congr 1
    show List.zipWith _ (List.zipWith _ (flipRows _ d.x) _) _ = _
    unfold flipRows
    apply List.ext_getElem?
    intro k
    simp only [List.getElem?_zipWith, List.getElem?_mapIdx]
    cases d.x[k]? <;> cases U[k]? <;> cases D[k]? <;> simp [smul_add]
  rw [t1, ok_bind, dotRows_diag hdiag (by simp [lu, ld, hlen]), ok_bind, t2, ok_bind, decide_eq_true rfl]
  rfl

end conv

section nets
variable [DecidableEq R] [Field 𝕜] [Module 𝕜 R]

/-- **C113** What the tests of the networks compare: both networks predict, the second prediction is made from the first
cochain with edges reversed, and the assertions compare the features of the edges after the last layer up to signs, the
predictions, and the features as they are. -/
theorem C113_what_the_tests_compare (lib : SparseLib) (hlib : lib.Correct) (B1 B2 : Mat) (x : List R)
    (hB : FitEdges B1 B2 x.length) (h1 : SomeMeet B1) (h2 : SomeMeet B2.transpose) (diag : List Int)
    (hdiag : IsSigns diag x.length) (label : L) (net : OrientNet R) (hnet : net.Runs) :
    ∃ (c : Cochain R L) (p p' : R) (q q' : List R),
      buildCochain lib B1 B2 (Mat.identity x.length) x label none = .ok c ∧
      (fromCochainList [c] >>= net.forwardPartial 𝕜) = .ok ([p], q) ∧
      (fromCochainList [c.flip (signOf diag)] >>= net.forwardPartial 𝕜) = .ok ([p'], q') ∧
      orientNetTest 𝕜 lib B1 B2 diag x label net =
        (if q' = flipRows (signOf diag) q ∧ p = p' then .ok () else .error .assertion) ∧
      orientReluTest 𝕜 lib B1 B2 diag x label net =
        (if q' ≠ flipRows (signOf diag) q ∧ q ≠ q' then .ok () else .error .assertion) ∧
      orientMPNNTest 𝕜 lib B1 B2 diag x label net = (if q = q' then .ok () else .error .assertion) := by
  obtain ⟨c, d, hc, hh, hd, hx, hn, hb, hp, he, hli, hui⟩ := built hlib hB label
  have hsing : Single c d := ⟨hh, hd, hui h2, hli h1, hn, hb, hp, he⟩
  obtain ⟨pool, hpool⟩ : ∃ pool, getPoolingFn net.readout = .ok pool := by
    rcases hnet.readout with e | e <;> rw [e]
    · exact ⟨_, rfl⟩
    · exact ⟨_, rfl⟩
  have r1 := net.partial_single (𝕜 := 𝕜) hsing hnet.layers hpool
  have r2 := net.partial_single (𝕜 := 𝕜) (hsing.flip (signOf diag)) hnet.layers hpool
  have hq : ((net.start d).run net.convs).x.length = x.length := by
    rw [EdgeRows.run_length, ← hx]
    unfold OrientNet.start
    split <;> simp
  have hr : orientRuns 𝕜 net (c, c.flip (signOf diag)) = .ok (([net.single 𝕜 pool d], ((net.start d).run net.convs).x),
      [net.single 𝕜 pool (d.flip (signOf diag))], ((net.start (d.flip (signOf diag))).run net.convs).x) := by
    unfold orientRuns
    dsimp only
    rw [r1, ok_bind, r2]
    rfl
  refine ⟨c, _, _, _, _, hc, r1, r2, ?_, ?_, ?_⟩
  · unfold orientNetTest
    rw [orientedPair_ok hlib hdiag hc, ok_bind, sameIndices_flip, ok_bind, hr, ok_bind]
    dsimp only
    rw [dotRows_diag hdiag hq, ok_bind]
    by_cases g1 : ((net.start (d.flip (signOf diag))).run net.convs).x =
        flipRows (signOf diag) ((net.start d).run net.convs).x
    · rw [decide_eq_true g1.symm]
      by_cases g2 : net.single 𝕜 pool d = net.single 𝕜 pool (d.flip (signOf diag))
      · rw [if_pos ⟨g1, g2⟩, g2, decide_eq_true rfl]
        rfl
      · rw [if_neg fun g => g2 g.2, decide_eq_false (by simpa using g2)]
        rfl
    · rw [if_neg fun g => g1 g.1, decide_eq_false (fun g => g1 g.symm)]
      rfl
  · unfold orientReluTest
    rw [orientedPair_ok hlib hdiag hc, ok_bind, sameIndices_flip, ok_bind, hr, ok_bind]
    dsimp only
    rw [dotRows_diag hdiag hq, ok_bind]
    by_cases g1 : ((net.start (d.flip (signOf diag))).run net.convs).x =
        flipRows (signOf diag) ((net.start d).run net.convs).x
    · rw [if_neg fun g => g.1 g1, decide_eq_true g1.symm]
      rfl
    · rw [decide_eq_false (fun g => g1 g.symm)]
      by_cases g2 : ((net.start d).run net.convs).x = ((net.start (d.flip (signOf diag))).run net.convs).x
      · rw [if_neg fun g => g.2 g2, decide_eq_true g2]
        rfl
      · rw [if_pos ⟨g1, g2⟩, decide_eq_false g2]
        rfl
  · unfold orientMPNNTest
    rw [orientedPair_ok hlib hdiag hc, ok_bind, sameIndices_flip, ok_bind, hr, ok_bind]
    dsimp only
    by_cases g2 : ((net.start d).run net.convs).x = ((net.start (d.flip (signOf diag))).run net.convs).x
    · rw [if_pos g2, decide_eq_true g2]
      rfl
    · rw [if_neg g2, decide_eq_false g2]
      rfl

omit [DecidableEq R] in
/-- **C113** `include_partial` only adds the features of the edges to the prediction. -/
theorem C113_partial_is_forward (net : OrientNet R) (data : Cochain R L) :
    net.forward 𝕜 data = (net.forwardPartial 𝕜 data).map Prod.fst := by
  unfold OrientNet.forward OrientNet.forwardPartial
  cases net.prepare data with
  | error e => rfl
  | ok data =>
    rw [ok_bind, ok_bind]
    cases runOriented data net.convs with
    | error e => rfl
    | ok out =>
      rw [ok_bind, ok_bind]
      cases out.2 with
      | none => rfl
      | some cells =>
        dsimp only
        cases out.1.batch with
        | none => rfl
        | some b =>
          dsimp only
          cases Cochain.maxPlusOne b with
          | error e => rfl
          | ok n =>
            rw [ok_bind, ok_bind]
            cases getPoolingFn net.readout with
            | error e => rfl
            | ok pool =>
              rw [ok_bind, ok_bind]
              cases scatter (pool.agg 𝕜) n b (if net.fullyInvar then cells else cells.map net.abs) <;> rfl

/-- The features of the edges after the last layer change their signs with the orientations. -/
theorem runs_equivariant {net : OrientNet R} (hf : net.fullyInvar = false) (hl : ∀ l ∈ net.convs, l.Equivariant)
    {s : Nat → Int} (hs : Signs s) {d : EdgeRows R} (hd : d.Ok) :
    ((net.start (d.flip s)).run net.convs).x = flipRows s ((net.start d).run net.convs).x := by
  unfold OrientNet.start
  rw [hf]
  simp only [Bool.false_eq_true, if_false]
  rw [EdgeRows.run_flip hs hl hd]
  rfl

/-- What both tests build. -/
theorem pair_runs (lib : SparseLib) (hlib : lib.Correct) (B1 B2 : Mat) (x : List R)
    (hB : FitEdges B1 B2 x.length) (h1 : SomeMeet B1) (h2 : SomeMeet B2.transpose) (diag : List Int) (label : L)
    (net : OrientNet R) (hnet : net.Runs) {c : Cochain R L} {p p' : R} {q q' : List R}
    (hc : buildCochain lib B1 B2 (Mat.identity x.length) x label none = .ok c)
    (r1 : (fromCochainList [c] >>= net.forwardPartial 𝕜) = .ok ([p], q))
    (r2 : (fromCochainList [c.flip (signOf diag)] >>= net.forwardPartial 𝕜) = .ok ([p'], q')) :
    ∃ d pool, d.Ok ∧ p = net.single 𝕜 pool d ∧ p' = net.single 𝕜 pool (d.flip (signOf diag)) ∧
      q = ((net.start d).run net.convs).x ∧ q' = ((net.start (d.flip (signOf diag))).run net.convs).x := by
  obtain ⟨c', d, hc', hh, hd, hx, hn, hb, hp, he, hli, hui⟩ := built hlib hB label
  rw [hc, ok_inj] at hc'
  subst hc'
  have hsing : Single c d := ⟨hh, hd, hui h2, hli h1, hn, hb, hp, he⟩
  obtain ⟨pool, hpool⟩ : ∃ pool, getPoolingFn net.readout = .ok pool := by
    rcases hnet.readout with e | e <;> rw [e]
    · exact ⟨_, rfl⟩
    · exact ⟨_, rfl⟩
  rw [net.partial_single (𝕜 := 𝕜) hsing hnet.layers hpool, ok_inj, Prod.mk.injEq] at r1
  rw [net.partial_single (𝕜 := 𝕜) (hsing.flip (signOf diag)) hnet.layers hpool, ok_inj, Prod.mk.injEq] at r2
  exact ⟨d, pool, hd, by simpa using r1.1.symm, by simpa using r2.1.symm, r1.2.symm, r2.2.symm⟩

/-- **C113** The tests of the networks with `tanh` and `id` pass: layers of odd maps and an even absolute value are
enough, whatever the weights, the matrices that fit, the features and the edges that are reversed. -/
theorem C113_equivariance_tests (lib : SparseLib) (hlib : lib.Correct) (B1 B2 : Mat) (x : List R)
    (hB : FitEdges B1 B2 x.length) (h1 : SomeMeet B1) (h2 : SomeMeet B2.transpose) (diag : List Int)
    (hdiag : IsSigns diag x.length) (label : L) (net : OrientNet R) (hnet : net.Runs) (hf : net.fullyInvar = false)
    (hl : ∀ l ∈ net.convs, l.Equivariant) (habs : ∀ r, net.abs (-r) = net.abs r) :
    orientNetTest 𝕜 lib B1 B2 diag x label net = .ok () := by
  obtain ⟨c, p, p', q, q', hc, r1, r2, e, -, -⟩ := C113_what_the_tests_compare (𝕜 := 𝕜) lib hlib B1 B2 x hB h1 h2 diag
    hdiag label net hnet
  obtain ⟨d, pool, hd, rfl, rfl, rfl, rfl⟩ := pair_runs lib hlib B1 B2 x hB h1 h2 diag label net hnet hc r1 r2
  have hs := signOf_signs hdiag
  rw [e, if_pos]
  refine ⟨runs_equivariant hf hl hs hd, ?_⟩
  unfold OrientNet.single OrientNet.cellRows
  rw [hf, runs_equivariant hf hl hs hd]
  simp only [Bool.false_eq_true, if_false]
  rw [even_flip habs hs]

/-- **C113** The test of the network that does not use orientations passes, whatever the weights and the activation. -/
theorem C113_invariance_test (lib : SparseLib) (hlib : lib.Correct) (B1 B2 : Mat) (x : List R)
    (hB : FitEdges B1 B2 x.length) (h1 : SomeMeet B1) (h2 : SomeMeet B2.transpose) (diag : List Int)
    (hdiag : IsSigns diag x.length) (label : L) (net : OrientNet R) (hnet : net.Runs) (hf : net.fullyInvar = true)
    (hl : ∀ l ∈ net.convs, l.orient = false) (habs : ∀ r, net.abs (-r) = net.abs r) :
    orientMPNNTest 𝕜 lib B1 B2 diag x label net = .ok () := by
  obtain ⟨c, p, p', q, q', hc, r1, r2, -, -, e⟩ := C113_what_the_tests_compare (𝕜 := 𝕜) lib hlib B1 B2 x hB h1 h2 diag
    hdiag label net hnet
  obtain ⟨d, pool, hd, rfl, rfl, rfl, rfl⟩ := pair_runs lib hlib B1 B2 x hB h1 h2 diag label net hnet hc r1 r2
  have hs := signOf_signs hdiag
  rw [e, if_pos]
  unfold OrientNet.start
  rw [hf]
  simp only [if_true]
  show ((⟨d.x.map net.abs, d.ui, d.li, d.uo, d.lo⟩ : EdgeRows R).run net.convs).x =
    ((⟨(flipRows (signOf diag) d.x).map net.abs, d.ui, d.li, flipCols (signOf diag) d.ui d.uo,
      flipCols (signOf diag) d.li d.lo⟩ : EdgeRows R).run net.convs).x
  rw [even_flip habs hs]
  exact (EdgeRows.run_blind hl _ _ _ (by rw [flipCols_length _ hd.ulen, hd.ulen])
    (by rw [flipCols_length _ hd.llen, hd.llen])).symm

/-- **C113** The test that the network with `relu` is not equivariant fails on every network of odd layers, as it should,
and on every network whose last layer is dead, with whatever activation: it can pass for some weights only. -/
theorem C113_relu_test_fails (lib : SparseLib) (hlib : lib.Correct) (B1 B2 : Mat) (x : List R)
    (hB : FitEdges B1 B2 x.length) (h1 : SomeMeet B1) (h2 : SomeMeet B2.transpose) (diag : List Int)
    (hdiag : IsSigns diag x.length) (label : L) (net : OrientNet R) (hnet : net.Runs)
    (h : (net.fullyInvar = false ∧ ∀ l ∈ net.convs, l.Equivariant) ∨
      ∃ l, net.convs.getLast? = some l ∧ ∀ r, l.act r = 0) :
    orientReluTest 𝕜 lib B1 B2 diag x label net = .error .assertion := by
  obtain ⟨c, p, p', q, q', hc, r1, r2, -, e, -⟩ := C113_what_the_tests_compare (𝕜 := 𝕜) lib hlib B1 B2 x hB h1 h2 diag
    hdiag label net hnet
  obtain ⟨d, pool, hd, rfl, rfl, rfl, rfl⟩ := pair_runs lib hlib B1 B2 x hB h1 h2 diag label net hnet hc r1 r2
  rw [e, if_neg]
  rintro ⟨g1, g2⟩
  rcases h with ⟨hf, hl⟩ | ⟨l, hl, hz⟩
  · exact g1 (runs_equivariant hf hl (signOf_signs hdiag) hd)
  · have key : ∀ f : EdgeRows R, (f.run net.convs).x = (List.range f.x.length).map fun _ => 0 := by
      intro f
      obtain ⟨ls, hls⟩ := List.getLast?_eq_some_iff.mp hl
      have hrun : f.run net.convs = (f.run ls).layer l := by
        rw [hls]
        clear hls hl g1 g2
        induction ls generalizing f with
        | nil => rfl
        | cons k ls ih => exact ih (f.layer k)
      rw [hrun]
      show (List.range (f.run ls).x.length).map _ = _
      rw [EdgeRows.run_length]
      apply List.map_congr_left
      intro k _
      unfold orientedRow
      rw [hz]
    apply g2
    rw [key, key, net.start_length, net.start_length]
    show _ = (List.range (flipRows (signOf diag) d.x).length).map _
    rw [flipRows_length]

/-- **C113** The test with batches passes for every division of the items into batches that are not empty, if every item
alone gets a prediction. -/
theorem C113_batching_test [CharZero 𝕜] (net : OrientNet R) (cs : List (Cochain R L)) (hne : cs ≠ []) (he : ∀ c ∈ cs, EdgeOnly c)
    (hp : ∀ c ∈ cs, ∃ p, (fromCochainList [c] >>= net.forward 𝕜) = .ok [p]) (bss : List (List (Cochain R L)))
    (hb : ∀ ds ∈ bss, ds ≠ []) (hfl : bss.flatten = cs) : orientBatchTest 𝕜 net bss cs = .ok () := by
  have hsing : ∀ ds : List (Cochain R L), (∀ c ∈ ds, ∃ p, (fromCochainList [c] >>= net.forward 𝕜) = .ok [p]) →
      ∃ ps : List R, List.Forall₂ (fun c p => (fromCochainList [c] >>= net.forward 𝕜) = .ok [p]) ds ps ∧
        mapE (fun c => fromCochainList [c] >>= net.forward 𝕜) ds = .ok (ps.map fun p => [p]) := by
    intro ds h
    induction ds with
    | nil => exact ⟨[], .nil, rfl⟩
    | cons c ds ih =>
      obtain ⟨p, hp⟩ := h c (by simp)
      obtain ⟨ps, i1, i2⟩ := ih fun c hc => h c (by simp [hc])
      refine ⟨p :: ps, .cons hp i1, ?_⟩
      rw [mapE_cons, hp, ok_bind, i2]
      rfl
  have hbat : ∀ bss : List (List (Cochain R L)), (∀ ds ∈ bss, ds ≠ []) →
      (∀ c ∈ bss.flatten, EdgeOnly c) →
      (∀ c ∈ bss.flatten, ∃ p, (fromCochainList [c] >>= net.forward 𝕜) = .ok [p]) →
      ∃ pss : List (List R), mapE (fun cs => fromCochainList cs >>= net.forward 𝕜) bss = .ok pss ∧
        pss.length = bss.length ∧
        mapE (fun c => fromCochainList [c] >>= net.forward 𝕜) bss.flatten = .ok (pss.flatten.map fun p => [p]) := by
    intro bss
    induction bss with
    | nil =>
      intro _ _ _
      exact ⟨[], rfl, rfl, rfl⟩
    | cons ds bss ih =>
      intro h1 h2 h3
      obtain ⟨pss, i1, i2, i3⟩ := ih (fun ds hd => h1 ds (by simp [hd])) (fun c hc => h2 c (by simp_all))
        (fun c hc => h3 c (by simp_all))
      obtain ⟨ps, j1, j2⟩ := hsing ds fun c hc => h3 c (by simp [hc])
      refine ⟨ps :: pss, ?_, by simp [i2], ?_⟩
      · rw [mapE_cons, C84_batches net ds (h1 ds (by simp)) (fun c hc => h2 c (by simp [hc])) ps j1, ok_bind, i1]
        rfl
      · rw [List.flatten_cons, mapE_append, j2, ok_bind, i3]
        simp
  obtain ⟨pss, b1, b2, b3⟩ := hbat bss hb (by rw [hfl]; exact he) (by rw [hfl]; exact hp)
  have hbne : bss ≠ [] := by
    rintro rfl
    exact hne hfl.symm
  have g1 : pss.isEmpty = false := by
    rw [List.isEmpty_eq_false_iff]
    rintro rfl
    exact hbne (List.length_eq_zero_iff.mp b2.symm)
  rw [hfl] at b3
  have g2 : (pss.flatten.map fun p => [p]).isEmpty = false := by
    rw [List.isEmpty_eq_false_iff]
    intro h0
    rw [h0] at b3
    have := mapE_length b3
    exact hne (List.length_eq_zero_iff.mp this.symm)
  have g3 : (pss.flatten.map fun p => [p]).flatten = pss.flatten := by
    induction pss.flatten with
    | nil => rfl
    | cons a l ih => simp [ih]
  unfold orientBatchTest
  rw [b1, ok_bind, g1]
  show (mapE _ _ >>= _) = _
  rw [b3, ok_bind, g2]
  show (pyAssert _ >>= _) = _
  rw [g3, decide_eq_true rfl, decide_eq_true rfl]
  rfl

end nets

/-! ### Examples -/

section Examples

/-- The matrices of the test (mp/test_orientation.py:14-30). -/
def slideB1 : Mat where
  rows := 5
  cols := 6
  entry i j := (([[-1, -1, 0, 0, 0, 0], [1, 0, -1, 0, 0, 1], [0, 1, 0, -1, 0, -1], [0, 0, 1, 1, -1, 0],
    [0, 0, 0, 0, 1, 0]] : List (List Int)).getD i []).getD j 0

def slideB2 : Mat where
  rows := 6
  cols := 2
  entry i j := (([[-1, 0], [1, 0], [0, 1], [0, -1], [0, 0], [1, 1]] : List (List Int)).getD i []).getD j 0

/-- The features and the reversed edges of the test (mp/test_orientation.py:32-34). -/
def slideX : List ℚ := [1, 0, 0, 1, 1, -1]

def slideT : List Int := [1, 1, 1, 1, -1, -1]

theorem slide_fits : FitEdges slideB1 slideB2 slideX.length where
  cols := rfl
  rows := rfl
  lower i j hi hj := (by decide +kernel : ∀ i < 6, ∀ j < 6, i ≠ j →
    common slideB1 i j = 0 ∨ common slideB1 i j = 1 ∨ common slideB1 i j = -1) i hi j hj
  upper i j hi hj := (by decide +kernel : ∀ i < 6, ∀ j < 6, i ≠ j →
    common slideB2.transpose i j = 0 ∨ common slideB2.transpose i j = 1 ∨ common slideB2.transpose i j = -1) i hi j hj

theorem slide_meets : SomeMeet slideB1 ∧ SomeMeet slideB2.transpose :=
  ⟨⟨0, 1, by decide, by decide, by decide, by decide⟩, ⟨0, 1, by decide, by decide, by decide, by decide⟩⟩

theorem slide_signs : IsSigns slideT slideX.length := ⟨rfl, by decide⟩

/-- An oriented level with given activation. -/
def levelQ (act : ℚ → ℚ) (orient : Bool) : OrientedLevel ℚ where
  updateUp r := 2 * r
  updateDown r := -3 * r
  update r := 5 * r
  act := act
  orient := orient

/-- Networks as in the tests, with two layers. -/
def testNet (act : ℚ → ℚ) (invar : Bool) : OrientNet ℚ where
  convs := [levelQ act !invar, levelQ act !invar]
  fullyInvar := invar
  abs r := |r|
  relu r := max r 0
  lin1 r := 2 * r + 1
  lin2 r := r - 4

theorem testNet_runs (act : ℚ → ℚ) (invar : Bool) : (testNet act invar).Runs := ⟨by simp [testNet], .inl rfl⟩

theorem levelQ_odd : (levelQ id true).Equivariant where
  orient := rfl
  up r := by show (2 : ℚ) * -r = -(2 * r); ring
  down r := by show (-3 : ℚ) * -r = -(-3 * r); ring
  update r := by show (5 : ℚ) * -r = -(5 * r); ring
  act r := rfl

example := C113_convolution_test rowMajorLib rowMajorLib_correct slideB1 slideB2 slideX slide_fits slideT slide_signs 0
  (levelQ id true) rfl

example := C113_what_the_tests_compare (𝕜 := ℚ) rowMajorLib rowMajorLib_correct slideB1 slideB2 slideX slide_fits
  slide_meets.1 slide_meets.2 slideT slide_signs 0 (testNet (fun r => max r 0) false) (testNet_runs _ _)

example := C113_equivariance_tests (𝕜 := ℚ) rowMajorLib rowMajorLib_correct slideB1 slideB2 slideX slide_fits
  slide_meets.1 slide_meets.2 slideT slide_signs 0 (testNet id false) (testNet_runs _ _) rfl
  (by intro l hl; simp [testNet] at hl; rw [hl]; exact levelQ_odd) (fun r => abs_neg r)

example := C113_invariance_test (𝕜 := ℚ) rowMajorLib rowMajorLib_correct slideB1 slideB2 slideX slide_fits
  slide_meets.1 slide_meets.2 slideT slide_signs 0 (testNet (fun r => max r 0) true) (testNet_runs _ _) rfl
  (by intro l hl; simp [testNet] at hl; rw [hl]; rfl) (fun r => abs_neg r)

/-- Cochains with different columns do not get past the first two assertions. -/
example : sameIndices (R := ℚ) (L := Nat) ({ dim := 1, lowerIndex := some [(0, 1)] }, { dim := 1 }) = .error .assertion ∧
    sameIndices (R := ℚ) (L := Nat) ({ dim := 1 }, { dim := 1, upperIndex := some [(0, 1)] }) = .error .assertion := by
  decide +kernel

/-- A dead network. -/
example := C113_relu_test_fails (𝕜 := ℚ) rowMajorLib rowMajorLib_correct slideB1 slideB2 slideX slide_fits
  slide_meets.1 slide_meets.2 slideT slide_signs 0 (testNet (fun _ => 0) false) (testNet_runs _ _)
  (.inr ⟨levelQ (fun _ => 0) true, rfl, fun _ => rfl⟩)

/-- The tests on the complex of the code: with `relu` the test for equivariance fails and the other passes, with `id` it
is the other way around, and a convolution that does not use orientations fails. -/
example :
    orientNetTest ℚ rowMajorLib slideB1 slideB2 slideT slideX 0 (testNet (fun r => max r 0) false) = .error .assertion ∧
    orientReluTest ℚ rowMajorLib slideB1 slideB2 slideT slideX 0 (testNet (fun r => max r 0) false) = .ok () ∧
    orientNetTest ℚ rowMajorLib slideB1 slideB2 slideT slideX 0 (testNet id false) = .ok () ∧
    orientReluTest ℚ rowMajorLib slideB1 slideB2 slideT slideX 0 (testNet id false) = .error .assertion ∧
    orientMPNNTest ℚ rowMajorLib slideB1 slideB2 slideT slideX 0 (testNet id true) = .ok () ∧
    orientMPNNTest ℚ rowMajorLib slideB1 slideB2 slideT slideX 0 (testNet id false) = .error .assertion ∧
    orientConvTest rowMajorLib slideB1 slideB2 slideT slideX 0 (levelQ id true) = .ok () ∧
    orientConvTest rowMajorLib slideB1 slideB2 slideT slideX 0 (levelQ id false) = .error .assertion := by
  decide +kernel

open Fixtures in
/-- Two flows in one batch, and in two. -/
example : orientBatchTest ℚ orientQ [flowsQ] flowsQ = .ok () ∧
    orientBatchTest ℚ orientQ (chunks 1 flowsQ) flowsQ = .ok () := by
  have hE : ∀ c ∈ flowsQ, EdgeOnly c := by
    intro c hc
    simp only [flowsQ, List.mem_cons, List.not_mem_nil, or_false] at hc
    rcases hc with rfl | rfl <;> exact ⟨rfl, rfl, rfl⟩
  have hP : ∀ c ∈ flowsQ, ∃ p, (fromCochainList [c] >>= orientQ.forward ℚ) = .ok [p] := by
    intro c hc
    simp only [flowsQ, List.mem_cons, List.not_mem_nil, or_false] at hc
    rcases hc with rfl | rfl
    · exact ⟨31104829999993091267 / 531441, by decide +kernel⟩
    · exact ⟨308285637622517 / 531441, by decide +kernel⟩
  exact ⟨C113_batching_test (𝕜 := ℚ) orientQ flowsQ (by simp [flowsQ]) hE hP [flowsQ] (by simp [flowsQ]) (by simp),
    C113_batching_test (𝕜 := ℚ) orientQ flowsQ (by simp [flowsQ]) hE hP (chunks 1 flowsQ) (by
      intro ds hds
      have h2 : chunks 1 flowsQ = flowsQ.map fun c => [c] := rfl
      rw [h2, List.mem_map] at hds
      obtain ⟨c, -, rfl⟩ := hds
      simp) rfl⟩

/-- No items. -/
example : orientBatchTest ℚ (testNet id false) [] ([] : List (Cochain ℚ Nat)) = .error .runtime := rfl

end Examples

end Verif
