import Verif.Lemmas.CountRings
import Verif.Props.Rings

/-!
# C54: the statistics of rings
-/

namespace Verif

/-- **C54** The counts of one graph: for every size from three to the bound, in this order, the number of vertex sets
of that size that carry an induced cycle. -/
theorem C54_counts_of_a_graph (lib : RingLib) (hl : lib.Ok) (edges : List (Nat × Nat)) (maxRing : Nat) :
    getRingCountForGraph lib maxRing (List.range' 3 (maxRing - 2)) edges =
      .ok ((List.range' 3 (maxRing - 2)).map fun k => (k, ringCount edges k)) := by
  unfold getRingCountForGraph
  rw [Dict.foldl_set_table (List.nodup_range'), countRing_table (List.nodup_range') _ _ fun _ => 0]
  · congr 1
    apply List.map_congr_left
    intro k hk
    have := List.mem_range'_1.mp hk
    rw [Nat.zero_add, rings_of_length hl edges (by omega)]
  · intro r hr
    obtain ⟨h1, h2⟩ := getRings_ring hl hr
    have := h1.long
    exact List.mem_range'_1.mpr (by omega)

example := C54_counts_of_a_graph Fixtures.plainRings Fixtures.plainRings_ok Fixtures.shed 5

/-- The square with a triangle on one side has one ring of length 3 and one of length 4. -/
example : getRingCountForGraph Fixtures.plainRings 5 [3, 4, 5] Fixtures.shed = .ok [(3, 1), (4, 1), (5, 0)] := by
  decide +kernel

/-- **C54** The counts of a graph over all sizes add up to the number of rings found. -/
theorem C54_counts_add_up (lib : RingLib) (hl : lib.Ok) (edges : List (Nat × Nat)) (maxRing : Nat) :
    ∃ counts, getRingCountForGraph lib maxRing (List.range' 3 (maxRing - 2)) edges = .ok counts ∧
      (counts.map Prod.snd).sum = (getRings lib edges maxRing).length := by
  refine ⟨_, C54_counts_of_a_graph lib hl edges maxRing, ?_⟩
  rw [List.map_map]
  have hsum : ∀ (keys : List Nat) (rings : List (List Nat)), keys.Nodup → (∀ r ∈ rings, r.length ∈ keys) →
      (keys.map fun k => (rings.filter fun r => decide (r.length = k)).length).sum = rings.length := by
    intro keys rings hnd hk
    induction rings with
    | nil => simp
    | cons r rings ih =>
      have ih' := ih fun r' h' => hk r' (by simp [h'])
      have hr := hk r (by simp)
      rw [List.length_cons, ← ih']
      clear ih ih' hk
      induction keys with
      | nil => cases hr
      | cons a keys ih =>
        rw [List.nodup_cons] at hnd
        rw [List.map_cons, List.map_cons, List.sum_cons, List.sum_cons, List.filter_cons]
        by_cases h : r.length = a
        · rw [if_pos (by simpa using h), List.length_cons]
          have : (keys.map fun k => ((r :: rings).filter fun r => decide (r.length = k)).length) =
              keys.map fun k => (rings.filter fun r => decide (r.length = k)).length := by
            apply List.map_congr_left
            intro k hk
            rw [List.filter_cons, if_neg]
            simp only [decide_eq_true_eq]
            rintro rfl
            subst h
            exact hnd.1 hk
          rw [this]
          omega
        · rw [if_neg (by simpa using h), ih hnd.2 (by
            rcases List.mem_cons.mp hr with h' | h'
            · exact absurd h' h
            · exact h')]
          omega
  rw [← hsum (List.range' 3 (maxRing - 2)) (getRings lib edges maxRing) List.nodup_range' (by
    intro r hr
    obtain ⟨h1, h2⟩ := getRings_ring hl hr
    have := h1.long
    exact List.mem_range'_1.mpr (by omega))]
  congr 1
  apply List.map_congr_left
  intro k hk
  have := List.mem_range'_1.mp hk
  rw [rings_of_length hl edges (by omega)]
  rfl

example : (getRings Fixtures.plainRings Fixtures.shed 5).length = 1 + 1 + 0 := by decide +kernel

/-- **C54** The statistics of a split that is not empty: for every size the counts of its graphs, in their order. -/
theorem C54_counts_of_a_split (lib : RingLib) (hl : lib.Ok) (dataset : List (List (Nat × Nat))) (hne : dataset ≠ [])
    (maxRing : Nat) :
    getRingCounts lib dataset maxRing =
      .ok ((List.range' 3 (maxRing - 2)).map fun k => (k, dataset.map fun edges => ringCount edges k)) := by
  have hm : mapE (getRingCountForGraph lib maxRing (List.range' 3 (maxRing - 2))) dataset =
      .ok (dataset.map fun edges => (List.range' 3 (maxRing - 2)).map fun k => (k, ringCount edges k)) := by
    rw [mapE_eq_ok_iff]
    clear hne
    induction dataset with
    | nil => exact .nil
    | cons e es ih => exact .cons (C54_counts_of_a_graph lib hl e maxRing) ih
  unfold getRingCounts
  rw [hm, ok_bind, combineAllCards_table List.nodup_range' dataset hne]

example := C54_counts_of_a_split Fixtures.plainRings Fixtures.plainRings_ok
  [Fixtures.shed, [(0, 1), (1, 2), (0, 2)]] (by simp) 5

example : getRingCounts Fixtures.plainRings [Fixtures.shed, [(0, 1), (1, 2), (0, 2)]] 5 =
    .ok [(3, [1, 1]), (4, [1, 0]), (5, [0, 0])] := by decide +kernel

/-- **C54** An empty split ends in an `IndexError`. -/
theorem C54_empty_split (lib : RingLib) (maxRing : Nat) : getRingCounts lib [] maxRing = .error .index := rfl

/-- **C54** The statistics of the whole dataset: for every size the counts of the graphs of the training, validation
and test set, one after the other; the same as those of the three sets put together. -/
theorem C54_counts_of_the_dataset (lib : RingLib) (hl : lib.Ok) (maxRing : Nat) (train val : List (List (Nat × Nat)))
    (test : Option (List (List (Nat × Nat)))) (h1 : train ≠ []) (h2 : val ≠ []) (h3 : test ≠ some []) :
    ∃ trainStats valStats testStats all, ringStatistics lib maxRing train val test =
        .ok (trainStats, valStats, testStats, all) ∧
      all = (List.range' 3 (maxRing - 2)).map (fun k =>
        (k, (train ++ val ++ test.getD []).map fun edges => ringCount edges k)) ∧
      getRingCounts lib (train ++ val ++ test.getD []) maxRing = .ok all ∧
      ∀ k, 3 ≤ k → k ≤ maxRing → ∃ a b c, Dict.get? trainStats k = some a ∧ Dict.get? valStats k = some b ∧
        (testStats.map fun s => Dict.get? s k) = (test.map fun _ => some c).toList ∧
        Dict.get? all k = some (a ++ b ++ (test.map fun _ => c).getD []) := by
  have hget : ∀ (k : Nat) (f : Nat → List Nat), 3 ≤ k → k ≤ maxRing →
      Dict.get? ((List.range' 3 (maxRing - 2)).map fun k => (k, f k)) k = some (f k) := by
    intro k f ha hb
    rw [Dict.get?_table, if_pos (List.mem_range'_1.mpr (by omega))]
  have hall := C54_counts_of_a_split lib hl (train ++ val ++ test.getD []) (by simp [h1]) maxRing
  unfold ringStatistics
  rw [C54_counts_of_a_split lib hl train h1, ok_bind, C54_counts_of_a_split lib hl val h2, ok_bind]
  cases test with
  | none =>
    show ∃ trainStats valStats testStats all, (combineAllCounts _ >>= _) = _ ∧ _
    have hc := combineAllCounts_table (keys := List.range' 3 (maxRing - 2)) List.nodup_range'
      [fun k => train.map fun edges => ringCount edges k, fun k => val.map fun edges => ringCount edges k]
      (by simp)
    rw [List.append_nil]
    rw [show [_, _] = _ from rfl] at hc
    simp only [List.map_cons, List.map_nil] at hc
    rw [hc, ok_bind]
    refine ⟨_, _, _, _, rfl, ?_, ?_, ?_⟩
    · simp
    · rw [hall]
      simp
    · intro k ha hb
      exact ⟨_, _, [], hget k _ ha hb, hget k _ ha hb, rfl, by rw [hget k _ ha hb]; simp⟩
  | some test =>
    have h3' : test ≠ [] := fun e => h3 (by rw [e])
    have ht : testStats lib maxRing (some test) = .ok [(List.range' 3 (maxRing - 2)).map fun k =>
        (k, test.map fun edges => ringCount edges k)] := by
      show (getRingCounts lib test maxRing).map _ = _
      rw [C54_counts_of_a_split lib hl test h3']
      rfl
    rw [ht, ok_bind]
    have hc := combineAllCounts_table (keys := List.range' 3 (maxRing - 2)) List.nodup_range'
      [fun k => train.map fun edges => ringCount edges k, fun k => val.map fun edges => ringCount edges k,
        fun k => test.map fun edges => ringCount edges k] (by simp)
    simp only [List.map_cons, List.map_nil] at hc
    rw [List.cons_append, List.cons_append, List.nil_append, hc, ok_bind]
    refine ⟨_, _, _, _, rfl, ?_, ?_, ?_⟩
    · simp
    · rw [hall]
      simp
    · intro k ha hb
      refine ⟨_, _, test.map fun edges => ringCount edges k, hget k _ ha hb, hget k _ ha hb, ?_, ?_⟩
      · simp [hget k _ ha hb]
      · rw [hget k _ ha hb]
        simp

example := C54_counts_of_the_dataset Fixtures.plainRings Fixtures.plainRings_ok 5
  [Fixtures.shed, [(0, 1), (1, 2), (0, 2)]] [Fixtures.shed] (some [[(0, 1)]]) (by simp) (by simp) (by simp)

/-- **C54** Isomorphic graphs have the same counts. -/
theorem C54_isomorphic_graphs (lib lib' : RingLib) (hl : lib.Ok) (hl' : lib'.Ok) {A L : Type} (G H : FGraph A L)
    (hG : G.Ok) (hH : H.Ok) (hiso : FGraph.Iso G H) (maxRing : Nat) :
    getRingCountForGraph lib maxRing (List.range' 3 (maxRing - 2)) G.edges =
      getRingCountForGraph lib' maxRing (List.range' 3 (maxRing - 2)) H.edges := by
  obtain ⟨hsz, π, hπ⟩ := hiso
  rw [C54_counts_of_a_graph lib hl, C54_counts_of_a_graph lib' hl']
  congr 1
  apply List.map_congr_left
  intro k _
  rw [ringCount_iso hπ hG.edges (hsz ▸ hH.edges)]

example := C54_isomorphic_graphs Fixtures.plainRings Fixtures.plainRings Fixtures.plainRings_ok Fixtures.plainRings_ok
  Fixtures.kiteG Fixtures.kiteH Fixtures.kiteG_ok Fixtures.kiteH_ok Fixtures.kite_iso 5

/-- The square with a triangle on one side has one ring of each size; a triangle alone has one. -/
example : (ringStatistics Fixtures.plainRings 5 [Fixtures.shed, [(0, 1), (1, 2), (0, 2)]] [Fixtures.shed]
      (some [[(0, 1)]])).map (fun s => (s.1, s.2.2.2)) =
    .ok ([(3, [1, 1]), (4, [1, 0]), (5, [0, 0])], [(3, [1, 1, 1, 0]), (4, [1, 0, 1, 0]), (5, [0, 0, 0, 0])]) := by
  decide +kernel

end Verif
