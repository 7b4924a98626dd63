import Verif.Model.Rings

/-!
# Counting rings (exp/count_rings.py)
-/

namespace Verif

/-- `rings_per_graph[k] += 1` (exp/count_rings.py:23-25). -/
def countRing (counts : Dict Nat Nat) (ring : List Nat) : Py (Dict Nat Nat) := do
  let c ← Dict.get counts ring.length
  return Dict.set counts ring.length (c + 1)

/-- `get_ring_count_for_graph` (exp/count_rings.py:20-26). -/
def getRingCountForGraph (lib : RingLib) (maxRing : Nat) (keys : List Nat) (edgeIndex : List (Nat × Nat)) :
    Py (Dict Nat Nat) :=
  foldE countRing (keys.foldl (fun d k => Dict.set d k 0) []) (getRings lib edgeIndex maxRing)

/-- `ring_cards[k].append(card[k])` (exp/count_rings.py:35). -/
def appendCount (card : Dict Nat Nat) (cards : Dict Nat (List Nat)) (k : Nat) : Py (Dict Nat (List Nat)) := do
  let l ← Dict.get cards k
  let c ← Dict.get card k
  return Dict.set cards k (l ++ [c])

/-- `combine_all_cards` (exp/count_rings.py:29-36). -/
def combineAllCards (cards : List (Dict Nat Nat)) : Py (Dict Nat (List Nat)) := do
  let first ← getAt cards 0
  let keys := first.map Prod.fst
  foldE (fun acc card => foldE (appendCount card) acc keys) (keys.foldl (fun d k => Dict.set d k []) []) cards

/-- `get_ring_counts` (exp/count_rings.py:39-50); joblib returns the results in the order of the graphs, for any
number of jobs. -/
def getRingCounts (lib : RingLib) (dataset : List (List (Nat × Nat))) (maxRing : Nat) :
    Py (Dict Nat (List Nat)) := do
  let cards ← mapE (getRingCountForGraph lib maxRing (List.range' 3 (maxRing - 2))) dataset
  combineAllCards cards

/-- `all_stats[k] += v` (exp/count_rings.py:62). -/
def extendCounts (all : Dict Nat (List Nat)) (kv : Nat × List Nat) : Py (Dict Nat (List Nat)) := do
  let l ← Dict.get all kv.1
  return Dict.set all kv.1 (l ++ kv.2)

/-- `combine_all_counts` (exp/count_rings.py:53-63). -/
def combineAllCounts (stats : List (Dict Nat (List Nat))) : Py (Dict Nat (List Nat)) := do
  let first ← getAt stats 0
  foldE (fun all stat => foldE extendCounts all stat) ((first.map Prod.fst).foldl (fun d k => Dict.set d k []) []) stats

/-- The statistics of the test set, if there is one (exp/count_rings.py:98-105). -/
def testStats (lib : RingLib) (maxRing : Nat) : Option (List (List (Nat × Nat))) → Py (List (Dict Nat (List Nat)))
  | none => .ok []
  | some test => (getRingCounts lib test maxRing).map fun s => [s]

/-- The statistics that `exp_main` prints (exp/count_rings.py:80-117), for the three splits one by one and for the
whole dataset; the printing itself and the loading of the dataset are left out. -/
def ringStatistics (lib : RingLib) (maxRing : Nat) (train val : List (List (Nat × Nat)))
    (test : Option (List (List (Nat × Nat)))) :
    Py (Dict Nat (List Nat) × Dict Nat (List Nat) × List (Dict Nat (List Nat)) × Dict Nat (List Nat)) := do
  let trainStats ← getRingCounts lib train maxRing
  let valStats ← getRingCounts lib val maxRing
  let test ← testStats lib maxRing test
  let all ← combineAllCounts ([trainStats, valStats] ++ test)
  return (trainStats, valStats, test, all)

end Verif
