import Verif.FixturesLift
import Verif.Lemmas.Cycles

/-!
# A cycle search that meets its contract, used by the examples beside the theorems
-/

namespace Verif.Fixtures

open Verif

/-- The lists of length `k` with elements of `l`. -/
def tuples (l : List Nat) : Nat → List (List Nat)
  | 0 => [[]]
  | k + 1 => (tuples l k).flatMap fun t => l.map fun v => v :: t

theorem mem_tuples {l : List Nat} {k : Nat} {t : List Nat} :
    t ∈ tuples l k ↔ t.length = k ∧ ∀ v ∈ t, v ∈ l := by
  induction k generalizing t with
  | zero =>
    simp only [tuples, List.mem_singleton]
    constructor
    · rintro rfl; simp
    · rintro ⟨h, -⟩; exact List.length_eq_zero_iff.mp h
  | succ k ih =>
    simp only [tuples, List.mem_flatMap, List.mem_map]
    constructor
    · rintro ⟨t', h1, v, h2, rfl⟩
      obtain ⟨h3, h4⟩ := ih.mp h1
      refine ⟨by simp [h3], fun w hw => ?_⟩
      rcases List.mem_cons.mp hw with rfl | hw
      · exact h2
      · exact h4 w hw
    · rintro ⟨h1, h2⟩
      cases t with
      | nil => simp at h1
      | cons v t =>
        refine ⟨t, ih.mpr ⟨by simpa using h1, fun w hw => h2 w (by simp [hw])⟩, v, h2 v (by simp), rfl⟩

/-- Whether a list is an induced cycle. -/
def ringCheck (edges : List (Nat × Nat)) (r : List Nat) : Bool :=
  decide (3 ≤ r.length) && decide r.Nodup &&
    (List.range r.length).all fun i => (List.range r.length).all fun j =>
      decide (Joined edges (r.getD i 0) (r.getD j 0) ↔ Follows r.length i j ∨ Follows r.length j i)

theorem ringCheck_iff {edges : List (Nat × Nat)} {r : List Nat} : ringCheck edges r = true ↔ IsRing edges r := by
  unfold ringCheck
  simp only [Bool.and_eq_true, decide_eq_true_eq, List.all_eq_true, List.mem_range]
  constructor
  · rintro ⟨⟨h1, h2⟩, h3⟩
    refine ⟨h1, h2, fun i j u v hi hj => ?_⟩
    have := h3 i (lt_of_get hi) j (lt_of_get hj)
    rwa [List.getD_eq_getElem?_getD, List.getD_eq_getElem?_getD, hi, hj] at this
  · intro h
    refine ⟨⟨h.long, h.nodup⟩, fun i hi j hj => ?_⟩
    rw [List.getD_eq_getElem?_getD, List.getD_eq_getElem?_getD, List.getElem?_eq_getElem hi,
      List.getElem?_eq_getElem hj]
    exact h.joined i j _ _ (List.getElem?_eq_getElem hi) (List.getElem?_eq_getElem hj)

/-- A straightforward search; sets are iterated in the order of insertion. -/
def plainRings : RingLib where
  isos := fun edges k => (tuples (edges.map Prod.fst ++ edges.map Prod.snd).dedup k).filter (ringCheck edges)
  order := id

/-- The contract of graph-tool can be met. -/
theorem plainRings_ok : plainRings.Ok where
  order := fun l => List.Perm.refl l
  isos := fun edges k r _ => by
    simp only [plainRings, List.mem_filter, mem_tuples, ringCheck_iff]
    constructor
    · rintro ⟨⟨h1, -⟩, h2⟩; exact ⟨h1, h2⟩
    · rintro ⟨h1, h2⟩
      refine ⟨⟨h1, fun v hv => ?_⟩, h2⟩
      obtain ⟨i, hi⟩ := List.mem_iff_getElem?.mp hv
      obtain ⟨m, hm, hf⟩ := follows_exists (lt_of_get hi)
      have hj := (h2.joined i m v _ hi (List.getElem?_eq_getElem hm)).mpr (.inl hf)
      rw [List.mem_dedup, List.mem_append, List.mem_map, List.mem_map]
      rcases hj.2 with h | h
      · exact .inl ⟨_, h, rfl⟩
      · exact .inr ⟨_, h, rfl⟩

/-- A square and a triangle on one of its sides, each edge in both directions. -/
def shed : List (Nat × Nat) :=
  [(0, 1), (1, 0), (1, 2), (2, 1), (2, 3), (3, 2), (3, 0), (0, 3), (2, 4), (4, 2), (3, 4), (4, 3)]

theorem shed_in : EdgesIn shed 5 := by unfold EdgesIn shed; decide

theorem shed_noLoops : NoLoops shed := by unfold NoLoops shed; decide

/-- Features of the edges of the shed, the same in both directions. -/
def shedAttr : List Nat := [10, 10, 12, 12, 23, 23, 30, 30, 24, 24, 34, 34]

end Verif.Fixtures
