import Verif.Model.Flow
import Verif.Lemmas.Lists
import Verif.Lemmas.Cochains
import Mathlib.Data.List.Basic

/-!
# Lemmas about cutting holes
-/

namespace Verif

variable {P A : Type}

theorem descending_succ (n : Nat) (removed : List Nat) :
    descending (n + 1) removed =
      if removed.contains n = true then n :: descending n removed else descending n removed := by
  unfold descending
  rw [List.range_succ, List.filter_append, List.reverse_append]
  by_cases h : removed.contains n = true
  · rw [if_pos h, List.filter_cons_of_pos (by simpa using h)]
    rfl
  · rw [if_neg h, List.filter_cons_of_neg (by simpa using h)]
    rfl

/-- The number of vertices below `v` that stay. -/
def rank (removed : List Nat) (v : Nat) : Nat := ((List.range v).filter fun i => !removed.contains i).length

theorem rank_succ (removed : List Nat) (v : Nat) :
    rank removed (v + 1) = if removed.contains v = true then rank removed v else rank removed v + 1 := by
  unfold rank
  rw [List.range_succ, List.filter_append]
  by_cases h : removed.contains v = true
  · rw [if_pos h, List.filter_cons_of_neg (by simpa using h)]
    simp
  · rw [if_neg h, List.filter_cons_of_pos (by simpa using h)]
    simp

theorem renumber_above (removed : List Nat) (n w : Nat) (h : n ≤ w) :
    (descending n removed).foldl (fun w r => if r ≤ w then w - 1 else w) w + n = w + rank removed n := by
  induction n generalizing w with
  | zero => rfl
  | succ n ih =>
    rw [descending_succ, rank_succ]
    split
    · rw [List.foldl_cons, if_pos (by omega)]
      have := ih (w - 1) (by omega)
      omega
    · have := ih w (by omega)
      omega

theorem renumber_eq {removed : List Nat} {n v : Nat} (hv : v < n) (hr : v ∉ removed) :
    shiftVertex n removed v = rank removed v := by
  unfold shiftVertex
  induction n with
  | zero => omega
  | succ n ih =>
    rw [descending_succ]
    by_cases hn : v = n
    · subst hn
      rw [if_neg (by simpa using hr)]
      have := renumber_above removed v v (by omega)
      omega
    · split
      · rw [List.foldl_cons, if_neg (by omega)]
        exact ih (by omega)
      · exact ih (by omega)

theorem rank_lt {removed : List Nat} {u v : Nat} (hu : u ∉ removed) (h : u < v) :
    rank removed u < rank removed v := by
  induction v with
  | zero => omega
  | succ v ih =>
    rw [rank_succ]
    by_cases he : u = v
    · subst he
      rw [if_neg (by simpa using hu)]
      omega
    · have := ih (by omega)
      split <;> omega

theorem filter_get {p : A → Bool} {l : List A} {i : Nat} {a : A} (h : l[i]? = some a) (hp : p a = true) :
    (l.filter p)[((l.take i).filter p).length]? = some a := by
  have hi := lt_of_get h
  have hl : l = l.take i ++ a :: l.drop (i + 1) := by
    rw [List.getElem?_eq_getElem hi, Option.some.injEq] at h
    subst h
    simp
  have hf := congrArg (List.filter p) hl
  rw [hf, List.filter_append, List.filter_cons_of_pos hp, List.getElem?_append_right (by omega), Nat.sub_self]
  rfl

theorem rank_eq_take {points : List P} {removed : List Nat} {v : Nat} (hv : v ≤ points.length) :
    ((points.zipIdx.take v).filter fun p => !removed.contains p.2).length = rank removed v := by
  unfold rank
  have hmap : (points.zipIdx.take v).map Prod.snd = List.range v := by
    rw [List.map_take, List.zipIdx_map_snd, ← List.range_eq_range', List.take_range, Nat.min_eq_left hv]
  rw [← hmap, List.filter_map, List.length_map]
  rfl

/-- The points that stay, at their new places. -/
theorem kept_point {points : List P} {removed : List Nat} {v : Nat} {p : P} (h : points[v]? = some p)
    (hr : v ∉ removed) :
    ((points.zipIdx.filter fun p => !removed.contains p.2).map Prod.fst)[rank removed v]? = some p := by
  have hv := lt_of_get h
  have hz : points.zipIdx[v]? = some (p, v) := by
    rw [List.getElem?_zipIdx, h]
    simp
  have := filter_get (p := fun p : P × Nat => !removed.contains p.2) hz (by simpa using hr)
  rw [rank_eq_take (by omega)] at this
  rw [List.getElem?_map, this]
  rfl

/-- Every point that stays is at the new place of some vertex that stays. -/
theorem kept_place {points : List P} {removed : List Nat} {i : Nat}
    (hi : i < ((points.zipIdx.filter fun p => !removed.contains p.2).map Prod.fst).length) :
    ∃ v, v < points.length ∧ v ∉ removed ∧ rank removed v = i := by
  rw [List.length_map] at hi
  obtain ⟨⟨p, v⟩, hp⟩ : ∃ q, (points.zipIdx.filter fun p => !removed.contains p.2)[i]? = some q :=
    ⟨_, List.getElem?_eq_getElem hi⟩
  have hmem := List.mem_of_getElem? hp
  rw [List.mem_filter] at hmem
  obtain ⟨h1, h2⟩ := hmem
  have hz : points[v]? = some p := List.mem_zipIdx_iff_getElem?.mp h1
  have hv := lt_of_get hz
  have hr : v ∉ removed := by simpa using h2
  refine ⟨v, hv, hr, ?_⟩
  have hz' : points.zipIdx[v]? = some (p, v) := by
    rw [List.getElem?_zipIdx, hz]
    simp
  have h3 := filter_get (p := fun p : P × Nat => !removed.contains p.2) hz' (by simpa using hr)
  rw [rank_eq_take (by omega)] at h3
  have hnd : (points.zipIdx.filter fun p => !removed.contains p.2).Nodup := by
    apply List.Nodup.filter
    apply List.Nodup.of_map Prod.snd
    rw [List.zipIdx_map_snd]
    exact List.nodup_range'
  have l1 := lt_of_get h3
  rw [List.getElem?_eq_getElem l1, Option.some.injEq] at h3
  rw [List.getElem?_eq_getElem hi, Option.some.injEq] at hp
  exact (List.Nodup.getElem_inj_iff hnd (hi := l1) (hj := hi)).mp (h3.trans hp.symm)

/-- What a scan over the triangles records. -/
theorem scan_eq {points : List P} {inside : P → Bool} {triangles : List Tri}
    (h : ∀ t ∈ triangles, ∀ v ∈ t.corners, v < points.length) :
    ∃ kept hit, foldE (scanTriangle points inside) ([], []) triangles = .ok (kept, hit) ∧
      kept = triangles.filter (fun t => t.corners.all fun v => !(points[v]?.any inside)) ∧
      (∀ v, v ∈ hit ↔ ∃ t ∈ triangles, v ∈ t.corners ∧ ∃ p, points[v]? = some p ∧ inside p = true) := by
  obtain ⟨⟨kept, hit⟩, h1, h2, h3⟩ := foldE_inv (f := scanTriangle points inside) (l := triangles) (s := ([], []))
    (fun pre st => st.1 = pre.filter (fun t => t.corners.all fun v => !(points[v]?.any inside)) ∧
      ∀ v, v ∈ st.2 ↔ ∃ t ∈ pre, v ∈ t.corners ∧ ∃ p, points[v]? = some p ∧ inside p = true)
    ⟨rfl, by simp⟩ (by
      rintro pre t post ⟨kept, hit⟩ rfl ⟨i1, i2⟩
      have ht := h t (by simp)
      obtain ⟨a, b, c⟩ := t
      simp only [Tri.corners, List.mem_cons, List.not_mem_nil, or_false, forall_eq_or_imp, forall_eq] at ht
      obtain ⟨ha, hb, hc⟩ := ht
      have ea := List.getElem?_eq_getElem ha
      have eb := List.getElem?_eq_getElem hb
      have ec := List.getElem?_eq_getElem hc
      have hsel : indexSelect points (Tri.corners (a, b, c)) = .ok [points[a], points[b], points[c]] := by
        rw [indexSelect_eq_ok_iff]
        simp [Tri.corners, ea, eb, ec]
      refine ⟨_, by unfold scanTriangle; rw [hsel]; rfl, ?_, ?_⟩
      · simp only at i1 ⊢
        rw [List.filter_append, ← i1]
        simp only [Tri.corners, List.zip_cons_cons, List.zip_nil_right, List.filter_cons, List.all_cons, List.all_nil,
          ea, eb, ec, Option.any_some]
        cases inside points[a] <;> cases inside points[b] <;> cases inside points[c] <;> simp
      · intro v
        simp only at i2 ⊢
        rw [List.mem_append, i2]
        simp only [List.mem_append, List.mem_singleton, List.mem_map, List.mem_filter, Tri.corners,
          List.zip_cons_cons, List.zip_nil_right, List.mem_cons, List.not_mem_nil, or_false]
        constructor
        · rintro (⟨t, h1, h2⟩ | ⟨⟨w, p⟩, ⟨h1, h2⟩, rfl⟩)
          · exact ⟨t, .inl h1, h2⟩
          · refine ⟨(a, b, c), .inr rfl, ?_⟩
            simp only [Prod.mk.injEq] at h1
            rcases h1 with ⟨rfl, rfl⟩ | ⟨rfl, rfl⟩ | ⟨rfl, rfl⟩
            · exact ⟨.inl rfl, _, ea, h2⟩
            · exact ⟨.inr (.inl rfl), _, eb, h2⟩
            · exact ⟨.inr (.inr rfl), _, ec, h2⟩
        · rintro ⟨t, h1 | rfl, h2, p, h3, h4⟩
          · exact .inl ⟨t, h1, h2, p, h3, h4⟩
          · refine .inr ⟨(v, p), ⟨?_, h4⟩, rfl⟩
            simp only [Prod.mk.injEq]
            rcases h2 with rfl | rfl | rfl
            · rw [ea, Option.some.injEq] at h3; exact .inl ⟨rfl, h3.symm⟩
            · rw [eb, Option.some.injEq] at h3; exact .inr (.inl ⟨rfl, h3.symm⟩)
            · rw [ec, Option.some.injEq] at h3; exact .inr (.inr ⟨rfl, h3.symm⟩))
  exact ⟨kept, hit, h1, h2, h3⟩

/-- A scan fails when a corner is not a point. -/
theorem scan_error {points : List P} {inside : P → Bool} {triangles : List Tri} (st : List Tri × List Nat)
    (h : ¬ ∀ t ∈ triangles, ∀ v ∈ t.corners, v < points.length) :
    foldE (scanTriangle points inside) st triangles = .error .index := by
  induction triangles generalizing st with
  | nil => simp at h
  | cons t ts ih =>
    by_cases ht : ∀ v ∈ t.corners, v < points.length
    · have h' : ¬ ∀ t ∈ ts, ∀ v ∈ t.corners, v < points.length := by
        intro hall
        apply h
        intro t' ht' v hv
        rcases List.mem_cons.mp ht' with rfl | hm
        · exact ht v hv
        · exact hall t' hm v hv
      cases hs : scanTriangle points inside st t with
      | ok st' => simp only [foldE, hs, ok_bind]; exact ih st' h'
      | error e =>
        exfalso
        obtain ⟨a, b, c⟩ := t
        simp only [Tri.corners, List.mem_cons, List.not_mem_nil, or_false, forall_eq_or_imp, forall_eq] at ht
        have hsel : indexSelect points (Tri.corners (a, b, c)) = .ok [points[a]'ht.1, points[b]'ht.2.1, points[c]'ht.2.2] := by
          rw [indexSelect_eq_ok_iff]
          simp [Tri.corners, ht]
        unfold scanTriangle at hs
        rw [hsel] at hs
        simp at hs
    · have : scanTriangle points inside st t = .error .index := by
        obtain ⟨a, b, c⟩ := t
        have hsel : indexSelect points (Tri.corners (a, b, c)) = .error .index := by
          simp only [Tri.corners, List.mem_cons, List.not_mem_nil, or_false, forall_eq_or_imp, forall_eq] at ht
          simp only [Tri.corners, indexSelect, mapE_cons]
          by_cases ha : a < points.length
          · by_cases hb : b < points.length
            · by_cases hc : c < points.length
              · exact absurd ⟨ha, hb, hc⟩ ht
              · rw [List.getElem?_eq_getElem ha, List.getElem?_eq_getElem hb,
                  List.getElem?_eq_none (i := c) (by omega)]
                rfl
            · rw [List.getElem?_eq_getElem ha, List.getElem?_eq_none (i := b) (by omega)]
              rfl
          · rw [List.getElem?_eq_none (i := a) (by omega)]
            rfl
        unfold scanTriangle
        rw [hsel]
        rfl
      simp only [foldE, this, error_bind]

end Verif
