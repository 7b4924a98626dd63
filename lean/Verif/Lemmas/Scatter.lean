import Verif.Model.MessagePassing

/-!
# Lemmas about scatter and propagation
-/

namespace Verif

variable {F A M : Type}

theorem scatterLoop_ok {buckets : List (List M)} {l : List (Nat × M)}
    (h : ∀ p ∈ l, p.1 < buckets.length) :
    scatterLoop buckets l = .ok ((List.range buckets.length).map fun c =>
      (buckets[c]?.getD []) ++ (l.filter (fun p => p.1 == c)).map Prod.snd) := by
  induction l generalizing buckets with
  | nil =>
    simp only [scatterLoop, List.filter_nil, List.map_nil, List.append_nil, ok_inj]
    apply List.ext_getElem?
    intro k
    by_cases hk : k < buckets.length
    · simp [List.getElem?_eq_getElem hk, List.getElem?_range hk]
    · simp [List.getElem?_eq_none (not_lt.mp hk), hk]
  | cons p l ih =>
    obtain ⟨i, m⟩ := p
    have hi : i < buckets.length := h (i, m) (by simp)
    simp only [scatterLoop, List.getElem?_eq_getElem hi]
    rw [ih (fun q hq => by rw [List.length_set]; exact h q (by simp [hq]))]
    rw [ok_inj, List.length_set]
    apply List.map_congr_left
    intro c hc
    rw [List.getElem?_set]
    by_cases hic : i = c
    · subst hic
      simp [hi, List.getElem?_eq_getElem hi]
    · simp [hic]

theorem scatterLoop_error {buckets : List (List M)} {l : List (Nat × M)}
    (h : ∃ p ∈ l, buckets.length ≤ p.1) : scatterLoop buckets l = .error .index := by
  induction l generalizing buckets with
  | nil => simp at h
  | cons p l ih =>
    obtain ⟨i, m⟩ := p
    unfold scatterLoop
    by_cases hi : i < buckets.length
    · rw [List.getElem?_eq_getElem hi]
      refine ih ?_
      obtain ⟨q, hq, hlq⟩ := h
      rcases List.mem_cons.mp hq with rfl | hq
      · simp only at hlq; omega
      · exact ⟨q, hq, by rw [List.length_set]; exact hlq⟩
    · rw [List.getElem?_eq_none (not_lt.mp hi)]

/-- What scatter computes when all indices are in range. -/
theorem scatter_ok {agg : List M → M} {n : Nat} {idx : List Nat} {src : List M}
    (hl : idx.length = src.length) (h : ∀ i ∈ idx, i < n) :
    scatter agg n idx src = .ok ((List.range n).map fun c =>
      agg (((idx.zip src).filter (fun p => p.1 == c)).map Prod.snd)) := by
  unfold scatter
  rw [if_pos hl, scatterLoop_ok]
  · simp only [ok_bind, List.length_replicate, pure_eq_ok, List.map_map, ok_inj]
    apply List.map_congr_left
    intro c hc
    have : (List.replicate n ([] : List M))[c]?.getD [] = [] := by
      rw [List.getElem?_replicate]; split <;> rfl
    simp [this]
  · intro p hp
    rw [List.length_replicate]
    exact h p.1 (List.of_mem_zip hp).1

/-- A successful scatter had indices in range. -/
theorem scatter_inv {agg : List M → M} {n : Nat} {idx : List Nat} {src out : List M}
    (h : scatter agg n idx src = .ok out) : idx.length = src.length ∧ ∀ i ∈ idx, i < n := by
  unfold scatter at h
  by_cases hl : idx.length = src.length
  · refine ⟨hl, fun i hi => ?_⟩
    rw [if_pos hl] at h
    by_contra hni
    have : ∃ p ∈ idx.zip src, (List.replicate n ([] : List M)).length ≤ p.1 := by
      obtain ⟨k, hk, rfl⟩ := List.mem_iff_getElem.mp hi
      refine ⟨(idx[k], src[k]), ?_, by simpa using hni⟩
      rw [List.mem_iff_getElem]
      exact ⟨k, by simp [hk, ← hl], by simp⟩
    rw [scatterLoop_error this] at h
    simp at h
  · rw [if_neg hl] at h; simp at h

theorem msg_apply_length {msg : Msg F A M} {xs : List F} {as : Option (List A)} {out : List M}
    (h : msg.apply xs as = .ok out) : out.length = xs.length := by
  have hz : ∀ (f : F → A → M) (as : List A), Msg.zipAttr f xs as = .ok out →
      out.length = xs.length := by
    intro f as h
    unfold Msg.zipAttr at h
    split at h
    · rename_i hl; cases h; simp [hl]
    · simp at h
  cases msg with
  | plain f => cases h; simp
  | withAttr f =>
    cases as with
    | none => simp [Msg.apply] at h
    | some as => exact hz f as h
  | optAttr f g =>
    cases as with
    | none => cases h; simp
    | some as => exact hz g as h

end Verif
