import Verif.Model.Dummies
import Verif.Spec.Dummies
import Verif.Lemmas.BatchView
import Verif.Lemmas.ComplexBatch

/-!
# Lemmas on the hand-made complexes
-/

namespace Verif

variable {F R L : Type}

/-- A check of what is said about the faces in dimension `d`. -/
def View.facesB (v : View R) (d : Nat) : Bool :=
  decide (v.bnd d).Nodup && decide (v.up d).Nodup && decide (v.down d).Nodup &&
  ((v.up d).all fun p => decide (p.1.1 ≠ p.1.2) && decide ((p.1.1, p.2) ∈ v.bnd (d + 1)) &&
    decide ((p.1.2, p.2) ∈ v.bnd (d + 1))) &&
  ((v.bnd (d + 1)).all fun p => (v.bnd (d + 1)).all fun q => decide (p.1 = q.1) || decide (p.2 ≠ q.2) ||
    decide (((p.1, q.1), p.2) ∈ v.up d)) &&
  ((v.down d).all fun p => decide (p.1.1 ≠ p.1.2) && decide ((p.2, p.1.1) ∈ v.bnd d) && decide ((p.2, p.1.2) ∈ v.bnd d)) &&
  ((v.bnd d).all fun p => (v.bnd d).all fun q => decide (p.2 = q.2) || decide (p.1 ≠ q.1) ||
    decide (((p.2, q.2), p.1) ∈ v.down d)) &&
  ((v.bnd d).all fun p => (v.bnd d).any fun q => decide (q.2 = p.2) && decide (q.1 ≠ p.1))

/-- A check of the closedness of the cells of dimension `d + 2`. -/
def View.closedB (v : View R) (d : Nat) : Bool :=
  (v.bnd (d + 2)).all fun p => (v.bnd (d + 1)).all fun q => decide (q.2 ≠ p.1) ||
    decide (((v.bnd (d + 2)).filter fun r => decide (r.2 = p.2) && decide ((q.1, r.1) ∈ v.bnd (d + 1))).length = 2)

/-- A check of the ends of the edges. -/
def View.endsB (v : View R) : Bool :=
  (List.range (v.X 1).length).all fun e => decide (((v.bnd 1).filter fun r => decide (r.2 = e)).length = 2)

/-- A check of `Complex.Sound`. -/
def Complex.soundB (comp : Complex R L) : Bool :=
  comp.validB && comp.cochains.all (fun c => c.x.isSome) && (comp.attr 0 Cochain.lowerIndex).isNone &&
  ((List.range (comp.dimension + 1)).all fun d => decide (0 < comp.cellsIn d) && comp.view.facesB d && comp.view.closedB d &&
    (List.range (comp.cellsIn (d + 1))).all fun c => (comp.view.bnd (d + 1)).any fun p => decide (p.2 = c)) &&
  comp.view.endsB

theorem two_of_length {A : Type} {l : List A} (hn : l.Nodup) (h : l.length = 2) :
    ∃ a b, a ≠ b ∧ l = [a, b] := by
  match l, h with
  | [a, b], _ => exact ⟨a, b, by simpa using hn, rfl⟩

/-- The first entries of the columns that end in `k` and satisfy `P`, if there are two such columns. -/
theorem two_columns {l : List (Nat × Nat)} (hn : l.Nodup) {k : Nat} {P : Nat → Prop} [DecidablePred P]
    (h : (l.filter fun r => decide (r.2 = k) && decide (P r.1)).length = 2) :
    ∃ b b', b ≠ b' ∧ ∀ a, (a, k) ∈ l ∧ P a ↔ a = b ∨ a = b' := by
  obtain ⟨p, q, hpq, hl⟩ := two_of_length (hn.filter _) h
  have hp : p ∈ l.filter fun r => decide (r.2 = k) && decide (P r.1) := by rw [hl]; simp
  have hq : q ∈ l.filter fun r => decide (r.2 = k) && decide (P r.1) := by rw [hl]; simp
  simp only [List.mem_filter, Bool.and_eq_true, decide_eq_true_eq] at hp hq
  refine ⟨p.1, q.1, fun e => hpq (Prod.ext e (by rw [hp.2.1, hq.2.1])), fun a => ?_⟩
  have : (a, k) ∈ l ∧ P a ↔ (a, k) ∈ l.filter fun r => decide (r.2 = k) && decide (P r.1) := by
    simp only [List.mem_filter, Bool.and_eq_true, decide_eq_true_eq, true_and]
  rw [this, hl]
  simp only [List.mem_cons, List.not_mem_nil, or_false, Prod.ext_iff, hp.2.1, hq.2.1, and_true]

theorem soundB_sound {comp : Complex R L} (h : comp.soundB = true) : comp.Sound := by
  simp only [Complex.soundB, Bool.and_eq_true, List.all_eq_true, List.mem_range, decide_eq_true_eq,
    Option.isNone_iff_eq_none] at h
  obtain ⟨⟨⟨⟨h1, h2⟩, h3⟩, h4⟩, h5⟩ := h
  have hv := validB_sound h1
  have hr : comp.Ready := ⟨hv, h2, h3⟩
  have hnil : ∀ d, comp.dimension < d → comp.view.bnd d = [] ∧ comp.view.up d = [] ∧ comp.view.down d = [] := by
    intro d hd
    obtain ⟨e, rfl⟩ : ∃ e, d = e + 1 := ⟨d - 1, by omega⟩
    have hn := absent_of_gt hv hd
    have hn' := absent_of_gt hv (d := e + 1 + 1) (by omega)
    refine ⟨?_, ?_, ?_⟩
    · show (comp.attr (e + 1) Cochain.boundaryIndex).getD [] = []
      rw [attr_none hn]; rfl
    · show (if (comp.cochains[e + 1 + 1]?).isSome then _ else []) = []
      rw [hn']; rfl
    · show ((comp.attr (e + 1) Cochain.lowerIndex).getD []).zip _ = []
      rw [attr_none hn]; rfl
  have hall : ∀ d, comp.view.facesB d = true ∧ comp.view.closedB d = true := by
    intro d
    by_cases hd : d < comp.dimension + 1
    · exact ⟨(h4 d hd).1.1.2, (h4 d hd).1.2⟩
    · obtain ⟨a1, a2, a3⟩ := hnil d (by omega)
      obtain ⟨b1, -, -⟩ := hnil (d + 1) (by omega)
      obtain ⟨c1, -, -⟩ := hnil (d + 2) (by omega)
      constructor
      · unfold View.facesB; rw [a1, a2, a3, b1]; simp
      · unfold View.closedB; rw [c1]; simp
  have hf : ∀ d, _ := fun d => by
    have := (hall d).1
    simp only [View.facesB, Bool.and_eq_true, List.all_eq_true, decide_eq_true_eq, Bool.or_eq_true, List.any_eq_true] at this
    exact this
  have hb : ∀ d, (comp.view.bnd d).Nodup := fun d => (hf d).1.1.1.1.1.1.1
  refine ⟨hr, fun d hd => (h4 d (by omega)).1.1.1, ⟨ready_inRange hr, hb, fun d => (hf d).1.1.1.1.1.1.2,
    fun d a b c => ⟨fun h => ?_, fun ⟨n1, n2, n3⟩ => ?_⟩, fun d => (hf d).1.1.1.1.1.2,
    fun d a b c => ⟨fun h => ?_, fun ⟨n1, n2, n3⟩ => ?_⟩, fun d b c hbc => ?_⟩, fun d c hc => ?_, fun e he => ?_, fun d k u hx => ?_⟩
  · have := (hf d).1.1.1.1.2 _ h
    exact ⟨this.1.1, this.1.2, this.2⟩
  · rcases (hf d).1.1.1.2 _ n2 _ n3 with (h | h) | h
    · exact absurd h n1
    · exact absurd rfl h
    · exact h
  · have := (hf d).1.1.2 _ h
    exact ⟨this.1.1, this.1.2, this.2⟩
  · rcases (hf d).1.2 _ n2 _ n3 with (h | h) | h
    · exact absurd h n1
    · exact absurd rfl h
    · exact h
  · obtain ⟨q, m, e1, e2⟩ := (hf d).2 _ hbc
    exact ⟨q.1, e2, by rw [← (show q.2 = c from e1)]; exact m⟩
  · have hd : d < comp.dimension + 1 := by
      by_contra hd
      unfold Complex.cellsIn at hc
      rw [absent_of_gt hv (by omega)] at hc
      exact absurd hc (by simp)
    have := (h4 d hd).2
    simp only [List.any_eq_true, decide_eq_true_eq] at this
    obtain ⟨p, hp, rfl⟩ := this c hc
    exact ⟨p.1, hp⟩
  · simp only [View.endsB, List.all_eq_true, List.mem_range, decide_eq_true_eq] at h5
    have := h5 e he
    obtain ⟨u, w, huw, hall'⟩ := two_columns (P := fun _ => True) (hb 1) (k := e) (by simpa using this)
    exact ⟨u, w, huw, fun z => by simpa using hall' z⟩
  · obtain ⟨b, x1, x2⟩ := hx
    have hc := (hall d).2
    simp only [View.closedB, List.all_eq_true, Bool.or_eq_true, decide_eq_true_eq] at hc
    rcases hc _ x1 _ x2 with h | h
    · exact absurd rfl h
    · exact two_columns (P := fun r => (u, r) ∈ comp.view.bnd (d + 1)) (hb (d + 2)) h

/-- A check of the features. -/
theorem rows_of {num : Nat → F} {comp : Complex F Int} {m : Nat} (hm : comp.dimension = m)
    (h : (List.range (m + 1)).map (fun d => comp.attr d Cochain.x) =
      (List.range (m + 1)).map fun d => some ((List.range (comp.cellsIn d)).map fun i => num (i + 1))) :
    ∀ d, d ≤ comp.dimension → comp.attr d Cochain.x = some ((List.range (comp.cellsIn d)).map fun i => num (i + 1)) := by
  intro d hd
  exact List.map_inj_left.mp h d (by rw [List.mem_range]; omega)

set_option maxRecDepth 100000

section
variable (num : Nat → F)

theorem house_built : ∃ c, houseComplex num = .ok c ∧ c.dimension = 2 ∧ Handmade num c ∧ (dropTwoFeatures c).validB = true :=
  ⟨_, rfl, rfl, ⟨soundB_sound rfl, rows_of rfl rfl, rfl⟩, rfl⟩
theorem bridged_built : ∃ c, bridgedComplex num = .ok c ∧ c.dimension = 2 ∧ Handmade num c ∧ (dropTwoFeatures c).validB = true :=
  ⟨_, rfl, rfl, ⟨soundB_sound rfl, rows_of rfl rfl, rfl⟩, rfl⟩
theorem fullstop_built : ∃ c, fullstopComplex num = .ok c ∧ c.dimension = 0 ∧ Handmade num c ∧ (dropTwoFeatures c).validB = true :=
  ⟨_, rfl, rfl, ⟨soundB_sound rfl, rows_of rfl rfl, rfl⟩, rfl⟩
theorem colon_built : ∃ c, colonComplex num = .ok c ∧ c.dimension = 0 ∧ Handmade num c ∧ (dropTwoFeatures c).validB = true :=
  ⟨_, rfl, rfl, ⟨soundB_sound rfl, rows_of rfl rfl, rfl⟩, rfl⟩
theorem square_built : ∃ c, squareComplex num = .ok c ∧ c.dimension = 1 ∧ Handmade num c ∧ (dropTwoFeatures c).validB = true :=
  ⟨_, rfl, rfl, ⟨soundB_sound rfl, rows_of rfl rfl, rfl⟩, rfl⟩
theorem squareDot_built :
    ∃ c, squareDotComplex num = .ok c ∧ c.dimension = 1 ∧ Handmade num c ∧ (dropTwoFeatures c).validB = true :=
  ⟨_, rfl, rfl, ⟨soundB_sound rfl, rows_of rfl rfl, rfl⟩, rfl⟩
theorem kite_built : ∃ c, kiteComplex num = .ok c ∧ c.dimension = 2 ∧ Handmade num c ∧ (dropTwoFeatures c).validB = true :=
  ⟨_, rfl, rfl, ⟨soundB_sound rfl, rows_of rfl rfl, rfl⟩, rfl⟩
theorem pyramid_built : ∃ c, pyramidComplex num = .ok c ∧ c.dimension = 3 ∧ Handmade num c :=
  ⟨_, rfl, rfl, ⟨soundB_sound rfl, rows_of rfl rfl, rfl⟩⟩
theorem filledSquare_built :
    ∃ c, filledSquareComplex num = .ok c ∧ c.dimension = 2 ∧ Handmade num c ∧ (dropTwoFeatures c).validB = true :=
  ⟨_, rfl, rfl, ⟨soundB_sound rfl, rows_of rfl rfl, rfl⟩, rfl⟩
theorem molecular_built :
    ∃ c, molecularComplex num = .ok c ∧ c.dimension = 2 ∧ Handmade num c ∧ (dropTwoFeatures c).validB = true :=
  ⟨_, rfl, rfl, ⟨soundB_sound rfl, rows_of rfl rfl, rfl⟩, rfl⟩

end

end Verif
