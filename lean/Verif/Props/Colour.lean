import Verif.FixturesQ
import Verif.Lemmas.OneHot
import Verif.Props.Models

/-!
# C65, C66: networks and colour refinement
-/

namespace Verif

variable {𝕜 R L : Type} [Field 𝕜] [AddCommGroup R] [Module 𝕜 R]

/-! ### C65 -/

/-- The complexes of two lists cannot be told apart in `n` rounds. -/
def AlikeBatch (lower : Bool) (n : Nat) (cs cs' : List (Complex R L)) : Prop :=
  List.Forall₂ (fun c c' => SameColours lower c.view c'.view n) cs cs'

theorem SameColours.le {lower : Bool} {v w : View R} {n k : Nat} (h : SameColours lower v w n) (hk : k ≤ n) :
    SameColours lower v w k := fun d => (h d).mono fun _ _ _ _ hce => hce.le hk

theorem SameColours.length {lower : Bool} {v w : View R} {n : Nat} (h : SameColours lower v w n) (d : Nat) :
    (v.X d).length = (w.X d).length := by
  simpa using matched_length (h d)

omit [AddCommGroup R] in
theorem SameColour.drop {v w : View R} {n d c e : Nat} (h : SameColour true v w n d c e) :
    SameColour false v w n d c e := by
  induction n generalizing d c e with
  | zero => exact h
  | succ n ih =>
    obtain ⟨h0, hu, -, hb⟩ := h
    exact ⟨ih h0, hu.mono fun _ _ _ _ hpq => ⟨ih hpq.1, ih hpq.2⟩, by simp,
      hb.mono fun _ _ _ _ hpq => ih hpq⟩

theorem map_eq_of_alike {lower : Bool} {n : Nat} {cs cs' : List (Complex R L)} (h : AlikeBatch lower n cs cs')
    {mB : Nat} {g : View R → R} (hg : ∀ v w, SameColours lower v w n → g v = g w) :
    (cs'.map fun c => g (c.view.upTo mB)) = cs.map fun c => g (c.view.upTo mB) := by
  induction h with
  | nil => rfl
  | @cons c c' cs cs' hc _ ih => rw [List.map_cons, List.map_cons, ih, hg _ _ (hc.upTo mB)]

theorem cells_of_alike {lower : Bool} {n : Nat} {cs cs' : List (Complex R L)} (h : AlikeBatch lower n cs cs')
    (hr : ∀ c ∈ cs, c.Ready) (hr' : ∀ c ∈ cs', c.Ready) (h0 : ∀ c ∈ cs, 0 < c.cellsIn 0) :
    ∀ c ∈ cs', 0 < c.cellsIn 0 := by
  induction h with
  | nil => simp
  | @cons c c' cs cs' hc _ ih =>
    intro d hd
    rcases List.mem_cons.mp hd with rfl | hd
    · rw [← ready_X_length (hr' d (by simp)), ← hc.length, ready_X_length (hr c (by simp))]
      exact h0 c (by simp)
    · exact ih (fun d hd => hr d (by simp [hd])) (fun d hd => hr' d (by simp [hd]))
        (fun d hd => h0 d (by simp [hd])) d hd

theorem ne_of_alike {lower : Bool} {n : Nat} {cs cs' : List (Complex R L)} (h : AlikeBatch lower n cs cs')
    (hne : cs ≠ []) : cs' ≠ [] := by
  cases h with
  | nil => exact hne
  | cons _ _ => simp

/-- **C65** SparseCIN and CIN++ networks are at most as powerful as cellular colour refinement: complexes
that have the same colours after as many rounds as the network has layers get the same predictions,
whatever the parameters. -/
theorem C65_same_colours_same_prediction
    (sparse : SparseNet R (SparseLevel 𝕜 R)) (hs : sparse.Fits)
    (pp : SparseNet R (PPLevel 𝕜 R)) (hp : pp.Fits) (n : Nat) (hsn : sparse.convs.length ≤ n)
    (hpn : pp.convs.length ≤ n) (cs cs' : List (Complex R L)) (hne : cs ≠ []) (h : AlikeBatch false n cs cs')
    (hr : ∀ c ∈ cs, c.Ready) (hr' : ∀ c ∈ cs', c.Ready) (h0 : ∀ c ∈ cs, 0 < c.cellsIn 0) (mB : Nat) :
    (∃ preds, (fromComplexList cs mB >>= sparse.forward 𝕜 SparseLevel.forward) = .ok preds ∧
      (fromComplexList cs' mB >>= sparse.forward 𝕜 SparseLevel.forward) = .ok preds) ∧
    (∃ preds, (fromComplexList cs mB >>= pp.forward 𝕜 PPLevel.forward) = .ok preds ∧
      (fromComplexList cs' mB >>= pp.forward 𝕜 PPLevel.forward) = .ok preds) := by
  have h0' := cells_of_alike h hr hr' h0
  have hne' := ne_of_alike h hne
  refine ⟨⟨_, SparseNet.forward_all (realises_sparse false) hs hne hr h0 mB, ?_⟩,
    ⟨_, SparseNet.forward_all (realises_pp false) hp hne hr h0 mB, ?_⟩⟩
  · rw [SparseNet.forward_all (realises_sparse false) hs hne' hr' h0' mB, map_eq_of_alike h
      (fun v w hvw => sparse.predict_colours (.inr sparse_noLower) hsn hvw)]
  · rw [SparseNet.forward_all (realises_pp false) hp hne' hr' h0' mB, map_eq_of_alike h
      (fun v w hvw => pp.predict_colours (.inr pp_noLower) hpn hvw)]

/-- **C65** CIN networks likewise, with lower neighbours counted in the refinement. -/
theorem C65_cin_same_colours_same_prediction
    (cin : CINNet R (CINLevel 𝕜 R)) (hc : cin.Fits) (n : Nat) (hcn : cin.convs.length ≤ n)
    (cs cs' : List (Complex R L)) (hne : cs ≠ []) (h : AlikeBatch true n cs cs')
    (hr : ∀ c ∈ cs, c.Ready) (hr' : ∀ c ∈ cs', c.Ready) (h0 : ∀ c ∈ cs, 0 < c.cellsIn 0) (mB : Nat) :
    ∃ preds, (fromComplexList cs mB >>= cin.forward 𝕜 CINLevel.forward) = .ok preds ∧
      (fromComplexList cs' mB >>= cin.forward 𝕜 CINLevel.forward) = .ok preds := by
  have h0' := cells_of_alike h hr hr' h0
  have hne' := ne_of_alike h hne
  refine ⟨_, CINNet.forward_all realises_cin hc hne hr h0 mB, ?_⟩
  rw [CINNet.forward_all realises_cin hc hne' hr' h0' mB, map_eq_of_alike h
      (fun v w hvw => cin.predict_colours hcn hvw)]

omit [AddCommGroup R] in
theorem LocalIso.colour {v w : View R} {φ : Nat → Nat → Nat} (h : LocalIso v w φ) (hv : v.InRange)
    (lower : Bool) (n : Nat) {d c : Nat} (hc : c < (v.X d).length) : SameColour lower v w n d c (φ d c) := by
  have hself : ∀ {A B : Type} {rel : A → B → Prop} (f : A → B) (l : List A) (m : List B),
      m.Perm (l.map f) → (∀ a ∈ l, rel a (f a)) → Matched rel l m := by
    intro A B rel f l m hp hrel
    refine ⟨l.map f, hp.symm, ?_⟩
    rw [List.forall₂_map_right_iff, List.forall₂_same]
    exact hrel
  induction n generalizing d c with
  | zero =>
    refine ⟨(v.X d)[c], List.getElem?_eq_getElem hc, ?_⟩
    rw [h.feat d c hc, List.getElem?_eq_getElem hc]
  | succ n ih =>
    refine ⟨ih hc, hself _ _ _ (h.up d c hc) fun p hp => ?_, fun _ => hself _ _ _ (h.down d c hc) fun p hp => ?_,
      hself _ _ _ (h.bnd d c hc) fun p hp => ?_⟩
    · have := hv.up d p (List.mem_of_mem_filter hp)
      exact ⟨ih this.1, ih this.2.2⟩
    · have := hv.down d p (List.mem_of_mem_filter hp)
      refine ⟨ih this.1, ih ?_⟩
      cases d with
      | zero => have := this.2.2; simp [View.below] at this
      | succ d => exact this.2.2
    · have := (hv.bnd d p (List.mem_of_mem_filter hp)).1
      apply ih
      cases d with
      | zero => simp [View.below] at this
      | succ d => exact this

/-- **C65** Renumbered complexes have the same colours after any number of rounds, so the bound is about
complexes up to renumbering. -/
theorem C65_renumbered_same_colours (c c' : Complex R L) (hr : c.Ready) (φ : Nat → Nat → Nat)
    (h : Relabels c.view c'.view φ) (lower : Bool) (n : Nat) : SameColours lower c.view c'.view n := by
  intro d
  have hv := ready_inRange hr
  have hl := h.localIso hv
  have hlt : ∀ i < (c.view.X d).length, φ d i < (c'.view.X d).length := fun i hi => hl.lt hi
  refine ⟨(List.range (c.view.X d).length).map (φ d), ?_, ?_⟩
  · have hnd : ((List.range (c.view.X d).length).map (φ d)).Nodup := by
      rw [List.nodup_map_iff_inj_on List.nodup_range]
      intro a ha b hb
      exact h.inj d a b (by simpa using ha) (by simpa using hb)
    have hsub : ((List.range (c.view.X d).length).map (φ d)) ⊆ List.range (c'.view.X d).length := by
      intro k hk
      obtain ⟨i, hi, rfl⟩ := List.mem_map.mp hk
      exact List.mem_range.mpr (hlt i (List.mem_range.mp hi))
    exact (List.subperm_of_subset hnd hsub).perm_of_length_le (by simp [h.size d])
  · rw [List.forall₂_map_right_iff, List.forall₂_same]
    intro i hi
    exact hl.colour hv lower n (List.mem_range.mp hi)

/-! ### C66 -/

/-- Every feature row is a one-hot vector. -/
def Complex.OneHot (c : Complex Vec L) : Prop :=
  ∀ d rows, c.attr d Cochain.x = some rows → ∀ x ∈ rows, ∃ k : ℕ, x = Finsupp.single k 1

theorem upTo_eq {v : View R} (hv : v.InRange) {m : Nat} (hs : ∀ d, m < d → v.X d = []) : v.upTo m = v := by
  obtain ⟨X, up, down, bnd⟩ := v
  unfold View.upTo
  congr 1
  · funext d
    split
    · rfl
    · exact (hs d (by omega)).symm
  · funext d
    split
    · rfl
    · symm
      rw [List.eq_nil_iff_forall_not_mem]
      intro p hp
      have := (hv.up d p hp).2.2
      rw [hs (d + 1) (by omega)] at this
      simp at this
  · funext d
    split
    · rfl
    · symm
      rw [List.eq_nil_iff_forall_not_mem]
      intro p hp
      have := (hv.down d p hp).1
      rw [hs d (by omega)] at this
      simp at this
  · funext d
    split
    · rfl
    · symm
      rw [List.eq_nil_iff_forall_not_mem]
      intro p hp
      have := (hv.bnd d p hp).2
      rw [hs d (by omega)] at this
      simp at this

theorem oneHot_plain {c : Complex Vec L} (hr : c.Ready) (hx : c.OneHot) {m : Nat}
    (hm : ∀ d, m < d → c.cellsIn d = 0) : c.view.Plain m := by
  refine ⟨?_, ready_inRange hr, ?_⟩
  · intro d x hxd
    have hxd : x ∈ (c.attr d Cochain.x).getD [] := hxd
    cases ha : c.attr d Cochain.x with
    | none => rw [ha] at hxd; simp at hxd
    | some rows =>
      rw [ha] at hxd
      exact hx d rows ha x hxd
  · intro d hd
    rw [List.eq_nil_iff_length_eq_zero, ready_X_length hr, hm d hd]

/-- **C66** SparseCIN is as powerful as cellular colour refinement: for any number `n` of layers and any
maximal dimension there are parameters with which the network gives two complexes with one-hot features
the same prediction iff they have the same colours after `n` rounds. One network does it for all
complexes. -/
theorem C66_some_network_sees_the_colours (n m : Nat) (hn : n ≠ 0) :
    ∃ net : SparseNet Vec (SparseLevel ℚ Vec), net.Fits ∧ net.convs.length = n ∧ net.maxDim = m ∧
      ∀ c c' : Complex Vec L, c.Ready → c'.Ready → c.OneHot → c'.OneHot → 0 < c.cellsIn 0 →
        0 < c'.cellsIn 0 → (∀ d, m < d → c.cellsIn d = 0) → (∀ d, m < d → c'.cellsIn d = 0) →
        ∀ mB, m ≤ mB → ∃ p p', (fromComplexList [c] mB >>= net.forward ℚ SparseLevel.forward) = .ok [p] ∧
          (fromComplexList [c'] mB >>= net.forward ℚ SparseLevel.forward) = .ok [p'] ∧
          (p = p' ↔ SameColours false c.view c'.view n) := by
  have hfits : (hotNet n m).Fits := by
    refine ⟨by simp [hotNet, hn], ?_, by simp [hotNet], .inl rfl, .inl rfl, ?_⟩
    · intro conv hconv
      rw [List.eq_of_mem_replicate hconv, List.length_replicate]
      rfl
    · show List.range (m + 1) ≠ []
      simp
  refine ⟨hotNet n m, hfits, by simp [hotNet], rfl, ?_⟩
  intro c c' hr hr' hx hx' h0 h0' hm hm' mB hmB
  have hp := oneHot_plain hr hx hm
  have hp' := oneHot_plain hr' hx' hm'
  refine ⟨_, _, SparseNet.forward_all (realises_sparse false) hfits (by simp) (by simpa using hr)
    (by simpa using h0) mB, SparseNet.forward_all (realises_sparse false) hfits (by simp)
    (by simpa using hr') (by simpa using h0') mB, ?_⟩
  beta_reduce
  rw [upTo_eq hp.inRange fun d hd => hp.small d (by omega),
    upTo_eq hp'.inRange fun d hd => hp'.small d (by omega)]
  exact ⟨hotNet_predict hp hp' hn, fun h => (hotNet n m).predict_colours (.inr sparse_noLower)
    (by simp [hotNet]) h⟩

/-! ### Examples -/

/-- If all cells of a dimension look alike locally then colours never split. -/
theorem alike_of_counts {v w : View R} {x : Nat → R} (hv : v.InRange) (hw : w.InRange)
    (hsize : ∀ d, (v.X d).length = (w.X d).length) (hx : ∀ d, ∀ y ∈ v.X d, y = x d)
    (hx' : ∀ d, ∀ y ∈ w.X d, y = x d)
    (hup : ∀ d c e, c < (v.X d).length → e < (w.X d).length →
      ((v.up d).filter fun p => p.1.2 == c).length = ((w.up d).filter fun p => p.1.2 == e).length)
    (hdown : ∀ d c e, c < (v.X d).length → e < (w.X d).length →
      ((v.down d).filter fun p => p.1.2 == c).length = ((w.down d).filter fun p => p.1.2 == e).length)
    (hbnd : ∀ d c e, c < (v.X d).length → e < (w.X d).length →
      ((v.bnd d).filter fun p => p.2 == c).length = ((w.bnd d).filter fun p => p.2 == e).length)
    (lower : Bool) (n : Nat) : SameColours lower v w n := by
  have hall : ∀ {A B : Type} {rel : A → B → Prop} (l : List A) (m : List B), l.length = m.length →
      (∀ a ∈ l, ∀ b ∈ m, rel a b) → Matched rel l m := by
    intro A B rel l m hl hrel
    refine ⟨m, .refl _, ?_⟩
    rw [List.forall₂_iff_zip]
    exact ⟨hl, fun hab => hrel _ (List.of_mem_zip hab).1 _ (List.of_mem_zip hab).2⟩
  have key : ∀ n d c e, c < (v.X d).length → e < (w.X d).length → SameColour lower v w n d c e := by
    intro n
    induction n with
    | zero =>
      intro d c e hc he
      refine ⟨x d, ?_, ?_⟩
      · rw [List.getElem?_eq_getElem hc, hx d _ (List.getElem_mem hc)]
      · rw [List.getElem?_eq_getElem he, hx' d _ (List.getElem_mem he)]
    | succ n ih =>
      intro d c e hc he
      refine ⟨ih d c e hc he, hall _ _ (hup d c e hc he) fun p hp q hq => ?_,
        fun _ => hall _ _ (hdown d c e hc he) fun p hp q hq => ?_,
        hall _ _ (hbnd d c e hc he) fun p hp q hq => ?_⟩
      · have h1 := hv.up d p (List.mem_of_mem_filter hp)
        have h2 := hw.up d q (List.mem_of_mem_filter hq)
        exact ⟨ih d _ _ h1.1 h2.1, ih (d + 1) _ _ h1.2.2 h2.2.2⟩
      · have h1 := hv.down d p (List.mem_of_mem_filter hp)
        have h2 := hw.down d q (List.mem_of_mem_filter hq)
        refine ⟨ih d _ _ h1.1 h2.1, ?_⟩
        cases d with
        | zero => have := h1.2.2; simp [View.below] at this
        | succ d => exact ih d _ _ h1.2.2 h2.2.2
      · have h1 := (hv.bnd d p (List.mem_of_mem_filter hp)).1
        have h2 := (hw.bnd d q (List.mem_of_mem_filter hq)).1
        cases d with
        | zero => simp [View.below] at h1
        | succ d => exact ih d _ _ h1 h2
  intro d
  exact hall _ _ (by simpa using hsize d) fun c hc e he =>
    key n d c e (by simpa using hc) (by simpa using he)

namespace Fixtures

/-- The complex of a graph of six vertices without rings: all features `one`. -/
def plainGraph {F : Type} (one : F) (edges : List (Nat × Nat)) : Complex F Nat where
  dimension := 1
  cochains := [
    { dim := 0, x := some (List.replicate 6 one)
      upperIndex := some (edges.flatMap fun e => [(e.1, e.2), (e.2, e.1)])
      sharedCoboundaries := some (edges.zipIdx.flatMap fun e => [e.2, e.2])
      numCellsUpAttr := some (some edges.length) },
    { dim := 1, x := some (List.replicate edges.length one)
      boundaryIndex := some (edges.zipIdx.flatMap fun e => [(e.1.1, e.2), (e.1.2, e.2)])
      numCellsDownAttr := some (some 6) }]

/-- Six vertices in a ring. -/
def hexagon : List (Nat × Nat) := [(0, 1), (1, 2), (2, 3), (3, 4), (4, 5), (5, 0)]
/-- Two triangles. -/
def triangles : List (Nat × Nat) := [(0, 1), (1, 2), (2, 0), (3, 4), (4, 5), (5, 3)]

theorem hexagon_ready {F : Type} (one : F) : (plainGraph one hexagon).Ready := by
  refine ⟨validB_sound ?_, ?_, rfl⟩
  · rfl
  · intro c hc
    simp only [plainGraph, List.mem_cons, List.not_mem_nil, or_false] at hc
    rcases hc with rfl | rfl <;> rfl

theorem triangles_ready {F : Type} (one : F) : (plainGraph one triangles).Ready := by
  refine ⟨validB_sound ?_, ?_, rfl⟩
  · rfl
  · intro c hc
    simp only [plainGraph, List.mem_cons, List.not_mem_nil, or_false] at hc
    rcases hc with rfl | rfl <;> rfl

end Fixtures

open Fixtures in
/-- Without rings attached, a hexagon and two triangles always have the same colours: no SparseCIN, CIN++
or CIN network tells them apart (C65). -/
theorem hexagon_alike {F : Type} [AddCommGroup F] (one : F) (lower : Bool) (n : Nat) :
    SameColours lower (plainGraph one hexagon).view (plainGraph one triangles).view n := by
  have two : ∀ c < 6, (((plainGraph 1 hexagon : Complex Nat Nat).view.up 0).filter fun p => p.1.2 == c).length
        = 2 ∧ (((plainGraph 1 triangles : Complex Nat Nat).view.up 0).filter fun p => p.1.2 == c).length = 2 ∧
      (((plainGraph 1 hexagon : Complex Nat Nat).view.bnd 1).filter fun p => p.2 == c).length = 2 ∧
      (((plainGraph 1 triangles : Complex Nat Nat).view.bnd 1).filter fun p => p.2 == c).length = 2 := by
    decide
  refine alike_of_counts (x := fun _ => one) (ready_inRange (hexagon_ready one))
    (ready_inRange (triangles_ready one)) ?_ ?_ ?_ ?_ ?_ ?_ lower n
  · intro d
    match d with
    | 0 | 1 | d + 2 => rfl
  · intro d y hy
    match d with
    | 0 | 1 => exact List.eq_of_mem_replicate (n := 6) hy
    | d + 2 => exact absurd hy (List.not_mem_nil)
  · intro d y hy
    match d with
    | 0 | 1 => exact List.eq_of_mem_replicate (n := 6) hy
    | d + 2 => exact absurd hy (List.not_mem_nil)
  · intro d c e hc he
    match d with
    | 0 => exact (two c hc).1.trans (two e he).2.1.symm
    | 1 | d + 2 => rfl
  · intro d c e hc he
    match d with
    | 0 | 1 | d + 2 => rfl
  · intro d c e hc he
    match d with
    | 1 => exact (two c hc).2.2.1.trans (two e he).2.2.2.symm
    | 0 | d + 2 => rfl

section Examples
open Fixtures

/-- They are not renumberings of each other: C65 is more than C17. Two of the first three vertices of the
triangles have a third neighbour in common, and no two neighbours in the hexagon have. -/
example : ¬ ∃ φ, Relabels (plainGraph (1 : ℚ) triangles).view (plainGraph (1 : ℚ) hexagon).view φ := by
  rintro ⟨φ, h⟩
  have hmem : ∀ p ∈ (plainGraph (1 : ℚ) triangles).view.up 0,
      ((φ 0 p.1.1, φ 0 p.1.2), φ 1 p.2) ∈ (plainGraph (1 : ℚ) hexagon).view.up 0 := fun p hp =>
    (h.up 0).mem_iff.mpr (List.mem_map.mpr ⟨p, hp, rfl⟩)
  have h1 := hmem ((0, 1), 0) (by decide)
  have h2 := hmem ((1, 2), 1) (by decide)
  have h3 := hmem ((2, 0), 2) (by decide)
  have no : ∀ p ∈ (plainGraph (1 : ℚ) hexagon).view.up 0, ∀ q ∈ (plainGraph (1 : ℚ) hexagon).view.up 0,
      ∀ r ∈ (plainGraph (1 : ℚ) hexagon).view.up 0, ¬ (p.1.2 = q.1.1 ∧ q.1.2 = r.1.1 ∧ r.1.2 = p.1.1) := by
    decide
  exact no _ h1 _ h2 _ h3 ⟨rfl, rfl, rfl⟩

/-- The hypotheses of C65 hold for them, with any number of layers. -/
example (n : Nat) : AlikeBatch true n [plainGraph (1 : ℚ) hexagon] [plainGraph (1 : ℚ) triangles] ∧
    (∀ c ∈ [plainGraph (1 : ℚ) hexagon], c.Ready ∧ 0 < c.cellsIn 0) ∧
    (∀ c ∈ [plainGraph (1 : ℚ) triangles], c.Ready) := by
  refine ⟨.cons (hexagon_alike 1 true n) .nil, ?_, ?_⟩
  · intro c hc
    rw [List.mem_singleton.mp hc]
    exact ⟨hexagon_ready 1, by decide⟩
  · intro c hc
    rw [List.mem_singleton.mp hc]
    exact triangles_ready 1

/-- The house and the segment have different colours from the start. -/
example : ¬ SameColours false houseQ.view segQ.view 0 := by
  intro h
  have := h.length 0
  revert this
  decide

/-- A triangle with a tail, as many cells as the hexagon: told apart after one round. -/
example : ¬ SameColours false (plainGraph (Finsupp.single 3 1 : Vec) hexagon).view
    (plainGraph (Finsupp.single 3 1 : Vec) [(0, 1), (1, 2), (2, 0), (0, 3), (3, 4), (4, 5)]).view 1 := by
  intro h
  obtain ⟨m', hp, hf⟩ := h 0
  have h0 : 0 ∈ m' := hp.mem_iff.mpr (List.mem_range.mpr (Nat.succ_pos 5))
  obtain ⟨i, hi⟩ := List.mem_iff_getElem?.mp h0
  obtain ⟨hlt, he⟩ := List.getElem?_eq_some_iff.mp hi
  have hc := (List.forall₂_iff_get.mp hf).2 i (by rw [hf.length_eq]; exact hlt) hlt
  simp only [List.get_eq_getElem, he] at hc
  have two : ∀ c < 6, (((plainGraph 1 hexagon : Complex Nat Nat).view.up 0).filter
      fun p => p.1.2 == c).length = 2 := by decide
  have := (two _ hc.lt.1).symm.trans (matched_length hc.2.1)
  exact absurd this (by decide)

/-- The hypotheses of C66 hold for complexes with one-hot features. -/
example : (plainGraph (Finsupp.single 3 1 : Vec) hexagon).Ready ∧
    (plainGraph (Finsupp.single 3 1 : Vec) hexagon).OneHot ∧
    0 < (plainGraph (Finsupp.single 3 1 : Vec) hexagon).cellsIn 0 ∧
    ∀ d, 1 < d → (plainGraph (Finsupp.single 3 1 : Vec) hexagon).cellsIn d = 0 := by
  refine ⟨hexagon_ready _, ?_, Nat.succ_pos 5, ?_⟩
  · intro d rows hd x hx
    match d with
    | 0 | 1 =>
      cases hd
      exact ⟨3, List.eq_of_mem_replicate (n := 6) hx⟩
    | d + 2 => cases hd
  · intro d hd
    match d with
    | d + 2 => rfl

end Examples

/-! ### The theorems on concrete cases -/

section Cases
open Fixtures

example := C65_same_colours_same_prediction (𝕜 := ℚ) sparseNetQ sparseNetQ_fits ppNetQ ppNetQ_fits 2 (by decide) (by decide)
  [plainGraph (1 : ℚ) hexagon] [plainGraph (1 : ℚ) triangles] (by simp) (.cons (hexagon_alike 1 false 2) .nil)
  (by simpa using hexagon_ready 1) (by simpa using triangles_ready 1) (by decide) 2

example := C65_cin_same_colours_same_prediction (𝕜 := ℚ) cinNetQ cinNetQ_fits 2 (by decide)
  [plainGraph (1 : ℚ) hexagon] [plainGraph (1 : ℚ) triangles] (by simp) (.cons (hexagon_alike 1 true 2) .nil)
  (by simpa using hexagon_ready 1) (by simpa using triangles_ready 1) (by decide) 2

/-- The house with the first two cells of every dimension exchanged. -/
example := C65_renumbered_same_colours houseQ (houseQ.relabel (swap01 houseQ)) houseQ_ready _
  (C14_relabel_is_renaming houseQ houseQ_ready _ (swap01_permutes houseQ)).2 true 3

example := C66_some_network_sees_the_colours (L := Nat) 3 2 (by decide)

end Cases

end Verif
