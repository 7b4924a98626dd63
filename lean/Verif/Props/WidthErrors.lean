import Verif.Props.Widths

/-!
# C82: The shapes raise what the data raises
-/

namespace Verif

variable {α L : Type}

theorem setWidths_too_many : ∀ (shapes : List LevelShape) (ws : List Nat), shapes.length < ws.length →
    setWidths shapes ws = .error .assertion
  | [], [], h => by simp at h
  | [], _ :: _, _ => rfl
  | _ :: _, [], h => by simp at h
  | l :: shapes, w :: ws, h => by
    rw [setWidths, setWidths_too_many shapes ws (by simpa using h)]
    rfl

/-- **C82** A dimension that the complex does not have raises the same exception for the shapes as for the data, and so do
more features than dimensions. -/
theorem C82_same_exceptions (comp : Complex (List α) L) (shapes : List LevelShape)
    (hs : List.Forall₂ (fun c s => Cochain.HasShape c s) comp.cochains shapes)
    (hdim : comp.dimension + 1 = comp.cochains.length) :
    (∀ d maxDim top down, comp.dimension < d → ∃ e,
      paramShape shapes d maxDim top down = .error e ∧ comp.getCochainParams d maxDim top down true = .error e) ∧
    (∀ (ws : List Nat) (xs : List (Option (List (List α)))), ws.length = xs.length → comp.dimension + 1 < xs.length → ∃ e,
      setWidths shapes ws = .error e ∧ comp.setXs xs = .error e) := by
  have hl := hs.length_eq
  refine ⟨?_, ?_⟩
  · intro d maxDim top down hd
    refine ⟨.notImplemented, ?_, ?_⟩
    · unfold paramShape
      rw [List.getElem?_eq_none (by omega)]
    · unfold Complex.getCochainParams
      rw [List.getElem?_eq_none (by omega)]
  · intro ws xs he hx
    refine ⟨.assertion, setWidths_too_many shapes ws (by omega), ?_⟩
    unfold Complex.setXs
    rw [show decide (xs.length ≤ comp.dimension + 1) = false by simpa using hx]
    rfl

/-- **C82** A convolution with fewer levels than there are dimensions raises the same exception for the shapes as for the
data, whatever its levels compute, if the levels it has succeed. -/
theorem C82_missing_levels {R Lv : Type} (shapeForward : Lv → ParamShape → Py Nat) (forward : Lv → MPParams R → Py (List R))
    (levels : List Lv) (qs : List ParamShape) (ps : List (MPParams R)) (hlen : qs.length = ps.length)
    (hlt : levels.length < ps.length) (h1 : ∀ l q, l ∈ levels → q ∈ qs → ∃ w, shapeForward l q = .ok w)
    (h2 : ∀ l p, l ∈ levels → p ∈ ps → ∃ out, forward l p = .ok out) :
    widthLoop shapeForward levels qs = .error .index ∧ convLoop forward levels ps = .error .index := by
  induction levels generalizing qs ps with
  | nil =>
    match qs, ps, hlen, hlt with
    | [], [], _, h => simp at h
    | _ :: _, _ :: _, _, _ => exact ⟨rfl, rfl⟩
  | cons l levels ih =>
    match qs, ps, hlen, hlt with
    | [], [], _, h => simp at h
    | q :: qs, p :: ps, hlen, hlt =>
      obtain ⟨w, hw⟩ := h1 l q (by simp) (by simp)
      obtain ⟨out, ho⟩ := h2 l p (by simp) (by simp)
      obtain ⟨i1, i2⟩ := ih qs ps (by simpa using hlen) (by simpa using hlt)
        (fun l' q' hl hq => h1 l' q' (List.mem_cons_of_mem _ hl) (List.mem_cons_of_mem _ hq))
        (fun l' p' hl hp => h2 l' p' (List.mem_cons_of_mem _ hl) (List.mem_cons_of_mem _ hp))
      rw [widthLoop, convLoop, hw, ho, ok_bind, ok_bind, i1, i2]
      exact ⟨rfl, rfl⟩

/-- **C82** Message passing without features raises the same exception for the shapes as for the data. -/
theorem C82_features_needed {F A M : Type} [Zero M] (cfg : MPConfig F A M)
    (upIndex downIndex boundaryIndex : Option (List (Nat × Nat))) (upAttr downAttr : Option (Option (List A)))
    (boundaryAttr : Option (List F)) :
    ∃ e, needX none = .error e ∧
      propagate cfg upIndex downIndex boundaryIndex none upAttr downAttr boundaryAttr = .error e := ⟨_, rfl, rfl⟩

/-- Two vertices and an edge: dimension 2 and three matrices are too much, and so are two dimensions for one level. -/
example :
    let comp : Complex (List Nat) Nat :=
      { dimension := 1, y := none,
        cochains := [
          { dim := 0, x := some [[1, 2], [3, 4]], upperIndex := some [(0, 1), (1, 0)], sharedCoboundaries := some [0, 0] },
          { dim := 1, x := some [[5, 6]], boundaryIndex := some [(0, 0), (1, 0)] }] }
    comp.dimension + 1 = comp.cochains.length ∧
    comp.getCochainParams 2 2 true true true = .error .notImplemented ∧
    comp.setXs [none, none, none] = .error .assertion ∧
    (comp.getAllCochainParams >>= convLoop (Lv := Nat) (fun _ p => .ok (p.x.getD [])) [0]) = .error .index := by decide

end Verif
