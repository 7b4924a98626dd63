import Verif.Props.EmbedBatch
import Verif.Props.Convert

/-!
# Lemmas on lifting with and without lower adjacencies
-/

namespace Verif

variable {F L : Type}

/-- A cochain without its lower adjacency. -/
def Cochain.forgetLower (c : Cochain F L) : Cochain F L :=
  { c with lowerIndex := none, sharedBoundaries := none, lowerOrient := none }

theorem forgetLower_cochains (comp : Complex F L) :
    comp.forgetLower.cochains = comp.cochains.map Cochain.forgetLower := rfl

theorem Cochain.numCells_forget {c : Cochain F L} {n : Option Nat} (h : c.numCells = .ok n) :
    c.forgetLower.numCells = .ok n := by
  unfold Cochain.numCells at h ⊢
  unfold Cochain.forgetLower
  dsimp only
  cases h1 : c.numCellsAttr with
  | some m => rw [h1] at h; exact h
  | none =>
    rw [h1] at h
    dsimp only at h ⊢
    cases h2 : c.x with
    | some m => rw [h2] at h; exact h
    | none =>
      rw [h2] at h
      dsimp only at h ⊢
      cases h3 : c.boundaryIndex with
      | some m => rw [h3] at h; exact h
      | none =>
        rw [h3] at h
        dsimp only at h ⊢
        obtain ⟨u, h4, h5⟩ := bind_eq_ok.mp h
        rw [pyAssert_eq_ok, Bool.and_eq_true] at h4
        rw [h4.1]
        exact h5

theorem consolidateUp_forget {c c' : Cochain F L} {nb : Option (Cochain F L)} (h : consolidateUp c nb = .ok c') :
    consolidateUp c.forgetLower (nb.map Cochain.forgetLower) = .ok c'.forgetLower := by
  cases nb with
  | none => cases ok_inj.mp h; rfl
  | some u =>
    simp only [consolidateUp, not_contains_up, Option.map_some] at h ⊢
    obtain ⟨n, hn, h⟩ := bind_eq_ok.mp h
    obtain ⟨v, ha, h⟩ := bind_eq_ok.mp h
    rw [Cochain.numCells_forget hn, ok_bind, ha, ok_bind]
    simp only [Bool.false_eq_true, if_false] at h ⊢
    cases ok_inj.mp h
    rfl

theorem consolidateDown_forget {c c' : Cochain F L} {nb : Option (Cochain F L)} (h : consolidateDown c nb = .ok c') :
    consolidateDown c.forgetLower (nb.map Cochain.forgetLower) = .ok c'.forgetLower := by
  cases nb with
  | none => cases ok_inj.mp h; rfl
  | some u =>
    simp only [consolidateDown, not_contains_down, Option.map_some] at h ⊢
    obtain ⟨n, hn, h⟩ := bind_eq_ok.mp h
    obtain ⟨v, ha, h⟩ := bind_eq_ok.mp h
    rw [Cochain.numCells_forget hn, ok_bind, ha, ok_bind]
    simp only [Bool.false_eq_true, if_false] at h ⊢
    cases ok_inj.mp h
    rfl

theorem consolidateFrom_forget {cs cs' : List (Cochain F L)} {dim : Nat} {lower : Option (Cochain F L)}
    (h : consolidateFrom dim lower cs = .ok cs') :
    consolidateFrom dim (lower.map Cochain.forgetLower) (cs.map Cochain.forgetLower) =
      .ok (cs'.map Cochain.forgetLower) := by
  induction cs generalizing dim lower cs' with
  | nil => cases ok_inj.mp h; rfl
  | cons c cs ih =>
    simp only [consolidateFrom, List.map_cons] at h ⊢
    obtain ⟨u, h1, h⟩ := bind_eq_ok.mp h
    obtain ⟨c1, h2, h⟩ := bind_eq_ok.mp h
    obtain ⟨c2, h3, h⟩ := bind_eq_ok.mp h
    obtain ⟨rest, h4, h⟩ := bind_eq_ok.mp h
    cases ok_inj.mp h
    have e : pyAssert (c.forgetLower.dim == dim) = .ok u := h1
    rw [e, ok_bind, List.head?_map, consolidateUp_forget h2, ok_bind, consolidateDown_forget h3, ok_bind]
    have := ih h4
    rw [Option.map_some] at this
    rw [this, ok_bind]
    rfl

theorem Complex.new_forget {cs : List (Cochain F L)} {y : Option (List L)} {dimension : Option Nat} {comp : Complex F L}
    (h : Complex.new cs y dimension = .ok comp) :
    Complex.new (cs.map Cochain.forgetLower) y dimension = .ok comp.forgetLower := by
  unfold Complex.new at h ⊢
  rw [List.length_map]
  split at h
  · cases h
  · next h0 =>
    rw [if_neg h0]
    dsimp only at h ⊢
    split at h
    · cases h
    · next h1 =>
      rw [if_neg h1]
      obtain ⟨cs', h2, h3⟩ := bind_eq_ok.mp h
      cases ok_inj.mp h3
      have := consolidateFrom_forget h2
      rw [Option.map_none, List.map_take] at this
      rw [this]
      rfl

/-! ### The adjacencies -/

/-- The adjacencies without the lower ones. -/
def Adjacency.forgetLower (a : Adjacency) : Adjacency :=
  { a with lower := a.lower.map fun _ => [], sharedBoundaries := a.sharedBoundaries.map fun _ => [] }

theorem foldE_sim {A S T : Type} {f : S → A → Py S} {g : T → A → Py T} (φ : S → T) {l : List A} {s s' : S}
    (h : ∀ s a s', a ∈ l → f s a = .ok s' → g (φ s) a = .ok (φ s')) (hs : foldE f s l = .ok s') :
    foldE g (φ s) l = .ok (φ s') := by
  induction l generalizing s with
  | nil => cases ok_inj.mp hs; rfl
  | cons a l ih =>
    obtain ⟨s1, h1, h2⟩ := bind_eq_ok.mp hs
    have := h s a s1 (by simp) h1
    simp only [foldE, this, ok_bind]
    exact ih (fun s b s' hb => h s b s' (by simp [hb])) h2

theorem modifyAt_forget {A B : Type} {l l' : List A} {i : Nat} {f : A → A} (h : modifyAt l i f = .ok l') (b : B) :
    l'.map (fun _ => b) = l.map fun _ => b := by
  unfold modifyAt at h
  split at h
  · cases ok_inj.mp h
    rw [List.map_const', List.map_const', List.length_set]
  · cases h

theorem buildUpper_forget {bd : List (Dict (List Nat) (List (List Nat)))} {ids : List (Dict (List Nat) Nat)} {dim : Nat}
    {a a' : Adjacency} {cell : List Nat × Nat} (h : buildUpper bd ids dim a cell = .ok a') :
    buildUpper bd ids dim a.forgetLower cell = .ok a'.forgetLower := by
  unfold buildUpper at h ⊢
  split at h
  · next h0 =>
    rw [if_pos h0]
    cases ok_inj.mp h
    rfl
  · next h0 =>
    rw [if_neg h0]
    obtain ⟨level, h1, h⟩ := bind_eq_ok.mp h
    obtain ⟨bs, h2, h⟩ := bind_eq_ok.mp h
    obtain ⟨below, h3, h⟩ := bind_eq_ok.mp h
    obtain ⟨cols, h4, h⟩ := bind_eq_ok.mp h
    obtain ⟨upper, h5, h⟩ := bind_eq_ok.mp h
    obtain ⟨sc, h6, h⟩ := bind_eq_ok.mp h
    cases ok_inj.mp h
    have e5 : modifyAt a.forgetLower.upper (dim - 1) (· ++ cols.map Prod.fst) = .ok upper := h5
    have e6 : modifyAt a.forgetLower.sharedCoboundaries (dim - 1) (· ++ cols.map Prod.snd) = .ok sc := h6
    simp only [h1, h2, h3, h4, e5, e6, ok_bind]
    rfl

theorem buildLower_forget {cob : List (Dict (List Nat) (List (List Nat)))} {ids : List (Dict (List Nat) Nat)}
    {dims dim : Nat} {down : Bool} {a a' : Adjacency} {cell : List Nat × Nat}
    (h : buildLower cob ids dims down dim a cell = .ok a') : a'.forgetLower = a.forgetLower := by
  unfold buildLower at h
  split at h
  · obtain ⟨level, h1, h⟩ := bind_eq_ok.mp h
    split at h
    · cases ok_inj.mp h
      rfl
    · obtain ⟨above, h2, h⟩ := bind_eq_ok.mp h
      obtain ⟨cols, h3, h⟩ := bind_eq_ok.mp h
      obtain ⟨lower, h4, h⟩ := bind_eq_ok.mp h
      obtain ⟨sb, h5, h⟩ := bind_eq_ok.mp h
      cases ok_inj.mp h
      unfold Adjacency.forgetLower
      simp only [modifyAt_forget h4, modifyAt_forget h5]
  · cases ok_inj.mp h
    rfl

theorem buildLower_off (cob : List (Dict (List Nat) (List (List Nat)))) (ids : List (Dict (List Nat) Nat))
    (dims dim : Nat) (a : Adjacency) (cell : List Nat × Nat) : buildLower cob ids dims false dim a cell = .ok a := by
  simp [buildLower]

theorem buildAdj_forget {bd cob : List (Dict (List Nat) (List (List Nat)))} {ids : List (Dict (List Nat) Nat)} {dims : Nat}
    {down : Bool} {a : Adjacency} (h : buildAdj bd cob ids dims down = .ok a) :
    buildAdj bd cob ids dims false = .ok a.forgetLower := by
  unfold buildAdj at h ⊢
  have := foldE_sim (g := fun a dim => do
    let level ← getAt ids dim
    foldE (fun a cell => do
      let a ← buildUpper bd ids dim a cell
      buildLower cob ids dims false dim a cell) a level) Adjacency.forgetLower ?_ h
  · rw [← this]
    unfold Adjacency.forgetLower
    simp only [List.map_replicate]
  · intro s dim s' _ hs
    obtain ⟨level, h1, h2⟩ := bind_eq_ok.mp hs
    rw [h1, ok_bind]
    refine foldE_sim Adjacency.forgetLower ?_ h2
    intro s cell s' _ hs
    obtain ⟨a1, h3, h4⟩ := bind_eq_ok.mp hs
    rw [buildUpper_forget h3, ok_bind, buildLower_off, buildLower_forget h4]

theorem generateCochain_forget {dim : Nat} {x : Option (List F)} {adj : Adjacency} {cells table : List (List (List Nat))}
    {dims : Nat} {y : Option (List L)} {c : Cochain F L} (h : generateCochain dim x adj cells table dims y = .ok c) :
    generateCochain dim x adj.forgetLower cells table dims y = .ok c.forgetLower := by
  unfold generateCochain at h ⊢
  obtain ⟨lower, h1, h⟩ := bind_eq_ok.mp h
  obtain ⟨sb, h2, h⟩ := bind_eq_ok.mp h
  obtain ⟨upper, h3, h⟩ := bind_eq_ok.mp h
  obtain ⟨sc, h4, h⟩ := bind_eq_ok.mp h
  obtain ⟨u5, h5, h⟩ := bind_eq_ok.mp h
  obtain ⟨nd, h6, h⟩ := bind_eq_ok.mp h
  obtain ⟨nu, h7, h⟩ := bind_eq_ok.mp h
  obtain ⟨bt, h8, h⟩ := bind_eq_ok.mp h
  obtain ⟨u9, h9, h⟩ := bind_eq_ok.mp h
  obtain ⟨u10, h10, h⟩ := bind_eq_ok.mp h
  obtain ⟨u11, h11, h⟩ := bind_eq_ok.mp h
  obtain ⟨u12, h12, h⟩ := bind_eq_ok.mp h
  have e1 : getAt adj.forgetLower.lower dim = .ok [] := by
    rw [getAt_eq_ok] at h1 ⊢
    simp only [Adjacency.forgetLower, List.getElem?_map, h1, Option.map_some]
  have e2 : getAt adj.forgetLower.sharedBoundaries dim = .ok [] := by
    rw [getAt_eq_ok] at h2 ⊢
    simp only [Adjacency.forgetLower, List.getElem?_map, h2, Option.map_some]
  have e3 : getAt adj.forgetLower.upper dim = .ok upper := h3
  have e4 : getAt adj.forgetLower.sharedCoboundaries dim = .ok sc := h4
  have e5 : checkVertices dim ([] : List (Nat × Nat)) [] = .ok u5 := by
    unfold checkVertices
    split <;> rfl
  have e9 : checkNone nd.isNone (nonempty ([] : List Nat)) = .ok u9 := by
    unfold checkNone
    split <;> rfl
  have e12 : checkShared (nonempty ([] : List (Nat × Nat))) (nonempty ([] : List Nat))
      (fun m => decide (m ≤ nd.getD 0)) = .ok u12 := rfl
  simp only [e1, e2, e3, e4, e5, h6, h7, h8, e9, h10, h11, e12, ok_bind]
  unfold Cochain.mk? at h ⊢
  dsimp only at h ⊢
  split at h
  · next h0 =>
    rw [if_pos h0]
    obtain ⟨u, h13, h⟩ := bind_eq_ok.mp h
    obtain ⟨v, h14, h⟩ := bind_eq_ok.mp h
    obtain ⟨w, h15, h⟩ := bind_eq_ok.mp h
    cases ok_inj.mp h
    simp only [h15]
    rfl
  · next h0 =>
    rw [if_neg h0]
    cases ok_inj.mp h
    rfl

theorem mapE_sim {A B C : Type} {f : A → Py B} {g : A → Py C} (φ : B → C) {l : List A} {bs : List B}
    (h : ∀ a b, f a = .ok b → g a = .ok (φ b)) (hs : mapE f l = .ok bs) : mapE g l = .ok (bs.map φ) := by
  rw [mapE_eq_ok_iff] at hs ⊢
  induction hs with
  | nil => exact .nil
  | cons h1 _ ih => exact .cons (h _ _ h1) ih

theorem generateCochains_forget {xs : List (Option (List F))} {adj : Adjacency} {cells table : List (List (List Nat))}
    {dims : Nat} {vy : Option (List L)} {cs : List (Cochain F L)}
    (h : generateCochains xs adj cells table dims vy = .ok cs) :
    generateCochains xs adj.forgetLower cells table dims vy = .ok (cs.map Cochain.forgetLower) := by
  unfold generateCochains at h ⊢
  refine mapE_sim _ ?_ h
  intro i c hc
  obtain ⟨x, h1, h2⟩ := bind_eq_ok.mp hc
  rw [h1, ok_bind]
  exact generateCochain_forget h2

theorem liftTree_forget {agg : List F → F} {x : List F} {st : SimplexTree} {size : Nat} {y : Option (List L)}
    {down : Bool} {comp : Complex F L} (h : liftTree agg x st size y down = .ok comp) :
    liftTree agg x st size y false = .ok comp.forgetLower := by
  unfold liftTree at h ⊢
  obtain ⟨t, h1, h⟩ := bind_eq_ok.mp h
  obtain ⟨inc, h2, h⟩ := bind_eq_ok.mp h
  obtain ⟨adj, h3, h⟩ := bind_eq_ok.mp h
  obtain ⟨xs, h4, h⟩ := bind_eq_ok.mp h
  obtain ⟨ys, h5, h⟩ := bind_eq_ok.mp h
  obtain ⟨cs, h6, h⟩ := bind_eq_ok.mp h
  simp only [h1, h2, buildAdj_forget h3, h4, h5, generateCochains_forget h6, ok_bind, Complex.new_forget h]

theorem cliqueComplex_forget {g : Gudhi} {agg : List F → F} {x : Option (List F)} {edges : List (Nat × Nat)} {size k : Nat}
    {y : Option (List L)} {down : Bool} {comp : Complex F L}
    (h : cliqueComplex g agg x edges size k y down = .ok comp) :
    cliqueComplex g agg x edges size k y false = .ok comp.forgetLower := by
  unfold cliqueComplex at h ⊢
  cases x with
  | none => cases h
  | some x => exact liftTree_forget h

theorem ringComplex_forget [DecidableEq F] {g : Gudhi} {lib : RingLib} {agg : List F → F} {x : Option (List F)}
    {edges : List (Nat × Nat)} {attr : Option (List F)} {size : Nat} {y : Option (List L)} {maxK : Nat}
    {down initEdges initRings : Bool} {comp : Complex F L}
    (h : ringComplex g lib agg x edges attr size y maxK down initEdges initRings = .ok comp) :
    ringComplex g lib agg x edges attr size y maxK false initEdges initRings = .ok comp.forgetLower := by
  unfold ringComplex at h ⊢
  cases x with
  | none => cases h
  | some x =>
    dsimp only at h ⊢
    obtain ⟨u1, h1, h⟩ := bind_eq_ok.mp h
    obtain ⟨u2, h2, h⟩ := bind_eq_ok.mp h
    obtain ⟨t, h3, h⟩ := bind_eq_ok.mp h
    obtain ⟨u4, h4, h⟩ := bind_eq_ok.mp h
    obtain ⟨inc, h5, h⟩ := bind_eq_ok.mp h
    obtain ⟨adj, h6, h⟩ := bind_eq_ok.mp h
    obtain ⟨xs, h7, h⟩ := bind_eq_ok.mp h
    obtain ⟨u8, h8, h⟩ := bind_eq_ok.mp h
    obtain ⟨x1, h9, h⟩ := bind_eq_ok.mp h
    obtain ⟨ys, h10, h⟩ := bind_eq_ok.mp h
    obtain ⟨cs, h11, h⟩ := bind_eq_ok.mp h
    simp only [h1, h2, h3, h4, h5, buildAdj_forget h6, h7, h8, h9, h10, generateCochains_forget h11, ok_bind,
      Complex.new_forget h]

end Verif

namespace Verif

variable {𝕜 R F L : Type}

/-! ### Complexes without lower adjacencies -/

theorem Cochain.forget_forget (c : Cochain F L) : c.forgetLower.forgetLower = c.forgetLower := rfl

theorem forgetLower_idem (comp : Complex F L) : comp.forgetLower.forgetLower = comp.forgetLower := by
  unfold Complex.forgetLower
  simp only [List.map_map]
  rfl

theorem forgetLower_get {comp : Complex F L} {d : Nat} {c : Cochain F L} (h : comp.forgetLower.cochains[d]? = some c) :
    ∃ c0, comp.cochains[d]? = some c0 ∧ c = c0.forgetLower := by
  rw [forgetLower_cochains, List.getElem?_map] at h
  obtain ⟨c0, h1, h2⟩ := Option.map_eq_some_iff.mp h
  exact ⟨c0, h1, h2.symm⟩

theorem forgetLower_x (comp : Complex F L) (d : Nat) :
    comp.forgetLower.attr d Cochain.x = comp.attr d Cochain.x := by
  unfold Complex.attr
  rw [forgetLower_cochains, List.getElem?_map]
  cases comp.cochains[d]? <;> rfl

theorem forgetLower_lower (comp : Complex F L) (d : Nat) : comp.forgetLower.attr d Cochain.lowerIndex = none := by
  unfold Complex.attr
  cases h : comp.forgetLower.cochains[d]? with
  | none => rfl
  | some c =>
    obtain ⟨c0, -, rfl⟩ := forgetLower_get h
    rfl

theorem Complex.Valid.cellsIn_forget {comp : Complex F L} (h : comp.Valid) (d : Nat) :
    comp.forgetLower.cellsIn d = comp.cellsIn d := by
  unfold Complex.cellsIn
  rw [forgetLower_cochains, List.getElem?_map]
  cases hc : comp.cochains[d]? with
  | none => rfl
  | some c =>
    obtain ⟨n, hn⟩ := h.known c (List.mem_of_getElem? hc)
    simp only [Option.map_some, Option.getD_some, Cochain.count, hn, Cochain.numCells_forget hn]

theorem Cochain.numCellsDown_forget {c : Cochain F L} {n : Option Nat} (h : c.numCellsDown = .ok n) :
    c.forgetLower.numCellsDown = .ok n := by
  unfold Cochain.numCellsDown at h ⊢
  unfold Cochain.forgetLower
  dsimp only
  split at h
  · next h0 => rw [if_pos h0]; exact h
  · next h0 =>
    rw [if_neg h0]
    cases h1 : c.numCellsDownAttr with
    | some m => rw [h1] at h; exact h
    | none =>
      rw [h1] at h
      dsimp only at h ⊢
      split at h
      · exact h
      · cases h

theorem Complex.Valid.forget {comp : Complex F L} (h : comp.Valid) : comp.forgetLower.Valid where
  len := by rw [forgetLower_cochains, List.length_map]; exact h.len
  dim d c hc := by
    obtain ⟨c0, h1, rfl⟩ := forgetLower_get hc
    exact h.dim d c0 h1
  up d c c' hc hc' := by
    obtain ⟨c0, h1, rfl⟩ := forgetLower_get hc
    obtain ⟨c0', h2, rfl⟩ := forgetLower_get hc'
    obtain ⟨n, hn⟩ := h.known c0' (List.mem_of_getElem? h2)
    rw [Cochain.numCells_forget hn, ← hn, ← h.up d c0 c0' h1 h2]
    rfl
  down d c c' hc hc' := by
    obtain ⟨c0, h1, rfl⟩ := forgetLower_get hc
    obtain ⟨c0', h2, rfl⟩ := forgetLower_get hc'
    obtain ⟨n, hn⟩ := h.known c0 (List.mem_of_getElem? h1)
    rw [Cochain.numCells_forget hn]
    apply Cochain.numCellsDown_forget
    rw [h.down d c0 c0' h1 h2, hn]
  known c hc := by
    rw [forgetLower_cochains] at hc
    obtain ⟨c0, h1, rfl⟩ := List.mem_map.mp hc
    obtain ⟨n, hn⟩ := h.known c0 h1
    exact ⟨n, Cochain.numCells_forget hn⟩
  top c hc := by
    obtain ⟨c0, h1, rfl⟩ := forgetLower_get hc
    exact h.top c0 h1
  valid d c hc := by
    obtain ⟨c0, h1, rfl⟩ := forgetLower_get hc
    have v := h.valid d c0 h1
    have e : comp.forgetLower.cellsBelow d = comp.cellsBelow d := by
      cases d with
      | zero => rfl
      | succ d => exact h.cellsIn_forget d
    rw [h.cellsIn_forget, h.cellsIn_forget, e]
    exact ⟨v.plain, v.rows, v.upper, v.upperShared, v.upperBoth, v.shared, by simp [Cochain.forgetLower],
      rfl, rfl, by simp [Cochain.forgetLower], v.boundary⟩

theorem Complex.Ready.forget {comp : Complex F L} (h : comp.Ready) : comp.forgetLower.Ready where
  valid := h.valid.forget
  featured c hc := by
    rw [forgetLower_cochains] at hc
    obtain ⟨c0, h1, rfl⟩ := List.mem_map.mp hc
    exact h.featured c0 h1
  vertices := forgetLower_lower comp 0

section

variable [AddCommMonoid R]

theorem EmbedInit.rows_forget (l : EmbedInit R) {comp : Complex R L} (h : comp.Valid) :
    l.rows comp.forgetLower = l.rows comp := by
  have e0 : ∀ d, comp.forgetLower.attr d Cochain.x = comp.attr d Cochain.x := fun d =>
    attr_forgetLower comp d Cochain.x fun _ => rfl
  have e1 : ∀ d, comp.forgetLower.faces d = comp.faces d := fun d => by
    unfold Complex.faces
    rw [attr_forgetLower comp d Cochain.boundaryIndex fun _ => rfl]
  funext d
  cases d with
  | zero => simp only [EmbedInit.rows, EmbedInit.vertexRows, e0]
  | succ d =>
    cases d with
    | zero =>
      simp only [EmbedInit.rows, EmbedInit.edgeSums, EmbedInit.vertexRows, e0, e1, h.cellsIn_forget]
    | succ d =>
      simp only [EmbedInit.rows, EmbedInit.edgeSums, EmbedInit.vertexRows, e0, e1, h.cellsIn_forget]

theorem EmbedInit.embed_forget (l : EmbedInit R) {comp : Complex R L} (h : comp.Valid) :
    l.embed comp.forgetLower = (l.embed comp).forgetLower := by
  unfold EmbedInit.embed
  rw [l.rows_forget h]
  unfold Complex.forgetLower
  simp only [Complex.mk.injEq, and_true, true_and]
  apply List.ext_getElem?
  intro i
  simp only [List.getElem?_mapIdx, List.getElem?_map, Option.map_map]
  rfl

theorem EmbedInit.Takes.forget {l : EmbedInit R} {comp : Complex R L} (h : l.Takes comp) : l.Takes comp.forgetLower where
  valid := h.valid.forget
  small := h.small
  cells d hd := by rw [h.valid.cellsIn_forget]; exact h.cells d hd
  nodes := by rw [attr_forgetLower comp 0 Cochain.x fun _ => rfl]; exact h.nodes
  vertices := forgetLower_lower comp 0
  faces d c hd hc := by
    rw [h.valid.cellsIn_forget] at hc
    obtain ⟨p, hp, hpc⟩ := h.faces d c hd hc
    refine ⟨p, ?_, hpc⟩
    unfold Complex.faces at hp ⊢
    rw [attr_forgetLower comp d Cochain.boundaryIndex fun _ => rfl]
    exact hp
  edges he := by
    rw [attr_forgetLower comp 1 Cochain.x fun _ => rfl] at he
    exact h.edges he

theorem UniformFeatures.forget {cs : List (Complex R L)} (h : UniformFeatures cs) :
    UniformFeatures (cs.map Complex.forgetLower) := by
  intro d
  rcases h d with h | h
  · left
    intro c hc hd
    obtain ⟨c0, h1, rfl⟩ := List.mem_map.mp hc
    rw [attr_forgetLower c0 d Cochain.x fun _ => rfl]
    exact h c0 h1 hd
  · right
    intro c hc
    obtain ⟨c0, h1, rfl⟩ := List.mem_map.mp hc
    rw [attr_forgetLower c0 d Cochain.x fun _ => rfl]
    exact h c0 h1

variable [Field 𝕜] [Module 𝕜 R]

theorem SameButLower.predict {Lv : Type} {rule : Lv → Rule R}
    (hrule : ∀ l x u dn dn' b, (rule l).new x u dn b = (rule l).new x u dn' b) (net : SparseNet R Lv) {v w : View R}
    (h : SameButLower v w) : net.predict 𝕜 rule w = net.predict 𝕜 rule v := by
  unfold SparseNet.predict
  congr 2
  apply List.map_congr_left
  intro d _
  rw [h.final]
  intro rules hrules d x u dn dn' b
  obtain ⟨levels, -, rfl⟩ := List.mem_map.mp hrules
  unfold rulesOf
  split
  · exact hrule _ _ _ _ _ _
  · rfl

theorem SparseNet.predict_forgets {Lv : Type} {rule : Lv → Rule R}
    (hrule : ∀ l x u dn dn' b, (rule l).new x u dn b = (rule l).new x u dn' b) (net : SparseNet R Lv)
    (comp : Complex R L) (mB : Nat) :
    net.predict 𝕜 rule (comp.forgetLower.view.upTo mB) = net.predict 𝕜 rule (comp.view.upTo mB) :=
  (((sameButLower_forget comp).upTo mB).predict hrule net).symm

theorem EmbedNet.predict_forgets {Lv : Type} {rule : Lv → Rule R}
    (hrule : ∀ l x u dn dn' b, (rule l).new x u dn b = (rule l).new x u dn' b) (net : EmbedNet R Lv)
    {comp : Complex R L} (h : comp.Valid) (mB : Nat) :
    net.predict 𝕜 rule mB comp.forgetLower = net.predict 𝕜 rule mB comp := by
  unfold EmbedNet.predict
  rw [EmbedInit.embed_forget _ h]
  exact SparseNet.predict_forgets hrule net.net _ mB

end

theorem Reports.forget {width : F → Nat} {comps : List (Complex F L)} {m : Option Nat} {nf : List (Option Nat)}
    (h : Reports width comps m nf) : Reports width (comps.map Complex.forgetLower) m nf where
  largest := by
    rw [List.map_map]
    exact h.largest
  len := h.len
  widths comp hc d hd := by
    obtain ⟨c0, h1, rfl⟩ := List.mem_map.mp hc
    obtain ⟨c, w, h2, h3, h4⟩ := h.widths c0 h1 d hd
    refine ⟨c.forgetLower, w, ?_, h3, h4⟩
    rw [forgetLower_cochains, List.getElem?_map, h2, Option.map_some]

theorem MatchesGraph.forget {data : GraphData F L} {comp : Complex F L} (h : MatchesGraph data comp) :
    MatchesGraph data comp.forgetLower where
  label := h.label
  features := by
    rw [forgetLower_x]
    exact h.features
  edges := by
    rw [forgetLower_x]
    exact h.edges

theorem forall₂_map_right' {A B C : Type} {P : A → B → Prop} {Q : A → C → Prop} {f : B → C} {l : List A} {l' : List B}
    (h : List.Forall₂ P l l') (hf : ∀ a b, P a b → Q a (f b)) : List.Forall₂ Q l (l'.map f) := by
  induction h with
  | nil => exact .nil
  | cons h1 _ ih => exact .cons (hf _ _ h1) ih

end Verif
