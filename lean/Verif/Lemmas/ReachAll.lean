import Verif.Spec.Reach
import Verif.Lemmas.Reach
import Mathlib.Algebra.Group.Submonoid.BigOperators

/-!
# Layers that add up what they hear
-/

namespace Verif

variable {𝕜 R M L : Type}

/-- The view with all rows mapped. -/
def View.mapRows {M R : Type} (f : M → R) (v : View M) : View R :=
  { X := fun d => (v.X d).map f, up := v.up, down := v.down, bnd := v.bnd }

/-- Everything is added up. -/
def addRule [AddCommMonoid M] : Rule M where
  up x a := x + a.getD 0
  down x _ := x
  bnd := id
  new x u _ b := (u + x) + (b + x)

theorem rowOf_map [AddCommMonoid M] [AddCommMonoid R] (f : M →+ R) (l : List M) (c : Nat) :
    rowOf (l.map f) c = f (rowOf l c) := by
  unfold rowOf
  rw [List.getElem?_map]
  cases l[c]? with
  | none => simp
  | some a => rfl

section
variable [Field 𝕜] [AddCommMonoid R] [Module 𝕜 R] [AddCommMonoid M]

theorem below_mapRows (f : M →+ R) (v : View M) (d : Nat) : (v.mapRows f).below d = (v.below d).map f := by
  cases d <;> rfl

/-- The nonlinearity does nothing on the rows that occur. -/
theorem addLevel_newRow (S : AddSubmonoid R) {act : R → R} (hact : ∀ x ∈ S, act x = x) (f : M →+ R) (v : View M)
    (hS : ∀ d c, f (rowOf (v.X d) c) ∈ S) (d c : Nat) :
    (v.mapRows f).newRow (addLevel (𝕜 := 𝕜) act).rule true d c = f (v.newRow addRule true d c) ∧
      f (v.newRow addRule true d c) ∈ S := by
  have hb : ∀ d c, f (rowOf (v.below d) c) ∈ S := by
    intro d c
    cases d with
    | zero => simp [View.below, rowOf]
    | succ d => exact hS d c
  have e1 : (v.mapRows f).upSum (addLevel (𝕜 := 𝕜) act).rule true d c = f (v.upSum addRule true d c) := by
    unfold View.upSum
    rw [map_list_sum, List.map_map]
    congr 1
    apply List.map_congr_left
    intro p _
    show act (rowOf ((v.X d).map f) p.1.1 + rowOf ((v.X (d + 1)).map f) p.2) = _
    rw [rowOf_map, rowOf_map, hact _ (S.add_mem (hS _ _) (hS _ _))]
    exact (map_add f _ _).symm
  have m1 : f (v.upSum addRule true d c) ∈ S := by
    unfold View.upSum
    rw [map_list_sum]
    refine S.list_sum_mem ?_
    intro y hy
    simp only [List.map_map, List.mem_map, Function.comp] at hy
    obtain ⟨p, -, rfl⟩ := hy
    show f (rowOf (v.X d) p.1.1 + rowOf (v.X (d + 1)) p.2) ∈ S
    rw [map_add]
    exact S.add_mem (hS _ _) (hS _ _)
  have e2 : (v.mapRows f).bndSum (addLevel (𝕜 := 𝕜) act).rule d c = f (v.bndSum addRule d c) := by
    unfold View.bndSum
    rw [map_list_sum, List.map_map, below_mapRows]
    congr 1
    apply List.map_congr_left
    intro p _
    exact rowOf_map f _ _
  have m2 : f (v.bndSum addRule d c) ∈ S := by
    unfold View.bndSum
    rw [map_list_sum]
    refine S.list_sum_mem ?_
    intro y hy
    simp only [List.map_map, List.mem_map, Function.comp] at hy
    obtain ⟨p, -, rfl⟩ := hy
    exact hb _ _
  have e3 : f (v.newRow addRule true d c) = (f (v.upSum addRule true d c) + f (rowOf (v.X d) c)) +
      (f (v.bndSum addRule d c) + f (rowOf (v.X d) c)) := by
    rw [← map_add, ← map_add, ← map_add]
    rfl
  have m3 := S.add_mem (S.add_mem m1 (hS d c)) (S.add_mem m2 (hS d c))
  refine ⟨?_, e3 ▸ m3⟩
  rw [e3]
  unfold View.newRow
  rw [e1, e2]
  show act (act (_ + (1 + (0 : 𝕜)) • rowOf ((v.X d).map f) c) + act (_ + (1 + (0 : 𝕜)) • rowOf ((v.X d).map f) c)) = _
  rw [add_zero, one_smul, rowOf_map, hact _ (S.add_mem m1 (hS d c)), hact _ (S.add_mem m2 (hS d c)), hact _ m3]

theorem addLevel_layer (S : AddSubmonoid R) {act : R → R} (hact : ∀ x ∈ S, act x = x) (f : M →+ R) (v : View M)
    (hS : ∀ d c, f (rowOf (v.X d) c) ∈ S) :
    (v.mapRows f).layer (rulesOf SparseLevel.rule (List.replicate 3 (addLevel (𝕜 := 𝕜) act))) 2 true =
        (v.layer (fun _ => addRule) 2 true).mapRows f ∧
      ∀ d c, f (rowOf ((v.layer (fun _ => addRule) 2 true).X d) c) ∈ S := by
  constructor
  · unfold View.layer View.mapRows
    dsimp only
    congr 1
    funext d
    split
    · rename_i hd
      rw [List.map_map, List.length_map]
      apply List.map_congr_left
      intro c _
      have hr : rulesOf SparseLevel.rule (List.replicate 3 (addLevel (𝕜 := 𝕜) act)) d =
          (addLevel (𝕜 := 𝕜) act).rule := by
        unfold rulesOf
        rw [List.getElem?_replicate, if_pos (by omega)]
      rw [hr, Bool.or_true]
      exact (addLevel_newRow S hact f v hS d c).1
    · rfl
  · intro d c
    rw [rowOf_layer]
    split
    · split
      · rw [Bool.or_true]
        exact (addLevel_newRow (𝕜 := 𝕜) S hact f v hS d c).2
      · simp
    · exact hS d c

theorem addLevel_after (S : AddSubmonoid R) {act : R → R} (hact : ∀ x ∈ S, act x = x) (f : M →+ R) (k : Nat) :
    ∀ v : View M, (∀ d c, f (rowOf (v.X d) c) ∈ S) →
      (v.mapRows f).after 2 true ((List.replicate k (List.replicate 3 (addLevel (𝕜 := 𝕜) act))).map
        (rulesOf SparseLevel.rule)) = (v.after 2 true (List.replicate k fun _ => addRule)).mapRows f := by
  induction k with
  | zero => intro v _; rfl
  | succ k ih =>
    intro v hS
    obtain ⟨h1, h2⟩ := addLevel_layer (𝕜 := 𝕜) S hact f v hS
    show ((v.mapRows f).layer (rulesOf SparseLevel.rule (List.replicate 3 (addLevel (𝕜 := 𝕜) act))) 2 true).after 2 true
      ((List.replicate k (List.replicate 3 (addLevel (𝕜 := 𝕜) act))).map (rulesOf SparseLevel.rule)) =
      ((v.layer _ 2 true).after 2 true _).mapRows f
    rw [h1]
    exact ih _ h2

end

/-! ### Weights -/

theorem nat_le_sum {l : List Nat} {a : Nat} (h : a ∈ l) : a ≤ l.sum := by
  induction l with
  | nil => cases h
  | cons b l ih =>
    rw [List.sum_cons]
    rcases List.mem_cons.mp h with rfl | h
    · omega
    · have := ih h
      omega

theorem addRule_up {v : View Nat} {d : Nat} {p : (Nat × Nat) × Nat} (hp : p ∈ v.up d) :
    rowOf (v.X d) p.1.1 + rowOf (v.X (d + 1)) p.2 ≤ v.newRow addRule true d p.1.2 := by
  have : rowOf (v.X d) p.1.1 + rowOf (v.X (d + 1)) p.2 ≤ v.upSum addRule true d p.1.2 :=
    nat_le_sum (List.mem_map.mpr ⟨p, List.mem_filter.mpr ⟨hp, by simp⟩, rfl⟩)
  show _ ≤ (v.upSum addRule true d p.1.2 + _) + _
  omega

theorem addRule_bnd {v : View Nat} {d : Nat} {p : Nat × Nat} (hp : p ∈ v.bnd (d + 1)) :
    rowOf (v.X d) p.1 ≤ v.newRow addRule true (d + 1) p.2 := by
  have : rowOf (v.X d) p.1 ≤ v.bndSum addRule (d + 1) p.2 :=
    nat_le_sum (List.mem_map.mpr ⟨p, List.mem_filter.mpr ⟨hp, by simp⟩, rfl⟩)
  show _ ≤ (_ + _) + (v.bndSum addRule (d + 1) p.2 + _)
  omega

theorem addRule_own {v : View Nat} {d c : Nat} : rowOf (v.X d) c ≤ v.newRow addRule true d c := by
  show _ ≤ (_ + _) + (_ + rowOf (v.X d) c)
  omega

theorem mapRows_after [AddCommMonoid M] [AddCommMonoid R] (f : M →+ R) (k : Nat) : ∀ v : View M,
    (v.mapRows f).after 2 true (List.replicate k fun _ => addRule) =
      (v.after 2 true (List.replicate k fun _ => addRule)).mapRows f := by
  have hnew : ∀ (v : View M) (d c : Nat), (v.mapRows f).newRow addRule true d c = f (v.newRow addRule true d c) := by
    intro v d c
    have e1 : (v.mapRows f).upSum addRule true d c = f (v.upSum addRule true d c) := by
      unfold View.upSum
      rw [map_list_sum, List.map_map]
      congr 1
      apply List.map_congr_left
      intro p _
      show rowOf ((v.X d).map f) p.1.1 + rowOf ((v.X (d + 1)).map f) p.2 = _
      rw [rowOf_map, rowOf_map]
      exact (map_add f _ _).symm
    have e2 : (v.mapRows f).bndSum addRule d c = f (v.bndSum addRule d c) := by
      unfold View.bndSum
      rw [map_list_sum, List.map_map, below_mapRows]
      congr 1
      apply List.map_congr_left
      intro p _
      exact rowOf_map f _ _
    unfold View.newRow
    rw [e1, e2]
    show (f _ + rowOf ((v.X d).map f) c) + (f _ + rowOf ((v.X d).map f) c) = _
    rw [rowOf_map, ← map_add, ← map_add, ← map_add]
    rfl
  induction k with
  | zero => intro v; rfl
  | succ k ih =>
    intro v
    rw [List.replicate_succ]
    show ((v.mapRows f).layer _ 2 true).after 2 true _ = ((v.layer _ 2 true).after 2 true _).mapRows f
    rw [← ih]
    congr 1
    unfold View.layer View.mapRows
    dsimp only
    congr 1
    funext d
    split
    · rw [List.map_map, List.length_map]
      apply List.map_congr_left
      intro c _
      rw [Bool.or_true]
      exact hnew v d c
    · rfl

theorem addRule_layer {v : View Nat} {d c : Nat} (hd : d ≤ 2) (hc : c < (v.X d).length) :
    rowOf ((v.layer (fun _ => addRule) 2 true).X d) c = v.newRow addRule true d c := by
  rw [rowOf_layer, if_pos hd, if_pos hc, Bool.or_true]

/-- In three layers a vertex hears from every vertex: vertex, edge, edge by way of the ring, vertex. -/
theorem three_layers_reach {u : View Nat} {m e f p : Nat} (hb : (m, f) ∈ u.bnd 1) (h1 : ((f, e), 0) ∈ u.up 1)
    (h0 : ((p, 0), e) ∈ u.up 0) (hf : f < (u.X 1).length) (he : e < (u.X 1).length) (hz : 0 < (u.X 0).length)
    (hm : 0 < rowOf (u.X 0) m) :
    0 < rowOf ((u.after 2 true (List.replicate 3 fun _ => addRule)).X 0) 0 := by
  show 0 < rowOf ((((u.layer (fun _ => addRule) 2 true).layer (fun _ => addRule) 2 true).layer
    (fun _ => addRule) 2 true).X 0) 0
  have s1 : 0 < rowOf ((u.layer (fun _ => addRule) 2 true).X 1) f := by
    rw [addRule_layer (by omega) hf]
    exact Nat.lt_of_lt_of_le hm (addRule_bnd hb)
  have s2 : 0 < rowOf (((u.layer (fun _ => addRule) 2 true).layer (fun _ => addRule) 2 true).X 1) e := by
    rw [addRule_layer (by omega) (by rw [layer_X_length]; exact he)]
    have := addRule_up (v := u.layer (fun _ => addRule) 2 true) h1
    dsimp only at this
    omega
  rw [addRule_layer (by omega) (by rw [layer_X_length, layer_X_length]; exact hz)]
  exact Nat.lt_of_lt_of_le s2 (Nat.le_trans (Nat.le_add_left _ _)
    (addRule_up (v := (u.layer (fun _ => addRule) 2 true).layer (fun _ => addRule) 2 true) h0))

/-! ### Discs -/

section
variable [AddCommMonoid R] {comp comp' : Complex R L} {n : Nat} {E : List (List Nat)} {r : List Nat} {x x' : List R}

theorem IsDisc.view_upTo (h : IsDisc comp n E r x) : comp.view.upTo 2 = comp.view := by
  have e1 : (comp.view.upTo 2).X = comp.view.X := by
    funext d
    simp only [View.upTo]
    split
    · rfl
    · rw [h.X3 (by omega)]
  have e2 : (comp.view.upTo 2).up = comp.view.up := by
    funext d
    simp only [View.upTo]
    split
    · rfl
    · refine (List.eq_nil_iff_forall_not_mem.mpr ?_).symm
      rintro ⟨⟨a, b⟩, c⟩ hm
      have := ((h.view_up d a b c).mp hm).1
      omega
  have e3 : (comp.view.upTo 2).down = comp.view.down := by
    funext d
    simp only [View.upTo, h.view_down, ite_self]
  have e4 : (comp.view.upTo 2).bnd = comp.view.bnd := by
    funext d
    simp only [View.upTo]
    split
    · rfl
    · refine (List.eq_nil_iff_forall_not_mem.mpr ?_).symm
      rintro ⟨a, c⟩ hm
      cases d with
      | zero => cases hm
      | succ d =>
        have := ((h.view_bnd d a c).mp hm).1
        omega
  calc comp.view.upTo 2 = ⟨(comp.view.upTo 2).X, (comp.view.upTo 2).up, (comp.view.upTo 2).down, (comp.view.upTo 2).bnd⟩ := rfl
    _ = _ := by rw [e1, e2, e3, e4]

theorem init_id (v : View R) (m : Nat) : v.layer (initRules id) m true = v := by
  have : (v.layer (initRules id) m true).X = v.X := by
    funext d
    rw [init_layer]
    split
    · rename_i h; rw [List.map_id, h]
    · rfl
  calc v.layer (initRules id) m true = ⟨(v.layer (initRules id) m true).X, v.up, v.down, v.bnd⟩ := rfl
    _ = _ := by rw [this]

/-- The rows with the label kept apart: weight one and nothing else at its node. -/
def apart (n : Nat) (x : List R) : List (Nat × R) := (List.range n).map fun i => if i = n / 2 then (1, 0) else (0, rowOf x i)

/-- The view with the label kept apart. -/
def View.apart (v : View R) (n : Nat) (x : List R) : View (Nat × R) where
  X d := if d = 0 then Verif.apart n x else (v.X d).map fun y => (0, y)
  up := v.up
  down := v.down
  bnd := v.bnd

/-- Putting the label back. -/
def putBack (T : R) : Nat × R →+ R where
  toFun p := p.1 • T + p.2
  map_zero' := by simp
  map_add' p q := by
    simp only [Prod.fst_add, Prod.snd_add, add_nsmul]
    exact add_add_add_comm _ _ _ _

theorem putBack_apart {T : R} (hx : x.length = n) (hT : x[n / 2]? = some T) : (apart n x).map (putBack T) = x := by
  unfold apart
  apply List.ext_getElem (by simp [hx])
  intro i h1 h2
  simp only [List.getElem_map, List.getElem_range]
  split
  · rename_i hi
    subst hi
    rw [List.getElem?_eq_getElem h2, Option.some.injEq] at hT
    rw [hT]
    show 1 • T + 0 = T
    simp
  · show 0 • T + rowOf x i = _
    simp [rowOf, List.getElem?_eq_getElem h2]

theorem mapRows_apart (h : IsDisc comp n E r x) {T : R} (hT : x[n / 2]? = some T) :
    (comp.view.apart n x).mapRows (putBack T) = comp.view := by
  have : ((comp.view.apart n x).mapRows (putBack T)).X = comp.view.X := by
    funext d
    show ((if d = 0 then apart n x else (comp.view.X d).map fun y => (0, y)).map (putBack T)) = _
    split
    · rename_i hd; rw [putBack_apart h.size hT, hd, h.X0]
    · rw [List.map_map]
      refine (List.map_congr_left (g := id) ?_).trans (List.map_id _)
      intro y _
      show 0 • T + y = y
      simp
  calc (comp.view.apart n x).mapRows (putBack T) =
      ⟨((comp.view.apart n x).mapRows (putBack T)).X, comp.view.up, comp.view.down, comp.view.bnd⟩ := rfl
    _ = _ := by rw [this]

theorem apart_congr (hx : ∀ c, c ≠ n / 2 → x[c]? = x'[c]?) : apart n x = apart n x' := by
  unfold apart
  apply List.map_congr_left
  intro i _
  split
  · rfl
  · rename_i hi; rw [rowOf, rowOf, hx i hi]

/-- The rows with the label apart are the same for all labels. -/
theorem apart_after (h : IsDisc comp n E r x) (h' : IsDisc comp' n E r x') (hx : ∀ c, c ≠ n / 2 → x[c]? = x'[c]?)
    (k : Nat) (c : Nat) :
    rowOf (((comp.view.apart n x).after 2 true (List.replicate k fun _ => addRule)).X 0) c =
      rowOf (((comp'.view.apart n x').after 2 true (List.replicate k fun _ => addRule)).X 0) c := by
  have hs := h.sameShape h'
  have hsh : SameShape (comp.view.apart n x) (comp'.view.apart n x') := by
    refine ⟨?_, hs.up, hs.down, hs.bnd⟩
    intro d
    show (if d = 0 then _ else _ : List (Nat × R)).length = (if d = 0 then _ else _ : List (Nat × R)).length
    split
    · simp [apart]
    · simp [hs.size]
  have h0 : AgreeOn (fun _ _ => True) (comp.view.apart n x) (comp'.view.apart n x') := by
    intro d c _
    show rowOf (if d = 0 then _ else _) c = rowOf (if d = 0 then _ else _) c
    split
    · rw [apart_congr hx]
    · rename_i hd; rw [h.above h' hd]
  have key : ∀ (k : Nat) (v w : View (Nat × R)), SameShape v w → (∀ d, v.down d = []) → AgreeOn (fun _ _ => True) v w →
      AgreeOn (fun _ _ => True) (v.after 2 true (List.replicate k fun _ => addRule))
        (w.after 2 true (List.replicate k fun _ => addRule)) := by
    intro k
    induction k with
    | zero => intro v w _ _ h; exact h
    | succ k ih =>
      intro v w hs hd ha
      exact ih _ _ (hs.layer _ 2 true) hd (ha.layer hs hd fun _ _ _ =>
        ⟨trivial, fun _ _ _ => ⟨trivial, .inr trivial⟩, fun _ _ _ => .inr trivial⟩)
  exact key k _ _ hsh h.view_down h0 0 c trivial

/-- The label has positive weight at vertex 0 after three layers. -/
theorem apart_weight (h : IsDisc comp n E r x) (hn : 3 ≤ n) (hE : E.Perm (cycleEdges n)) (hr : r.Perm (List.range n)) :
    0 < (rowOf (((comp.view.apart n x).after 2 true (List.replicate 3 fun _ => addRule)).X 0) 0).1 := by
  have hElen : E.length = n := by rw [hE.length_eq]; simp [cycleEdges]; omega
  obtain ⟨e, he⟩ := List.mem_iff_getElem?.mp (hE.mem_iff.mpr (mem_cycleEdges.mpr (.inr rfl)))
  obtain ⟨f, hf⟩ := List.mem_iff_getElem?.mp (hE.mem_iff.mpr (mem_cycleEdges.mpr
    (.inl ⟨n / 2 - 1, by omega, rfl⟩)))
  have hfe : f ≠ e := by
    rintro rfl
    rw [he, Option.some.injEq, List.cons.injEq, List.cons.injEq] at hf
    omega
  have hon : ∀ s ∈ E, OnCell s r := by
    intro s hs v hv
    rw [hr.mem_iff, List.mem_range]
    rcases mem_cycleEdges.mp (hE.mem_iff.mp hs) with ⟨i, hi, rfl⟩ | rfl <;>
      simp only [List.mem_cons, List.not_mem_nil, or_false] at hv <;> omega
  have hv : ∀ a, a < n → (discCells n E r 0)[a]? = some [a] := by
    intro a ha
    simp [discCells, ha]
  have elt := (List.getElem?_eq_some_iff.mp he).1
  have flt := (List.getElem?_eq_some_iff.mp hf).1
  have key := three_layers_reach (u := (comp.view.apart n x).mapRows (AddMonoidHom.fst Nat R)) (m := n / 2) (e := e)
    (f := f) (p := n - 1)
    ((h.view_bnd 0 _ _).mpr ⟨by omega, [n / 2], _, hv _ (by omega), hf, by
      intro v hv
      simp only [List.mem_cons, List.not_mem_nil, or_false] at hv ⊢
      omega⟩)
    ((h.view_up 1 _ _ _).mpr ⟨by omega, hfe, _, _, r, hf, he, rfl, hon _ (List.mem_of_getElem? hf),
      hon _ (List.mem_of_getElem? he)⟩)
    ((h.view_up 0 _ _ _).mpr ⟨by omega, by omega, _, _, _, hv _ (by omega), hv _ (by omega), he,
      by intro v hv; simp only [List.mem_cons, List.not_mem_nil, or_false] at hv ⊢; omega,
      by intro v hv; simp only [List.mem_cons, List.not_mem_nil, or_false] at hv ⊢; omega⟩)
    (by show f < (List.map _ (List.map _ _)).length; rw [List.length_map, List.length_map, h.X1]; simp; omega)
    (by show e < (List.map _ (List.map _ _)).length; rw [List.length_map, List.length_map, h.X1]; simp; omega)
    (by show 0 < (List.map _ (apart n x)).length; simp [apart]; omega)
    (by
      show 0 < rowOf ((apart n x).map (AddMonoidHom.fst Nat R)) (n / 2)
      rw [rowOf_map]
      unfold apart
      rw [rowOf_range _ (by omega), if_pos rfl]
      exact Nat.one_pos)
  rw [mapRows_after] at key
  have : rowOf ((((comp.view.apart n x).after 2 true (List.replicate 3 fun _ => addRule)).X 0).map
      (AddMonoidHom.fst Nat R)) 0 = _ := rowOf_map _ _ _
  have key' : 0 < rowOf ((((comp.view.apart n x).after 2 true (List.replicate 3 fun _ => addRule)).X 0).map
      (AddMonoidHom.fst Nat R)) 0 := key
  rw [this] at key'
  exact key'

end

/-! ### GIN -/

section
variable [Field 𝕜] [AddCommMonoid R] [Module 𝕜 R]

/-- The rows of the nodes after all layers. -/
def ginAfter (edges : List (Nat × Nat)) (row : Nat → R) (ls : List (GINLevel 𝕜 R)) : Nat → R :=
  ls.foldl (fun row l c => l.nn (((edges.filter fun p => p.2 == c).map fun p => row p.1).sum + (1 + l.eps) • row c)) row

theorem ginRows_last (edges : List (Nat × Nat)) (row : Nat → R) (l : GINLevel 𝕜 R) (ls : List (GINLevel 𝕜 R)) :
    (ginRows edges row (l :: ls)).getLast? = some (ginAfter edges row (l :: ls)) := by
  induction ls generalizing row l with
  | nil => rfl
  | cons l' ls ih =>
    rw [ginRows, ginRows, List.getLast?_cons_cons]
    exact ih (fun c => l.nn (((edges.filter fun p => p.2 == c).map fun p => row p.1).sum + (1 + l.eps) • row c)) l'

theorem RingGIN.predict_first (net : RingGIN 𝕜 R) {g : GData R} {n : Nat} (hn : 0 < n) (hx : g.x.length = n)
    (hm : g.mask = true :: List.replicate (n - 1) false) :
    net.predict g = [net.lin1 (ginAfter g.edges (rowOf (g.x.map net.initLinear)) net.levels 0)] := by
  rw [RingGIN.predict_rows, hm, picked_first hn (by simp [RingGIN.rows, hx])]
  have : rowOf (net.rows g) 0 = ginAfter g.edges (rowOf (g.x.map net.initLinear)) net.levels 0 := by
    unfold RingGIN.rows
    rw [rowOf_range _ (by omega)]
    have := ginRows_last g.edges (rowOf (g.x.map net.initLinear)) { net.conv1 with nn := fun x => net.act (net.conv1.nn x) }
      net.convs
    unfold RingGIN.levels
    rw [show (ginRows g.edges (fun c => rowOf (g.x.map net.initLinear) c) _).getLast? = some _ from this]
    rfl
  rw [this]
  rfl

/-- `t` layers do not see further than distance `t`. -/
theorem gin_agree {edges : List (Nat × Nat)} {far : Nat → Nat} (lip : ∀ e ∈ edges, far e.2 ≤ far e.1 + 1)
    (ls : List (GINLevel 𝕜 R)) : ∀ (row row' : Nat → R) (t : Nat), (∀ c, t < far c → row c = row' c) →
      ∀ c, t + ls.length < far c → ginAfter edges row ls c = ginAfter edges row' ls c := by
  induction ls with
  | nil => intro row row' t h c hc; exact h c hc
  | cons l ls ih =>
    intro row row' t h c hc
    refine ih _ _ (t + 1) ?_ c (by simp only [List.length_cons] at hc; omega)
    intro c hc
    beta_reduce
    rw [h c (by omega)]
    congr 2
    refine congrArg List.sum (List.map_congr_left ?_)
    intro p hp
    rw [List.mem_filter, beq_iff_eq] at hp
    have := lip p hp.1
    rw [hp.2] at this
    exact h _ (by omega)

variable [AddCommMonoid M]

/-- The rows when everything is added up. -/
def sumAfter (edges : List (Nat × Nat)) (row : Nat → M) : Nat → (Nat → M)
  | 0 => row
  | k + 1 => sumAfter edges (fun c => ((edges.filter fun p => p.2 == c).map fun p => row p.1).sum + row c) k

theorem sumAfter_map (f : M →+ R) (edges : List (Nat × Nat)) (k : Nat) : ∀ (row : Nat → M) (c : Nat),
    sumAfter edges (fun c => f (row c)) k c = f (sumAfter edges row k c) := by
  induction k with
  | zero => intro row c; rfl
  | succ k ih =>
    intro row c
    show sumAfter edges _ k c = f (sumAfter edges _ k c)
    rw [← ih]
    congr 1
    funext c
    rw [map_add, map_list_sum, List.map_map]
    rfl

theorem addGIN_after (S : AddSubmonoid R) (edges : List (Nat × Nat)) (ls : List (GINLevel 𝕜 R))
    (hl : ∀ l ∈ ls, l.eps = 0 ∧ ∀ x ∈ S, l.nn x = x) : ∀ row : Nat → R, (∀ c, row c ∈ S) →
      ginAfter edges row ls = sumAfter edges row ls.length := by
  induction ls with
  | nil => intro row _; rfl
  | cons l ls ih =>
    intro row hS
    have hm : ∀ c, ((edges.filter fun p => p.2 == c).map fun p => row p.1).sum + row c ∈ S := by
      intro c
      refine S.add_mem (S.list_sum_mem ?_) (hS c)
      intro y hy
      obtain ⟨p, -, rfl⟩ := List.mem_map.mp hy
      exact hS _
    have e : (fun c => l.nn (((edges.filter fun p => p.2 == c).map fun p => row p.1).sum + (1 + l.eps) • row c)) =
        fun c => ((edges.filter fun p => p.2 == c).map fun p => row p.1).sum + row c := by
      funext c
      rw [(hl l (by simp)).1, add_zero, one_smul, (hl l (by simp)).2 _ (hm c)]
    show ginAfter edges (fun c => l.nn _) ls = sumAfter edges _ ls.length
    rw [e]
    exact ih (fun l h => hl l (by simp [h])) _ hm

/-- A node at distance `k` hears from the label in `k` layers. -/
theorem sumAfter_reach {n : Nat} {edges : List (Nat × Nat)} (k : Nat)
    (hstep : ∀ c, c < n → 0 < toLabel n c → ∃ p, p < n ∧ (p, c) ∈ edges ∧ toLabel n p < toLabel n c) :
    ∀ (row : Nat → Nat) (t : Nat), (∀ c, c < n → toLabel n c ≤ t → 0 < row c) → ∀ c, c < n → toLabel n c ≤ t + k →
      0 < sumAfter edges row k c := by
  induction k with
  | zero => intro row t h c hc ht; exact h c hc ht
  | succ k ih =>
    intro row t h c hc ht
    refine ih _ (t + 1) ?_ c hc (by omega)
    intro c hc ht
    by_cases h0 : toLabel n c ≤ t
    · have := h c hc h0
      omega
    · obtain ⟨p, hp, he, hlt⟩ := hstep c hc (by omega)
      have h1 := h p hp (by omega)
      have h2 : row p ≤ ((edges.filter fun p => p.2 == c).map fun p => row p.1).sum :=
        nat_le_sum (List.mem_map.mpr ⟨(p, c), List.mem_filter.mpr ⟨he, by simp⟩, rfl⟩)
      omega

end

end Verif
