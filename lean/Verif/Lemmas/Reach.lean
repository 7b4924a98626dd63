import Verif.Lemmas.RingNets
import Verif.Lemmas.RingProcess

/-!
# How far information travels through the layers
-/

namespace Verif

variable {𝕜 R L : Type}

section
variable [AddCommMonoid R]

/-- The same columns up to their order, and as many rows. -/
structure SameShape (v w : View R) : Prop where
  size : ∀ d, (w.X d).length = (v.X d).length
  up : ∀ d, (w.up d).Perm (v.up d)
  down : ∀ d, (w.down d).Perm (v.down d)
  bnd : ∀ d, (w.bnd d).Perm (v.bnd d)

theorem SameShape.layer {v w : View R} (h : SameShape v w) (rules : Nat → Rule R) (m : Nat) (top : Bool) :
    SameShape (v.layer rules m top) (w.layer rules m top) where
  size d := by rw [layer_X_length, layer_X_length, h.size]
  up := h.up
  down := h.down
  bnd := h.bnd

/-- The rows of the cells in `P` are the same. -/
def AgreeOn (P : Nat → Nat → Prop) (v w : View R) : Prop := ∀ d c, P d c → rowOf (v.X d) c = rowOf (w.X d) c

theorem rowOf_layer (v : View R) (rules : Nat → Rule R) (m : Nat) (top : Bool) (d c : Nat) :
    rowOf ((v.layer rules m top).X d) c = if d ≤ m then
      (if c < (v.X d).length then v.newRow (rules d) (decide (d < m) || top) d c else 0) else rowOf (v.X d) c := by
  simp only [View.layer]
  split
  · split
    · rename_i h; rw [rowOf_range _ h]
    · rename_i h
      unfold rowOf
      rw [List.getElem?_eq_none (by simpa using h)]
      rfl
  · rfl

/-- The message of the rule does not use the shared cell. -/
def Rule.Ignores (r : Rule R) : Prop := ∀ x a b, r.up x a = r.up x b

theorem sum_perm_congr {A : Type} {l l' : List A} (hp : l'.Perm l) {f g : A → R} (h : ∀ a ∈ l, f a = g a) :
    (l.map f).sum = (l'.map g).sum := by
  rw [(hp.map g).sum_eq]
  congr 1
  exact List.map_congr_left h

theorem newRow_agree {v w : View R} (h : SameShape v w) {r : Rule R} {shared : Bool} {d c : Nat}
    (own : rowOf (v.X d) c = rowOf (w.X d) c)
    (up : ∀ p ∈ v.up d, p.1.2 = c → rowOf (v.X d) p.1.1 = rowOf (w.X d) p.1.1 ∧
      (r.Ignores ∨ rowOf (v.X (d + 1)) p.2 = rowOf (w.X (d + 1)) p.2))
    (down : v.down d = [])
    (bnd : ∀ p ∈ v.bnd d, p.2 = c → rowOf (v.below d) p.1 = rowOf (w.below d) p.1) :
    v.newRow r shared d c = w.newRow r shared d c := by
  have hd : w.down d = [] := List.perm_nil.mp (down ▸ h.down d)
  have e1 : v.upSum r shared d c = w.upSum r shared d c := by
    refine sum_perm_congr ((h.up d).filter _) ?_
    intro p hp
    rw [List.mem_filter, beq_iff_eq] at hp
    obtain ⟨h1, h2⟩ := up p hp.1 hp.2
    rw [h1]
    rcases h2 with h2 | h2
    · exact h2 _ _ _
    · rw [h2]
  have e2 : v.downSum r d c = w.downSum r d c := by unfold View.downSum; rw [down, hd]; rfl
  have e3 : v.bndSum r d c = w.bndSum r d c := by
    refine sum_perm_congr ((h.bnd d).filter _) ?_
    intro p hp
    rw [List.mem_filter, beq_iff_eq] at hp
    rw [bnd p hp.1 hp.2]
  unfold View.newRow
  rw [own, e1, e2, e3]

/-- One layer: a cell agrees if it and everything it hears from agreed before. -/
theorem AgreeOn.layer {v w : View R} (h : SameShape v w) (hdown : ∀ d, v.down d = []) {P Q : Nat → Nat → Prop}
    (hP : AgreeOn P v w) {rules : Nat → Rule R} {m : Nat} {top : Bool}
    (hQ : ∀ d c, Q d c → P d c ∧ (∀ p ∈ v.up d, p.1.2 = c → P d p.1.1 ∧ ((rules d).Ignores ∨ P (d + 1) p.2)) ∧
      ∀ p ∈ v.bnd d, p.2 = c → d = 0 ∨ P (d - 1) p.1) :
    AgreeOn Q (v.layer rules m top) (w.layer rules m top) := by
  intro d c hc
  obtain ⟨h1, h2, h3⟩ := hQ d c hc
  rw [rowOf_layer, rowOf_layer]
  split
  · rw [h.size]
    split
    · refine newRow_agree h (hP _ _ h1) ?_ (hdown d) ?_
      · intro p hp he
        obtain ⟨a, b⟩ := h2 p hp he
        exact ⟨hP _ _ a, b.imp id (hP _ _)⟩
      · intro p hp he
        rcases h3 p hp he with rfl | h4
        · rfl
        · cases d with
          | zero => rfl
          | succ d => exact hP _ _ h4
    · rfl
  · exact hP _ _ h1

/-- The view after all layers. -/
def View.after (m : Nat) (top : Bool) (v : View R) (layers : List (Nat → Rule R)) : View R :=
  layers.foldl (fun v rules => v.layer rules m top) v

theorem run_last (m : Nat) (top : Bool) (v : View R) (rules : Nat → Rule R) (rest : List (Nat → Rule R)) :
    (v.run m top (rules :: rest)).getLast? = some (v.after m top (rules :: rest)) := by
  induction rest generalizing v rules with
  | nil => rfl
  | cons r rest ih =>
    rw [View.run, View.run, List.getLast?_cons_cons]
    exact ih (v.layer rules m top) r

theorem RingNet.rows_after {Lv : Type} (rule : Lv → Rule R) (net : RingNet R Lv) (v : View R) :
    net.rows rule v = ((v.layer (initRules net.initLayer) net.maxDim true).after net.maxDim true
      (net.convs.map (rulesOf rule))).X 0 := by
  unfold RingNet.rows
  rw [final_last (run_last _ _ _ _ _) (fun w hw => run_X_length _ _ _ _ hw 0)]
  rfl

theorem after_X_length (m : Nat) (top : Bool) (v : View R) (layers : List (Nat → Rule R)) (d : Nat) :
    ((v.after m top layers).X d).length = (v.X d).length := by
  induction layers generalizing v with
  | nil => rfl
  | cons r rest ih =>
    show (((v.layer r m top).after m top rest).X d).length = _
    rw [ih, layer_X_length]

theorem picked_first {rows : List R} {n : Nat} (hn : 0 < n) (h : rows.length = n) :
    picked rows (true :: List.replicate (n - 1) false) = [rowOf rows 0] := by
  cases rows with
  | nil => simp at h; omega
  | cons a l =>
    have : ∀ (l : List R) (k : Nat), (l.zip (List.replicate k false)).filterMap
        (fun rm => if rm.2 then some rm.1 else none) = [] := by
      intro l
      induction l with
      | nil => intro k; rfl
      | cons b l ih =>
        intro k
        cases k with
        | zero => rfl
        | succ k => rw [List.replicate_succ, List.zip_cons_cons, List.filterMap_cons]; simpa using ih k
    unfold picked
    rw [List.zip_cons_cons, List.filterMap_cons]
    simp [this, rowOf]

/-- The prediction for a complex whose vertex 0 is marked. -/
theorem RingNet.predict_first {Lv : Type} (rule : Lv → Rule R) (net : RingNet R Lv) {v : View R} {n : Nat} (hn : 0 < n)
    (h : (v.X 0).length = n) :
    net.predict rule v (true :: List.replicate (n - 1) false) =
      [net.lin1 (rowOf (((v.layer (initRules net.initLayer) net.maxDim true).after net.maxDim true
        (net.convs.map (rulesOf rule))).X 0) 0)] := by
  unfold RingNet.predict
  rw [RingNet.rows_after, picked_first hn (by rw [after_X_length, layer_X_length, h])]
  rfl

end

/-! ### Distance to the node with the label -/

/-- The distance of node `c` to node `n/2` of the cycle. -/
def toLabel (n c : Nat) : Nat := (c - n / 2) + (n / 2 - c)

theorem mem_cycleEdges {n : Nat} {s : List Nat} : s ∈ cycleEdges n ↔ (∃ i, i + 1 < n ∧ s = [i, i + 1]) ∨ s = [0, n - 1] := by
  unfold cycleEdges
  simp only [List.mem_append, List.mem_map, List.mem_range, List.mem_singleton]
  constructor
  · rintro (⟨i, h1, rfl⟩ | h)
    · exact .inl ⟨i, by omega, rfl⟩
    · exact .inr h
  · rintro (⟨i, h1, rfl⟩ | h)
    · exact .inl ⟨i, by omega, rfl⟩
    · exact .inr h

theorem toLabel_edge {n : Nat} {s : List Nat} (hs : s ∈ cycleEdges n) {a b : Nat} (ha : a ∈ s) (hb : b ∈ s) :
    toLabel n b ≤ toLabel n a + 1 := by
  unfold toLabel
  rcases mem_cycleEdges.mp hs with ⟨i, hi, rfl⟩ | rfl
  · simp only [List.mem_cons, List.not_mem_nil, or_false] at ha hb
    omega
  · simp only [List.mem_cons, List.not_mem_nil, or_false] at ha hb
    omega

/-! ### The view of a disc -/

section
variable [AddCommMonoid R] {comp comp' : Complex R L} {n : Nat} {E : List (List Nat)} {r : List Nat} {x x' : List R}

theorem IsDisc.view_down (h : IsDisc comp n E r x) (d : Nat) : comp.view.down d = [] := by
  cases d with
  | zero => rfl
  | succ d =>
    refine List.eq_nil_iff_forall_not_mem.mpr ?_
    rintro ⟨⟨a, b⟩, c⟩ hm
    have := (h.lifts.down d a b c).mp hm
    simp at this

theorem IsDisc.view_up (h : IsDisc comp n E r x) (d a b c : Nat) : ((a, b), c) ∈ comp.view.up d ↔ d < 2 ∧ a ≠ b ∧
    ∃ s t u, (discCells n E r d)[a]? = some s ∧ (discCells n E r d)[b]? = some t ∧
      (discCells n E r (d + 1))[c]? = some u ∧ OnCell s u ∧ OnCell t u := by
  have hlen := h.ready.valid.len
  have hsz := h.lifts.size
  simp only [Complex.view]
  by_cases hd : d < 2
  · rw [if_pos (by
      rw [Option.isSome_iff_exists]
      exact ⟨_, List.getElem?_eq_getElem (by omega)⟩), h.lifts.up]
    simp only [hd, true_and, show d + 1 < 3 by omega]
  · have : comp.cochains[d + 1]? = none := List.getElem?_eq_none (by omega)
    rw [this]
    simp [hd]

theorem IsDisc.view_bnd (h : IsDisc comp n E r x) (d f c : Nat) : (f, c) ∈ comp.view.bnd (d + 1) ↔ d < 2 ∧
    ∃ s t, (discCells n E r d)[f]? = some s ∧ (discCells n E r (d + 1))[c]? = some t ∧ OnCell s t := by
  simp only [Complex.view]
  rw [h.lifts.bnd]
  constructor
  · rintro ⟨a, b⟩; exact ⟨by omega, b⟩
  · rintro ⟨a, b⟩; exact ⟨by omega, b⟩

theorem IsDisc.up_nodup (h : IsDisc comp n E r x) (d : Nat) : (comp.view.up d).Nodup := by
  simp only [Complex.view]
  split
  · exact h.lifts.upNodup d
  · exact List.nodup_nil

theorem IsDisc.bnd_nodup (h : IsDisc comp n E r x) (d : Nat) : (comp.view.bnd d).Nodup := by
  cases d with
  | zero => exact List.nodup_nil
  | succ d => exact h.lifts.bndNodup (d + 1)

theorem IsDisc.X0 (h : IsDisc comp n E r x) : comp.view.X 0 = x := by simp only [Complex.view, h.nodes]; rfl
theorem IsDisc.X1 (h : IsDisc comp n E r x) : comp.view.X 1 = List.replicate n 0 := by
  simp only [Complex.view, h.edges]; rfl
theorem IsDisc.X2 (h : IsDisc comp n E r x) : comp.view.X 2 = [0] := by simp only [Complex.view, h.ring]; rfl
theorem IsDisc.X3 (h : IsDisc comp n E r x) {d : Nat} (hd : 3 ≤ d) : comp.view.X d = [] := by
  have hlen := h.ready.valid.len
  have hsz := h.lifts.size
  simp only [Complex.view]
  rw [attr_none (List.getElem?_eq_none (by omega))]
  rfl

theorem IsDisc.above (h : IsDisc comp n E r x) (h' : IsDisc comp' n E r x') {d : Nat} (hd : d ≠ 0) :
    comp.view.X d = comp'.view.X d := by
  match d with
  | 1 => rw [h.X1, h'.X1]
  | 2 => rw [h.X2, h'.X2]
  | d + 3 => rw [h.X3 (by omega), h'.X3 (by omega)]

theorem IsDisc.sameShape (h : IsDisc comp n E r x) (h' : IsDisc comp' n E r x') : SameShape comp.view comp'.view where
  size d := by
    by_cases hd : d = 0
    · subst hd; rw [h.X0, h'.X0, h.size, h'.size]
    · rw [h.above h' hd]
  up d := by
    rw [List.perm_ext_iff_of_nodup (h'.up_nodup d) (h.up_nodup d)]
    rintro ⟨⟨a, b⟩, c⟩
    rw [h.view_up, h'.view_up]
  down d := by rw [h.view_down, h'.view_down]
  bnd d := by
    cases d with
    | zero => exact .refl _
    | succ d =>
      rw [List.perm_ext_iff_of_nodup (h'.bnd_nodup _) (h.bnd_nodup _)]
      rintro ⟨a, b⟩
      rw [h.view_bnd, h'.view_bnd]

theorem SameShape.upTo {v w : View R} (h : SameShape v w) (m : Nat) : SameShape (v.upTo m) (w.upTo m) where
  size d := by simp only [View.upTo]; split <;> simp [h.size]
  up d := by simp only [View.upTo]; split <;> simp [h.up]
  down d := by simp only [View.upTo]; split <;> simp [h.down]
  bnd d := by simp only [View.upTo]; split <;> simp [h.bnd]

theorem IsDisc.upTo_up (h : IsDisc comp n E r x) {m d : Nat} {p : (Nat × Nat) × Nat}
    (hp : p ∈ (comp.view.upTo m).up d) : d < 2 ∧ ∃ s t u, (discCells n E r d)[p.1.1]? = some s ∧
      (discCells n E r d)[p.1.2]? = some t ∧ (discCells n E r (d + 1))[p.2]? = some u ∧ OnCell s u ∧ OnCell t u := by
  simp only [View.upTo] at hp
  split at hp
  · obtain ⟨h1, -, h2⟩ := (h.view_up d p.1.1 p.1.2 p.2).mp hp
    exact ⟨h1, h2⟩
  · cases hp

theorem IsDisc.upTo_bnd (h : IsDisc comp n E r x) {m d : Nat} {p : Nat × Nat}
    (hp : p ∈ (comp.view.upTo m).bnd (d + 1)) : d < 2 ∧ ∃ s t, (discCells n E r d)[p.1]? = some s ∧
      (discCells n E r (d + 1))[p.2]? = some t ∧ OnCell s t := by
  simp only [View.upTo] at hp
  split at hp
  · exact (h.view_bnd d p.1 p.2).mp hp
  · cases hp

theorem IsDisc.upTo_down (h : IsDisc comp n E r x) (m d : Nat) : (comp.view.upTo m).down d = [] := by
  simp only [View.upTo, h.view_down, ite_self]

theorem vertex_cell {a : Nat} {s : List Nat} (h : (discCells n E r 0)[a]? = some s) : a < n ∧ s = [a] := by
  simp only [discCells, List.getElem?_map, Option.map_eq_some_iff] at h
  obtain ⟨b, hb, rfl⟩ := h
  obtain ⟨h1, h2⟩ := List.getElem?_eq_some_iff.mp hb
  rw [List.getElem_range] at h2
  subst h2
  exact ⟨by simpa using h1, rfl⟩

/-- After the initial layer the rows differ at most at the node with the label. -/
theorem IsDisc.start (h : IsDisc comp n E r x) (h' : IsDisc comp' n E r x')
    (hx : ∀ c, c ≠ n / 2 → x[c]? = x'[c]?) (f : R → R) (m mB : Nat) :
    AgreeOn (fun d c => d = 0 → c ≠ n / 2) ((comp.view.upTo mB).layer (initRules f) m true)
      ((comp'.view.upTo mB).layer (initRules f) m true) := by
  intro d c hc
  rw [init_layer, init_layer]
  by_cases hd : d = 0
  · subst hd
    simp only [if_true, View.upTo, Nat.zero_le, rowOf, List.getElem?_map]
    rw [h.X0, h'.X0, hx c (hc rfl)]
  · simp only [if_neg hd, View.upTo, h.above h' hd]

/-- A vertex hears from vertices at distance one through edges it is on. -/
theorem IsDisc.hears (h : IsDisc comp n E r x) (hE : E.Perm (cycleEdges n)) {m : Nat} {p : (Nat × Nat) × Nat}
    (hp : p ∈ (comp.view.upTo m).up 0) : toLabel n p.1.2 ≤ toLabel n p.1.1 + 1 ∧
      ∃ u, E[p.2]? = some u ∧ u ∈ cycleEdges n ∧ p.1.2 ∈ u := by
  obtain ⟨-, s, t, u, h1, h2, h3, h4, h5⟩ := h.upTo_up hp
  obtain ⟨-, rfl⟩ := vertex_cell h1
  obtain ⟨-, rfl⟩ := vertex_cell h2
  have hu : u ∈ cycleEdges n := hE.mem_iff.mp (List.mem_of_getElem? h3)
  exact ⟨toLabel_edge hu (h4 (by simp)) (h5 (by simp)), u, h3, hu, h5 (by simp)⟩

/-- Two layers do not see further than distance two. -/
theorem two_layers (h : IsDisc comp n E r x) (h' : IsDisc comp' n E r x') (hE : E.Perm (cycleEdges n))
    (hx : ∀ c, c ≠ n / 2 → x[c]? = x'[c]?) (f : R → R) (m mB : Nat) (layers : List (Nat → Rule R))
    (hl : layers.length ≤ 2) {c : Nat} (hc : 2 < toLabel n c) :
    rowOf ((((comp.view.upTo mB).layer (initRules f) m true).after m true layers).X 0) c =
      rowOf ((((comp'.view.upTo mB).layer (initRules f) m true).after m true layers).X 0) c := by
  have hsh := ((h.sameShape h').upTo mB).layer (initRules f) m true
  have h0 := h.start h' hx f m mB
  have hdown : ∀ d, ((comp.view.upTo mB).layer (initRules f) m true).down d = [] := h.upTo_down mB
  have far : ∀ c, 0 < toLabel n c ↔ c ≠ n / 2 := by intro c; unfold toLabel; omega
  -- after one layer: vertices at distance two, edges without the node, the ring
  have h1 : ∀ rules, AgreeOn (fun d c => (d = 0 → 1 < toLabel n c) ∧ (d = 1 → ∀ s, E[c]? = some s → n / 2 ∉ s))
      (((comp.view.upTo mB).layer (initRules f) m true).layer rules m true)
      (((comp'.view.upTo mB).layer (initRules f) m true).layer rules m true) := by
    intro rules
    refine h0.layer hsh hdown ?_
    rintro d c ⟨c1, c2⟩
    refine ⟨fun hd => (far c).mp (by have := c1 hd; omega), ?_, ?_⟩
    · intro p hp he
      refine ⟨?_, .inr (by simp)⟩
      rintro rfl
      obtain ⟨a, -⟩ := h.hears hE hp
      have := c1 rfl
      rw [he] at a
      exact (far _).mp (by omega)
    · intro p hp he
      cases d with
      | zero => exact .inl rfl
      | succ d =>
        right
        intro hd
        obtain rfl : d = 0 := by omega
        obtain ⟨-, s, t, a1, a2, a3⟩ := h.upTo_bnd hp
        obtain ⟨-, rfl⟩ := vertex_cell a1
        have hn := c2 rfl t (by rw [← he]; exact a2)
        intro hpm
        exact hn (hpm ▸ a3 (by simp))
  -- after two layers: vertices at distance three
  match layers, hl with
  | [], _ => exact h0 0 c fun _ => (far c).mp (by omega)
  | [r1], _ => exact h1 r1 0 c ⟨fun _ => by omega, by simp⟩
  | [r1, r2], _ =>
    refine (h1 r1).layer (hsh.layer r1 m true) hdown (Q := fun d c => d = 0 ∧ 2 < toLabel n c) ?_ 0 c ⟨rfl, hc⟩
    rintro d c ⟨rfl, hc⟩
    refine ⟨⟨fun _ => by omega, by simp⟩, ?_, fun _ _ _ => .inl rfl⟩
    intro p hp he
    obtain ⟨a, u, b1, b2, b3⟩ := h.hears hE hp
    rw [he] at a b3
    refine ⟨⟨fun _ => by omega, by simp⟩, .inr ⟨by simp, ?_⟩⟩
    intro _ s hs hm
    rw [b1, Option.some.injEq] at hs
    subst hs
    have := toLabel_edge b2 hm b3
    have h00 : toLabel n (n / 2) = 0 := by unfold toLabel; omega
    omega

/-- When the messages between vertices do not use the edges, `t` layers do not see further than distance `t`. -/
theorem plain_layers (h : IsDisc comp n E r x) (h' : IsDisc comp' n E r x') (hE : E.Perm (cycleEdges n))
    (hx : ∀ c, c ≠ n / 2 → x[c]? = x'[c]?) (f : R → R) (m mB : Nat) (layers : List (Nat → Rule R))
    (hi : ∀ rules ∈ layers, (rules 0).Ignores) {c : Nat} (hc : layers.length < toLabel n c) :
    rowOf ((((comp.view.upTo mB).layer (initRules f) m true).after m true layers).X 0) c =
      rowOf ((((comp'.view.upTo mB).layer (initRules f) m true).after m true layers).X 0) c := by
  have key : ∀ (layers : List (Nat → Rule R)) (v w : View R) (t : Nat), SameShape v w → (∀ d, v.down d = []) →
      (∀ p ∈ v.up 0, toLabel n p.1.2 ≤ toLabel n p.1.1 + 1) → AgreeOn (fun d c => d = 0 ∧ t < toLabel n c) v w →
      (∀ rules ∈ layers, (rules 0).Ignores) →
      AgreeOn (fun d c => d = 0 ∧ t + layers.length < toLabel n c) (v.after m true layers) (w.after m true layers) := by
    intro layers
    induction layers with
    | nil => intro v w t _ _ _ ha _; exact ha
    | cons r1 rest ih =>
      intro v w t hs hd hu ha hi
      have := ih (v.layer r1 m true) (w.layer r1 m true) (t + 1) (hs.layer r1 m true) hd hu
        (ha.layer hs hd (by
          rintro d c ⟨rfl, hc⟩
          refine ⟨⟨rfl, by omega⟩, ?_, fun _ _ _ => .inl rfl⟩
          intro p hp he
          have := hu p hp
          rw [he] at this
          exact ⟨⟨rfl, by omega⟩, .inl (hi r1 (by simp))⟩)) (fun r hr => hi r (by simp [hr]))
      intro d c hc
      refine this d c ⟨hc.1, ?_⟩
      have := hc.2
      simp only [List.length_cons] at this
      omega
  refine key layers _ _ 0 (((h.sameShape h').upTo mB).layer (initRules f) m true) (h.upTo_down mB) ?_ ?_ hi 0 c
    ⟨rfl, by omega⟩
  · intro p hp
    exact (h.hears hE hp).1
  · rintro d c ⟨rfl, hc⟩
    refine h.start h' hx f m mB 0 c fun _ => ?_
    rintro rfl
    unfold toLabel at hc
    omega

end

end Verif
