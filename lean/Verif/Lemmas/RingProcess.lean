import Verif.Spec.RingProcess
import Verif.Model.RingProcess
import Verif.Props.RingData
import Verif.Props.Convert
import Verif.Lemmas.RingIso
import Verif.Props.RingIso

/-!
# The complexes of the ring datasets
-/

namespace Verif

variable {R L : Type}

/-! ### The cycle graph -/

section
variable {n : Nat}

theorem next_eq {n u v : Nat} (hu : u < n) : v = (u + 1) % n ↔ (u + 1 < n ∧ v = u + 1) ∨ (u + 1 = n ∧ v = 0) := by
  by_cases h : u + 1 = n
  · rw [h, Nat.mod_self]; omega
  · rw [Nat.mod_eq_of_lt (by omega)]; omega

theorem onCycle_iff (hn : 3 ≤ n) {u v : Nat} : OnCycle n u v ↔ u < n ∧ v < n ∧
    (v = u + 1 ∨ u = v + 1 ∨ (u = 0 ∧ v + 1 = n) ∨ (v = 0 ∧ u + 1 = n)) := by
  unfold OnCycle
  constructor
  · rintro ⟨hu, hv, h⟩
    rw [next_eq hu, next_eq hv] at h
    omega
  · rintro ⟨hu, hv, h⟩
    rw [next_eq hu, next_eq hv]
    omega

theorem joined_cycle (hn : 3 ≤ n) {u v : Nat} : Joined (ringEdges n) u v ↔ OnCycle n u v := by
  unfold Joined
  rw [mem_ringEdges hn, mem_ringEdges hn, onCycle_iff hn, onCycle_iff hn]
  omega

theorem isRing_cycle (hn : 3 ≤ n) : IsRing (ringEdges n) (List.range n) where
  long := by simpa using hn
  nodup := List.nodup_range
  joined := by
    intro i j u v hi hj
    have hin : i < n := by
      have := (List.getElem?_eq_some_iff.mp hi).1
      simpa using this
    have hjn : j < n := by
      have := (List.getElem?_eq_some_iff.mp hj).1
      simpa using this
    rw [List.getElem?_range hin] at hi
    rw [List.getElem?_range hjn] at hj
    cases hi
    cases hj
    rw [joined_cycle hn, onCycle_iff hn, List.length_range]
    unfold Follows
    omega

/-- The only induced cycle of a cycle graph is the graph itself. -/
theorem ring_of_cycle (hn : 3 ≤ n) {r : List Nat} (h : IsRing (ringEdges n) r) : r.Perm (List.range n) := by
  have hlong := h.long
  have hsucc : ∀ u ∈ r, u < n ∧ (u + 1) % n ∈ r := by
    intro u hu
    obtain ⟨i, hi, rfl⟩ := List.mem_iff_getElem.mp hu
    -- the two neighbours on the ring
    obtain ⟨j, hj, hji⟩ : ∃ j, j < r.length ∧ Follows r.length i j := by
      by_cases hl : i + 1 = r.length
      · exact ⟨0, by omega, .inr ⟨hl, rfl⟩⟩
      · exact ⟨i + 1, by omega, .inl rfl⟩
    obtain ⟨k, hk, hki⟩ : ∃ k, k < r.length ∧ Follows r.length k i := by
      by_cases hl : i = 0
      · exact ⟨r.length - 1, by omega, .inr ⟨by omega, hl⟩⟩
      · exact ⟨i - 1, by omega, .inl (by omega)⟩
    have hjk : j ≠ k := by unfold Follows at hji hki; omega
    have e1 := (joined_cycle hn).mp ((h.joined i j r[i] r[j] (List.getElem?_eq_getElem hi) (List.getElem?_eq_getElem hj)).mpr
      (.inl hji))
    have e2 := (joined_cycle hn).mp ((h.joined i k r[i] r[k] (List.getElem?_eq_getElem hi) (List.getElem?_eq_getElem hk)).mpr
      (.inr hki))
    have hne : r[j] ≠ r[k] := fun e => hjk ((List.Nodup.getElem_inj_iff h.nodup).mp e)
    have hu := e1.1
    refine ⟨hu, ?_⟩
    obtain ⟨-, hv, h1⟩ := e1
    obtain ⟨-, hw, h2⟩ := e2
    rcases h1 with h1 | h1
    · rw [← h1]; exact List.getElem_mem hj
    rcases h2 with h2 | h2
    · rw [← h2]; exact List.getElem_mem hk
    exfalso
    rw [next_eq hv] at h1
    rw [next_eq hw] at h2
    omega
  obtain ⟨u, hu⟩ : ∃ u, u ∈ r := List.exists_mem_of_length_pos (by omega)
  have hall : ∀ m, (u + m) % n ∈ r := by
    intro m
    induction m with
    | zero =>
      rw [Nat.add_zero, Nat.mod_eq_of_lt (hsucc u hu).1]
      exact hu
    | succ m ih =>
      have := (hsucc _ ih).2
      rwa [Nat.mod_add_mod, Nat.add_assoc] at this
  rw [List.perm_ext_iff_of_nodup h.nodup List.nodup_range]
  intro v
  rw [List.mem_range]
  refine ⟨fun hv => (hsucc v hv).1, fun hv => ?_⟩
  have := hall (n - u + v)
  have hun := (hsucc u hu).1
  rwa [show u + (n - u + v) = v + n by omega, Nat.add_mod_right, Nat.mod_eq_of_lt hv] at this

theorem getRings_cycle {lib : RingLib} (hl : lib.Ok) (hn : 3 ≤ n) :
    ∃ r, getRings lib (ringEdges n) n = [r] ∧ r.Perm (List.range n) := by
  obtain ⟨h1, h2, h3⟩ := C31_rings_are_the_induced_cycles lib hl (ringEdges n) n
  obtain ⟨r, hr, hp, -, hu⟩ := h3 (List.range n) (isRing_cycle hn) (by simp)
  refine ⟨r, ?_, hp⟩
  have hall : ∀ r' ∈ getRings lib (ringEdges n) n, r' = r := by
    intro r' hr'
    have hp' := ring_of_cycle hn (h2 r' hr').1
    exact hu r' hr' fun v => hp'.mem_iff
  have hlen : (getRings lib (ringEdges n) n).length = 1 := by
    match hg : getRings lib (ringEdges n) n with
    | [] => rw [hg] at hr; simp at hr
    | [_] => rfl
    | a :: b :: l =>
      rw [hg] at hall h1
      have := hall a (by simp)
      have := hall b (by simp)
      simp_all
  obtain ⟨a, ha⟩ := List.length_eq_one_iff.mp hlen
  rw [ha, hall a (by rw [ha]; simp)]

theorem cellsOf_cycle {g : Gudhi} (hg : g.Ok) {lib : RingLib} (hl : lib.Ok) (hn : 3 ≤ n) (he : EdgesIn (ringEdges n) n) :
    ((g.inserted (insertions (ringEdges n) n)).cellsOf n 1).Perm (cycleEdges n) := by
  have rd := ringData_of hg hl he (by omega) n
  rw [List.perm_ext_iff_of_nodup (nodup_cellsOf rd.holds 1)]
  · intro f
    rw [rd.edge]
    unfold cycleEdges
    simp only [List.mem_append, List.mem_map, List.mem_range, List.mem_singleton]
    constructor
    · rintro ⟨u, v, huv, rfl, hj⟩
      rw [joined_cycle hn, onCycle_iff hn] at hj
      by_cases h : v = u + 1
      · exact .inl ⟨u, by omega, by rw [h]⟩
      · right
        have : u = 0 ∧ v = n - 1 := by omega
        rw [this.1, this.2]
    · rintro (⟨i, hi, rfl⟩ | rfl)
      · exact ⟨i, i + 1, by omega, rfl, by rw [joined_cycle hn, onCycle_iff hn]; omega⟩
      · exact ⟨0, n - 1, by omega, rfl, by rw [joined_cycle hn, onCycle_iff hn]; omega⟩
  · unfold cycleEdges
    rw [List.nodup_append]
    refine ⟨?_, by simp, ?_⟩
    · refine List.Nodup.map_on ?_ List.nodup_range
      intro a _ b _ e
      simpa using e
    · intro a ha b hb
      obtain ⟨i, hi, rfl⟩ := List.mem_map.mp ha
      rw [List.mem_range] at hi
      rw [List.mem_singleton] at hb
      subst hb
      intro e
      simp only [List.cons.injEq, and_true] at e
      omega

end

/-! ### Other rows and marks on the same cells -/

/-- The same cells, possibly with other rows and another mask. -/
structure SameCell (c c' : Cochain R L) : Prop where
  eq : c' = { c with x := c'.x, mask := c'.mask }
  count : c'.numCells = c.numCells
  rows : ∀ x, c'.x = some x → c'.numCells = .ok (some x.length)

/-- The same complex, possibly with other rows and masks. -/
structure Redrawn (c c' : Complex R L) : Prop where
  dim : c'.dimension = c.dimension
  y : c'.y = c.y
  cells : List.Forall₂ SameCell c.cochains c'.cochains

theorem Redrawn.attr {A : Type} {c c' : Complex R L} (h : Redrawn c c') (d : Nat) (get : Cochain R L → Option A)
    (hg : ∀ (c : Cochain R L) x m, get { c with x := x, mask := m } = get c) : c'.attr d get = c.attr d get := by
  unfold Complex.attr
  rcases forall₂_get? h.cells d with ⟨e1, e2⟩ | ⟨a, b, e1, e2, hab⟩
  · rw [e1, e2]
  · rw [e1, e2, hab.eq]
    exact hg _ _ _

theorem Redrawn.cellsIn {c c' : Complex R L} (h : Redrawn c c') (d : Nat) : c'.cellsIn d = c.cellsIn d := by
  unfold Complex.cellsIn
  rcases forall₂_get? h.cells d with ⟨e1, e2⟩ | ⟨a, b, e1, e2, hab⟩
  · rw [e1, e2]
  · rw [e1, e2]
    simp only [Option.map_some, Option.getD_some, Cochain.count, hab.count]

theorem Redrawn.lifts {c c' : Complex R L} (h : Redrawn c c') {K : Nat → List (List Nat)} {dims : Nat}
    {face : List Nat → List Nat → Prop} {down : Bool} (lf : LiftsTo c K dims face down) : LiftsTo c' K dims face down := by
  have a1 := fun d => h.attr d Cochain.boundaryIndex (fun _ _ _ => rfl)
  have a2 := fun d => h.attr d Cochain.upperIndex (fun _ _ _ => rfl)
  have a3 := fun d => h.attr d Cochain.sharedCoboundaries (fun _ _ _ => rfl)
  have a4 := fun d => h.attr d Cochain.lowerIndex (fun _ _ _ => rfl)
  have a5 := fun d => h.attr d Cochain.sharedBoundaries (fun _ _ _ => rfl)
  constructor
  · rw [h.dim]; exact lf.size
  · intro d hd; rw [h.cellsIn]; exact lf.count d hd
  · intro d; rw [a1]; exact lf.bndNodup d
  · intro d; rw [a1]; exact lf.bnd d
  · intro d; rw [a2, a3]; exact lf.upBoth d
  · intro d; rw [a2, a3]; exact lf.upNodup d
  · intro d; rw [a2, a3]; exact lf.up d
  · intro d; rw [a4, a5]; exact lf.downBoth d
  · intro d; rw [a4, a5]; exact lf.downNodup d
  · intro d; rw [a4, a5]; exact lf.down d
  · rw [a1, a4, a5]; exact lf.vertices

theorem Redrawn.valid {c c' : Complex R L} (h : Redrawn c c') (hv : c.Valid) : c'.Valid := by
  have hget : ∀ (d : Nat) (b : Cochain R L), c'.cochains[d]? = some b → ∃ a, c.cochains[d]? = some a ∧ SameCell a b := by
    intro d b hb
    rcases forall₂_get? h.cells d with ⟨e1, e2⟩ | ⟨a, b', e1, e2, hab⟩
    · rw [hb] at e2; simp at e2
    · rw [hb] at e2
      cases e2
      exact ⟨a, e1, hab⟩
  have hup : ∀ {a b : Cochain R L}, SameCell a b → b.numCellsUp = a.numCellsUp := by
    intro a b hab; rw [hab.eq]; rfl
  have hdown : ∀ {a b : Cochain R L}, SameCell a b → b.numCellsDown = a.numCellsDown := by
    intro a b hab; rw [hab.eq]; rfl
  refine ⟨⟨?_, ?_, ?_, ?_⟩, ?_, ?_, ?_⟩
  · rw [← h.cells.length_eq, h.dim]; exact hv.len
  · intro d b hb
    obtain ⟨a, ha, hab⟩ := hget d b hb
    rw [hab.eq]; exact hv.dim d a ha
  · intro d b b' hb hb'
    obtain ⟨a, ha, hab⟩ := hget d b hb
    obtain ⟨a', ha', hab'⟩ := hget _ b' hb'
    rw [hup hab, hab'.count]; exact hv.up d a a' ha ha'
  · intro d b b' hb hb'
    obtain ⟨a, ha, hab⟩ := hget d b hb
    obtain ⟨a', ha', hab'⟩ := hget _ b' hb'
    rw [hdown hab', hab.count]; exact hv.down d a a' ha ha'
  · intro b hb
    obtain ⟨d, hd⟩ := List.mem_iff_getElem?.mp hb
    obtain ⟨a, ha, hab⟩ := hget d b hd
    obtain ⟨n, hn⟩ := hv.known a (List.mem_of_getElem? ha)
    exact ⟨n, by rw [hab.count]; exact hn⟩
  · intro b hb
    rw [h.dim] at hb
    obtain ⟨a, ha, hab⟩ := hget _ b hb
    rw [hup hab]; exact hv.top a ha
  · intro d b hb
    obtain ⟨a, ha, hab⟩ := hget d b hb
    have v := hv.valid d a ha
    have hbelow : c'.cellsBelow d = c.cellsBelow d := by
      unfold Complex.cellsBelow
      cases d with
      | zero => rfl
      | succ d => exact h.cellsIn d
    rw [hbelow, h.cellsIn, h.cellsIn]
    have e := hab.eq
    constructor
    · rw [e]; exact v.plain
    · intro x hx
      have h1 := hab.rows x hx
      have : c.cellsIn d = x.length := by
        unfold Complex.cellsIn
        rw [ha]
        simp only [Option.map_some, Option.getD_some]
        exact count_of (hab.count ▸ h1)
      exact this.symm
    · rw [e]; exact v.upper
    · rw [e]; exact v.upperShared
    · rw [e]; exact v.upperBoth
    · rw [e]; exact v.shared
    · rw [e]; exact v.lower
    · rw [e]; exact v.lowerShared
    · rw [e]; exact v.lowerBoth
    · rw [e]; exact v.sharedDown
    · rw [e]; exact v.boundary

/-! ### Marking -/

theorem targetMask_ok {n : Nat} (hn : 0 < n) : targetMask (some n) = .ok (true :: List.replicate (n - 1) false) := by
  obtain ⟨m, rfl⟩ : ∃ m, n = m + 1 := ⟨n - 1, by omega⟩
  rfl

theorem zeroX_ok [Zero R] {c : Cochain R L} {x : List R} (hx : c.x = some x) (hn : c.numCells = .ok (some x.length)) :
    zeroX c = .ok { c with x := some (List.replicate x.length 0) } ∧
      SameCell c { c with x := some (List.replicate x.length 0) } := by
  have h0 : ({ c with x := some (List.replicate x.length 0) } : Cochain R L).numCells = .ok (some x.length) :=
    numCells_withX hn (by simp) ⟨x, hx⟩
  refine ⟨?_, rfl, by rw [h0, hn], ?_⟩
  · unfold zeroX
    rw [hx]
    simp only [Cochain.setX, hn, ok_bind, List.map_const', List.length_replicate, beq_self_eq_true, pyAssert_true, pure_eq_ok]
  · intro y hy
    cases hy
    rw [h0]
    simp

theorem mark_ok [Zero R] {comp : Complex R L} {c0 c1 c2 : Cochain R L} (hcs : comp.cochains = [c0, c1, c2])
    {x0 x1 x2 : List R} (h0 : c0.x = some x0) (h1 : c1.x = some x1) (h2 : c2.x = some x2)
    (n0 : c0.numCells = .ok (some x0.length)) (n1 : c1.numCells = .ok (some x1.length))
    (n2 : c2.numCells = .ok (some x2.length)) (hpos : 0 < x0.length) :
    ∃ comp', markComplex comp = .ok comp' ∧ Redrawn comp comp' ∧ comp'.attr 0 Cochain.x = some x0 ∧
      comp'.attr 1 Cochain.x = some (List.replicate x1.length 0) ∧
      comp'.attr 2 Cochain.x = some (List.replicate x2.length 0) ∧
      comp'.attr 0 Cochain.mask = some (true :: List.replicate (x0.length - 1) false) ∧
      (∀ c, comp'.cochains[2]? = some c → c.numCells = .ok (some x2.length)) ∧ comp'.cochains.length = 3 := by
  obtain ⟨z1, s1⟩ := zeroX_ok h1 n1
  obtain ⟨z2, s2⟩ := zeroX_ok h2 n2
  refine ⟨{ comp with cochains := [{ c0 with mask := some (true :: List.replicate (x0.length - 1) false) },
    { c1 with x := some (List.replicate x1.length 0) }, { c2 with x := some (List.replicate x2.length 0) }] }, ?_, ?_,
    h0, rfl, rfl, rfl, ?_, rfl⟩
  · unfold markComplex
    rw [hcs]
    dsimp only
    rw [n0, ok_bind, targetMask_ok hpos, ok_bind]
    simp only [zeroAbove, z1, z2, ok_bind, pure_eq_ok]
  · refine ⟨rfl, rfl, ?_⟩
    rw [hcs]
    refine .cons ⟨rfl, rfl, ?_⟩ (.cons s1 (.cons s2 .nil))
    intro y hy
    have : c0.x = some y := hy
    rw [h0, Option.some.injEq] at this
    subst this
    exact n0
  · intro c hc
    cases hc
    rw [← n2]
    exact s2.count

theorem tab_three {A : Type} {m : Nat} (h : m = 3) (f : Nat → A) : tab m f = [f 0, f 1, f 2] := by subst h; rfl

theorem complexOf_three {K : Nat → List (List Nat)} {dims : Nat} (h : dims = 3)
    {fs bd cob : Nat → List Nat → List (List Nat)} {down : Bool} {xs : Nat → Option (List R)} {vy y : Option (List L)} :
    (complexOf K dims fs bd cob down xs vy y).cochains = [cochainOf K dims fs bd cob down xs vy 0,
      cochainOf K dims fs bd cob down xs vy 1, cochainOf K dims fs bd cob down xs vy 2] :=
  tab_three h _

theorem lifts_congr {c : Complex R L} {K K' : Nat → List (List Nat)} {dims : Nat} {face : List Nat → List Nat → Prop}
    {down : Bool} (lf : LiftsTo c K dims face down) (h : ∀ d, d < dims → K d = K' d) : LiftsTo c K' dims face down where
  size := lf.size
  count := fun d hd => by rw [← h d hd]; exact lf.count d hd
  bndNodup := lf.bndNodup
  bnd := fun d f c => by
    rw [lf.bnd]
    by_cases hd : d + 1 < dims
    · rw [h d (by omega), h (d + 1) hd]
    · simp [hd]
  upBoth := lf.upBoth
  upNodup := lf.upNodup
  up := fun d a b c => by
    rw [lf.up]
    by_cases hd : d + 1 < dims
    · rw [h d (by omega), h (d + 1) hd]
    · simp [hd]
  downBoth := lf.downBoth
  downNodup := lf.downNodup
  down := fun d a b c => by
    rw [lf.down]
    by_cases hd : d + 1 < dims
    · rw [h d (by omega), h (d + 1) hd]
    · simp [hd]
  vertices := lf.vertices

/-- The complex of a cycle graph, marked. -/
theorem disc_of_cycle [DecidableEq R] [Zero R] {g : Gudhi} (hg : g.Ok) {lib : RingLib} (hl : lib.Ok)
    {agg : List R → R} {n : Nat} (hn : 3 ≤ n) {x : List R} (hx : x.length = n) (k : L) {r : List Nat}
    (hr : getRings lib (ringEdges n) n = [r]) {E : List (List Nat)}
    (hE : E = (g.inserted (insertions (ringEdges n) n)).cellsOf n 1) :
    ∃ comp comp', ringComplex g lib agg (some x) (ringEdges n) none n (some [k]) n false true true = .ok comp ∧
      markComplex comp = .ok comp' ∧ IsDisc comp' n E r x ∧ comp'.y = some [k] ∧
      (∀ c, comp'.cochains[2]? = some c → c.numCells = .ok (some 1)) ∧ comp'.cochains.length = 3 := by
  have he : EdgesIn (ringEdges n) n := by
    intro e hm
    obtain ⟨u, v⟩ := e
    have := (mem_ringEdges hn).mp hm
    exact ⟨this.1, this.2.1⟩
  obtain ⟨G, hGdef⟩ : ∃ G : RGraph R L, G = ⟨n, x, ringEdges n, none, some [k]⟩ := ⟨_, rfl⟩
  have hG : G.Ok := by
    subst hGdef
    refine ⟨by dsimp only; omega, hx, he, ?_, by simp, ?_⟩
    · rintro ⟨u, v⟩ hm
      have := (onCycle_iff hn).mp ((mem_ringEdges hn).mp hm)
      dsimp only
      omega
    · intro l hl
      left
      rw [← Option.some.inj hl]
      rfl
  obtain ⟨x1, e, fit, hd⟩ := G.lift_ok (agg := agg) (down := false) (initEdges := true) (initRings := true) hg hl hG rfl
    (maxK := n) rfl
  have rd : RingData (g.inserted (insertions G.edges G.size)) G.size G.edges (getRings lib G.edges n) :=
    ringData_of hg hl hG.edges hG.pos n
  have hlift := e
  subst hGdef
  dsimp only at e fit hd rd
  rw [hr] at e fit rd
  have hdims : ringDims (g.inserted (insertions (ringEdges n) n)) [r] = 3 := by unfold ringDims; simp
  have htwo := rd.dims_two (by simp)
  have lf := complexOf_lifts (vy := vertexLabels (some [k])) (down := false) rd.cellData fit (complexLabel (some [k]))
  have facts := ring_facts (vy := vertexLabels (some [k])) (y := complexLabel (some [k])) (down := false) rd fit hd.some
  obtain ⟨rows1, hrows1⟩ : ∃ rows, x1 = some rows := Option.isSome_iff_exists.mp (by rw [hd.some, htwo]; rfl)
  subst hrows1
  have hn0 := cochainOf_numCells (down := false) (vy := vertexLabels (some [k])) rd.cellData fit (d := 0) (by omega)
  have hn1 := cochainOf_numCells (down := false) (vy := vertexLabels (some [k])) rd.cellData fit (d := 1) (by omega)
  have hn2 := cochainOf_numCells (down := false) (vy := vertexLabels (some [k])) rd.cellData fit (d := 2) (by omega)
  have hE1 : E.length = n := by
    rw [hE, (cellsOf_cycle hg hl hn he).length_eq]
    simp [cycleEdges]
    omega
  obtain ⟨rows2, hrows2⟩ : ∃ rows, ringRows true (tab (ringDims (g.inserted (insertions (ringEdges n) n)) [r])
      (liftedRows agg x (ringCells (g.inserted (insertions (ringEdges n) n)) n [r]))) = some rows := by
    refine ⟨liftedRows agg x (ringCells (g.inserted (insertions (ringEdges n) n)) n [r]) 2, ?_⟩
    rw [tab_three hdims]
    rfl
  have f0 := fit.rows 0 x (by omega) rfl
  have f1 := fit.rows 1 rows1 (by omega) rfl
  have f2 := fit.rows 2 rows2 (by omega) hrows2
  have g1 : rows1.length = n := f1.trans (by
    show ((g.inserted (insertions (ringEdges n) n)).cellsOf n 1).length = n
    rw [← hE, hE1])
  have g2 : rows2.length = 1 := f2
  rw [← f0] at hn0
  rw [← f1] at hn1
  rw [← f2] at hn2
  obtain ⟨comp', hm, red, a0, a1, a2, am, hc2, hlen⟩ := mark_ok (complexOf_three hdims (y := complexLabel (some [k]))
    (xs := ringXs x (some rows1) (ringRows true (tab (ringDims (g.inserted (insertions (ringEdges n) n)) [r])
      (liftedRows agg x (ringCells (g.inserted (insertions (ringEdges n) n)) n [r]))))))
    (x0 := x) (x1 := rows1) (x2 := rows2) rfl rfl hrows2 hn0 hn1 hn2 (by omega)
  have lf' := red.lifts lf
  refine ⟨_, comp', e, hm, ⟨⟨red.valid facts.valid, ?_, lf'.vertices.2.1⟩, ?_, a0, hx, ?_, ?_, ?_⟩, ?_, ?_, hlen⟩
  · intro c hc
    obtain ⟨d, hd'⟩ := List.mem_iff_getElem?.mp hc
    have hd3 : d < 3 := by
      have := (List.getElem?_eq_some_iff.mp hd').1
      omega
    rw [← attr_of hd' Cochain.x]
    match d with
    | 0 => rw [a0]; rfl
    | 1 => rw [a1]; rfl
    | 2 => rw [a2]; rfl
  · rw [hdims] at lf'
    refine lifts_congr lf' ?_
    intro d hd
    match d with
    | 0 => rfl
    | 1 => rw [hE]; rfl
    | 2 => rfl
  · rw [a1, g1]
  · rw [a2, g2]; rfl
  · rw [am, hx]
  · rw [red.y]; rfl
  · intro c hc
    rw [hc2 c hc, g2]

end Verif
