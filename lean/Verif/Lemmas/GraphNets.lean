import Verif.Spec.GraphNets
import Verif.Lemmas.Colour
import Verif.Lemmas.GINBatch

/-!
# The graph baselines, node by node
-/

namespace Verif

variable {𝕜 R : Type}

section
variable [Field 𝕜] [AddCommMonoid R] [Module 𝕜 R]

theorem gin_forward (l : GINLevel 𝕜 R) {x : List R} {edges : List (Nat × Nat)}
    (he : ∀ e ∈ edges, e.1 < x.length ∧ e.2 < x.length) :
    l.forward x edges = .ok ((List.range x.length).map fun c =>
      l.nn (((edges.filter fun p => p.2 == c).map fun p => rowOf x p.1).sum + (1 + l.eps) • rowOf x c)) := by
  have h := messageAndAggregate_cols (msg := .plain id) (f := fun x _ => x) (cols := edges.map fun e => (e, 0))
    (data := x) (att := []) (shared := false) (n := x.length) (by
      simp only [List.mem_map]
      rintro p ⟨e, hm, rfl⟩
      exact he e hm) (by
      intro x a ha
      cases a with
      | none => rfl
      | some a => simp at ha)
  have e1 : (edges.map fun e => (e, 0)).map Prod.fst = edges := by simp [Function.comp_def]
  rw [e1] at h
  unfold GINLevel.forward
  simp only [Bool.false_eq_true, if_false] at h
  rw [h, ok_bind, addScaled_range, ok_bind]
  simp only [pure_eq_ok, ok_inj, List.map_map]
  apply List.map_congr_left
  intro c _
  simp only [Function.comp, List.filter_map, List.map_map]
  rfl

/-- Rows only matter for the nodes there are. -/
theorem ginRows_congr {n : Nat} {edges : List (Nat × Nat)} (he : ∀ e ∈ edges, e.1 < n ∧ e.2 < n) :
    ∀ {ls : List (GINLevel 𝕜 R)} {row row' : Nat → R}, (∀ c < n, row c = row' c) → ∀ c < n,
      (ginRows edges row ls).map (fun r => r c) = (ginRows edges row' ls).map fun r => r c := by
  intro ls
  induction ls with
  | nil => intros; rfl
  | cons l ls ih =>
    intro row row' h c hc
    have hnew : ∀ c < n, l.nn (((edges.filter fun p => p.2 == c).map fun p => row p.1).sum + (1 + l.eps) • row c) =
        l.nn (((edges.filter fun p => p.2 == c).map fun p => row' p.1).sum + (1 + l.eps) • row' c) := by
      intro c hc
      have e : ((edges.filter fun p => p.2 == c).map fun p => row p.1) =
          (edges.filter fun p => p.2 == c).map fun p => row' p.1 :=
        List.map_congr_left fun p hp => h _ (he p (List.mem_of_mem_filter hp)).1
      rw [e, h c hc]
    simp only [ginRows, List.map_cons]
    rw [hnew c hc, ih hnew c hc]

theorem range_map_congr {n : Nat} {ls : List (Nat → R)} {ls' : List (Nat → R)}
    (h : ∀ c < n, ls.map (fun r => r c) = ls'.map fun r => r c) (hl : ls.length = ls'.length) :
    (ls.map fun r => (List.range n).map r) = ls'.map fun r => (List.range n).map r := by
  apply List.ext_getElem (by simpa using hl)
  intro i h1 h2
  simp only [List.getElem_map]
  apply List.map_congr_left
  intro c hc
  have := congrArg (fun l => l[i]?) (h c (List.mem_range.mp hc))
  simp only [List.length_map] at h1 h2
  simpa [List.getElem?_map, List.getElem?_eq_getElem h1, List.getElem?_eq_getElem h2] using this

theorem ginRows_length (edges : List (Nat × Nat)) : ∀ (ls : List (GINLevel 𝕜 R)) (row : Nat → R),
    (ginRows edges row ls).length = ls.length
  | [], _ => rfl
  | l :: ls, row => by simp [ginRows, ginRows_length edges ls]

theorem runGIN_ok {edges : List (Nat × Nat)} : ∀ {ls : List (GINLevel 𝕜 R)} {x : List R},
    (∀ e ∈ edges, e.1 < x.length ∧ e.2 < x.length) →
    runGIN edges x ls = .ok ((ginRows edges (rowOf x) ls).map fun r => (List.range x.length).map r) := by
  intro ls
  induction ls with
  | nil => intros; rfl
  | cons l ls ih =>
    intro x he
    unfold runGIN
    rw [gin_forward l he, ok_bind, ih (by simpa using he), ok_bind]
    simp only [pure_eq_ok, ok_inj, ginRows, List.map_cons, List.length_map, List.length_range]
    congr 1
    exact range_map_congr (ginRows_congr he fun c hc => rowOf_range _ hc)
      (by rw [ginRows_length, ginRows_length])

/-- The row that goes to the pooling. -/
def ginLast (jump : Option (List R → R)) (rows : List (Nat → R)) (c : Nat) : R :=
  match jump with
  | none => ((rows.getLast?).map fun r => r c).getD 0
  | some f => f (rows.map fun r => r c)

theorem ginLast_congr {jump : Option (List R → R)} {rows rows' : List (Nat → R)} {c e : Nat}
    (h : (rows.map fun r => r c) = rows'.map fun r => r e) : ginLast jump rows c = ginLast jump rows' e := by
  unfold ginLast
  cases jump with
  | none =>
    have := congrArg List.getLast? h
    rw [List.getLast?_map, List.getLast?_map] at this
    simp only [this]
  | some f => simp only [h]

theorem ginFinal_ok {jump : Option (List R → R)} {rows : List (Nat → R)} {n : Nat} (hne : rows ≠ []) :
    ginFinal jump (rows.map fun r => (List.range n).map r) = .ok ((List.range n).map (ginLast jump rows)) := by
  cases jump with
  | none =>
    simp only [ginFinal, List.getLast?_map]
    rw [List.getLast?_eq_some_getLast hne]
    simp only [Option.map_some, Option.getD_some, ok_inj]
    apply List.map_congr_left
    intro c _
    simp [ginLast, List.getLast?_eq_some_getLast hne]
  | some f =>
    cases rows with
    | nil => exact absurd rfl hne
    | cons r rows =>
      simp only [ginFinal, List.map_cons, jumpRows]
      rw [if_pos, ok_inj]
      · simp only [List.length_map, List.length_range]
        apply List.map_congr_left
        intro c hc
        have hc := List.mem_range.mp hc
        simp only [ginLast]
        congr 1
        rw [← List.map_cons (f := fun r : Nat → R => (List.range n).map r), List.filterMap_map]
        rw [← List.filterMap_eq_map]
        apply List.filterMap_congr
        intro r' _
        simp [List.getElem?_range hc]
      · simp

theorem pooling_agg {readout : String} (h : readout = "sum" ∨ readout = "mean") :
    ∃ pool, getPoolingFn readout = .ok pool ∧ ∀ rows : List R, pool.agg 𝕜 rows = poolOf 𝕜 readout rows := by
  rcases h with rfl | rfl
  · exact ⟨.sum, rfl, fun _ => rfl⟩
  · exact ⟨.mean, rfl, fun _ => rfl⟩

/-! ### Batches -/

theorem gEdges_mem {gs : List (GData R)} (h : ∀ g ∈ gs, g.Ok) (off : Nat) :
    ∀ e ∈ gEdgesFrom off gs, off ≤ e.1 ∧ off ≤ e.2 ∧ e.1 < off + (gs.flatMap GData.x).length ∧
      e.2 < off + (gs.flatMap GData.x).length := by
  induction gs generalizing off with
  | nil => simp [gEdgesFrom]
  | cons g gs ih =>
    intro e he
    simp only [gEdgesFrom, List.mem_append, List.mem_map] at he
    rw [List.flatMap_cons, List.length_append]
    rcases he with ⟨p, hp, rfl⟩ | he
    · have := (h g (by simp)).edges p hp
      simp only
      omega
    · have := ih (fun g hg => h g (by simp [hg])) _ e he
      omega

theorem gEdges_filter {gs : List (GData R)} (h : ∀ g ∈ gs, g.Ok) {i : Nat} {g : GData R} (hi : gs[i]? = some g)
    (off : Nat) {c : Nat} (hc : c < g.x.length) :
    ((gEdgesFrom off gs).filter fun p => p.2 == c + (off + before (fun g => g.x.length) gs i)) =
      (g.edges.filter fun p => p.2 == c).map fun e =>
        (e.1 + (off + before (fun g => g.x.length) gs i), e.2 + (off + before (fun g => g.x.length) gs i)) := by
  induction gs generalizing off i with
  | nil => simp at hi
  | cons a gs ih =>
    have hgs : ∀ g ∈ gs, g.Ok := fun g hg => h g (by simp [hg])
    rw [gEdgesFrom, List.filter_append]
    cases i with
    | zero =>
      simp only [List.getElem?_cons_zero, Option.some.injEq] at hi
      subst hi
      rw [before_zero, Nat.add_zero]
      have hnil : ((gEdgesFrom (off + a.x.length) gs).filter fun p => p.2 == c + off) = [] := by
        rw [List.filter_eq_nil_iff]
        intro e he
        have := (gEdges_mem hgs _ e he).2.1
        simp only [beq_iff_eq]
        omega
      rw [hnil, List.append_nil, List.filter_map]
      congr 1
      apply List.filter_congr
      intro e _
      simp only [Function.comp, beq_eq_beq]
      omega
    | succ i =>
      simp only [List.getElem?_cons_succ] at hi
      rw [before_succ]
      have hnil : ((a.edges.map fun e => (e.1 + off, e.2 + off)).filter
          fun p => p.2 == c + (off + (a.x.length + before (fun g => g.x.length) gs i))) = [] := by
        rw [List.filter_eq_nil_iff]
        intro e he
        obtain ⟨p, hp, rfl⟩ := List.mem_map.mp he
        have := ((h a (by simp)).edges p hp).2
        simp only [beq_iff_eq]
        omega
      rw [hnil, List.nil_append]
      have := ih hgs hi (off + a.x.length)
      rw [Nat.add_assoc] at this
      exact this

theorem ginRows_shift {E F : List (Nat × Nat)} {n k : Nat} (hF : ∀ e ∈ F, e.1 < n ∧ e.2 < n)
    (hE : ∀ c < n, (E.filter fun p => p.2 == c + k) = (F.filter fun p => p.2 == c).map fun e => (e.1 + k, e.2 + k)) :
    ∀ {ls : List (GINLevel 𝕜 R)} {row row' : Nat → R}, (∀ c < n, row (c + k) = row' c) → ∀ c < n,
      (ginRows E row ls).map (fun r => r (c + k)) = (ginRows F row' ls).map fun r => r c := by
  intro ls
  induction ls with
  | nil => intros; rfl
  | cons l ls ih =>
    intro row row' h c hc
    have hnew : ∀ c < n, l.nn (((E.filter fun p => p.2 == c + k).map fun p => row p.1).sum +
          (1 + l.eps) • row (c + k)) =
        l.nn (((F.filter fun p => p.2 == c).map fun p => row' p.1).sum + (1 + l.eps) • row' c) := by
      intro c hc
      rw [hE c hc, List.map_map, h c hc]
      have e : ((F.filter fun p => p.2 == c).map
            ((fun p : Nat × Nat => row p.1) ∘ fun e : Nat × Nat => (e.1 + k, e.2 + k))) =
          (F.filter fun p => p.2 == c).map fun p => row' p.1 :=
        List.map_congr_left fun p hp => h _ (hF p (List.mem_of_mem_filter hp)).1
      rw [e]
    simp only [ginRows, List.map_cons]
    rw [hnew c hc, ih (row := fun c => l.nn (((E.filter fun p => p.2 == c).map fun p => row p.1).sum +
      (1 + l.eps) • row c)) hnew c hc]

theorem flatMap_at {C : Type} {gs : List C} {f : C → List R} {i : Nat} {g : C} (hi : gs[i]? = some g) {c : Nat}
    (hc : c < (f g).length) : (gs.flatMap f)[c + before (fun g => (f g).length) gs i]? = (f g)[c]? := by
  induction gs generalizing i with
  | nil => simp at hi
  | cons a gs ih =>
    rw [List.flatMap_cons]
    cases i with
    | zero =>
      simp only [List.getElem?_cons_zero, Option.some.injEq] at hi
      subst hi
      rw [before_zero, Nat.add_zero, List.getElem?_append_left hc]
    | succ i =>
      simp only [List.getElem?_cons_succ] at hi
      rw [before_succ, List.getElem?_append_right (by omega), ← ih hi]
      congr 1
      omega

/-- Rows of a batch. -/
theorem gin_batch_rows {gs : List (GData R)} (h : ∀ g ∈ gs, g.Ok) (ls : List (GINLevel 𝕜 R)) (f : R → R) {i : Nat}
    {g : GData R} (hi : gs[i]? = some g) {c : Nat} (hc : c < g.x.length) :
    (ginRows (gBatch gs).edges (rowOf ((gBatch gs).x.map f)) ls).map
        (fun r => r (c + before (fun g => g.x.length) gs i)) =
      (ginRows g.edges (rowOf (g.x.map f)) ls).map fun r => r c := by
  refine ginRows_shift (n := g.x.length) (h g (List.mem_of_getElem? hi)).edges ?_ ?_ c hc
  · intro c hc
    have := gEdges_filter h hi 0 hc
    simp only [Nat.zero_add] at this
    exact this
  · intro c hc
    unfold rowOf
    rw [List.getElem?_map, List.getElem?_map]
    have := flatMap_at (f := GData.x) hi hc
    rw [show (gBatch gs).x = gs.flatMap GData.x from rfl, this]

theorem gBatch_edges {gs : List (GData R)} (h : ∀ g ∈ gs, g.Ok) :
    ∀ e ∈ (gBatch gs).edges, e.1 < (gBatch gs).x.length ∧ e.2 < (gBatch gs).x.length := by
  intro e he
  have := gEdges_mem h 0 e he
  simp only [gBatch]
  omega

theorem gBatch_size (gs : List (GData R)) : (gBatch gs).x.length = (gs.map fun g => g.x.length).sum := by
  simp [gBatch, List.length_flatMap]

/-- A list computed row by row on a batch falls into the lists of the graphs. -/
theorem gBatch_split {gs : List (GData R)} {F : Nat → R} {G : GData R → Nat → R}
    (h : ∀ i g, gs[i]? = some g → ∀ c < g.x.length, F (c + before (fun g => g.x.length) gs i) = G g c) :
    (List.range (gBatch gs).x.length).map F = gs.flatMap fun g => (List.range g.x.length).map (G g) := by
  refine eq_flatMap_of_blocks (n := fun g => g.x.length) (by simp) (by simp [gBatch_size]) ?_
  intro i g hi k hk
  have hlt : k + before (fun g => g.x.length) gs i < (gBatch gs).x.length := by
    rw [gBatch_size]
    have h1 := before_le (fun g : GData R => g.x.length) gs (show i + 1 ≤ i + 1 + gs.length by omega)
    rw [before_succ_getElem _ _ hi, before_full _ _ (show gs.length ≤ i + 1 + gs.length by omega)] at h1
    omega
  rw [List.getElem?_map, List.getElem?_map, List.getElem?_range hlt, List.getElem?_range hk]
  simp only [Option.map_some]
  rw [h i g hi k hk]

/-- Rows as a complex without edges, to reuse what is known of pooling. -/
def dots (rows : List R) (batch : List Nat) : Complex R Unit where
  dimension := 0
  cochains := [{ dim := 0, x := some rows, batch := some batch }]

theorem globalPool_batch {gs : List (GData R)} (hne : gs ≠ []) (h : ∀ g ∈ gs, g.Ok) (pool : Pooling)
    (X : GData R → List R) (hX : ∀ g ∈ gs, (X g).length = g.x.length) :
    globalPool 𝕜 pool (gs.flatMap X) (gBatch gs).batch = .ok (gs.map fun g => pool.agg 𝕜 (X g)) := by
  have hcells : ∀ g : GData R, (dots (X g) []).cellsIn 0 = (X g).length := fun g => rfl
  have hbatch : (gBatch gs).batch = ((gs.map fun g => dots (X g) []).zipIdx.flatMap fun ci =>
      List.replicate (ci.1.cellsIn 0) ci.2) := by
    rw [List.zipIdx_map, List.flatMap_map]
    simp only [gBatch, Prod.map, hcells, id]
    apply List.flatMap_congr
    intro gi hgi
    rw [hX gi.1 (List.fst_mem_of_mem_zipIdx hgi)]
  have hp := poolDim_vertices (𝕜 := 𝕜) (cs := gs.map fun g => dots (X g) [])
    (data := dots (gs.flatMap X) (gBatch gs).batch) (by rw [← hbatch]; rfl) (by simpa using hne) (by
      intro c hc
      obtain ⟨g, hg, rfl⟩ := List.mem_map.mp hc
      rw [hcells, hX g hg]
      exact List.length_pos_of_ne_nil (h g hg).nodes) pool (fun c => (c.attr 0 Cochain.x).getD []) (by
      intro c hc
      obtain ⟨g, hg, rfl⟩ := List.mem_map.mp hc
      rfl)
  rw [List.flatMap_map, List.map_map] at hp
  have hx : ∀ g : GData R, ((dots (X g) []).attr 0 Cochain.x).getD [] = X g := fun _ => rfl
  simp only [hx, Function.comp_def] at hp
  rw [← hp]
  unfold globalPool batchSize poolDim
  simp only [dots, List.getElem?_cons_zero, Nat.le_refl, if_true]
  cases Cochain.maxPlusOne (gBatch gs).batch with
  | error e => rfl
  | ok n => cases hs : scatter (pool.agg 𝕜) n (gBatch gs).batch (gs.flatMap X) <;> simp [ok_bind, hs]

theorem GINNet.forward_ok {net : GINNet 𝕜 R} (hread : net.readout = "sum" ∨ net.readout = "mean")
    {gs : List (GData R)} (hne : gs ≠ []) (h : ∀ g ∈ gs, g.Ok) :
    net.forward (gBatch gs) = .ok (gs.map net.predict) := by
  obtain ⟨pool, hp, hagg⟩ := pooling_agg (𝕜 := 𝕜) (R := R) hread
  unfold GINNet.forward
  rw [runGIN_ok (gBatch_edges h), ok_bind, ginFinal_ok (by simp [ginRows]), ok_bind, hp, ok_bind]
  rw [gBatch_split (G := fun g => ginLast net.jump (ginRows g.edges (rowOf g.x) (net.conv1 :: net.convs))) ?_,
    globalPool_batch hne h _ _ (by simp), ok_bind]
  · simp only [pure_eq_ok, ok_inj, List.map_map]
    apply List.map_congr_left
    intro g _
    simp only [Function.comp, hagg]
    rfl
  · intro i g hi c hc
    apply ginLast_congr
    have := gin_batch_rows h (net.conv1 :: net.convs) id hi hc
    simpa only [List.map_id] using this

/-! ### Colours -/

theorem SameNode.rows {g h : GData R} : ∀ {ls : List (GINLevel 𝕜 R)} {k : Nat} {row row' : Nat → R},
    (∀ c e, SameNode g h k c e → row c = row' e) → ∀ {n c e : Nat}, k + ls.length ≤ n → SameNode g h n c e →
      (ginRows g.edges row ls).map (fun r => r c) = (ginRows h.edges row' ls).map fun r => r e := by
  have hle : ∀ {n k c e : Nat}, k ≤ n → SameNode g h n c e → SameNode g h k c e := by
    intro n
    induction n with
    | zero => intro k c e hk hs; rw [Nat.le_zero.mp hk]; exact hs
    | succ n ih =>
      intro k c e hk hs
      by_cases hkn : k = n + 1
      · rw [hkn]; exact hs
      · exact ih (by omega) hs.1
  intro ls
  induction ls with
  | nil => intros; rfl
  | cons l ls ih =>
    intro k row row' hrow n c e hn hs
    have hnew : ∀ c e, SameNode g h (k + 1) c e →
        l.nn (((g.edges.filter fun p => p.2 == c).map fun p => row p.1).sum + (1 + l.eps) • row c) =
        l.nn (((h.edges.filter fun p => p.2 == e).map fun p => row' p.1).sum + (1 + l.eps) • row' e) := by
      intro c e hs
      rw [hrow c e hs.1, (hs.2.map_perm fun p _ q _ hpq => hrow _ _ hpq).sum_eq]
    simp only [List.length_cons] at hn
    simp only [ginRows, List.map_cons]
    rw [hnew c e (hle (by omega) hs), ih hnew (by omega) hs]

theorem SameNodes.predict {g h : GData R} {net : GINNet 𝕜 R} {n : Nat} (hn : net.convs.length + 1 ≤ n)
    (hs : SameNodes g h n) : net.predict g = net.predict h := by
  unfold GINNet.predict
  have hp : ((List.range g.x.length).map
        (ginLast net.jump (ginRows g.edges (rowOf g.x) (net.conv1 :: net.convs)))).Perm
      ((List.range h.x.length).map
        (ginLast net.jump (ginRows h.edges (rowOf h.x) (net.conv1 :: net.convs)))) := by
    refine Matched.map_perm hs fun c _ e _ hce => ginLast_congr ?_
    refine SameNode.rows (k := 0) ?_ (by simpa using hn) hce
    rintro c e ⟨x, h1, h2⟩
    unfold rowOf
    rw [h1, h2]
  have := poolOf_perm (𝕜 := 𝕜) net.readout hp
  exact congrArg (fun r => net.lin2 (net.act (net.lin1 r))) this

end

theorem GData.Iso.colour {g h : GData R} {φ : Nat → Nat} (hφ : g.Iso h φ) (hg : g.Ok) (n : Nat) {c : Nat}
    (hc : c < g.x.length) : SameNode g h n c (φ c) := by
  induction n generalizing c with
  | zero =>
    refine ⟨g.x[c], List.getElem?_eq_getElem hc, ?_⟩
    rw [hφ.feat c hc, List.getElem?_eq_getElem hc]
  | succ n ih =>
    refine ⟨ih hc, (g.edges.filter fun p => p.2 == c).map fun e => (φ e.1, φ e.2), ?_, ?_⟩
    · refine List.Perm.trans (List.Perm.of_eq ?_) (hφ.edges.filter _).symm
      rw [List.filter_map]
      congr 1
      apply List.filter_congr
      intro e he
      have hlt := (hg.edges e he).2
      simp only [Function.comp]
      by_cases hec : e.2 = c
      · simp [hec]
      · have : φ e.2 ≠ φ c := fun h => hec (hφ.inj _ _ hlt hc h)
        simp [hec, this]
    · rw [List.forall₂_map_right_iff, List.forall₂_same]
      intro e he
      exact ih (hg.edges e (List.mem_of_mem_filter he)).1

theorem GData.Iso.colours {g h : GData R} {φ : Nat → Nat} (hφ : g.Iso h φ) (hg : g.Ok) (n : Nat) :
    SameNodes g h n := by
  have hlt : ∀ c < g.x.length, φ c < h.x.length := by
    intro c hc
    have := hφ.feat c hc
    rw [List.getElem?_eq_getElem hc] at this
    exact (List.getElem?_eq_some_iff.mp this).1
  refine ⟨(List.range g.x.length).map φ, ?_, ?_⟩
  · have hnd : ((List.range g.x.length).map φ).Nodup := by
      rw [List.nodup_map_iff_inj_on List.nodup_range]
      intro a ha b hb
      exact hφ.inj a b (List.mem_range.mp ha) (List.mem_range.mp hb)
    have hsub : (List.range g.x.length).map φ ⊆ List.range h.x.length := by
      intro k hk
      obtain ⟨i, hi, rfl⟩ := List.mem_map.mp hk
      exact List.mem_range.mpr (hlt i (List.mem_range.mp hi))
    exact (List.subperm_of_subset hnd hsub).perm_of_length_le (by simp [hφ.size])
  · rw [List.forall₂_map_right_iff, List.forall₂_same]
    intro i hi
    exact hφ.colour hg n (List.mem_range.mp hi)

end Verif
