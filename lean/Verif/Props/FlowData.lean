import Verif.Model.FlowData
import Verif.Lemmas.FlowBatch
import Verif.Props.Adjacency
import Verif.Props.Drifters
import Verif.Props.Evaluation
import Verif.Props.Loader
import Verif.Props.Trajectory

/-!
# The edge-flow datasets: batches, orientations, contents and predictions (C84, C46)
-/

namespace Verif

variable {P D R L K 𝕜 : Type}

theorem forall₂_append_left {A B : Type} {Q : A → B → Prop} {l1 l2 : List A} {l : List B}
    (h : List.Forall₂ Q (l1 ++ l2) l) :
    ∃ m1 m2, List.Forall₂ Q l1 m1 ∧ List.Forall₂ Q l2 m2 ∧ l = m1 ++ m2 := by
  induction l1 generalizing l with
  | nil => exact ⟨[], l, .nil, h, rfl⟩
  | cons a l1 ih =>
    cases h with
    | cons h1 h2 =>
      obtain ⟨m1, m2, i1, i2, rfl⟩ := ih h2
      exact ⟨_ :: m1, m2, .cons h1 i1, i2, rfl⟩

section nets
variable [AddCommGroup R] [Field 𝕜] [CharZero 𝕜] [Module 𝕜 R]

theorem OrientNet.Blind.flip {net : OrientNet R} (h : net.Blind) {s : Nat → Int} (hs : Signs s)
    (data : Cochain R L) (pred : List R) (hp : net.forward 𝕜 data = .ok pred) :
    net.forward 𝕜 (data.flip s) = .ok pred := by
  rcases h.layers with ⟨hf, hl⟩ | ⟨hf, hl⟩
  · exact C22_edge_orient_invariant net hf hl h.abs s hs data pred hp
  · exact C22_fully_invariant net hf hl h.abs s hs data pred hp

omit [CharZero 𝕜] in
theorem singles_of {net : OrientNet R} {cs : List (Cochain R L)} {preds : List R}
    (h : List.Forall₂ (fun c p => (fromCochainList [c] >>= net.forward 𝕜) = .ok [p]) cs preds)
    (he : ∀ c ∈ cs, EdgeOnly c) (hne : cs ≠ []) :
    ∃ ds pool, List.Forall₂ Single cs ds ∧ net.convs ≠ [] ∧ getPoolingFn net.readout = .ok pool ∧
      preds = ds.map (net.single 𝕜 pool) := by
  have key : ∀ c ∈ cs, ∀ p, (fromCochainList [c] >>= net.forward 𝕜) = .ok [p] → ∃ d pool, Single c d ∧ net.convs ≠ [] ∧
      getPoolingFn net.readout = .ok pool ∧ p = net.single 𝕜 pool d := by
    intro c hc p hp
    obtain ⟨b, hb, hp⟩ := bind_eq_ok.mp hp
    obtain ⟨d, pool, h1, h2, h3, h4⟩ := OrientNet.single_inv (he c hc) hb hp
    exact ⟨d, pool, h1, h2, h3, by simpa using h4⟩
  obtain ⟨pool, hconvs, hpool⟩ : ∃ pool, net.convs ≠ [] ∧ getPoolingFn net.readout = .ok pool := by
    cases h with
    | nil => exact absurd rfl hne
    | @cons c p cs ps hcp hrest =>
      obtain ⟨d, pool, -, h2, h3, -⟩ := key c (by simp) p hcp
      exact ⟨pool, h2, h3⟩
  clear hne
  induction h with
  | nil => exact ⟨[], pool, .nil, hconvs, hpool, rfl⟩
  | @cons c p cs ps hcp hrest ih =>
    obtain ⟨d, pool1, g1, -, g3, g4⟩ := key c (by simp) p hcp
    obtain ⟨ds, pool2, f1, f2, f3, f4⟩ := ih (fun c hc => he c (by simp [hc])) (fun c hc => key c (by simp [hc]))
    rw [hpool, ok_inj] at g3 f3
    subst g3 f3
    exact ⟨d :: ds, pool, .cons g1 f1, hconvs, hpool, by rw [g4, f4]; rfl⟩

/-- **C84** Batches of edge cochains: if a network for oriented edges works for every cochain alone, it works for all of
them in one batch, and the rows of the result are the predictions for the single cochains, in order. -/
theorem C84_batches (net : OrientNet R) (cs : List (Cochain R L)) (hne : cs ≠ []) (he : ∀ c ∈ cs, EdgeOnly c)
    (preds : List R)
    (h : List.Forall₂ (fun c p => (fromCochainList [c] >>= net.forward 𝕜) = .ok [p]) cs preds) :
    (fromCochainList cs >>= net.forward 𝕜) = .ok preds := by
  obtain ⟨ds, pool, h1, h2, h3, rfl⟩ := singles_of h he hne
  obtain ⟨b, hb, hp⟩ := net.forward_batch (𝕜 := 𝕜) hne h1 h2 h3
  rw [hb, ok_bind, hp]

/-- **C84** Inference over a dataset of edge cochains does not depend on its division into batches. -/
theorem C84_inference_does_not_depend_on_batches (net : OrientNet R) (cs : List (Cochain R L)) (hne : cs ≠ [])
    (he : ∀ c ∈ cs, EdgeOnly c) (preds : List R)
    (h : List.Forall₂ (fun c p => (fromCochainList [c] >>= net.forward 𝕜) = .ok [p]) cs preds)
    (bss : List (List (Cochain R L))) (hb : ∀ ds ∈ bss, ds ≠ []) (hfl : bss.flatten = cs) :
    (mapE fromCochainList bss >>= infer (net.forward 𝕜)) = .ok preds := by
  have key : ∀ (bss : List (List (Cochain R L))) (preds : List R), (∀ ds ∈ bss, ds ≠ []) →
      (∀ c ∈ bss.flatten, EdgeOnly c) →
      List.Forall₂ (fun c p => (fromCochainList [c] >>= net.forward 𝕜) = .ok [p]) bss.flatten preds →
      ∃ bs pss, mapE fromCochainList bss = .ok bs ∧ mapE (net.forward 𝕜) bs = .ok pss ∧ pss.flatten = preds ∧
        pss.length = bss.length := by
    intro bss
    induction bss with
    | nil =>
      intro preds _ _ hp
      cases hp
      exact ⟨[], [], rfl, rfl, rfl, rfl⟩
    | cons ds bss ih =>
      intro preds hb he hp
      rw [List.flatten_cons] at hp he
      obtain ⟨p1, p2, q1, q2, rfl⟩ : ∃ p1 p2,
          List.Forall₂ (fun c p => (fromCochainList [c] >>= net.forward 𝕜) = .ok [p]) ds p1 ∧
          List.Forall₂ (fun c p => (fromCochainList [c] >>= net.forward 𝕜) = .ok [p]) bss.flatten p2 ∧
          preds = p1 ++ p2 :=
        forall₂_append_left hp
      obtain ⟨bs, pss, g1, g2, g3, g4⟩ := ih p2 (fun d hd => hb d (by simp [hd])) (fun c hc => he c (by simp [hc])) q2
      have hd := C84_batches net ds (hb ds (by simp)) (fun c hc => he c (by simp [hc])) p1 q1
      obtain ⟨b, hb1, hb2⟩ := bind_eq_ok.mp hd
      refine ⟨b :: bs, p1 :: pss, ?_, ?_, by rw [List.flatten_cons, g3], by simp [g4]⟩
      · rw [mapE_cons, hb1, ok_bind, g1]; rfl
      · rw [mapE_cons, hb2, ok_bind, g2]; rfl
  obtain ⟨bs, pss, g1, g2, g3, g4⟩ := key bss preds hb (by rw [hfl]; exact he) (by rw [hfl]; exact h)
  rw [g1, ok_bind]
  unfold infer
  rw [g2, ok_bind]
  unfold catRows
  rw [if_neg, g3]
  rintro rfl
  apply hne
  rw [← hfl]
  cases bss with
  | nil => rfl
  | cons _ _ => simp at g4

/-- **C84** Reversing edges, differently in every cochain of a dataset, changes no prediction of a network that is blind to
orientations, and every cochain keeps its prediction alone. -/
theorem C84_orientations (net : OrientNet R) (hnet : net.Blind) (cs cs' : List (Cochain R L))
    (he : ∀ c ∈ cs, EdgeOnly c) (hcs : List.Forall₂ Reoriented cs cs') (preds : List R)
    (h : List.Forall₂ (fun c p => (fromCochainList [c] >>= net.forward 𝕜) = .ok [p]) cs preds) :
    (∀ c ∈ cs', EdgeOnly c) ∧
    List.Forall₂ (fun c p => (fromCochainList [c] >>= net.forward 𝕜) = .ok [p]) cs' preds := by
  induction h generalizing cs' with
  | nil =>
    cases hcs
    exact ⟨by simp, .nil⟩
  | @cons c p cs ps hcp hrest ih =>
    cases hcs with
    | @cons _ c' _ cs' hcc hrest' =>
    obtain ⟨i1, i2⟩ := ih cs' (fun c hc => he c (by simp [hc])) hrest'
    obtain ⟨s, hs, rfl⟩ := hcc
    have hec : EdgeOnly (c.flip s) := he c (by simp)
    refine ⟨?_, .cons ?_ i2⟩
    · intro x hx
      rcases List.mem_cons.mp hx with rfl | hx
      · exact hec
      · exact i1 x hx
    · obtain ⟨ds, pool, h1, h2, h3, h4⟩ := singles_of (net := net) (𝕜 := 𝕜) (cs := [c]) (preds := [p]) (.cons hcp .nil)
        (fun x hx => he x (by simp_all)) (by simp)
      cases h1 with
      | @cons _ d _ ds hd hnil =>
      cases hnil
      obtain ⟨b, hb, hp⟩ := net.forward_batch (𝕜 := 𝕜) (cs := [c.flip s]) (ds := [d.flip s]) (by simp)
        (.cons (hd.flip s) .nil) h2 h3
      rw [hb, ok_bind, hp, List.map_singleton,
        OrientNet.single_flip h2 h3 (fun data pred hp => hnet.flip hs data pred hp) hd.ok hd.une hd.lne, h4]
      rfl

end nets

/-! ### The cochain of a flow -/

theorem vertices_meet_once {vertices : List Nat} {edges : List (Nat × Nat)} {B : Mat} (hv : vertices.Nodup)
    (hnd : edges.Nodup) (hr : B.rows = vertices.length) (hc : B.cols = edges.length) (hlt : ∀ q ∈ edges, q.1 < q.2)
    (hB : ∀ (v e w : Nat) q, vertices[v]? = some w → edges[e]? = some q → B.entry v e = endSign q w) : MeetOnce B := by
  have hget : ∀ e, e < B.cols → ∃ q, edges[e]? = some q := fun e he =>
    ⟨_, List.getElem?_eq_getElem (by rw [hc] at he; exact he)⟩
  have hget' : ∀ v, v < B.rows → ∃ w, vertices[v]? = some w := fun v hv =>
    ⟨_, List.getElem?_eq_getElem (by rw [hr] at hv; exact hv)⟩
  have hne : ∀ (q : Nat × Nat) w, endSign q w ≠ 0 → w = q.1 ∨ w = q.2 := by
    intro q w h
    unfold endSign at h
    by_cases h1 : w = q.2
    · exact .inr h1
    · by_cases h2 : w = q.1
      · exact .inl h2
      · rw [if_neg h1, if_neg h2] at h
        exact absurd rfl h
  constructor
  · intro k i hk hi
    obtain ⟨w, hw⟩ := hget' k hk
    obtain ⟨q, hq⟩ := hget i hi
    rw [hB k i w q hw hq]
    unfold endSign
    split
    · exact .inr (.inl rfl)
    · split
      · exact .inr (.inr rfl)
      · exact .inl rfl
  · intro i j k l hi hj hk hl hij n1 n2 n3 n4
    obtain ⟨⟨a, b⟩, he⟩ := hget i hi
    obtain ⟨⟨c, d⟩, hf⟩ := hget j hj
    obtain ⟨u, hu⟩ := hget' k hk
    obtain ⟨w, hw⟩ := hget' l hl
    have l1 := hlt _ (List.mem_of_getElem? he)
    have l2 := hlt _ (List.mem_of_getElem? hf)
    rw [hB k i u _ hu he] at n1
    rw [hB k j u _ hu hf] at n2
    rw [hB l i w _ hw he] at n3
    rw [hB l j w _ hw hf] at n4
    have n1 := hne _ _ n1
    have n2 := hne _ _ n2
    have n3 := hne _ _ n3
    have n4 := hne _ _ n4
    simp only at n1 n2 n3 n4 l1 l2
    by_contra hkl
    have huw : u ≠ w := by
      rintro rfl
      have p1 := lt_of_get hu
      have p2 := lt_of_get hw
      rw [List.getElem?_eq_getElem p1, Option.some.injEq] at hu
      rw [List.getElem?_eq_getElem p2, Option.some.injEq] at hw
      exact hkl ((List.Nodup.getElem_inj_iff hv (hi := p1) (hj := p2)).mp (hu.trans hw.symm))
    have : a = c ∧ b = d := by omega
    obtain ⟨rfl, rfl⟩ := this
    have p1 := lt_of_get he
    have p2 := lt_of_get hf
    rw [List.getElem?_eq_getElem p1, Option.some.injEq] at he
    rw [List.getElem?_eq_getElem p2, Option.some.injEq] at hf
    exact hij ((List.Nodup.getElem_inj_iff hnd (hi := p1) (hj := p2)).mp (he.trans hf.symm))

theorem sideSign_iff {t : Tri} {a b : Nat} (hab : a < b)
    (ht : t.1 ≠ t.2.1 ∧ t.2.1 ≠ t.2.2 ∧ t.2.2 ≠ t.1) :
    (sideSign t (a, b) = 1 ↔ (a, b) ∈ t.steps) ∧ (sideSign t (a, b) = -1 ↔ (b, a) ∈ t.steps) ∧
      (sideSign t (a, b) = 0 ↔ (a, b) ∉ t.steps ∧ (b, a) ∉ t.steps) := by
  have hboth : ¬ ((a, b) ∈ t.steps ∧ (b, a) ∈ t.steps) := by
    rintro ⟨h1, h2⟩
    simp only [Tri.steps, List.mem_cons, List.not_mem_nil, or_false, Prod.mk.injEq] at h1 h2
    omega
  have hdef : sideSign t (a, b) = if (a, b) ∈ t.steps then 1 else if (b, a) ∈ t.steps then -1 else 0 := rfl
  rw [hdef]
  by_cases h1 : (a, b) ∈ t.steps
  · have h2 : (b, a) ∉ t.steps := fun h2 => hboth ⟨h1, h2⟩
    simp [h1, h2]
  · by_cases h2 : (b, a) ∈ t.steps <;> simp [h1, h2]

/-- Different triangles have different sets of corners. -/
def DifferentTriangles (triangles : List Tri) : Prop :=
  ∀ (i j : Nat) s t, triangles[i]? = some s → triangles[j]? = some t → (∀ v, v ∈ s.corners ↔ v ∈ t.corners) → i = j

theorem build_item [AddCommGroup R] {lib : SparseLib} (hlib : lib.Correct) {vertices : List Nat}
    {edges : List (Nat × Nat)} {triangles : List Tri} {B1 B2 : Mat} (hv : vertices.Nodup) (hnd : edges.Nodup)
    (hlt : ∀ q ∈ edges, q.1 < q.2) (hdist : ∀ t ∈ triangles, t.1 ≠ t.2.1 ∧ t.2.1 ≠ t.2.2 ∧ t.2.2 ≠ t.1)
    (hdiff : DifferentTriangles triangles) (r1 : B1.rows = vertices.length) (c1 : B1.cols = edges.length)
    (r2 : B2.rows = edges.length) (c2 : B2.cols = triangles.length)
    (hB1 : ∀ (v e w : Nat) q, vertices[v]? = some w → edges[e]? = some q → B1.entry v e = endSign q w)
    (hB2 : ∀ (e i : Nat) q t, edges[e]? = some q → triangles[i]? = some t → B2.entry e i = sideSign t q)
    (row : Nat × Nat → R) (label : L) :
    ∃ c, buildCochain lib B1 B2 (Mat.identity B1.cols) (edges.map row) label (some edges.length) = .ok c ∧
      FlowItem vertices edges triangles (fun _ => 1) row label c := by
  have me1 := vertices_meet_once hv hnd r1 c1 hlt hB1
  have me2 := sides_meet_once (triangles := triangles) (B := B2) hnd r2 c2
    (fun e a b he => hlt _ (List.mem_of_getElem? he)) hdiff (by
      intro e i a b t he ht
      rw [hB2 e i _ t he ht]
      exact sideSign_iff (hlt _ (List.mem_of_getElem? he)) (hdist t (List.mem_of_getElem? ht)))
  obtain ⟨D1, D2, g1, g2, e⟩ := buildCochain_diagonal lib B1 B2 (Mat.identity B1.cols) B1.cols (fun _ => 1)
    (edges.map row) label (some edges.length) rfl rfl (fun i j _ => rfl) rfl (by rw [r2, c1])
  obtain ⟨li, lo, a1, b1⟩ := (me1.congr g1).adjacency hlib
  obtain ⟨ui, uo, a2, b2⟩ := (me2.congr g2).adjacency hlib
  have k1 : D1.cols = edges.length := by rw [g1.cols, c1]
  have k2 : D2.cols = edges.length := by rw [g2.cols]; show B2.rows = _; rw [r2]
  have k3 : D1.rows = vertices.length := by rw [g1.rows, r1]
  have k4 : D2.rows = triangles.length := by rw [g2.rows]; show B2.cols = _; rw [c2]
  rw [k1] at a1 b1
  rw [k2] at a2 b2
  rw [k3] at b1
  rw [k4] at b2
  have hfit : fitRows B1.cols (fun _ => 1) (edges.map row) = .ok (edges.map row) := by
    unfold fitRows
    rw [if_pos (by rw [List.length_map, c1]), flipRows_one]
  rw [a1, a2, hfit] at e
  refine ⟨_, e, rfl, rfl, ?_, ⟨li, lo, rfl, rfl, b1.congr ?_⟩, ⟨ui, uo, rfl, rfl, b2.congr ?_⟩, ⟨rfl, rfl, rfl⟩, rfl, rfl⟩
  · show some _ = some _
    rw [Option.some.injEq]
    conv_lhs => rw [← List.zipIdx_map_fst 0 edges, List.map_map]
    apply List.map_congr_left
    intro qe _
    simp
  · intro k e hk he
    rw [g1.entry k e (by rw [r1]; exact hk) (by rw [c1]; exact he), one_mul, one_mul,
      hB1 k e _ _ (List.getElem?_eq_getElem hk) (List.getElem?_eq_getElem he), List.getElem?_eq_getElem hk,
      List.getElem?_eq_getElem he]
    rfl
  · intro k e hk he
    rw [g2.entry k e (by show k < B2.cols; rw [c2]; exact hk) (by show e < B2.rows; rw [r2]; exact he), one_mul, one_mul]
    show B2.entry e k = _
    rw [hB2 e k _ _ (List.getElem?_eq_getElem he) (List.getElem?_eq_getElem hk), List.getElem?_eq_getElem hk,
      List.getElem?_eq_getElem he]
    rfl

theorem AdjacencyOf.flip {rows cols : Nat} {sgn : Nat → Nat → Int} {index : List (Nat × Nat)} {orient : List Int}
    (h : AdjacencyOf rows cols (fun k e => 1 * sgn k e) index orient) {s : Nat → Int} (hs : Signs s) :
    AdjacencyOf rows cols (fun k e => s e * sgn k e) index (flipCols s index orient) := by
  have hs0 : ∀ e, s e ≠ 0 := fun e => by rcases hs e with h | h <;> rw [h] <;> decide
  have hz : ∀ k e, s e * sgn k e ≠ 0 ↔ 1 * sgn k e ≠ 0 := by
    intro k e
    rw [one_mul, mul_ne_zero_iff]
    exact ⟨fun h => h.2, fun h => ⟨hs0 e, h⟩⟩
  refine ⟨h.nodup, flipCols_length s h.length, ?_, ?_⟩
  · intro e f
    rw [h.mem]
    simp only [hz]
  · intro p e f o hp ho k hk h1 h2
    rw [hz] at h1 h2
    have hlen := flipCols_length s h.length
    have hp1 := lt_of_get hp
    have hq : orient[p]? = some (orient[p]'(by rw [h.length]; exact hp1)) := List.getElem?_eq_getElem _
    have hz : (index.zip orient)[p]? = some ((e, f), orient[p]'(by rw [h.length]; exact hp1)) := by
      rw [List.getElem?_zip_eq_some]
      exact ⟨hp, hq⟩
    unfold flipCols at ho
    rw [List.getElem?_map, hz, Option.map_some, Option.some.injEq] at ho
    rw [← ho, h.orient p e f _ hp hq k hk h1 h2]
    ring

theorem FlowItem.flip [AddCommGroup R] {vertices : List Nat} {edges : List (Nat × Nat)} {triangles : List Tri}
    {row : Nat × Nat → R} {label : L} {c : Cochain R L}
    (h : FlowItem vertices edges triangles (fun _ => 1) row label c) {s : Nat → Int} (hs : Signs s) :
    FlowItem vertices edges triangles s row label (c.flip s) := by
  obtain ⟨li, lo, l1, l2, l3⟩ := h.lower
  obtain ⟨ui, uo, u1, u2, u3⟩ := h.upper
  refine ⟨h.dim, h.y, ?_, ⟨li, flipCols s li lo, l1, ?_, l3.flip hs⟩, ⟨ui, flipCols s ui uo, u1, ?_, u3.flip hs⟩, h.edgeOnly,
    h.noBatch⟩
  · show c.x.map (flipRows s) = _
    rw [h.x, Option.map_some]
    congr 1
    unfold flipRows
    rw [List.mapIdx_eq_zipIdx_map]
    apply List.ext_getElem
    · simp
    · intro i h1 h2
      simp
  · show c.lowerOrient.map (flipCols s (c.lowerIndex.getD [])) = _
    rw [l1, l2]
    rfl
  · show c.upperOrient.map (flipCols s (c.upperIndex.getD [])) = _
    rw [u1, u2]
    rfl

theorem flipCols_one {index : List (Nat × Nat)} {orient : List Int} (h : orient.length = index.length) :
    flipCols (fun _ => 1) index orient = orient := by
  unfold flipCols
  apply List.ext_getElem
  · simp [h]
  · intro i h1 h2
    simp

theorem FlowItem.flip_one [AddCommGroup R] {vertices : List Nat} {edges : List (Nat × Nat)} {triangles : List Tri}
    {row : Nat × Nat → R} {label : L} {c : Cochain R L} {s : Nat → Int} (h : FlowItem vertices edges triangles s row label c) :
    c.flip (fun _ => 1) = c := by
  obtain ⟨li, lo, l1, l2, l3⟩ := h.lower
  obtain ⟨ui, uo, u1, u2, u3⟩ := h.upper
  have hx : c.x.map (flipRows (fun _ => 1)) = c.x := by
    rw [h.x, Option.map_some, flipRows_one]
  have hl : c.lowerOrient.map (flipCols (fun _ => 1) (c.lowerIndex.getD [])) = c.lowerOrient := by
    rw [l1, l2, Option.map_some, Option.getD_some, flipCols_one l3.length]
  have hu : c.upperOrient.map (flipCols (fun _ => 1) (c.upperIndex.getD [])) = c.upperOrient := by
    rw [u1, u2, Option.map_some, Option.getD_some, flipCols_one u3.length]
  unfold Cochain.flip
  rw [hx, hl, hu]

theorem signs_one : Signs (fun _ => 1) := fun _ => .inl rfl

/-- The two kinds of orientations. -/
def KnownOrientation (o : String) : Prop := o = "default" ∨ o = "random"

theorem orient_build [AddCommGroup R] {lib : SparseLib} (hlib : lib.Correct) {vertices : List Nat}
    {edges : List (Nat × Nat)} {triangles : List Tri} {B1 B2 : Mat} {x : List R} {label : L} {ne : Option Nat}
    {row : Nat × Nat → R} {c : Cochain R L}
    (hc : buildCochain lib B1 B2 (Mat.identity B1.cols) x label ne = .ok c)
    (hi : FlowItem vertices edges triangles (fun _ => 1) row label c) (orientation : String) (bits : Nat → Bool)
    (ho : KnownOrientation orientation) :
    ∃ T2 s c', orientMatrix B1.cols orientation bits = .ok T2 ∧ buildCochain lib B1 B2 T2 x label ne = .ok c' ∧
      Signs s ∧ (orientation = "default" → s = fun _ => 1) ∧ c' = c.flip s ∧
      FlowItem vertices edges triangles s row label c' := by
  obtain ⟨m1, m2, -⟩ := C46_orientation_matrices B1.cols orientation bits
  rcases ho with rfl | rfl
  · exact ⟨_, fun _ => 1, c, m1 rfl, hc, signs_one, fun _ => rfl, hi.flip_one.symm, hi⟩
  · obtain ⟨s, hs, hm⟩ := m2 rfl
    refine ⟨_, s, c.flip s, hm, ?_, hs, fun h => absurd h (by decide), rfl, hi.flip hs⟩
    rw [C46_change_of_orientation lib hlib B1 B2 B1.cols s hs, hc]
    rfl

theorem orient_known {n : Nat} {o : String} {bits : Nat → Bool} {T : Mat} (h : orientMatrix n o bits = .ok T) :
    KnownOrientation o := by
  by_contra hk
  rw [KnownOrientation, not_or] at hk
  rw [(C46_orientation_matrices n o bits).2.2 hk.1 hk.2] at h
  exact absurd h (by simp)

/-! ### Examples -/

section Examples

/-- Two flows on the edges of a triangle, and the second with edges 0 and 2 reversed. -/
def flowsQ : List (Cochain ℚ Nat) := [{ flowQ with batch := none }, { flowQ with batch := none, x := some [0, 1, 0] }]

def flowsQ' : List (Cochain ℚ Nat) :=
  [{ flowQ with batch := none }, ({ flowQ with batch := none, x := some [0, 1, 0] } : Cochain ℚ Nat).flip flip02]

example : (∀ c ∈ flowsQ, EdgeOnly c) ∧ List.Forall₂ Reoriented flowsQ flowsQ' ∧ flowsQ ≠ flowsQ' := by
  refine ⟨?_, .cons ⟨fun _ => 1, fun _ => .inl rfl, by decide +kernel⟩ (.cons ⟨flip02, fun c => by unfold flip02; split <;> simp, rfl⟩ .nil),
    by decide +kernel⟩
  intro c hc
  simp only [flowsQ, List.mem_cons, List.not_mem_nil, or_false] at hc
  rcases hc with rfl | rfl <;> exact ⟨rfl, rfl, rfl⟩

/-- The predictions of each alone, of both in a batch, in two batches, and of the reoriented flows. -/
example : ∃ p q : ℚ, p ≠ q ∧ mapE (fun c => fromCochainList [c] >>= orientQ.forward ℚ) flowsQ = .ok [[p], [q]] ∧
    (fromCochainList flowsQ >>= orientQ.forward ℚ) = .ok [p, q] ∧
    (mapE fromCochainList (chunks 1 flowsQ) >>= infer (orientQ.forward ℚ)) = .ok [p, q] ∧
    mapE (fun c => fromCochainList [c] >>= orientQ.forward ℚ) flowsQ' = .ok [[p], [q]] := by
  refine ⟨31104829999993091267 / 531441, 308285637622517 / 531441, ?_, ?_, ?_, ?_, ?_⟩ <;> decide +kernel

end Examples

end Verif
