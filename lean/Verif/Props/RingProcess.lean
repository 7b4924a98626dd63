import Verif.Lemmas.RingProcess
import Verif.Props.Convert
import Verif.Props.RingLookup

/-! # The complexes of the ring datasets (C70) -/

namespace Verif

variable {R : Type}

/-- What both kinds of graphs have in common. -/
structure RingGraph.OnRing (n : Nat) (G : RingGraph) : Prop where
  edges : G.edgeIndex = ringEdges n
  rows : G.x.length = n
  label : ∃ k, G.y = [k]
  mask : G.mask = true :: List.replicate (n - 1) false

theorem onRing_transfer {n c k : Nat} {G : RingGraph} (hn : 3 ≤ n) (hk : k < c)
    (h : ringTransferGraph n (oneHot c k) = .ok G) : G.OnRing n := by
  obtain ⟨G', h1, -, -, h2, -, -, -, h3, h4, h5⟩ := C48_ring_transfer_graph n c k hn hk
  rw [h] at h1
  cases h1
  refine ⟨?_, h2, ⟨k, h5⟩, ?_⟩
  · unfold ringTransferGraph at h
    obtain ⟨_, -, h⟩ := bind_eq_ok.mp h
    obtain ⟨_, -, h⟩ := bind_eq_ok.mp h
    obtain ⟨_, -, h⟩ := bind_eq_ok.mp h
    obtain ⟨_, -, h⟩ := bind_eq_ok.mp h
    cases ok_inj.mp h
    rfl
  · apply List.ext_getElem?
    intro i
    by_cases hi : i < n
    · rw [h4 i hi]
      cases i with
      | zero => rfl
      | succ i =>
        rw [List.getElem?_cons_succ, List.getElem?_replicate, if_pos (by omega)]
        rfl
    · rw [List.getElem?_eq_none (by omega), List.getElem?_eq_none (by simp; omega)]

theorem forall₂_back {A B : Type} {P : A → B → Prop} {l : List A} {l' : List B} (h : List.Forall₂ P l l') {b : B}
    (hb : b ∈ l') : ∃ a ∈ l, P a b := by
  induction h with
  | nil => cases hb
  | cons h1 _ ih =>
    rcases List.mem_cons.mp hb with rfl | hb
    · exact ⟨_, by simp, h1⟩
    · obtain ⟨a, ha, hp⟩ := ih hb
      exact ⟨a, List.mem_cons_of_mem _ ha, hp⟩

theorem onRing_dataset {n c s : Nat} {ds : List RingGraph} (hn : 3 ≤ n) (h : ringTransferDataset n c s = .ok ds) :
    ∀ G ∈ ds, G.OnRing n := by
  intro G hG
  unfold ringTransferDataset at h
  obtain ⟨q, -, h⟩ := bind_eq_ok.mp h
  obtain ⟨i, -, hi⟩ := forall₂_back (mapE_eq_ok_iff.mp h) hG
  obtain ⟨-, h1, h2⟩ := sample_eq_ok.mp hi
  exact onRing_transfer hn h1 h2

/-- The conversion of ring graphs and the marking. -/
theorem process_discs [DecidableEq R] [Zero R] {g : Gudhi} (hg : g.Ok) {lib : RingLib} (hl : lib.Ok)
    {agg : List R → R} {width : R → Nat} {w : Nat}
    (hagg : ∀ l : List R, l ≠ [] → (∀ r ∈ l, width r = w) → width (agg l) = w)
    {tensor : List Int → R} (hw : ∀ row, width (tensor row) = w) {n : Nat} (hn : 3 ≤ n) {graphs : List RingGraph}
    (hG : ∀ G ∈ graphs, G.OnRing n) :
    ∃ (E : List (List Nat)) (r : List Nat) (converted : Converted R Nat) (comps : List (Complex R Nat)),
      E.Perm (cycleEdges n) ∧ r.Perm (List.range n) ∧
      convertWithRings g lib agg width (graphs.map (RingGraph.data tensor)) n false true true = .ok converted ∧
      mapE markComplex converted.complexes = .ok comps ∧ mapE markOneRing converted.complexes = .ok comps ∧
      List.Forall₂ (fun (G : RingGraph) (comp : Complex R Nat) => IsDisc comp n E r (G.x.map tensor) ∧
        comp.y = some G.y ∧ comp.attr 0 Cochain.mask = some G.mask) graphs comps := by
  have he : EdgesIn (ringEdges n) n := by
    rintro ⟨u, v⟩ hm
    have := (mem_ringEdges hn).mp hm
    exact ⟨this.1, this.2.1⟩
  obtain ⟨r, hr, hrp⟩ := getRings_cycle hl hn
  have hEp := cellsOf_cycle hg hl hn he
  obtain ⟨converted, hc, -, -⟩ := C35_ring_datasets_convert g hg lib hl agg width w w hagg n false true
    (graphs.map (RingGraph.data tensor)) (by
      intro data hd
      obtain ⟨G, hm, rfl⟩ := List.mem_map.mp hd
      obtain ⟨h1, h2, ⟨k, h3⟩, -⟩ := hG G hm
      refine ⟨_, ⟨rfl, ?_, ?_, ?_, ?_⟩, ⟨?_, ?_, ?_, ?_, ?_⟩, ?_, .inl ⟨rfl, rfl⟩⟩
      · show 0 < G.x.length; omega
      · simp [RingGraph.data]
      · simp only [RingGraph.data, h1, h2]; exact he
      · intro l hl'
        simp only [RingGraph.data, h3, Option.some.injEq] at hl'
        subst hl'
        exact .inl rfl
      · simp only [RingGraph.data, h1]; exact nodup_ringEdges hn
      · simp only [RingGraph.data, h1]
        rintro ⟨u, v⟩ hm
        obtain ⟨a, b, c⟩ := (mem_ringEdges hn).mp hm
        exact (mem_ringEdges hn).mpr ⟨b, a, c.symm⟩
      · simp only [RingGraph.data, h1]
        rintro ⟨u, v⟩ hm
        have := (onCycle_iff hn).mp ((mem_ringEdges hn).mp hm)
        dsimp only
        omega
      · intro l hl'
        simp only [RingGraph.data, h3, Option.some.injEq] at hl'
        subst hl'
        rfl
      · intro a ha; cases ha
      · intro row hrow
        obtain ⟨_, -, rfl⟩ := List.mem_map.mp hrow
        exact hw _)
  obtain ⟨hf, -, -, -⟩ := (C35_ring_conversion ..).mp hc
  have key : ∀ (gs : List RingGraph) (cs : List (Complex R Nat)), (∀ G ∈ gs, G.OnRing n) →
      List.Forall₂ (fun (data : GraphData R Nat) comp => ringComplex g lib agg data.x data.edgeIndex data.edgeAttr
        data.numNodes data.y n false true true = .ok comp) (gs.map (RingGraph.data tensor)) cs →
      ∃ comps, mapE markComplex cs = .ok comps ∧ mapE markOneRing cs = .ok comps ∧
        List.Forall₂ (fun (G : RingGraph) (comp : Complex R Nat) =>
          IsDisc comp n ((g.inserted (insertions (ringEdges n) n)).cellsOf n 1) r (G.x.map tensor) ∧
          comp.y = some G.y ∧ comp.attr 0 Cochain.mask = some G.mask) gs comps := by
    intro gs
    induction gs with
    | nil => intro cs _ h; cases h; exact ⟨[], rfl, rfl, .nil⟩
    | cons G gs ih =>
      intro cs hgs h
      rw [List.map_cons] at h
      cases h with
      | cons h1 h2 =>
        rename_i c cs
        obtain ⟨comps, a1, a2, a3⟩ := ih cs (fun G hm => hgs G (List.mem_cons_of_mem _ hm)) h2
        obtain ⟨b1, b2, ⟨k, b3⟩, b4⟩ := hgs G (by simp)
        obtain ⟨comp, comp', c1, c2, c3, c4, c5, c6⟩ := disc_of_cycle (agg := agg) hg hl hn (x := G.x.map tensor)
          (by simpa using b2) k hr rfl
        simp only [RingGraph.data, b1, b2, b3] at h1
        rw [c1, ok_inj] at h1
        subst h1
        have hone : markOneRing comp = .ok comp' := by
          unfold markOneRing
          rw [c2, ok_bind]
          have hget : comp'.cochains[2]? = some comp'.cochains[2] := List.getElem?_eq_getElem (by omega)
          rw [hget]
          dsimp only
          rw [c5 _ hget, ok_bind]
          rfl
        refine ⟨comp' :: comps, ?_, ?_, .cons ⟨c3, by rw [c4, b3], by rw [c3.mask, b4]⟩ a3⟩
        · rw [mapE_cons, c2, ok_bind, a1, ok_bind]
        · rw [mapE_cons, hone, ok_bind, a2, ok_bind]
  obtain ⟨comps, k1, k2, k3⟩ := key graphs converted.complexes hG hf
  exact ⟨_, r, converted, comps, hEp, hrp, hc, k1, k2, k3⟩

/-- **C70** Processing the ring-transfer dataset on `n ≥ 3` nodes succeeds whenever the graphs can be generated. Every
stored complex is the cycle with one 2-cell on all of it, with the rows of the graph on the vertices, zeros on the edges
and on the 2-cell, node 0 marked, and the label and mask of the graph; the order of the cells is the same for all. -/
theorem C70_ring_transfer_complexes [DecidableEq R] [Zero R] (g : Gudhi) (hg : g.Ok) (lib : RingLib) (hl : lib.Ok)
    (agg : List R → R) (width : R → Nat) (w : Nat)
    (hagg : ∀ l : List R, l ≠ [] → (∀ r ∈ l, width r = w) → width (agg l) = w)
    (tensor : List Int → R) (hw : ∀ row, width (tensor row) = w) (n train test c : Nat) (hn : 3 ≤ n)
    (graphs : List RingGraph) (ids : List Nat × List Nat) (h : loadRingTransfer n train test c = .ok (graphs, ids)) :
    ∃ (E : List (List Nat)) (r : List Nat) (comps : List (Complex R Nat)),
      E.Perm (cycleEdges n) ∧ r.Perm (List.range n) ∧
      ringTransferProcess g lib agg width tensor n train test c = .ok (comps, ids) ∧
      List.Forall₂ (fun (G : RingGraph) (comp : Complex R Nat) => IsDisc comp n E r (G.x.map tensor) ∧
        comp.y = some G.y ∧ comp.attr 0 Cochain.mask = some G.mask) graphs comps := by
  have hG : ∀ G ∈ graphs, G.OnRing n := by
    unfold loadRingTransfer at h
    obtain ⟨a, ha, h⟩ := bind_eq_ok.mp h
    obtain ⟨b, hb, h⟩ := bind_eq_ok.mp h
    cases ok_inj.mp h
    intro G hG
    rcases List.mem_append.mp hG with h1 | h1
    · exact onRing_dataset hn ha G h1
    · exact onRing_dataset hn hb G h1
  obtain ⟨E, r, cv, comps, h1, h2, h3, h4, -, h6⟩ := process_discs hg hl hagg hw hn hG
  refine ⟨E, r, comps, h1, h2, ?_, h6⟩
  unfold ringTransferProcess
  rw [h, ok_bind, h3, ok_bind, h4, ok_bind]
  rfl

/-- **C70** The same for the ring-lookup dataset, for all draws; its assertion that there is one 2-cell holds. -/
theorem C70_ring_lookup_complexes [DecidableEq R] [Zero R] (g : Gudhi) (hg : g.Ok) (lib : RingLib) (hl : lib.Ok)
    (agg : List R → R) (width : R → Nat) (w : Nat)
    (hagg : ∀ l : List R, l ≠ [] → (∀ r ∈ l, width r = w) → width (agg l) = w)
    (tensor : List Int → R) (hw : ∀ row, width (tensor row) = w) (n : Nat) (hn : 3 ≤ n)
    (train val : List (List Nat × Nat))
    (h : ∀ d ∈ train ++ val, d.1.Perm (List.range (n - 1)) ∧ d.2 < n - 1) :
    ∃ (E : List (List Nat)) (r : List Nat) (graphs : List RingGraph) (ids : List Nat × List Nat)
        (comps : List (Complex R Nat)),
      E.Perm (cycleEdges n) ∧ r.Perm (List.range n) ∧ loadRingLookup n train val = .ok (graphs, ids) ∧
      ringLookupProcess g lib agg width tensor n train val = .ok (comps, ids) ∧
      List.Forall₂ (fun (G : RingGraph) (comp : Complex R Nat) => IsDisc comp n E r (G.x.map tensor) ∧
        comp.y = some G.y ∧ comp.attr 0 Cochain.mask = some G.mask) graphs comps := by
  obtain ⟨ds, tr, va, a1, a2, -⟩ := C71_lookup_dataset n (by omega) train val h
  have hG : ∀ G ∈ ds, G.OnRing n := by
    intro G hG
    obtain ⟨d, hd, he⟩ := forall₂_back a2 hG
    obtain ⟨G', v, b1, b2, b3, b4, -, b6, -⟩ := lookup_graph (by omega) (h d hd).1 (h d hd).2
    rw [he] at b1
    cases b1
    exact ⟨b2, b3, ⟨v, b6⟩, b4⟩
  obtain ⟨E, r, cv, comps, h1, h2, h3, -, h5, h6⟩ := process_discs hg hl hagg hw hn hG
  refine ⟨E, r, ds, (tr, va), comps, h1, h2, a1, ?_, h6⟩
  unfold ringLookupProcess
  rw [a1, ok_bind, h3, ok_bind, h5, ok_bind]
  rfl

open Fixtures in
/-- The hypotheses are met, and the values are as claimed, for two graphs on four nodes; a row is read as a number. -/
example : (∃ p, loadRingTransfer 4 2 0 2 = .ok p) ∧
    (ringTransferProcess (R := Int) plainGudhi plainRings List.sum (fun _ => 1) (fun r => r.foldl (2 * · + ·) 0) 4 2 0 2).map
      (fun p => (p.1.map fun c => [c.attr 0 Cochain.x, c.attr 1 Cochain.x, c.attr 2 Cochain.x], p.2)) = .ok
      ([[some [0, 3, 2, 3], some [0, 0, 0, 0], some [0]], [some [0, 3, 1, 3], some [0, 0, 0, 0], some [0]]],
        [0, 1], []) := by
  refine ⟨?_, by decide +kernel⟩
  obtain ⟨a, ha⟩ := (C49_generation_succeeds_iff 4 2 2).mpr (by decide)
  obtain ⟨b, hb⟩ := (C49_generation_succeeds_iff 4 2 0).mpr (by decide)
  exact ⟨_, by unfold loadRingTransfer; rw [ha, ok_bind, hb, ok_bind]; rfl⟩

open Fixtures in
/-- A draw for the lookup on four nodes. -/
example : (∀ d ∈ [([2, 0, 1], 1)] ++ [], d.1.Perm (List.range (4 - 1)) ∧ d.2 < 4 - 1) ∧
    (ringLookupProcess (R := Int) plainGudhi plainRings List.sum (fun _ => 1) (fun r => r.foldl (2 * · + ·) 0) 4
      [([2, 0, 1], 1)] []).map
      (fun p => (p.1.map fun c => [c.attr 0 Cochain.x, c.attr 1 Cochain.x, c.attr 2 Cochain.x], p.1.map (·.y))) = .ok
      ([[some [16, 33, 20, 10], some [0, 0, 0, 0], some [0]]], [some [0]]) := by
  refine ⟨by decide, by decide +kernel⟩

end Verif
