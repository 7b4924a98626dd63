import Verif.Lemmas.Refeature
import Verif.Lemmas.Embed
import Verif.Spec.EmbedBatch
import Verif.Props.Models

/-!
# Lemmas on embedding networks and batches
-/

namespace Verif

variable {𝕜 R L : Type}

/-- A position of a concatenation lies in the segment of some item. -/
theorem exists_before {C : Type} (n : C → Nat) : ∀ (cs : List C) (k : Nat), k < (cs.map n).sum →
    ∃ (i : Nat) (c : C) (j : Nat), cs[i]? = some c ∧ j < n c ∧ k = j + before n cs i
  | [], k, h => by simp at h
  | c :: cs, k, h => by
    by_cases hk : k < n c
    · exact ⟨0, c, k, rfl, hk, by rw [before_zero]; rfl⟩
    · obtain ⟨i, c', j, h1, h2, h3⟩ := exists_before n cs (k - n c) (by
        simp only [List.map_cons, List.sum_cons] at h; omega)
      exact ⟨i + 1, c', j, h1, h2, by rw [before_succ]; omega⟩

theorem Complex.attr_length_le {comp : Complex R L} (h : comp.Valid) {d : Nat} (hd : d ≤ comp.dimension) :
    ∃ c, comp.cochains[d]? = some c := by
  have : d < comp.cochains.length := by rw [h.len]; omega
  exact ⟨_, List.getElem?_eq_getElem this⟩

theorem count_of_valid {comp : Complex R L} (h : comp.Valid) {d : Nat} {c : Cochain R L}
    (hc : comp.cochains[d]? = some c) : c.numCells = .ok (some (comp.cellsIn d)) := by
  obtain ⟨n, hn⟩ := h.known c (List.mem_of_getElem? hc)
  unfold Complex.cellsIn
  rw [hc, Option.map_some, Option.getD_some, count_of hn, hn]

/-- The count of a batch of cochains without features: every cell has a boundary. -/
theorem batch_count_faces {cs : List (Complex R L)} (hv : ∀ c ∈ cs, c.Valid) {d : Nat}
    (hx : ∀ c ∈ cs, c.attr d Cochain.x = none)
    (hf : ∀ c ∈ cs, ∀ k, k < c.cellsIn d → ∃ p ∈ c.faces d, p.2 = k)
    (hpos : 0 < (cs.map (Complex.cellsIn d)).sum) {b : Cochain R L}
    (h : fromCochainList (cs.map (orEmpty d)) = .ok b) :
    b.numCells = .ok (some (cs.map (Complex.cellsIn d)).sum) := by
  have f := fromCochainList_inv h
  have hbx : b.x = none := by
    rw [f.x, unionOf_map, unionOf, if_neg]
    rintro ⟨c, hc, hs⟩
    rw [attr_orEmpty d c Cochain.x (fun _ => rfl), hx c hc] at hs
    simp at hs
  have hget : ∀ c : Complex R L, (orEmpty d c).boundaryIndex = c.attr d Cochain.boundaryIndex :=
    fun c => attr_orEmpty d c Cochain.boundaryIndex (fun _ => rfl)
  have hcnt : ∀ i, before Cochain.count (cs.map (orEmpty d)) i = before (Complex.cellsIn d) cs i := by
    intro i
    rw [before_map]
    exact before_congr (fun c _ => count_orEmpty d c) i
  have hbi := f.boundary
  rw [unionOf_map] at hbi
  obtain ⟨i0, c0, j0, h1, h2, -⟩ := exists_before (Complex.cellsIn d) cs 0 hpos
  have hc0 : c0 ∈ cs := List.mem_of_getElem? h1
  have hsome : ∃ c ∈ cs, (orEmpty d c).boundaryIndex.isSome := by
    obtain ⟨p, hp, -⟩ := hf c0 hc0 j0 h2
    refine ⟨c0, hc0, ?_⟩
    rw [hget]
    unfold Complex.faces at hp
    cases ha : c0.attr d Cochain.boundaryIndex with
    | none => rw [ha] at hp; simp at hp
    | some l => rfl
  rw [unionOf_some_of hsome] at hbi
  unfold Cochain.numCells
  rw [f.explicit.1, hbx, hbi]
  dsimp only
  unfold Cochain.maxPlusOne
  have hmem : ∀ k, k < (cs.map (Complex.cellsIn d)).sum ↔ k ∈ (List.map Prod.snd
      (cs.zipIdx.flatMap fun ci => ((orEmpty d ci.1).boundaryIndex.getD []).map
        (shiftPair2 (before Cochain.countDown (cs.map (orEmpty d)) ci.2,
          before Cochain.count (cs.map (orEmpty d)) ci.2)))) := by
    intro k
    simp only [List.mem_map, List.mem_flatMap, Prod.exists, hget, hcnt]
    constructor
    · intro hk
      obtain ⟨i, c, j, h1, h2, rfl⟩ := exists_before (Complex.cellsIn d) cs k hk
      obtain ⟨p, hp, rfl⟩ := hf c (List.mem_of_getElem? h1) j h2
      exact ⟨p.1 + before Cochain.countDown (cs.map (orEmpty d)) i, _,
        ⟨c, i, List.mk_mem_zipIdx_iff_getElem?.mpr h1, p.1, p.2, hp, rfl⟩, rfl⟩
    · rintro ⟨a, b, ⟨c, i, h1, u, v, hp, he⟩, rfl⟩
      rw [List.mk_mem_zipIdx_iff_getElem?] at h1
      have hlt : v < c.cellsIn d := by
        cases hcd : c.cochains[d]? with
        | none => rw [attr_none hcd] at hp; simp at hp
        | some cd =>
          rw [attr_of hcd] at hp
          exact ((hv c (List.mem_of_getElem? h1)).valid d cd hcd).boundary (u, v) hp |>.2
      have : b = v + before (Complex.cellsIn d) cs i := by
        simp only [shiftPair2, Prod.mk.injEq] at he
        exact he.2.symm
      rw [this]
      exact before_lt_total h1 hlt
  have hmax : (List.map Prod.snd (cs.zipIdx.flatMap fun ci =>
      ((orEmpty d ci.1).boundaryIndex.getD []).map
        (shiftPair2 (before Cochain.countDown (cs.map (orEmpty d)) ci.2,
          before Cochain.count (cs.map (orEmpty d)) ci.2)))).max? =
      some ((cs.map (Complex.cellsIn d)).sum - 1) := by
    rw [List.max?_eq_some_iff]
    refine ⟨(hmem _).mp (by omega), fun k hk => ?_⟩
    have := (hmem k).mpr hk
    omega
  rw [hmax]
  simp only [map_ok, ok_inj, Option.some.injEq]
  omega

theorem EmbedInit.Takes.embeds {l : EmbedInit R} {comp : Complex R L} (h : l.Takes comp) : l.Embeds comp :=
  ⟨h.valid, h.cells, h.nodes, h.vertices, h.faces, h.edges⟩

/-- The counts of a batch of complexes with uniform features. -/
theorem batch_count_uniform {l : EmbedInit R} {cs : List (Complex R L)} (h : ∀ c ∈ cs, l.Embeds c)
    (hu : UniformFeatures cs) {d : Nat} {b : Cochain R L} (hd : ∃ c ∈ cs, d ≤ c.dimension)
    (hb : fromCochainList (cs.map (orEmpty d)) = .ok b) :
    b.numCells = .ok (some (cs.map (Complex.cellsIn d)).sum) := by
  obtain ⟨top, htop, hdt⟩ := hd
  rcases hu d with hx | hx
  · have := batch_count hb ?_ ?_
    · rw [this, List.map_map]
      congr 3
      apply List.map_congr_left
      intro c _
      exact count_orEmpty d c
    · refine ⟨orEmpty d top, List.mem_map_of_mem htop, ?_⟩
      rw [attr_orEmpty d top Cochain.x (fun _ => rfl)]
      exact hx top htop hdt
    · intro c hc
      obtain ⟨c, hc', rfl⟩ := List.mem_map.mp hc
      rw [count_orEmpty, attr_orEmpty d c Cochain.x (fun _ => rfl)]
      cases hcd : c.cochains[d]? with
      | none => rw [attr_none hcd]; unfold Complex.cellsIn; rw [hcd]; rfl
      | some cd =>
        have hle : d ≤ c.dimension := by
          have := (List.getElem?_eq_some_iff.mp hcd).1
          rw [(h c hc').valid.len] at this; omega
        obtain ⟨x, hx'⟩ := Option.isSome_iff_exists.mp (hx c hc' hle)
        rw [hx']
        rw [attr_of hcd] at hx'
        exact ((h c hc').valid.valid d cd hcd).rows x hx'
  · have hd0 : d ≠ 0 := by
      rintro rfl
      have := (h top htop).nodes
      rw [hx top htop] at this
      simp at this
    refine batch_count_faces (fun c hc => (h c hc).valid) hx
      (fun c hc k hk => (h c hc).faces d k (by omega) hk) ?_ hb
    have h1 := (h top htop).cells d hdt
    obtain ⟨i, hi⟩ := List.mem_iff_getElem?.mp htop
    have := before_lt_total hi h1
    omega


section
variable [AddCommMonoid R]

theorem Complex.le_dimension {comp : Complex R L} (h : comp.Valid) {d : Nat} {c : Cochain R L}
    (hc : comp.cochains[d]? = some c) : d ≤ comp.dimension := by
  have := (List.getElem?_eq_some_iff.mp hc).1
  rw [h.len] at this; omega

theorem x_length {comp : Complex R L} (h : comp.Valid) {d : Nat} {x : List R}
    (hx : comp.attr d Cochain.x = some x) : x.length = comp.cellsIn d := by
  cases hc : comp.cochains[d]? with
  | none => rw [attr_none hc] at hx; simp at hx
  | some c => rw [attr_of hc] at hx; exact (h.valid d c hc).rows x hx

theorem EmbedInit.rows_length {l : EmbedInit R} {comp : Complex R L} (h : l.Embeds comp) (d : Nat) :
    (l.rows comp d).length = comp.cellsIn d := by
  match d with
  | 0 =>
    obtain ⟨x, hx⟩ := Option.isSome_iff_exists.mp h.nodes
    rw [← x_length h.valid hx]
    simp [EmbedInit.rows, EmbedInit.vertexRows, hx]
  | 1 =>
    simp only [EmbedInit.rows]
    split
    · rename_i x f hx _
      rw [List.length_map, x_length h.valid hx]
    · simp [EmbedInit.edgeSums]
  | d + 2 => simp [EmbedInit.rows]

theorem EmbedInit.embed_refeatured {l : EmbedInit R} {comp : Complex R L} (h : l.Embeds comp) :
    Refeatured comp (l.embed comp) := by
  refine ⟨rfl, ?_⟩
  unfold EmbedInit.embed
  dsimp only
  rw [List.forall₂_iff_get]
  refine ⟨by simp, ?_⟩
  intro d h1 h2
  simp only [List.get_eq_getElem, List.getElem_mapIdx]
  refine ⟨rfl, ?_⟩
  have hc := List.getElem?_eq_getElem h1
  have hn := count_of_valid h.valid hc
  have hl := EmbedInit.rows_length h d
  unfold Cochain.numCells at hn ⊢
  dsimp only
  cases ha : (comp.cochains[d]).numCellsAttr with
  | some n => rfl
  | none =>
    rw [ha] at hn
    rw [hn, hl]

theorem embed_get {l : EmbedInit R} {comp : Complex R L} (d : Nat) :
    (l.embed comp).cochains[d]? = (comp.cochains[d]?).map fun c => { c with x := some (l.rows comp d) } := by
  unfold EmbedInit.embed
  simp

theorem embed_attr {A : Type} {l : EmbedInit R} {comp : Complex R L} (d : Nat)
    {get : Cochain R L → Option A} (hg : ∀ (c : Cochain R L) x, get { c with x := x } = get c) :
    (l.embed comp).attr d get = comp.attr d get := by
  unfold Complex.attr
  rw [embed_get]
  cases comp.cochains[d]? with
  | none => rfl
  | some c => exact hg c _

theorem embed_X {l : EmbedInit R} {comp : Complex R L} (h : l.Embeds comp) (d : Nat) :
    (l.embed comp).view.X d = l.rows comp d := by
  show ((l.embed comp).attr d Cochain.x).getD [] = _
  unfold Complex.attr
  rw [embed_get]
  cases hc : comp.cochains[d]? with
  | some c => rfl
  | none =>
    have := EmbedInit.rows_length h d
    rw [Complex.cellsIn, hc] at this
    exact (List.length_eq_zero_iff.mp this).symm

theorem EmbedInit.embed_ready {l : EmbedInit R} {comp : Complex R L} (h : l.Embeds comp) :
    (l.embed comp).Ready := by
  have hr := EmbedInit.embed_refeatured h
  have hget : ∀ (d : Nat) (c : Cochain R L), (l.embed comp).cochains[d]? = some c →
      ∃ c0, comp.cochains[d]? = some c0 ∧ c = { c0 with x := some (l.rows comp d) } ∧
        c.numCells = c0.numCells := by
    intro d c hc
    rcases forall₂_get? hr.cells d with ⟨e1, e2⟩ | ⟨a, b, e1, e2, hab⟩
    · rw [e2] at hc; simp at hc
    · rw [e2] at hc
      cases hc
      rw [embed_get, e1] at e2
      cases e2
      exact ⟨a, e1, rfl, hab.count⟩
  have hcell := hr.cellsIn
  have hbelow : ∀ d, (l.embed comp).cellsBelow d = comp.cellsBelow d := by
    intro d
    cases d with
    | zero => rfl
    | succ d => exact hcell d
  refine ⟨⟨⟨?_, ?_, ?_, ?_⟩, ?_, ?_, ?_⟩, ?_, ?_⟩
  · rw [← hr.cells.length_eq, h.valid.len, hr.dim]
  · intro d c hc
    obtain ⟨c0, h0, rfl, -⟩ := hget d c hc
    exact h.valid.dim d c0 h0
  · intro d c c' hc hc'
    obtain ⟨c0, h0, rfl, -⟩ := hget d c hc
    obtain ⟨c1, h1, -, e1⟩ := hget (d + 1) c' hc'
    rw [e1]
    exact h.valid.up d c0 c1 h0 h1
  · intro d c c' hc hc'
    obtain ⟨c0, h0, -, e0⟩ := hget d c hc
    obtain ⟨c1, h1, rfl, -⟩ := hget (d + 1) c' hc'
    rw [e0]
    exact h.valid.down d c0 c1 h0 h1
  · intro c hc
    obtain ⟨d, hd⟩ := List.mem_iff_getElem?.mp hc
    obtain ⟨c0, h0, -, e0⟩ := hget d c hd
    rw [e0]
    exact h.valid.known c0 (List.mem_of_getElem? h0)
  · intro c hc
    rw [hr.dim] at hc
    obtain ⟨c0, h0, rfl, -⟩ := hget _ c hc
    exact h.valid.top c0 h0
  · intro d c hc
    rw [hcell, hcell, hbelow]
    obtain ⟨c0, h0, rfl, -⟩ := hget d c hc
    have v := h.valid.valid d c0 h0
    exact ⟨v.plain, fun x hx => by cases hx; exact EmbedInit.rows_length h d, v.upper, v.upperShared,
      v.upperBoth, v.shared, v.lower, v.lowerShared, v.lowerBoth, v.sharedDown, v.boundary⟩
  · intro c hc
    obtain ⟨d, hd⟩ := List.mem_iff_getElem?.mp hc
    obtain ⟨c0, h0, rfl, -⟩ := hget d c hd
    rfl
  · rw [embed_attr 0 (fun _ _ => rfl)]
    exact h.vertices

/-! ### The initial layer on a complex or batch -/

theorem initReduce_at {agg : List R → R} {bi : List (Nat × Nat)} {rows : List R} {n : Nat}
    (hr : ∀ p ∈ bi, p.1 < rows.length) (hn : ∀ p ∈ bi, p.2 < n) (hf : ∀ c, c < n → ∃ p ∈ bi, p.2 = c)
    (hpos : 0 < n) :
    initReduce agg rows (some bi) = .ok ((List.range n).map (reduceAt agg rows bi)) := by
  have hm : (bi.map Prod.snd).max? = some (n - 1) := by
    rw [List.max?_eq_some_iff]
    constructor
    · obtain ⟨p, hp, he⟩ := hf (n - 1) (by omega)
      exact List.mem_map.mpr ⟨p, hp, he⟩
    · intro k hk
      obtain ⟨p, hp, rfl⟩ := List.mem_map.mp hk
      have := hn p hp
      omega
  unfold initReduce
  dsimp only
  rw [indexSelect_rowOf (by
    intro i hi
    obtain ⟨p, hp, rfl⟩ := List.mem_map.mp hi
    exact hr p hp), ok_bind]
  unfold Cochain.maxPlusOne
  rw [hm]
  dsimp only
  rw [ok_bind, show n - 1 + 1 = n by omega, scatter_ok (by simp) (by
    intro i hi
    obtain ⟨p, hp, rfl⟩ := List.mem_map.mp hi
    exact hn p hp)]
  congr 1
  apply List.map_congr_left
  intro c _
  rw [zip_filter_fst]
  unfold reduceAt
  rw [List.map_map]
  rfl

/-- What the initial layer needs of a complex or batch. -/
structure EmbedInit.Reads (l : EmbedInit R) (B : Complex R L) : Prop where
  len : B.cochains.length = B.dimension + 1
  small : B.dimension ≤ 2
  cells : ∀ d, d ≤ B.dimension → 0 < B.cellsIn d
  rows : ∀ d x, B.attr d Cochain.x = some x → x.length = B.cellsIn d
  nodes : (B.attr 0 Cochain.x).isSome
  faces : ∀ d c, 1 ≤ d → c < B.cellsIn d → ∃ p ∈ B.faces d, p.2 = c
  bnd : ∀ d, ∀ p ∈ B.faces (d + 1), p.1 < B.cellsIn d ∧ p.2 < B.cellsIn (d + 1)
  edges : (B.attr 1 Cochain.x).isSome → l.eEmbed.isSome
  upBoth : ∀ (d : Nat) (c : Cochain R L), B.cochains[d]? = some c →
    c.upperIndex.isSome = c.sharedCoboundaries.isSome
  shared : ∀ (d : Nat) (c : Cochain R L), d + 1 ≤ B.dimension → B.cochains[d]? = some c →
    ∀ s ∈ c.sharedCoboundaries.getD [], s < B.cellsIn (d + 1)

theorem EmbedInit.Reads.get {l : EmbedInit R} {B : Complex R L} (h : l.Reads B) {d : Nat}
    (hd : d ≤ B.dimension) : ∃ c, B.cochains[d]? = some c := by
  have : d < B.cochains.length := by rw [h.len]; omega
  exact ⟨_, List.getElem?_eq_getElem this⟩

theorem EmbedInit.Reads.param {l : EmbedInit R} {B : Complex R L} (h : l.Reads B) (m : Nat) {d : Nat}
    (hd : d ≤ B.dimension) : ∃ p, B.getCochainParams d m true false = .ok p ∧
      p.x = B.attr d Cochain.x ∧ p.boundaryIndex = B.attr d Cochain.boundaryIndex := by
  obtain ⟨c, hc⟩ := h.get hd
  have hup : ∃ u, upParams c B.cochains[d + 1]? d m true = .ok u := by
    unfold upParams
    cases hu : c.upperIndex with
    | none => exact ⟨_, rfl⟩
    | some ui =>
      cases ha : B.cochains[d + 1]? with
      | none => exact ⟨_, rfl⟩
      | some above =>
        dsimp only
        cases hx : above.x with
        | none => exact ⟨_, rfl⟩
        | some ax =>
          have hle : d + 1 ≤ B.dimension := by
            have := (List.getElem?_eq_some_iff.mp ha).1
            rw [h.len] at this; omega
          have hl := h.rows (d + 1) ax (by rw [attr_of ha]; exact hx)
          obtain ⟨s, hs⟩ := Option.isSome_iff_exists.mp (by
            rw [← h.upBoth d c hc, hu]; rfl : c.sharedCoboundaries.isSome = true)
          have hr := h.shared d c hle hc
          rw [hs] at hr
          simp only [Bool.or_true, if_true]
          rw [hs]
          unfold indexSelectOpt
          dsimp only
          rw [indexSelect_rowOf (by rw [hl]; exact hr), ok_bind]
          exact ⟨_, rfl⟩
  obtain ⟨u, hu⟩ := hup
  unfold Complex.getCochainParams
  rw [hc]
  dsimp only
  rw [hu, ok_bind]
  have hd' : downParams c (B.belowX d) false = .ok (none, none) := by
    unfold downParams; rfl
  rw [hd', ok_bind]
  refine ⟨_, rfl, by rw [attr_of hc], ?_⟩
  rw [attr_of hc]
  dsimp only
  unfold boundaryParams
  cases c.boundaryIndex <;> rfl

/-- The initial layer on a complex or batch. -/
theorem EmbedInit.Reads.forward {l : EmbedInit R} {B : Complex R L} (h : l.Reads B) {m : Nat}
    (hm : B.dimension ≤ m) :
    ∃ ps, B.getAllCochainParams m true false = .ok ps ∧
      l.forward ps = .ok ((List.range (B.dimension + 1)).map (l.rows B)) := by
  have hface : ∀ d, 1 ≤ d → d ≤ B.dimension → B.attr d Cochain.boundaryIndex = some (B.faces d) := by
    intro d h1 hd
    obtain ⟨p, hp, -⟩ := h.faces d 0 h1 (h.cells d hd)
    unfold Complex.faces at hp ⊢
    cases hb : B.attr d Cochain.boundaryIndex with
    | none => rw [hb] at hp; simp at hp
    | some bi => rfl
  obtain ⟨x, hx⟩ := Option.isSome_iff_exists.mp h.nodes
  obtain ⟨p0, hp0, hx0, -⟩ := h.param m (Nat.zero_le _)
  have hv : l.vertexRows B = x.map l.vEmbed := by unfold EmbedInit.vertexRows; rw [hx]; rfl
  have hvl : (l.vertexRows B).length = B.cellsIn 0 := by rw [hv, List.length_map, h.rows 0 x hx]
  unfold Complex.getAllCochainParams
  rw [Nat.min_eq_right hm]
  have hsm := h.small
  have he : 1 ≤ B.dimension → initReduce l.reduce (x.map l.vEmbed)
      (B.attr 1 Cochain.boundaryIndex) = .ok (l.edgeSums B) := by
    intro hd
    rw [hface 1 le_rfl hd, ← hv]
    exact initReduce_at (fun p hp => by rw [hvl]; exact (h.bnd 0 p hp).1) (fun p hp => (h.bnd 0 p hp).2)
      (fun c hc => h.faces 1 c le_rfl hc) (h.cells 1 hd)
  have hel : (l.edgeSums B).length = B.cellsIn 1 := by simp [EmbedInit.edgeSums]
  have hex : l.edges (l.edgeSums B) (B.attr 1 Cochain.x) = .ok (l.rows B 1) := by
    unfold EmbedInit.edges EmbedInit.rows
    cases hx1 : B.attr 1 Cochain.x with
    | none => rfl
    | some x1 =>
      obtain ⟨f, hf⟩ := Option.isSome_iff_exists.mp (h.edges (by rw [hx1]; rfl))
      rw [hf]
  generalize hD : B.dimension = D at *
  match D with
  | 0 =>
    refine ⟨[p0], ?_, ?_⟩
    · show mapE _ [0] = _
      rw [mapE_cons, hp0]; rfl
    · unfold EmbedInit.forward
      simp only [hx0, hx]
      rw [← hv]
      rfl
  | 1 =>
    obtain ⟨p1, hp1, hx1, hb1⟩ := h.param m (d := 1) (by omega)
    refine ⟨[p0, p1], ?_, ?_⟩
    · show mapE _ [0, 1] = _
      rw [mapE_cons, hp0, ok_bind, mapE_cons, hp1]; rfl
    · unfold EmbedInit.forward
      simp only [hx0, hx, hx1, hb1]
      rw [he (by omega)]
      simp only [List.length_cons, List.length_nil, ok_bind]
      rw [if_neg (by omega), hex, ok_bind, ← hv]
      rfl
  | 2 =>
    obtain ⟨p1, hp1, hx1, hb1⟩ := h.param m (d := 1) (by omega)
    obtain ⟨p2, hp2, hx2, hb2⟩ := h.param m (d := 2) (by omega)
    refine ⟨[p0, p1, p2], ?_, ?_⟩
    · show mapE _ [0, 1, 2] = _
      rw [mapE_cons, hp0, ok_bind, mapE_cons, hp1, ok_bind, mapE_cons, hp2]; rfl
    · unfold EmbedInit.forward
      simp only [hx0, hx, hx1, hb1, hb2]
      rw [he (by omega)]
      simp only [List.length_cons, List.length_nil, ok_bind]
      rw [if_neg (by omega), hex, ok_bind, hface 2 (by omega) (by omega),
        initReduce_at (fun p hp => by rw [hel]; exact (h.bnd 1 p hp).1) (fun p hp => (h.bnd 1 p hp).2)
          (fun c hc => h.faces 2 c (by omega) hc) (h.cells 2 (by omega)), ok_bind, ← hv]
      rfl


theorem flatMap_get_before {C A : Type} {cs : List C} {n : C → Nat} {f : C → List A}
    (hf : ∀ c ∈ cs, (f c).length = n c) {i : Nat} {c : C} (hi : cs[i]? = some c) {k : Nat} (hk : k < n c) :
    (cs.flatMap f)[k + before n cs i]? = (f c)[k]? := by
  induction cs generalizing i with
  | nil => simp at hi
  | cons e cs ih =>
    rw [List.flatMap_cons]
    cases i with
    | zero =>
      simp at hi
      subst hi
      rw [before_zero, List.getElem?_append_left (by rw [hf e (by simp)]; omega)]
      rfl
    | succ i =>
      rw [before_succ, List.getElem?_append_right (by rw [hf e (by simp)]; omega),
        ← ih (fun c hc => hf c (by simp [hc])) (by simpa using hi), hf e (by simp)]
      congr 1
      omega

theorem rowOf_before {C : Type} {cs : List C} {n : C → Nat} {f : C → List R}
    (hf : ∀ c ∈ cs, (f c).length = n c) {i : Nat} {c : C} (hi : cs[i]? = some c) {k : Nat} (hk : k < n c) :
    rowOf (cs.flatMap f) (k + before n cs i) = rowOf (f c) k := by
  unfold rowOf
  rw [flatMap_get_before hf hi hk]

/-- Reducing boundaries in a batch is reducing them in each of its complexes. -/
theorem reduce_blocks {reduce : List R → R} (hred : ∀ a b : List R, a.Perm b → reduce a = reduce b)
    {I : Type} {is : List I} {f : I → Complex R L} {mB : Nat} {B : Complex R L}
    (hB : fromComplexList (is.map f) mB = .ok B) (hr : ∀ i ∈ is, (f i).Ready) {d : Nat} (hd : d + 1 ≤ mB)
    {ρ : I → List R} (hρ : ∀ i ∈ is, (ρ i).length = (f i).cellsIn d) :
    (List.range (is.map fun i => (f i).cellsIn (d + 1)).sum).map
        (reduceAt reduce (is.flatMap ρ) (B.view.bnd (d + 1))) =
      is.flatMap fun i => (List.range ((f i).cellsIn (d + 1))).map
        (reduceAt reduce (ρ i) ((f i).view.bnd (d + 1))) := by
  have hr' : ∀ c ∈ is.map f, c.Ready := by
    intro c hc
    obtain ⟨i, hi, rfl⟩ := List.mem_map.mp hc
    exact hr i hi
  apply eq_flatMap_of_blocks (n := fun i => (f i).cellsIn (d + 1))
  · intro i _; simp
  · simp
  · intro j i hj k hk
    have hi : i ∈ is := List.mem_of_getElem? hj
    have hj' : (is.map f)[j]? = some (f i) := by rw [List.getElem?_map, hj]; rfl
    have hlt : k + before (fun i => (f i).cellsIn (d + 1)) is j <
        (is.map fun i => (f i).cellsIn (d + 1)).sum := before_lt_total hj hk
    rw [List.getElem?_map, List.getElem?_range hlt, List.getElem?_map, List.getElem?_range hk]
    simp only [Option.map_some, Option.some.injEq]
    have iso := batch_localIso hB hr' hj'
    have hX : k < (((f i).view.upTo mB).X (d + 1)).length := by
      simp only [View.upTo, if_pos hd]
      rw [ready_X_length (hr i hi)]
      exact hk
    have hp := iso.bnd (d + 1) k hX
    have hφ : ∀ e c, inBatch (is.map f) j e c = c + before (fun i => (f i).cellsIn e) is j := by
      intro e c
      unfold inBatch
      rw [before_map]
    simp only [View.upTo, if_pos hd, Nat.add_sub_cancel, hφ] at hp
    unfold reduceAt
    rw [hred _ _ (hp.map _), List.map_map]
    congr 1
    apply List.map_congr_left
    intro p hp'
    have hmem := (List.mem_filter.mp hp').1
    have hin := (ready_inRange (hr i hi)).bnd (d + 1) p hmem
    have hin' : p.1 < (f i).cellsIn d := by
      have := hin.1
      rw [ready_below_length (hr i hi)] at this
      exact this
    exact rowOf_before hρ hj hin'

theorem batch_attr_x {cs : List (Complex R L)} {mB : Nat} {B : Complex R L}
    (hB : fromComplexList cs mB = .ok B) {d : Nat} (hd : d ≤ B.dimension) :
    B.attr d Cochain.x = unionOf (fun c => c.attr d Cochain.x) (fun _ a => a) cs := by
  have F := fromComplexList_inv hB
  have hlt : d < B.cochains.length := by rw [F.coherent.len]; omega
  have hc := List.getElem?_eq_getElem hlt
  rw [attr_of hc]
  obtain ⟨b0, u, w, h0, he⟩ := F.cochain d _ hc
  rw [he]
  show b0.x = _
  rw [(fromCochainList_inv h0).x, unionOf_map]
  exact unionOf_congr (fun c _ => attr_orEmpty d c Cochain.x (fun _ => rfl)) (fun _ _ => rfl)

theorem flatMap_zipIdx_fst {C A : Type} (cs : List C) (f : C → List A) :
    (cs.zipIdx.flatMap fun ci => (f ci.1).map fun a => a) = cs.flatMap f := by
  rw [show (fun ci : C × Nat => (f ci.1).map fun a => a) = (fun ci : C × Nat => f ci.1) by
    funext ci; simp]
  rw [← List.flatMap_map Prod.fst f, List.zipIdx_map_fst]

/-- The initial layer and batching: what the layer does on the batch is what it does on each of the
complexes, and giving the batch these features makes it the batch of the embedded complexes. -/
theorem embed_batch {l : EmbedInit R} (hred : ∀ a b : List R, a.Perm b → l.reduce a = l.reduce b)
    {cs : List (Complex R L)} (hne : cs ≠ []) (h : ∀ c ∈ cs, l.Embeds c) (hu : UniformFeatures cs)
    (mB : Nat) (hs2 : ∀ c ∈ cs, min c.dimension mB ≤ 2) :
    ∃ B B', fromComplexList cs mB = .ok B ∧ fromComplexList (cs.map l.embed) mB = .ok B' ∧
      Refeatured B B' ∧ l.Reads B ∧
      B'.cochains.map Cochain.x = (List.range (B.dimension + 1)).map fun d => some (l.rows B d) := by
  have hrd : ∀ c ∈ cs, (l.embed c).Ready := fun c hc => EmbedInit.embed_ready (h c hc)
  have hrd' : ∀ c ∈ cs.map l.embed, c.Ready := by
    intro c hc
    obtain ⟨e, he, rfl⟩ := List.mem_map.mp hc
    exact hrd e he
  have hcell : ∀ c ∈ cs, ∀ d, (l.embed c).cellsIn d = c.cellsIn d :=
    fun c hc d => (EmbedInit.embed_refeatured (h c hc)).cellsIn d
  obtain ⟨B, B', hB, hB', hRef⟩ := batch_refeatured (maxDim := mB) hne
    (fun c hc => EmbedInit.embed_refeatured (h c hc)) (fun c hc => (h c hc).valid)
    (fun c hc => (hrd c hc).valid) (fun c hc => (hrd c hc).featured)
    (fun d b hd hb => batch_count_uniform h hu hd hb)
  refine ⟨B, B', hB, hB', hRef, ?_⟩
  have F := fromComplexList_inv hB
  have runs := batch_runs hB' hrd'
  obtain ⟨hle, top, htop, hdt⟩ := batch_dim_le hB
  have hdim : B'.dimension = B.dimension := hRef.dim
  have hexists : ∀ d, d ≤ B.dimension → ∃ c ∈ cs, d ≤ c.dimension := fun d hd => ⟨top, htop, by omega⟩
  -- counts
  have hcnt : ∀ d, d ≤ B.dimension → B.cellsIn d = (cs.map (Complex.cellsIn d)).sum := by
    intro d hd
    have hlt : d < B.cochains.length := by rw [F.coherent.len]; omega
    have hc := List.getElem?_eq_getElem hlt
    obtain ⟨b0, u, w, h0, he⟩ := F.cochain d _ hc
    have hn := batch_count_uniform h hu (hexists d hd) h0
    unfold Complex.cellsIn
    rw [hc, he, Option.map_some, Option.getD_some]
    have : ({ b0 with numCellsUpAttr := u, numCellsDownAttr := w } : Cochain R L).numCells =
        .ok (some (cs.map (Complex.cellsIn d)).sum) := hn
    exact count_of this
  have hcnt' : ∀ d, (cs.map fun c => (l.embed c).cellsIn d).sum = (cs.map (Complex.cellsIn d)).sum := by
    intro d
    congr 1
    exact List.map_congr_left fun c hc => hcell c hc d
  have hrowsx : ∀ d x, B.attr d Cochain.x = some x → x.length = B.cellsIn d := by
    intro d x hx
    cases hc : B.cochains[d]? with
    | none => rw [attr_none hc] at hx; simp at hx
    | some c =>
      rw [attr_of hc] at hx
      obtain ⟨b0, u, w, h0, he⟩ := F.cochain d _ hc
      have : c.numCells = .ok (some x.length) := by
        unfold Cochain.numCells
        have h1 : c.numCellsAttr = none := by rw [he]; exact (fromCochainList_inv h0).explicit.1
        rw [h1, hx]
      unfold Complex.cellsIn
      rw [hc, Option.map_some, Option.getD_some, count_of this]
  have hfaces : ∀ d, B.faces (d + 1) = B'.view.bnd (d + 1) := by
    intro d
    show (B.attr (d + 1) Cochain.boundaryIndex).getD [] = (B'.attr (d + 1) Cochain.boundaryIndex).getD []
    unfold Complex.attr
    rcases forall₂_get? hRef.cells (d + 1) with ⟨e1, e2⟩ | ⟨a, b, e1, e2, hab⟩
    · rw [e1, e2]
    · rw [e1, e2]
      show (a.boundaryIndex).getD [] = b.boundaryIndex.getD []
      rw [hab.eq]
  have hX' : ∀ d, d ≤ B.dimension → (B'.view.X d).length = B.cellsIn d := by
    intro d hd
    rw [batch_X_length hB' hrd' (by omega), hcnt d hd, List.map_map]
    exact hcnt' d
  have habsent : ∀ d, ¬ d ≤ B.dimension → B.cochains[d]? = none := by
    intro d hd
    rw [List.getElem?_eq_none_iff, F.coherent.len]; omega
  have habsent' : ∀ d, ¬ d ≤ B.dimension → B'.cochains[d]? = none := by
    intro d hd
    rw [List.getElem?_eq_none_iff, runs.len]; omega
  have hbnd : ∀ d, ∀ p ∈ B.faces (d + 1), p.1 < B.cellsIn d ∧ p.2 < B.cellsIn (d + 1) := by
    intro d p hp
    by_cases hd : d + 1 ≤ B.dimension
    · rw [hfaces] at hp
      have := runs.range.bnd (d + 1) p hp
      have e : (B'.view.below (d + 1)).length = B.cellsIn d := hX' d (by omega)
      rw [e, hX' (d + 1) hd] at this
      exact this
    · unfold Complex.faces at hp
      rw [attr_none (habsent _ hd)] at hp
      simp at hp
  have hreads : l.Reads B := by
    refine ⟨F.coherent.len, ?_, ?_, hrowsx, ?_, ?_, hbnd, ?_, ?_, ?_⟩
    · have := hs2 top htop; omega
    · intro d hd
      rw [hcnt d hd]
      obtain ⟨i, hi⟩ := List.mem_iff_getElem?.mp htop
      have := before_lt_total hi ((h top htop).cells d (by omega))
      omega
    · rw [batch_attr_x hB (Nat.zero_le _), unionOf_some_of ⟨top, htop, (h top htop).nodes⟩]
      rfl
    · intro d k h1 hk
      obtain ⟨d, rfl⟩ : ∃ e, d = e + 1 := ⟨d - 1, by omega⟩
      have hd : d + 1 ≤ B.dimension := by
        by_contra hd
        unfold Complex.cellsIn at hk
        rw [habsent _ hd] at hk
        simp at hk
      rw [hcnt _ hd] at hk
      obtain ⟨i, c, j, hi, hj, rfl⟩ := exists_before _ cs k hk
      have hc : c ∈ cs := List.mem_of_getElem? hi
      have hi' : (cs.map l.embed)[i]? = some (l.embed c) := by rw [List.getElem?_map, hi]; rfl
      have iso := (batch_localIso hB' hrd' hi').bnd (d + 1) j (by
        simp only [View.upTo, if_pos (show d + 1 ≤ mB by omega)]
        rw [ready_X_length (hrd c hc), hcell c hc]
        exact hj)
      obtain ⟨p, hp, he⟩ := (h c hc).faces (d + 1) j h1 hj
      have hmem : (inBatch (cs.map l.embed) i d p.1, inBatch (cs.map l.embed) i (d + 1) p.2) ∈
          (B'.view.bnd (d + 1)).filter fun q => q.2 == inBatch (cs.map l.embed) i (d + 1) j := by
        rw [iso.mem_iff, List.mem_map]
        refine ⟨p, ?_, rfl⟩
        simp only [View.upTo, if_pos (show d + 1 ≤ mB by omega), List.mem_filter, beq_iff_eq, he, and_true]
        have : (l.embed c).view.bnd (d + 1) = c.faces (d + 1) := by
          show ((l.embed c).attr (d + 1) Cochain.boundaryIndex).getD [] = _
          rw [embed_attr _ (fun _ _ => rfl)]
          rfl
        rw [this]
        exact hp
      refine ⟨_, by rw [hfaces]; exact (List.mem_filter.mp hmem).1, ?_⟩
      simp only [inBatch, he, before_map]
      congr 1
      exact before_congr (fun c hc => hcell c hc (d + 1)) i
    · intro hs
      by_cases h1 : 1 ≤ B.dimension
      · rw [batch_attr_x hB h1] at hs
        unfold unionOf at hs
        split at hs
        · rename_i hex
          obtain ⟨c, hc, hx⟩ := hex
          exact (h c hc).edges hx
        · simp at hs
      · rw [attr_none (habsent _ h1)] at hs
        simp at hs
    · intro d c hc
      rcases forall₂_get? hRef.cells d with ⟨e1, e2⟩ | ⟨a, b, e1, e2, hab⟩
      · rw [e1] at hc; simp at hc
      · rw [e1] at hc
        cases hc
        have := runs.upBoth d b e2
        rw [hab.eq] at this
        exact this
    · intro d c hd hc s hs
      rcases forall₂_get? hRef.cells d with ⟨e1, e2⟩ | ⟨a, b, e1, e2, hab⟩
      · rw [e1] at hc; simp at hc
      · rw [e1] at hc
        cases hc
        obtain ⟨k, hk⟩ := List.mem_iff_getElem?.mp hs
        have hl := runs.upLen d b e2
        rw [hab.eq] at hl
        have hl : (c.sharedCoboundaries.getD []).length = (c.upperIndex.getD []).length := hl
        have hkl : k < (c.upperIndex.getD []).length := by
          rw [← hl]; exact (List.getElem?_eq_some_iff.mp hk).1
        have hup : B'.view.up d = (c.upperIndex.getD []).zip (c.sharedCoboundaries.getD []) := by
          have hlt : d + 1 < B'.cochains.length := by rw [runs.len]; omega
          simp only [Complex.view, List.getElem?_eq_getElem hlt, Option.isSome_some, if_true]
          rw [attr_of e2, attr_of e2, hab.eq]
        have hmem : ((c.upperIndex.getD [])[k], s) ∈ B'.view.up d := by
          rw [hup]
          apply List.mem_of_getElem? (i := k)
          rw [List.getElem?_zip_eq_some]
          exact ⟨List.getElem?_eq_getElem hkl, hk⟩
        have := (runs.range.up d _ hmem).2.2
        rw [hX' (d + 1) hd] at this
        exact this
  refine ⟨hreads, ?_⟩
  -- the rows
  have hvert : l.vertexRows B = cs.flatMap l.vertexRows := by
    unfold EmbedInit.vertexRows
    rw [batch_attr_x hB (Nat.zero_le _), unionOf_getD, flatMap_zipIdx_fst _ fun c : Complex R L =>
      (c.attr 0 Cochain.x).getD [], List.map_flatMap]
  have hbndc : ∀ (c : Complex R L) d, (l.embed c).view.bnd (d + 1) = c.faces (d + 1) := by
    intro c d
    show ((l.embed c).attr (d + 1) Cochain.boundaryIndex).getD [] = _
    rw [embed_attr _ (fun _ _ => rfl)]
    rfl
  have hedge : 1 ≤ B.dimension → l.edgeSums B = cs.flatMap l.edgeSums := by
    intro h1
    unfold EmbedInit.edgeSums
    have := reduce_blocks hred hB' hrd (d := 0) (by omega) (ρ := l.vertexRows) (by
      intro c hc
      rw [hcell c hc]
      exact EmbedInit.rows_length (h c hc) 0)
    rw [hcnt 1 h1, hfaces, hvert, ← hcnt' 1, this]
    rw [List.flatMap_def, List.flatMap_def]
    congr 1
    apply List.map_congr_left
    intro c hc
    rw [hcell c hc, hbndc]
  have hrows : ∀ d, d ≤ B.dimension → l.rows B d = cs.flatMap fun c => l.rows c d := by
    intro d hd
    have hsm := hreads.small
    match d with
    | 0 => exact hvert
    | 1 =>
      rcases hu 1 with hx | hx
      · obtain ⟨f, hf⟩ := Option.isSome_iff_exists.mp ((h top htop).edges (hx top htop (by omega)))
        have hattr : B.attr 1 Cochain.x = some (cs.flatMap fun c => (c.attr 1 Cochain.x).getD []) := by
          rw [batch_attr_x hB hd, unionOf_some_of ⟨top, htop, hx top htop (by omega)⟩,
            flatMap_zipIdx_fst _ fun c : Complex R L => (c.attr 1 Cochain.x).getD []]
        have : ∀ c ∈ cs, l.rows c 1 = ((c.attr 1 Cochain.x).getD []).map f := by
          intro c hc
          simp only [EmbedInit.rows, hf]
          cases hx1 : c.attr 1 Cochain.x with
          | some x => rfl
          | none =>
            have hc1 : c.cellsIn 1 = 0 := by
              have : ¬ 1 ≤ c.dimension := by
                intro h1
                have := hx c hc h1
                rw [hx1] at this
                simp at this
              unfold Complex.cellsIn
              rw [absent_of_gt (h c hc).valid (by omega)]
              rfl
            simp [EmbedInit.edgeSums, hc1]
        simp only [EmbedInit.rows, hattr, hf]
        rw [List.map_flatMap, List.flatMap_def, List.flatMap_def]
        congr 1
        apply List.map_congr_left
        intro c hc
        rw [← this c hc]
        simp only [EmbedInit.rows, hf]
      · have hattr : B.attr 1 Cochain.x = none := by
          rw [batch_attr_x hB hd, unionOf, if_neg]
          rintro ⟨c, hc, hs⟩
          rw [hx c hc] at hs
          simp at hs
        simp only [EmbedInit.rows, hattr]
        rw [hedge hd, List.flatMap_def, List.flatMap_def]
        congr 1
        apply List.map_congr_left
        intro c hc
        simp only [hx c hc]
    | 2 =>
      have := reduce_blocks hred hB' hrd (d := 1) (by omega) (ρ := l.edgeSums) (by
        intro c hc
        rw [hcell c hc]
        simp [EmbedInit.edgeSums])
      simp only [EmbedInit.rows]
      rw [hcnt 2 hd, hfaces, hedge (by omega), ← hcnt' 2, this, List.map_flatMap,
        List.flatMap_def, List.flatMap_def]
      congr 1
      apply List.map_congr_left
      intro c hc
      rw [hcell c hc, hbndc]
    | d + 3 => omega
  apply List.ext_getElem?
  intro d
  by_cases hd : d ≤ B.dimension
  · have hlt : d < B'.cochains.length := by rw [runs.len]; omega
    have hc := List.getElem?_eq_getElem hlt
    rw [List.getElem?_map, hc, List.getElem?_map, List.getElem?_range (by omega)]
    simp only [Option.map_some, Option.some.injEq]
    rw [(runs.X_eq hc).1, batch_X hB' hrd' (by omega), hrows d hd, List.flatMap_map]
    congr 1
    rw [List.flatMap_def, List.flatMap_def]
    congr 1
    apply List.map_congr_left
    intro c hc
    exact embed_X (h c hc) d
  · rw [List.getElem?_map, habsent' d hd, List.getElem?_map, List.getElem?_eq_none (by simp; omega)]
    rfl


/-! ### Renumbering -/

theorem faces_range {comp : Complex R L} (h : comp.Valid) {d : Nat} {p : Nat × Nat}
    (hp : p ∈ comp.faces (d + 1)) : p.1 < comp.cellsIn d ∧ p.2 < comp.cellsIn (d + 1) := by
  unfold Complex.faces at hp
  cases hc : comp.cochains[d + 1]? with
  | none => rw [attr_none hc] at hp; simp at hp
  | some c =>
    rw [attr_of hc] at hp
    exact (h.valid (d + 1) c hc).boundary p hp

/-- The reduction goes with the renaming. -/
theorem reduceAt_relabel {reduce : List R → R} (hred : ∀ a b : List R, a.Perm b → reduce a = reduce b)
    {rows rows' : List R} {bi bi' : List (Nat × Nat)} {φ ψ : Nat → Nat} {n m : Nat}
    (hb : bi'.Perm (bi.map fun p => (φ p.1, ψ p.2))) (hr : ∀ p ∈ bi, p.1 < m ∧ p.2 < n)
    (hinj : ∀ j k, j < n → k < n → ψ j = ψ k → j = k)
    (hrow : ∀ k, k < m → rows'[φ k]? = rows[k]?) {k : Nat} (hk : k < n) :
    reduceAt reduce rows' bi' (ψ k) = reduceAt reduce rows bi k := by
  unfold reduceAt
  rw [hred _ _ ((hb.filter _).map _), List.filter_map, List.map_map]
  have e : bi.filter ((fun p : Nat × Nat => p.2 == ψ k) ∘ fun p => (φ p.1, ψ p.2)) =
      bi.filter fun p => p.2 == k := by
    apply List.filter_congr
    intro p hp
    simp only [Function.comp]
    by_cases h : p.2 = k
    · simp [h]
    · have : ψ p.2 ≠ ψ k := fun he => h (hinj _ _ (hr p hp).2 hk he)
      simp [h, this]
  rw [e]
  congr 1
  apply List.map_congr_left
  intro p hp
  simp only [Function.comp, rowOf]
  rw [hrow _ (hr p (List.mem_filter.mp hp).1).1]

theorem RelabelsCells.image_lt {c c' : Complex R L} {φ : Nat → Nat → Nat} (h : RelabelsCells c c' φ)
    {l : EmbedInit R} (hc : l.Takes c) {d k : Nat} (hk : k < c.cellsIn d)
    (hx : (c.attr d Cochain.x).isSome) (hc' : c'.Valid) : φ d k < c'.cellsIn d := by
  obtain ⟨x, hx'⟩ := Option.isSome_iff_exists.mp hx
  obtain ⟨x', hx''⟩ := Option.isSome_iff_exists.mp ((h.some d).trans hx)
  have e := h.feat d k hk
  have h1 : c.view.X d = x := by show (c.attr d Cochain.x).getD [] = x; rw [hx']; rfl
  have h2 : c'.view.X d = x' := by show (c'.attr d Cochain.x).getD [] = x'; rw [hx'']; rfl
  have hkx : k < x.length := by rw [x_length hc.valid hx']; exact hk
  rw [h1, h2, List.getElem?_eq_getElem hkx] at e
  rw [← x_length hc' hx'']
  exact (List.getElem?_eq_some_iff.mp e).1

theorem RelabelsCells.lt_of_bnd {c c' : Complex R L} {φ : Nat → Nat → Nat} (h : RelabelsCells c c' φ)
    {l : EmbedInit R} (hc : l.Takes c) (hc' : l.Takes c') {d k : Nat} (hk : k < c.cellsIn d) :
    φ d k < c'.cellsIn d := by
  cases d with
  | zero => exact h.image_lt hc hk hc.nodes hc'.valid
  | succ d =>
    obtain ⟨p, hp, rfl⟩ := hc.faces (d + 1) k (by omega) hk
    have hmem : (φ d p.1, φ (d + 1) p.2) ∈ c'.faces (d + 1) := by
      have := (h.bnd (d + 1)).mem_iff (a := (φ d p.1, φ (d + 1) p.2))
      exact this.mpr (List.mem_map.mpr ⟨p, hp, rfl⟩)
    exact (faces_range hc'.valid hmem).2

/-- Embedding goes with renaming. -/
theorem RelabelsCells.embed {l : EmbedInit R} (hred : ∀ a b : List R, a.Perm b → l.reduce a = l.reduce b)
    {c c' : Complex R L} {φ : Nat → Nat → Nat} (h : RelabelsCells c c' φ) (hc : l.Takes c)
    (hc' : l.Takes c') : Relabels (l.embed c).view (l.embed c').view φ := by
  have hX : ∀ d, (l.embed c).view.X d = l.rows c d := embed_X hc.embeds
  have hX' : ∀ d, (l.embed c').view.X d = l.rows c' d := embed_X hc'.embeds
  have hlen := EmbedInit.rows_length hc.embeds
  have hlen' := EmbedInit.rows_length hc'.embeds
  have hup : ∀ (e : Complex R L) d, (l.embed e).view.up d = e.view.up d := by
    intro e d
    simp only [Complex.view, embed_attr d (get := Cochain.upperIndex) (fun _ _ => rfl),
      embed_attr d (get := Cochain.sharedCoboundaries) (fun _ _ => rfl), embed_get]
    cases e.cochains[d + 1]? <;> rfl
  have hdown : ∀ (e : Complex R L) d, (l.embed e).view.down d = e.view.down d := by
    intro e d
    cases d with
    | zero => rfl
    | succ d =>
      simp only [Complex.view, embed_attr (d + 1) (get := Cochain.lowerIndex) (fun _ _ => rfl),
        embed_attr (d + 1) (get := Cochain.sharedBoundaries) (fun _ _ => rfl)]
  have hbnd : ∀ (e : Complex R L) d, (l.embed e).view.bnd d = e.view.bnd d := by
    intro e d
    cases d with
    | zero => rfl
    | succ d =>
      simp only [Complex.view, embed_attr (d + 1) (get := Cochain.boundaryIndex) (fun _ _ => rfl)]
  have hlt : ∀ d k, k < c.cellsIn d → φ d k < c'.cellsIn d := fun d k hk => h.lt_of_bnd hc hc' hk
  have hvert : ∀ k, k < c.cellsIn 0 → (l.vertexRows c')[φ 0 k]? = (l.vertexRows c)[k]? := by
    intro k hk
    unfold EmbedInit.vertexRows
    rw [List.getElem?_map, List.getElem?_map]
    have := h.feat 0 k hk
    show Option.map _ (c'.view.X 0)[φ 0 k]? = Option.map _ (c.view.X 0)[k]?
    rw [this]
  have hedge : ∀ k, k < c.cellsIn 1 → (l.edgeSums c')[φ 1 k]? = (l.edgeSums c)[k]? := by
    intro k hk
    unfold EmbedInit.edgeSums
    rw [List.getElem?_map, List.getElem?_map, List.getElem?_range hk, List.getElem?_range (hlt 1 k hk)]
    simp only [Option.map_some, Option.some.injEq]
    exact reduceAt_relabel hred (h.bnd 1) (fun p hp => faces_range hc.valid hp) (h.inj 1) hvert hk
  refine ⟨?_, ?_, ?_, ?_, ?_, ?_⟩
  · intro d; rw [hX, hX', hlen, hlen', h.size]
  · intro d j k hj hk
    rw [hX, hlen] at hj hk
    exact h.inj d j k hj hk
  · intro d k hk
    rw [hX, hlen] at hk
    rw [hX, hX']
    match d with
    | 0 => exact hvert k hk
    | 1 =>
      cases hx : c.attr 1 Cochain.x with
      | none =>
        have hx' : c'.attr 1 Cochain.x = none := by
          have := h.some 1
          rw [hx] at this
          simpa using this
        simp only [EmbedInit.rows, hx, hx']
        exact hedge k hk
      | some x =>
        obtain ⟨x', hx'⟩ := Option.isSome_iff_exists.mp ((h.some 1).trans (by rw [hx]; rfl))
        obtain ⟨f, hf⟩ := Option.isSome_iff_exists.mp (hc.edges (by rw [hx]; rfl))
        simp only [EmbedInit.rows, hx, hx', hf]
        rw [List.getElem?_map, List.getElem?_map]
        have e := h.feat 1 k hk
        have h1 : c.view.X 1 = x := by show (c.attr 1 Cochain.x).getD [] = x; rw [hx]; rfl
        have h2 : c'.view.X 1 = x' := by show (c'.attr 1 Cochain.x).getD [] = x'; rw [hx']; rfl
        rw [h1, h2] at e
        rw [e]
    | d + 2 =>
      have hd : d = 0 := by
        by_contra hd
        have hs := hc.small
        unfold Complex.cellsIn at hk
        rw [absent_of_gt hc.valid (by omega)] at hk
        simp at hk
      subst hd
      simp only [EmbedInit.rows]
      rw [List.getElem?_map, List.getElem?_map, List.getElem?_map, List.getElem?_map,
        List.getElem?_range hk, List.getElem?_range (hlt 2 k hk)]
      simp only [Option.map_some, Option.some.injEq]
      exact congrArg l.half
        (reduceAt_relabel hred (h.bnd 2) (fun p hp => faces_range hc.valid hp) (h.inj 2) hedge hk)
  · intro d; rw [hup, hup]; exact h.up d
  · intro d; rw [hdown, hdown]; exact h.down d
  · intro d; rw [hbnd, hbnd]; exact h.bnd d

/-! ### Networks -/

variable [Field 𝕜] [Module 𝕜 R]

/-- An embedding network on batches cut off above the 2-cells. -/
theorem EmbedNet.forward_cut {Lv : Type} {level : Lv → MPParams R → Py (List R)}
    {rule : Lv → Rule R} {needs : Lv → Prop} (hreal : Realises level rule needs false)
    {net : EmbedNet R Lv} (hn : net.net.Fits)
    (hred : ∀ a b : List R, a.Perm b → net.init.reduce a = net.init.reduce b)
    {cs : List (Complex R L)} (hne : cs ≠ []) (h : ∀ c ∈ cs, net.init.Embeds c) (hu : UniformFeatures cs)
    {mB : Nat} (hs2 : ∀ c ∈ cs, min c.dimension mB ≤ 2) (hm : ∀ c ∈ cs, min c.dimension mB ≤ net.net.maxDim) :
    (fromComplexList cs mB >>= net.forward 𝕜 level) = .ok (cs.map (net.predict 𝕜 rule mB)) := by
  obtain ⟨B, B', hB, hB', hRef, hreads, hrows⟩ := embed_batch hred hne h hu mB hs2
  have hrd : ∀ c ∈ cs.map net.init.embed, c.Ready := by
    intro c hc
    obtain ⟨e, he, rfl⟩ := List.mem_map.mp hc
    exact EmbedInit.embed_ready (h e he)
  have runs := batch_runs hB' hrd
  have hdim : B.dimension ≤ net.net.maxDim := by
    obtain ⟨h1, c, hc, h2⟩ := batch_dim_le hB
    have := hm c hc
    omega
  obtain ⟨ps, hps, hfw⟩ := hreads.forward hdim
  have hnodes : checkNodes B = .ok () := by
    unfold checkNodes
    obtain ⟨c, hc⟩ := hreads.get (Nat.zero_le _)
    have := hreads.nodes
    rw [attr_of hc] at this
    obtain ⟨x, hx⟩ := Option.isSome_iff_exists.mp this
    rw [hc]
    simp only [hx]
  have hset : B.setXs (((List.range (B.dimension + 1)).map (net.init.rows B)).map some) = .ok B' := by
    rw [List.map_map]
    have := hRef.setXs runs.len (by
      intro a ha
      obtain ⟨d, hd⟩ := List.mem_iff_getElem?.mp ha
      exact runs.feat d a hd)
    rw [hrows] at this
    exact this
  rw [hB, ok_bind]
  unfold EmbedNet.forward
  rw [hnodes, ok_bind, hps, ok_bind, hfw, ok_bind, hset, ok_bind]
  have := SparseNet.forward_all (𝕜 := 𝕜) hreal hn (cs := cs.map net.init.embed) (by simpa using hne) hrd (by
    intro c hc
    obtain ⟨e, he, rfl⟩ := List.mem_map.mp hc
    rw [(EmbedInit.embed_refeatured (h e he)).cellsIn]
    exact (h e he).cells 0 (Nat.zero_le _)) mB
  rw [hB', ok_bind] at this
  rw [this, List.map_map]
  rfl

theorem EmbedNet.forward_all {Lv : Type} {level : Lv → MPParams R → Py (List R)}
    {rule : Lv → Rule R} {needs : Lv → Prop} (hreal : Realises level rule needs false)
    {net : EmbedNet R Lv} (hn : net.net.Fits)
    (hred : ∀ a b : List R, a.Perm b → net.init.reduce a = net.init.reduce b)
    {cs : List (Complex R L)} (hne : cs ≠ []) (h : ∀ c ∈ cs, net.init.Takes c) (hu : UniformFeatures cs)
    {mB : Nat} (hm : ∀ c ∈ cs, min c.dimension mB ≤ net.net.maxDim) :
    (fromComplexList cs mB >>= net.forward 𝕜 level) = .ok (cs.map (net.predict 𝕜 rule mB)) :=
  EmbedNet.forward_cut hreal hn hred hne (fun c hc => (h c hc).embeds) hu
    (fun c hc => (Nat.min_le_left _ _).trans (h c hc).small) hm

theorem EmbedNet.predict_relabel {Lv : Type} {rule : Lv → Rule R} {net : EmbedNet R Lv}
    (hred : ∀ a b : List R, a.Perm b → net.init.reduce a = net.init.reduce b)
    {c c' : Complex R L} {φ : Nat → Nat → Nat} (h : RelabelsCells c c' φ) (hc : net.init.Takes c)
    (hc' : net.init.Takes c') (mB : Nat) : net.predict 𝕜 rule mB c' = net.predict 𝕜 rule mB c := by
  unfold EmbedNet.predict
  exact net.net.predict_relabel ((h.embed hred hc hc').upTo mB)
    (upTo_inRange (ready_inRange (EmbedInit.embed_ready hc.embeds)) mB)

end

end Verif
