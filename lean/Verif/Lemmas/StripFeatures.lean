import Verif.Lemmas.PartialNet

/-!
# Batches whose features are taken away
-/

namespace Verif

section
variable {R L : Type}

/-- A complex without the features of its edges and 2-cells. -/
def stripOne (comp : Complex R L) : Complex R L :=
  { comp with cochains := comp.cochains.mapIdx fun d (c : Cochain R L) => if d = 1 ∨ d = 2 then { c with x := none } else c }

theorem strip_get (c : Complex R L) (d : Nat) :
    (stripOne c).cochains[d]? = (c.cochains[d]?).map fun k => if d = 1 ∨ d = 2 then { k with x := none } else k := by
  unfold stripOne
  simp

theorem strip_attr {A : Type} (c : Complex R L) (d : Nat) (get : Cochain R L → Option A)
    (hg : ∀ k : Cochain R L, get { k with x := none } = get k) : (stripOne c).attr d get = c.attr d get := by
  unfold Complex.attr
  rw [strip_get]
  cases c.cochains[d]? with
  | none => rfl
  | some k =>
    show get (if d = 1 ∨ d = 2 then { k with x := none } else k) = get k
    split_ifs
    · exact hg k
    · rfl

theorem strip_x (c : Complex R L) (d : Nat) :
    (stripOne c).attr d Cochain.x = if d = 1 ∨ d = 2 then none else c.attr d Cochain.x := by
  unfold Complex.attr
  rw [strip_get]
  cases c.cochains[d]? with
  | none => simp
  | some k =>
    show (if d = 1 ∨ d = 2 then { k with x := none } else k : Cochain R L).x = _
    split_ifs <;> rfl

/-- Without features the cells are counted by their boundaries. -/
theorem count_by_faces {c : Complex R L} (hv : c.Valid) {d : Nat} {k : Cochain R L} (hk : c.cochains[d]? = some k)
    (hpos : 0 < c.cellsIn d) (hf : ∀ j, j < c.cellsIn d → ∃ p ∈ c.faces d, p.2 = j) :
    ({ k with x := none } : Cochain R L).numCells = k.numCells := by
  rw [count_of_valid hv hk]
  have hn := count_of_valid hv hk
  unfold Cochain.numCells at hn ⊢
  dsimp only
  cases ha : k.numCellsAttr with
  | some n => rw [ha] at hn; exact hn
  | none =>
    dsimp only
    have hfk : c.faces d = k.boundaryIndex.getD [] := by
      unfold Complex.faces
      rw [attr_of hk]
    cases hb : k.boundaryIndex with
    | none =>
      obtain ⟨p, hp, -⟩ := hf 0 hpos
      rw [hfk, hb] at hp
      simp at hp
    | some b =>
      dsimp only
      rw [hfk, hb] at hf
      have hr := (hv.valid d k hk).boundary
      rw [hb] at hr
      have hmax : (b.map Prod.snd).max? = some (c.cellsIn d - 1) := by
        rw [List.max?_eq_some_iff]
        refine ⟨?_, fun j hj => ?_⟩
        · obtain ⟨p, hp, e⟩ := hf (c.cellsIn d - 1) (by omega)
          rw [← e]
          exact List.mem_map_of_mem hp
        · obtain ⟨p, hp, rfl⟩ := List.mem_map.mp hj
          have := (hr p hp).2
          omega
      unfold Cochain.maxPlusOne
      rw [hmax]
      show Except.ok (some (c.cellsIn d - 1 + 1)) = _
      rw [show c.cellsIn d - 1 + 1 = c.cellsIn d by omega]

theorem Refeatured.valid {c c' : Complex R L} (h : Refeatured c c') (hv : c.Valid)
    (hx : ∀ d x, c'.attr d Cochain.x = some x → x.length = c.cellsIn d) : c'.Valid := by
  have hget : ∀ (d : Nat) (b : Cochain R L), c'.cochains[d]? = some b →
      ∃ a, c.cochains[d]? = some a ∧ b = { a with x := b.x } ∧ b.numCells = a.numCells := by
    intro d b hb
    rcases forall₂_get? h.cells d with ⟨e1, e2⟩ | ⟨a, b', e1, e2, hab⟩
    · rw [e2] at hb; cases hb
    · rw [e2] at hb
      cases hb
      exact ⟨a, e1, hab.eq, hab.count⟩
  have hcell := h.cellsIn
  have hbelow : ∀ d, c'.cellsBelow d = c.cellsBelow d := by
    intro d
    cases d with
    | zero => rfl
    | succ d => exact hcell d
  refine ⟨⟨?_, ?_, ?_, ?_⟩, ?_, ?_, ?_⟩
  · rw [← h.cells.length_eq, hv.len, h.dim]
  · intro d b hb
    obtain ⟨a, h0, e, -⟩ := hget d b hb
    rw [e]
    exact hv.dim d a h0
  · intro d b b' hb hb'
    obtain ⟨a, h0, e, -⟩ := hget d b hb
    obtain ⟨a', h1, -, e1⟩ := hget (d + 1) b' hb'
    rw [e1, e]
    exact hv.up d a a' h0 h1
  · intro d b b' hb hb'
    obtain ⟨a, h0, -, e0⟩ := hget d b hb
    obtain ⟨a', h1, e, -⟩ := hget (d + 1) b' hb'
    rw [e0, e]
    exact hv.down d a a' h0 h1
  · intro b hb
    obtain ⟨d, hd⟩ := List.mem_iff_getElem?.mp hb
    obtain ⟨a, h0, -, e0⟩ := hget d b hd
    rw [e0]
    exact hv.known a (List.mem_of_getElem? h0)
  · intro b hb
    rw [h.dim] at hb
    obtain ⟨a, h0, e, -⟩ := hget _ b hb
    rw [e]
    exact hv.top a h0
  · intro d b hb
    rw [hcell, hcell, hbelow]
    obtain ⟨a, h0, e, -⟩ := hget d b hb
    have v := hv.valid d a h0
    have hrow : ∀ x, b.x = some x → x.length = c.cellsIn d := fun x hx' => hx d x (by rw [attr_of hb]; exact hx')
    rw [e]
    exact ⟨v.plain, fun x hx' => hrow x hx', v.upper, v.upperShared,
      v.upperBoth, v.shared, v.lower, v.lowerShared, v.lowerBoth, v.sharedDown, v.boundary⟩

end

section
variable {R L : Type} [AddCommMonoid R]

/-- The initial layer can embed what is left of a cell complex. -/
theorem Complex.Sound.faces_of {comp : Complex R L} (h : comp.Sound) (d c : Nat) (h1 : 1 ≤ d) (hc : c < comp.cellsIn d) :
    ∃ p ∈ comp.faces d, p.2 = c := by
  obtain ⟨e, rfl⟩ : ∃ e, d = e + 1 := ⟨d - 1, by omega⟩
  obtain ⟨b, hb⟩ := h.covered e c hc
  exact ⟨(b, c), hb, rfl⟩

theorem strip_refeatured {c : Complex R L} (h : c.Sound) : Refeatured c (stripOne c) := by
  refine ⟨rfl, ?_⟩
  unfold stripOne
  rw [List.forall₂_iff_get]
  refine ⟨by simp, fun d h1 h2 => ?_⟩
  simp only [List.get_eq_getElem, List.getElem_mapIdx]
  split_ifs with hd
  · refine ⟨rfl, ?_⟩
    have hle : d ≤ c.dimension := by have := h.ready.valid.len; omega
    exact count_by_faces h.ready.valid (List.getElem?_eq_getElem h1) (h.full d hle)
      fun j hj => h.faces_of d j (by omega) hj
  · exact .refl _

theorem strip_valid {c : Complex R L} (h : c.Sound) : (stripOne c).Valid := by
  refine (strip_refeatured h).valid h.ready.valid fun d x hx => ?_
  rw [strip_x] at hx
  split_ifs at hx
  exact x_length h.ready.valid hx

theorem strip_embeds {c : Complex R L} (h : c.Sound) (l : EmbedInit R) : l.Embeds (stripOne c) where
  valid := strip_valid h
  cells d hd := by rw [(strip_refeatured h).cellsIn]; exact h.full d hd
  nodes := by
    rw [strip_x, if_neg (by omega)]
    obtain ⟨k, hk⟩ : ∃ k, c.cochains[0]? = some k :=
      ⟨_, List.getElem?_eq_getElem (by have := h.ready.valid.len; omega)⟩
    rw [attr_of hk]
    exact h.ready.featured k (List.mem_of_getElem? hk)
  vertices := by rw [strip_attr _ _ _ fun k => rfl]; exact h.ready.vertices
  faces d k h1 hk := by
    unfold Complex.faces
    rw [strip_attr _ _ _ fun k => rfl]
    rw [(strip_refeatured h).cellsIn] at hk
    exact h.faces_of d k h1 hk
  edges hx := by rw [strip_x, if_pos (by omega)] at hx; cases hx

theorem strip_uniform {cs : List (Complex R L)} (h : ∀ c ∈ cs, c.Sound) : UniformFeatures (cs.map stripOne) := by
  intro d
  by_cases hd : d = 1 ∨ d = 2
  · refine .inr fun c hc => ?_
    obtain ⟨k, -, rfl⟩ := List.mem_map.mp hc
    rw [strip_x, if_pos hd]
  · refine .inl fun c hc hle => ?_
    obtain ⟨k, hk, rfl⟩ := List.mem_map.mp hc
    rw [strip_x, if_neg hd]
    have hs := h k hk
    have hle : d ≤ k.dimension := hle
    obtain ⟨a, ha⟩ : ∃ a, k.cochains[d]? = some a :=
      ⟨_, List.getElem?_eq_getElem (by have := hs.ready.valid.len; omega)⟩
    rw [attr_of ha]
    exact hs.ready.featured a (List.mem_of_getElem? ha)

theorem sound_embeds {c : Complex R L} (h : c.Sound) {l : EmbedInit R} (he : l.eEmbed.isSome) : l.Embeds c where
  valid := h.ready.valid
  cells := h.full
  nodes := by
    obtain ⟨k, hk⟩ : ∃ k, c.cochains[0]? = some k :=
      ⟨_, List.getElem?_eq_getElem (by have := h.ready.valid.len; omega)⟩
    rw [attr_of hk]
    exact h.ready.featured k (List.mem_of_getElem? hk)
  vertices := h.ready.vertices
  faces := h.faces_of
  edges _ := he

/-- Taking the features from a batch is batching the complexes without them. -/
theorem strip_batch {cs : List (Complex R L)} (hne : cs ≠ []) (h : ∀ c ∈ cs, c.Sound) {mB : Nat} (hm : mB ≤ 2) :
    ∃ B, fromComplexList cs mB = .ok B ∧ fromComplexList (cs.map stripOne) mB = .ok (stripFeatures B) := by
  obtain ⟨l, hl⟩ : ∃ l : EmbedInit R, l.eEmbed.isSome := ⟨⟨id, some id, fun _ => 0, id⟩, rfl⟩
  have hu : UniformFeatures cs := by
    intro d
    refine .inl fun c hc hle => ?_
    have hs := h c hc
    obtain ⟨a, ha⟩ : ∃ a, c.cochains[d]? = some a :=
      ⟨_, List.getElem?_eq_getElem (by have := hs.ready.valid.len; omega)⟩
    rw [attr_of ha]
    exact hs.ready.featured a (List.mem_of_getElem? ha)
  have hsum : ∀ d, ((cs.map stripOne).map (Complex.cellsIn d)).sum = (cs.map (Complex.cellsIn d)).sum := by
    intro d
    rw [List.map_map]
    congr 1
    exact List.map_congr_left fun c hc => (strip_refeatured (h c hc)).cellsIn d
  obtain ⟨B, B', hB, hB', hRef⟩ := batch_refeatured_counts (maxDim := mB) hne (f := stripOne)
    (fun c hc => strip_refeatured (h c hc)) (fun c hc => (h c hc).ready.valid) (fun c hc => strip_valid (h c hc))
    (fun d b hd hb => batch_count_uniform (fun c hc => sound_embeds (h c hc) hl) hu hd hb)
    (fun d b hd hb => by
      rw [← hsum]
      refine batch_count_uniform (l := l) (fun c hc => ?_) (strip_uniform h) ?_ hb
      · obtain ⟨k, hk, rfl⟩ := List.mem_map.mp hc
        exact strip_embeds (h k hk) l
      · obtain ⟨c, hc, hle⟩ := hd
        exact ⟨stripOne c, List.mem_map_of_mem hc, hle⟩)
  refine ⟨B, hB, ?_⟩
  rw [hB', ok_inj, hRef.eq]
  unfold stripFeatures
  have hlen := (fromComplexList_inv hB).coherent.len
  have hle := (batch_dim_le hB).1
  congr 1
  apply List.ext_getElem?
  intro d
  rw [List.getElem?_mapIdx]
  rcases forall₂_get? hRef.cells d with ⟨e1, e2⟩ | ⟨a, b, e1, e2, hab⟩
  · rw [e1, e2]; rfl
  · rw [e1, e2, Option.map_some, Option.some.injEq]
    have hd : d ≤ B.dimension := by have := lt_of_get e1; omega
    have hx : b.x = if d = 1 ∨ d = 2 then none else a.x := by
      have x1 := batch_attr_x hB hd
      have x2 := batch_attr_x hB' (d := d) (by rw [hRef.dim]; exact hd)
      rw [attr_of e1] at x1
      rw [attr_of e2, unionOf_map] at x2
      rw [x1, x2]
      split_ifs with h12
      · unfold unionOf
        rw [if_neg]
        rintro ⟨c, hc, hs⟩
        change ((stripOne c).attr d Cochain.x).isSome = true at hs
        rw [strip_x, if_pos h12] at hs
        cases hs
      · refine unionOf_congr (fun c _ => ?_) fun _ _ => rfl
        rw [strip_x, if_neg h12]
    rw [hab.eq, hx]
    by_cases h1 : d = 1
    · rw [if_pos (.inl h1), if_pos (.inl h1)]
    · by_cases h2 : d = 2
      · rw [if_pos (.inr h2), if_pos (.inr ⟨h2, by have := lt_of_get e1; omega⟩)]
      · rw [if_neg (by omega), if_neg (by omega)]

end

section
variable {𝕜 R L : Type} [Field 𝕜] [AddCommMonoid R] [Module 𝕜 R]

theorem Blocks.through {C D : Type} {f : List C → Py (List R × Results (List R))} {g : List D → Py (List R × Results (List R))}
    {e : C → D} {cs : List C} {pred : D → R} {has : ResultKey → D → Prop} {rows : ResultKey → D → List R}
    (h : Blocks g (cs.map e) pred has rows)
    (hfg : ∀ ds : List C, ds ≠ [] → (∀ d ∈ ds, d ∈ cs) → f ds = g (ds.map e)) :
    Blocks f cs (fun c => pred (e c)) (fun key c => has key (e c)) (fun key c => rows key (e c)) := by
  refine ⟨fun key c hc hk => h.empty key (e c) (List.mem_map_of_mem hc) hk, fun ds hne hs => ?_⟩
  obtain ⟨res, h1, h2, h3⟩ := h.run (ds.map e) (by simpa using hne) (by
    intro d hd
    obtain ⟨c, hc, rfl⟩ := List.mem_map.mp hd
    exact List.mem_map_of_mem (hs c hc))
  refine ⟨res, by rw [hfg ds hne hs, h1, List.map_map]; rfl, h2, fun key => ⟨?_, ?_⟩⟩
  · rintro ⟨c, hc, hk⟩
    rw [(h3 key).1 ⟨e c, List.mem_map_of_mem hc, hk⟩, List.flatMap_map]
  · intro hk
    refine (h3 key).2 fun d hd => ?_
    obtain ⟨c, hc, rfl⟩ := List.mem_map.mp hd
    exact hk c hc

/-- The initial layer makes of a batch the batch of the embedded complexes. -/
theorem EmbedNet.stage {Lv : Type} {net : EmbedNet R Lv}
    (hred : ∀ a b : List R, a.Perm b → net.init.reduce a = net.init.reduce b)
    {cs : List (Complex R L)} (hne : cs ≠ []) (h : ∀ c ∈ cs, net.init.Embeds c) (hu : UniformFeatures cs)
    {mB : Nat} (hs2 : ∀ c ∈ cs, min c.dimension mB ≤ 2) (hm : ∀ c ∈ cs, min c.dimension mB ≤ net.net.maxDim)
    (level : Lv → MPParams R → Py (List R)) :
    (fromComplexList cs mB >>= net.forwardPartial 𝕜 level) =
      (fromComplexList (cs.map net.init.embed) mB >>= net.net.forwardPartial 𝕜 level) := by
  obtain ⟨B, B', hB, hB', hRef, hreads, hrows⟩ := embed_batch hred hne h hu mB hs2
  have hrd : ∀ c ∈ cs.map net.init.embed, c.Ready := by
    intro c hc
    obtain ⟨e, he, rfl⟩ := List.mem_map.mp hc
    exact EmbedInit.embed_ready (h e he)
  have runs := batch_runs hB' hrd
  have hdim : B.dimension ≤ net.net.maxDim := by
    obtain ⟨h1, c, hc, h2⟩ := batch_dim_le hB
    have := hm c hc
    omega
  obtain ⟨ps, hps, hfw⟩ := hreads.forward hdim
  have hnodes : checkNodes B = .ok () := by
    unfold checkNodes
    obtain ⟨c, hc⟩ := hreads.get (Nat.zero_le _)
    have := hreads.nodes
    rw [attr_of hc] at this
    obtain ⟨x, hx⟩ := Option.isSome_iff_exists.mp this
    rw [hc]
    simp only [hx]
  have hset : B.setXs (((List.range (B.dimension + 1)).map (net.init.rows B)).map some) = .ok B' := by
    rw [List.map_map]
    have := hRef.setXs runs.len (by
      intro a ha
      obtain ⟨d, hd⟩ := List.mem_iff_getElem?.mp ha
      exact runs.feat d a hd)
    rw [hrows] at this
    exact this
  rw [hB, ok_bind, hB', ok_bind]
  unfold EmbedNet.forwardPartial
  rw [hnodes, ok_bind, hps, ok_bind, hfw, ok_bind, hset, ok_bind]

/-- The intermediate results of an embedding network on a batch. -/
theorem EmbedNet.partial_blocks {Lv : Type} {level : Lv → MPParams R → Py (List R)}
    {rule : Lv → Rule R} {needs : Lv → Prop} (hreal : Realises level rule needs false)
    {net : EmbedNet R Lv} (hn : net.net.Fits)
    (hred : ∀ a b : List R, a.Perm b → net.init.reduce a = net.init.reduce b)
    {cs : List (Complex R L)} (h : ∀ c ∈ cs, net.init.Embeds c) (hu : UniformFeatures cs)
    {mB : Nat} (hs2 : ∀ c ∈ cs, min c.dimension mB ≤ 2) (hm : ∀ c ∈ cs, min c.dimension mB ≤ net.net.maxDim) :
    Blocks (fun ds => fromComplexList ds mB >>= net.forwardPartial 𝕜 level) cs (net.predict 𝕜 rule mB)
      (fun key c => net.net.HasKey mB key (net.init.embed c)) (fun key c => net.net.rowsAt rule mB 𝕜 key (net.init.embed c)) := by
  have hrd : ∀ c ∈ cs.map net.init.embed, c.Ready := by
    intro c hc
    obtain ⟨e, he, rfl⟩ := List.mem_map.mp hc
    exact EmbedInit.embed_ready (h e he)
  refine (SparseNet.partial_blocks (𝕜 := 𝕜) hreal hn hrd (by
    intro c hc
    obtain ⟨e, he, rfl⟩ := List.mem_map.mp hc
    rw [(EmbedInit.embed_refeatured (h e he)).cellsIn]
    exact (h e he).cells 0 (Nat.zero_le _)) mB).through fun ds hne hs => ?_
  exact EmbedNet.stage hred hne (fun c hc => h c (hs c hc)) (fun d => (hu d).imp (fun h c hc => h c (hs c hc)) fun h c hc => h c (hs c hc)) (fun c hc => hs2 c (hs c hc))
    (fun c hc => hm c (hs c hc)) level

end

end Verif
