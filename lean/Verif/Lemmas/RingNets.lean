import Verif.Spec.RingNets
import Verif.Lemmas.Predict
import Verif.Lemmas.GraphNets

/-!
# The networks of the ring experiments on batches
-/

namespace Verif

variable {𝕜 R L : Type}

theorem picked_eq (rows : List R) (mask : List Bool) :
    ((rows.zip mask).filter Prod.snd).map Prod.fst = picked rows mask := by
  unfold picked
  generalize rows.zip mask = l
  induction l with
  | nil => rfl
  | cons a l ih =>
    rw [List.filter_cons, List.filterMap_cons]
    cases h : a.2 <;> simp [ih]

theorem maskRows_ok {rows : List R} {mask : List Bool} (h : mask.length = rows.length) :
    maskRows rows (some mask) = .ok (picked rows mask) := by
  simp only [maskRows, if_pos h, picked_eq]

theorem picked_length {rows : List R} {mask : List Bool} (h : mask.length = rows.length) :
    (picked rows mask).length = mask.count true := by
  unfold picked
  induction rows generalizing mask with
  | nil =>
    rw [List.eq_nil_of_length_eq_zero h]
    rfl
  | cons a rows ih =>
    cases mask with
    | nil => simp at h
    | cons b mask =>
      have := ih (mask := mask) (by simpa using h)
      cases b <;> simp [List.filterMap_cons, this]

theorem picked_append {a b : List R} {s t : List Bool} (h : s.length = a.length) :
    picked (a ++ b) (s ++ t) = picked a s ++ picked b t := by
  unfold picked
  rw [List.zip_append h.symm, List.filterMap_append]

theorem picked_flatMap {C : Type} {cs : List C} {f : C → List R} {g : C → List Bool}
    (h : ∀ c ∈ cs, (g c).length = (f c).length) :
    picked (cs.flatMap f) (cs.flatMap g) = cs.flatMap fun c => picked (f c) (g c) := by
  induction cs with
  | nil => rfl
  | cons c cs ih =>
    rw [List.flatMap_cons, List.flatMap_cons, List.flatMap_cons, picked_append (h c (by simp)),
      ih (fun c hc => h c (by simp [hc]))]

section
variable [AddCommMonoid R]

theorem init_layer (f : R → R) (v : View R) (m : Nat) (top : Bool) (d : Nat) :
    (v.layer (initRules f) m top).X d = if d = 0 then (v.X 0).map f else v.X d := by
  by_cases hd : d ≤ m
  · simp only [View.layer, if_pos hd, View.newRow, initRules]
    by_cases h0 : d = 0
    · subst h0
      simp only [if_true]
      apply List.ext_getElem (by simp)
      intro i h1 h2
      have hi : i < (v.X 0).length := by simpa using h2
      simp [View.newRow, rowOf, List.getElem?_eq_getElem hi]
    · simp only [if_neg h0]
      apply List.ext_getElem (by simp)
      intro i h1 h2
      simp [View.newRow, rowOf, List.getElem?_eq_getElem h2]
  · have h0 : d ≠ 0 := by omega
    simp only [View.layer, if_neg hd, if_neg h0]

/-- The initial layer of a RingSparseCIN. -/
theorem setNodes_ok (f : R → R) {comp : Complex R L} (h : comp.Runs) (m : Nat) (top : Bool) :
    setNodes f comp = .ok (comp.withX (comp.view.layer (initRules f) m top).X) := by
  have hlen := h.len
  unfold setNodes
  match hcs : comp.cochains with
  | [] => rw [hcs] at hlen; simp at hlen
  | c :: cs =>
    have hc : comp.cochains[0]? = some c := by rw [hcs]; rfl
    have hx := h.X_eq hc
    dsimp only
    rw [hx.1]
    simp only [Cochain.setX, hx.2, ok_bind, List.length_map, beq_self_eq_true, pyAssert_true, pure_eq_ok, ok_inj]
    unfold Complex.withX
    congr 1
    apply List.ext_getElem?
    intro d
    rw [List.getElem?_mapIdx]
    cases d with
    | zero => rw [hcs]; simp [init_layer]
    | succ d =>
      rw [List.getElem?_cons_succ, ← show comp.cochains[d + 1]? = cs[d]? by rw [hcs]; rfl, init_layer, if_neg (by simp)]
      cases hd : comp.cochains[d + 1]? with
      | none => rfl
      | some c' =>
        rw [Option.map_some, ← (h.X_eq hd).1]

/-- Layers change nothing but features. -/
theorem runConvs_attr {A Lv : Type} {forward : Lv → MPParams R → Py (List R)} {rule : Lv → Rule R}
    {needs : Lv → Prop} {top down : Bool} (hr : Realises forward rule needs down) {m : Nat}
    {convs : List (List Lv)} (hl : ∀ conv ∈ convs, FitLevels needs m top conv) {comp : Complex R L}
    (h : comp.Runs) (get : Cochain R L → Option A)
    (hg : ∀ (c : Cochain R L) x, get { c with x := x } = get c) (d : Nat) {out : Complex R L × List (List (List R))}
    (ho : runConvs (fun data => data.getAllCochainParams m top down) (convForward forward) comp convs = .ok out) :
    out.1.attr d get = comp.attr d get := by
  induction convs generalizing comp out with
  | nil =>
    simp only [runConvs, ok_inj] at ho
    rw [← ho]
  | cons conv convs ih =>
    have hc := h.conv hr (hl conv (by simp))
    obtain ⟨ps, hps, hc⟩ := bind_eq_ok.mp hc
    have hw := h.withX (rulesOf rule conv) m top
    unfold runConvs at ho
    rw [hps, ok_bind, hc, ok_bind, h.write (rulesOf rule conv) m top, ok_bind] at ho
    obtain ⟨rest, hrest, ho⟩ := bind_eq_ok.mp ho
    simp only [pure_eq_ok, ok_inj] at ho
    rw [← ho]
    dsimp only
    rw [ih (fun c hc => hl c (by simp [hc])) hw.1 hrest, withX_attr _ _ _ _ hg]

/-- The vertices carry a mask. -/
def Complex.maskOf (comp : Complex R L) : List Bool := (comp.attr 0 Cochain.mask).getD []

theorem batch_mask {cs : List (Complex R L)} {m : Nat} {B : Complex R L} (h : fromComplexList cs m = .ok B)
    (hne : cs ≠ []) (hm : ∀ c ∈ cs, (c.attr 0 Cochain.mask).isSome) :
    B.attr 0 Cochain.mask = some (cs.flatMap Complex.maskOf) := by
  have hlt : 0 < B.cochains.length := by rw [(fromComplexList_inv h).coherent.len]; omega
  have hb := List.getElem?_eq_getElem hlt
  generalize B.cochains[0] = b at hb
  rw [attr_of hb]
  obtain ⟨b0, u, l, h0, rfl⟩ := (fromComplexList_inv h).cochain 0 b hb
  show b0.mask = _
  have hat : ∀ c ∈ cs, (orEmpty 0 c).mask = some c.maskOf := by
    intro c hc
    obtain ⟨mk, hmk⟩ := Option.isSome_iff_exists.mp (hm c hc)
    unfold Complex.maskOf
    rw [hmk]
    cases hc0 : c.cochains[0]? with
    | none => rw [attr_none hc0] at hmk; simp at hmk
    | some c0 =>
      rw [orEmpty_of_some hc0]
      rw [attr_of hc0] at hmk
      rw [hmk]; rfl
  obtain ⟨c0, hc0⟩ := List.exists_mem_of_ne_nil _ hne
  rw [(fromCochainList_inv h0).mask, unionOf_some_of ⟨orEmpty 0 c0, List.mem_map_of_mem hc0, by rw [hat c0 hc0]; rfl⟩]
  congr 1
  have hz : ∀ {A : Type} (l : List A) (f : A → List Bool), (l.zipIdx.flatMap fun ci => f ci.1) = l.flatMap f := by
    intro A l f
    have : (l.zipIdx.map Prod.fst).flatMap f = l.flatMap f := by rw [List.zipIdx_map_fst]
    rw [← this, List.flatMap_map]
  simp only [List.map_id']
  rw [hz (cs.map (orEmpty 0)) (fun c => c.mask.getD []), List.flatMap_map]
  apply List.flatMap_congr
  intro c hc
  rw [hat c hc]; rfl

/-- Without jumping knowledge the final rows are those of the last view. -/
theorem final_last {v w : View R} {vs : List (View R)} {d : Nat} (hw : vs.getLast? = some w)
    (hX : ∀ w ∈ vs, (w.X d).length = (v.X d).length) : v.final none vs d = w.X d := by
  have hmem : w ∈ vs := List.mem_of_getLast? hw
  apply List.ext_getElem (by rw [final_length, hX w hmem])
  intro i h1 h2
  simp [View.final, finalRow, hw, rowOf, List.getElem?_eq_getElem h2]

/-- RingSparseCIN on a batch. -/
theorem RingNet.forward_batch {Lv : Type} {level : Lv → MPParams R → Py (List R)}
    {rule : Lv → Rule R} {needs : Lv → Prop} (hreal : Realises level rule needs false)
    {net : RingNet R Lv} (hn : net.Fits) {cs : List (Complex R L)} (hne : cs ≠ []) {B : Complex R L} {mB : Nat}
    (hB : fromComplexList cs mB = .ok B) (hr : ∀ c ∈ cs, c.Ready)
    (hm : ∀ c ∈ cs, ∃ mask, c.attr 0 Cochain.mask = some mask ∧ mask.length = c.cellsIn 0) :
    net.forward level B = .ok (cs.flatMap fun c => net.predict rule (c.view.upTo mB) c.maskOf) := by
  have hruns := batch_runs hB hr
  have hw := hruns.withX (initRules net.initLayer) net.maxDim true
  have hfit : ∀ conv ∈ net.convs, FitLevels needs net.maxDim true conv :=
    fun conv hc => ⟨hn.levels conv hc, fun _ _ _ _ => by simp⟩
  obtain ⟨data, h1, -, h3, -⟩ := runConvs_ok (top := true) hreal (m := net.maxDim) (convs := net.convs) hfit hw.1
  have hattr := runConvs_attr hreal hfit hw.1 Cochain.mask (fun _ _ => rfl) 0 h1
  rw [withX_attr _ _ _ _ (fun _ _ => rfl), batch_mask hB hne (by
    intro c hc
    obtain ⟨mk, h, -⟩ := hm c hc
    rw [h]; rfl)] at hattr
  dsimp only at hattr
  unfold RingNet.forward
  rw [setNodes_ok net.initLayer hruns net.maxDim true, ok_bind, h1, ok_bind, hw.2]
  have hrne : (B.view.layer (initRules net.initLayer) net.maxDim true).run net.maxDim true (net.convs.map (rulesOf rule)) ≠ [] :=
    run_ne (by simpa using hn.layers) _ _
  have hfin := batch_final hB hr (initRules net.initLayer :: net.convs.map (rulesOf rule)) net.maxDim true none
    (d := 0) (Nat.zero_le _)
  have hlast := final_last (v := B.view) (d := 0) (vs := B.view.run net.maxDim true
    (initRules net.initLayer :: net.convs.map (rulesOf rule))) (w := (View.run net.maxDim true
      (B.view.layer (initRules net.initLayer) net.maxDim true) (net.convs.map (rulesOf rule))).getLast hrne) (by
    rw [View.run, List.getLast?_cons, List.getLast?_eq_some_getLast hrne]; rfl)
    (fun w hw => run_X_length _ _ _ _ hw 0)
  rw [hlast] at hfin
  rw [List.getLast?_map, List.getLast?_eq_some_getLast hrne]
  simp only [Option.map_some, listGet]
  rw [List.getElem?_map, List.getElem?_range (by omega)]
  simp only [Option.map_some, ok_bind]
  have hcells : ∀ c ∈ cs, c.maskOf.length = ((c.view.upTo mB).final none ((c.view.upTo mB).run net.maxDim true
      (initRules net.initLayer :: net.convs.map (rulesOf rule))) 0).length := by
    intro c hc
    obtain ⟨mk, h1, h2⟩ := hm c hc
    rw [final_length, upTo_X_length (hr c hc) (Nat.zero_le _), ← h2, Complex.maskOf, h1]
    rfl
  cases hd : data.cochains[0]? with
  | none => rw [attr_none hd] at hattr; simp at hattr
  | some nodes =>
    rw [attr_of hd] at hattr
    dsimp only
    rw [hattr, hfin, maskRows_ok, ok_bind, picked_flatMap hcells, List.map_flatMap]
    · rfl
    · rw [List.length_flatMap, List.length_flatMap]
      congr 1
      exact List.map_congr_left hcells

end

/-! ### RingGIN -/

section
variable [Field 𝕜] [AddCommMonoid R] [Module 𝕜 R]

/-- The rows of all nodes after the layers of a RingGIN. -/
def RingGIN.rows (net : RingGIN 𝕜 R) (g : GData R) : List R :=
  (List.range g.x.length).map fun c =>
    (((ginRows g.edges (fun c => rowOf (g.x.map net.initLinear) c) net.levels).getLast?).map fun r => r c).getD 0

theorem RingGIN.predict_rows (net : RingGIN 𝕜 R) (g : GData R) :
    net.predict g = (picked (net.rows g) g.mask).map net.lin1 := rfl

theorem RingGIN.forward_ok (net : RingGIN 𝕜 R) {g : GData R}
    (he : ∀ e ∈ g.edges, e.1 < g.x.length ∧ e.2 < g.x.length) (hm : g.mask.length = g.x.length) :
    net.forward g = .ok (net.predict g) := by
  have h1 := runGIN_ok (ls := net.levels) (x := g.x.map net.initLinear) (edges := g.edges) (by simpa using he)
  unfold RingGIN.forward
  unfold RingGIN.levels at h1
  unfold runGIN at h1
  rw [gin_forward _ (by simpa using he), ok_bind] at h1
  rw [gin_forward net.conv1 (by simpa using he), ok_bind, List.map_map]
  obtain ⟨outs, h2, h3⟩ := bind_eq_ok.mp h1
  have h2' : runGIN g.edges (List.map (net.act ∘ fun c => net.conv1.nn (((g.edges.filter fun p => p.2 == c).map
      fun p => rowOf (g.x.map net.initLinear) p.1).sum + (1 + net.conv1.eps) • rowOf (g.x.map net.initLinear) c))
      (List.range (g.x.map net.initLinear).length)) net.convs = .ok outs := h2
  rw [h2', ok_bind]
  simp only [pure_eq_ok, ok_inj] at h3
  have h4 := congrArg List.getLast? h3
  rw [List.getLast?_cons, List.getLast?_map] at h4
  have hne : ginRows g.edges (rowOf (g.x.map net.initLinear)) net.levels ≠ [] := by
    intro h
    have := congrArg List.length h
    rw [ginRows_length] at this
    simp [RingGIN.levels] at this
  have h5 : (ginRows g.edges (rowOf (g.x.map net.initLinear)) net.levels).getLast? = some _ :=
    List.getLast?_eq_some_getLast hne
  rw [show (ginRows g.edges (rowOf (g.x.map net.initLinear)) ({ net.conv1 with nn := fun x => net.act (net.conv1.nn x) } ::
    net.convs)).getLast? = some _ from h5] at h4
  simp only [Option.map_some, Option.some.injEq] at h4
  have h6 : outs.getLast?.getD (List.map (net.act ∘ fun c => net.conv1.nn (((g.edges.filter fun p => p.2 == c).map
      fun p => rowOf (g.x.map net.initLinear) p.1).sum + (1 + net.conv1.eps) • rowOf (g.x.map net.initLinear) c))
      (List.range (g.x.map net.initLinear).length)) = net.rows g := by
    refine Eq.trans h4 ?_
    unfold RingGIN.rows
    simp only [List.length_map]
    apply List.map_congr_left
    intro c _
    rw [show (ginRows g.edges (fun c => rowOf (g.x.map net.initLinear) c) net.levels).getLast? = some _ from h5]
    rfl
  rw [h6, maskRows_ok (by simp [RingGIN.rows, hm]), ok_bind, RingGIN.predict_rows]
  rfl

theorem RingGIN.predict_batch (net : RingGIN 𝕜 R) {gs : List (GData R)} (h : ∀ g ∈ gs, g.Ok)
    (hm : ∀ g ∈ gs, g.mask.length = g.x.length) :
    net.predict (gBatch gs) = gs.flatMap net.predict := by
  have hrows : net.rows (gBatch gs) = gs.flatMap net.rows := by
    unfold RingGIN.rows
    refine gBatch_split ?_
    intro i g hi c hc
    have := congrArg List.getLast? (gin_batch_rows h net.levels net.initLinear hi hc)
    rw [List.getLast?_map, List.getLast?_map] at this
    exact congrArg (fun o => o.getD 0) this
  rw [RingGIN.predict_rows, hrows, show (gBatch gs).mask = gs.flatMap GData.mask from rfl,
    picked_flatMap (by intro g hg; simp [RingGIN.rows, hm g hg]), List.map_flatMap]
  rfl

end

end Verif
