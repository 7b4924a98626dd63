import Verif.Lemmas.Partial

/-!
# Intermediate results of networks on batches
-/

namespace Verif

variable {𝕜 R L : Type} [Field 𝕜] [AddCommMonoid R] [Module 𝕜 R]

/-- Asking for the intermediate results does not change the prediction. -/
theorem SparseNet.forwardPartial_fst {Lv : Type} (level : Lv → MPParams R → Py (List R)) (net : SparseNet R Lv)
    (data : Complex R L) : Prod.fst <$> net.forwardPartial 𝕜 level data = net.forward 𝕜 level data := by
  unfold SparseNet.forwardPartial SparseNet.forward SparseNet.readoutPart
  cases runConvs (fun data => data.getAllCochainParams net.maxDim true false) (convForward level) data net.convs with
  | error e => rfl
  | ok out =>
    simp only [ok_bind]
    cases finalRows net.jump out.2 with
    | error e => rfl
    | ok xs =>
      simp only [ok_bind]
      cases getPoolingFn net.readout with
      | error e => rfl
      | ok pool =>
        simp only [ok_bind]
        cases poolComplex 𝕜 pool out.1 net.maxDim xs with
        | error e => rfl
        | ok pooled =>
          simp only [ok_bind]
          cases mapE (listGet pooled) net.dims with
          | error e => rfl
          | ok sel =>
            simp only [ok_bind]
            cases mapE (fun (xd : List R × Nat) => do
                let lin1 ← listGet net.lin1s xd.2
                return xd.1.map fun r => net.act (lin1 r)) (sel.zip net.dims) with
            | error e => rfl
            | ok new =>
              simp only [ok_bind]
              cases stackReduce 𝕜 net.finalReadout new <;> rfl

theorem final_none {v w : View R} {vs : List (View R)} {d : Nat} (h : vs.getLast? = some w)
    (hl : (w.X d).length = (v.X d).length) : v.final none vs d = w.X d := by
  unfold View.final finalRow
  rw [h]
  apply List.ext_getElem?
  intro c
  by_cases hc : c < (v.X d).length
  · rw [List.getElem?_map, List.getElem?_range hc]
    have : c < (w.X d).length := by omega
    simp [rowOf, List.getElem?_eq_getElem this]
  · rw [List.getElem?_eq_none (by simpa using hc), List.getElem?_eq_none (by omega)]

theorem run_take (m : Nat) (top : Bool) (layers : List (Nat → Rule R)) (v : View R) (c : Nat) :
    v.run m top (layers.take c) = (v.run m top layers).take c := by
  induction layers generalizing v c with
  | nil => simp [View.run]
  | cons l layers ih =>
    cases c with
    | zero => simp [View.run]
    | succ c => simp only [List.take_succ_cons, View.run, ih]

/-- The rows after layer `c`. -/
theorem layer_rows {m : Nat} {top : Bool} {layers : List (Nat → Rule R)} {v w : View R} {c : Nat}
    (h : (v.run m top layers)[c]? = some w) (d : Nat) : v.final none (v.run m top (layers.take (c + 1))) d = w.X d := by
  refine final_none ?_ (run_X_length _ _ _ _ (List.mem_of_getElem? h) d)
  rw [run_take, List.getLast?_eq_getElem?, List.length_take, List.getElem?_take]
  have := lt_of_get h
  rw [show min (c + 1) (v.run m top layers).length - 1 = c by omega, if_pos (by omega), h]

section
variable {Lv : Type} (rule : Lv → Rule R) (net : SparseNet R Lv) (mB : Nat)

/-- The keys of the results of a complex. -/
def SparseNet.HasKey : ResultKey → Complex R L → Prop
  | .layer c k, comp => c < net.convs.length ∧ k ≤ net.maxDim ∧ k ≤ mB ∧ k ≤ comp.dimension
  | .pool k, _ => k < net.dims.length
  | .out, _ => True

open Classical in
/-- The results of a complex. -/
noncomputable def SparseNet.rowsAt (𝕜 : Type) [Field 𝕜] [Module 𝕜 R] : ResultKey → Complex R L → List R
  | .layer c k, comp => if c < net.convs.length ∧ k ≤ net.maxDim ∧ k ≤ mB ∧ k ≤ comp.dimension then
      (comp.view.upTo mB).final none ((comp.view.upTo mB).run net.maxDim true ((net.convs.map (rulesOf rule)).take (c + 1))) k
    else []
  | .pool k, comp =>
    match net.dims[k]? with
    | some d => [poolOf 𝕜 net.readout ((comp.view.upTo mB).final net.jump
        ((comp.view.upTo mB).run net.maxDim true (net.convs.map (rulesOf rule))) d)]
    | none => []
  | .out, comp => [net.predict 𝕜 rule (comp.view.upTo mB)]

end

theorem readout_dims_le {Lv : Type} {net : SparseNet R Lv} : ∀ d ∈ net.dims, d ≤ net.maxDim := by
  intro d hd
  unfold SparseNet.dims at hd
  split at hd
  · have := (List.mem_filter.mp hd).2
    simpa using this
  · have := List.mem_range.mp hd; omega

theorem flatMap_singleton' {A B : Type} (f : A → B) (l : List A) : (l.flatMap fun a => [f a]) = l.map f := by
  induction l with
  | nil => rfl
  | cons a l ih => rw [List.flatMap_cons, ih]; rfl

/-- The intermediate results of a network on a batch. -/
theorem SparseNet.partial_blocks {Lv : Type} {level : Lv → MPParams R → Py (List R)}
    {rule : Lv → Rule R} {needs : Lv → Prop} (hreal : Realises level rule needs false)
    {net : SparseNet R Lv} (hn : net.Fits) {cs : List (Complex R L)}
    (hr : ∀ c ∈ cs, c.Ready) (h0 : ∀ c ∈ cs, 0 < c.cellsIn 0) (mB : Nat) :
    Blocks (fun ds => fromComplexList ds mB >>= net.forwardPartial 𝕜 level) cs
      (fun c => net.predict 𝕜 rule (c.view.upTo mB)) (net.HasKey mB) (net.rowsAt rule mB 𝕜) := by
  refine ⟨?_, ?_⟩
  · intro key c _ hk
    cases key with
    | layer i k => exact if_neg hk
    | pool k =>
      have : net.dims[k]? = none := List.getElem?_eq_none (Nat.le_of_not_lt hk)
      simp only [SparseNet.rowsAt, this]
    | out => exact absurd trivial hk
  · intro ds hne hs
    have hr : ∀ c ∈ ds, c.Ready := fun c hc => hr c (hs c hc)
    have h0 : ∀ c ∈ ds, 0 < c.cellsIn 0 := fun c hc => h0 c (hs c hc)
    have hfw := SparseNet.forward_all (𝕜 := 𝕜) hreal hn hne hr h0 mB
    obtain ⟨B, hB, hfw⟩ := bind_eq_ok.mp hfw
    rw [← SparseNet.forwardPartial_fst] at hfw
    cases hp : net.forwardPartial 𝕜 level B with
    | error e => rw [hp] at hfw; cases hfw
    | ok r =>
      rw [hp] at hfw
      have hr1 : r.1 = ds.map fun c => net.predict 𝕜 rule (c.view.upTo mB) := by
        have : (Except.ok r.1 : Py (List R)) = .ok _ := hfw
        exact ok_inj.mp this
      refine ⟨r.2, by rw [hB, ok_bind, hp, ← hr1], ?_⟩
      -- what the layers return
      have hruns := batch_runs hB hr
      obtain ⟨data, e1, -, -, e4⟩ := runConvs_ok (top := true) hreal (m := net.maxDim) (convs := net.convs)
        (fun conv hc => ⟨hn.levels conv hc, fun _ _ _ _ => by simp⟩) hruns
      have hvne : B.view.run net.maxDim true (net.convs.map (rulesOf rule)) ≠ [] :=
        run_ne (by simpa using hn.layers) _ _
      have hle := batch_dim_le hB
      have hfin := finalRows_ok hvne B.view (fun w hw d => run_X_length _ _ _ _ hw d) net.jump
        (min net.maxDim B.dimension + 1)
      have hfin2 : finalRows net.jump ((B.view.run net.maxDim true (net.convs.map (rulesOf rule))).map
          fun w => (List.range (min net.maxDim B.dimension + 1)).map w.X) =
          .ok ((List.range (min net.maxDim B.dimension + 1)).map fun d =>
            ds.flatMap fun c => (c.view.upTo mB).final net.jump
              ((c.view.upTo mB).run net.maxDim true (net.convs.map (rulesOf rule))) d) := by
        rw [hfin, ok_inj]
        apply List.map_congr_left
        intro d hd
        have := List.mem_range.mp hd
        exact batch_final hB hr _ _ _ _ (by have := hle.1; omega)
      -- what the pooling returns
      obtain ⟨pool, hpool, hagg⟩ := getPoolingFn_ok (𝕜 := 𝕜) (R := R) hn.readout
      obtain ⟨front, last, hsplit⟩ := split_last hne
      have hpc := poolComplex_ok (𝕜 := 𝕜) (front := front) (last := last) (rest := []) (data := data)
        (k := min net.maxDim B.dimension + 1) (m := net.maxDim) (by
          intro d hd
          rw [e4, batch_vec hB hr (by have := hle.1; omega), ← hsplit])
        (h0 last (by rw [hsplit]; simp)) (by simp) (by omega) (by omega) pool
        (fun c d => if d ≤ min net.maxDim B.dimension then (c.view.upTo mB).final net.jump
          ((c.view.upTo mB).run net.maxDim true (net.convs.map (rulesOf rule))) d else []) (by
          intro c hc d hd
          rw [← hsplit] at hc
          rw [if_pos (by omega), final_length, upTo_X_length (hr c hc) (by have := hle.1; omega)])
        (by intro c _ d hd; rw [if_neg (by omega)])
      have hfm : ((List.range (min net.maxDim B.dimension + 1)).map fun d => ds.flatMap fun c =>
            (c.view.upTo mB).final net.jump ((c.view.upTo mB).run net.maxDim true (net.convs.map (rulesOf rule))) d) =
          (List.range (min net.maxDim B.dimension + 1)).map fun d => (front ++ [last]).flatMap fun c =>
            if d ≤ min net.maxDim B.dimension then (c.view.upTo mB).final net.jump
              ((c.view.upTo mB).run net.maxDim true (net.convs.map (rulesOf rule))) d else [] := by
        rw [← hsplit]
        apply List.map_congr_left
        intro d hd
        have := List.mem_range.mp hd
        simp only [if_pos (show d ≤ min net.maxDim B.dimension by omega)]
      unfold SparseNet.forwardPartial at hp
      rw [e1, ok_bind] at hp
      dsimp only at hp
      rw [hfin2, ok_bind, hpool, ok_bind, hfm, hpc, ok_bind] at hp
      obtain ⟨sel, hsel, hp⟩ := bind_eq_ok.mp hp
      obtain ⟨new, -, hp⟩ := bind_eq_ok.mp hp
      obtain ⟨x, -, hp⟩ := bind_eq_ok.mp hp
      rw [pure_eq_ok, ok_inj] at hp
      have hsel2 : sel = net.dims.map fun d => ds.map fun c => poolOf 𝕜 net.readout ((c.view.upTo mB).final net.jump
          ((c.view.upTo mB).run net.maxDim true (net.convs.map (rulesOf rule))) d) := by
        rw [mapE_ok (g := fun d => ds.map fun c => poolOf 𝕜 net.readout ((c.view.upTo mB).final net.jump
          ((c.view.upTo mB).run net.maxDim true (net.convs.map (rulesOf rule))) d)), ok_inj] at hsel
        · exact hsel.symm
        · intro d hd
          unfold listGet
          have hdm := readout_dims_le d hd
          rw [List.getElem?_map, List.getElem?_range (by omega)]
          dsimp only [Option.map_some]
          rw [← hsplit, ok_inj]
          apply List.map_congr_left
          intro c hc
          rw [hagg]
          by_cases hdB : d ≤ B.dimension
          · rw [if_pos (by omega)]
          · rw [if_neg (by omega), final_nil (upTo_X_nil_of_gt hB (hr c hc) hc (by omega))]
      have hx : x.map net.lin2 = ds.map fun c => net.predict 𝕜 rule (c.view.upTo mB) := by
        rw [← hr1, ← hp]
      obtain ⟨l1, l2, l3, l4⟩ := results_lookup
        ((B.view.run net.maxDim true (net.convs.map (rulesOf rule))).map
          fun w => (List.range (min net.maxDim B.dimension + 1)).map w.X) sel (x.map net.lin2)
      rw [← hp]
      refine ⟨l1, fun key => ?_⟩
      cases key with
      | layer i k =>
        dsimp only
        rw [l2, List.getElem?_map]
        constructor
        · rintro ⟨c, hc, a1, a2, a3, a4⟩
          have hkB : k ≤ B.dimension := by
            have := batch_dim_ge hB hc
            omega
          obtain ⟨w, hw⟩ : ∃ w, (B.view.run net.maxDim true (net.convs.map (rulesOf rule)))[i]? = some w :=
            ⟨_, List.getElem?_eq_getElem (by rw [run_length, List.length_map]; exact a1)⟩
          rw [hw]
          dsimp only [Option.map_some, Option.bind_some]
          rw [List.getElem?_map, List.getElem?_range (by omega), Option.map_some, ← layer_rows hw,
            batch_final hB hr _ _ _ _ a3]
          congr 1
          rw [List.flatMap_def, List.flatMap_def]
          congr 1
          apply List.map_congr_left
          intro c' hc'
          simp only [SparseNet.rowsAt]
          split_ifs with h
          · rfl
          · apply final_nil
            have hlt : c'.dimension < k := by
              by_contra hlt
              exact h ⟨a1, a2, a3, by omega⟩
            simp only [View.upTo, if_pos a3]
            exact view_X_none (absent_of_gt (hr c' hc').valid hlt)
        · intro hno
          by_cases hi : i < net.convs.length
          · have hkB : ¬ k < min net.maxDim B.dimension + 1 := by
              intro hk
              obtain ⟨c, hc, hcd⟩ := hle.2
              exact hno c hc ⟨hi, by omega, by have := hle.1; omega, by omega⟩
            cases (B.view.run net.maxDim true (net.convs.map (rulesOf rule)))[i]? with
            | none => rfl
            | some w =>
              dsimp only [Option.map_some, Option.bind_some]
              exact List.getElem?_eq_none (by simpa using Nat.le_of_not_lt hkB)
          · rw [List.getElem?_eq_none (by rw [run_length, List.length_map]; omega)]
            rfl
      | pool k =>
        dsimp only
        rw [l3, hsel2, List.getElem?_map]
        constructor
        · rintro ⟨c, hc, hk⟩
          have hk : k < net.dims.length := hk
          rw [List.getElem?_eq_getElem hk]
          have : net.rowsAt rule mB 𝕜 (.pool k) = fun c : Complex R L => [poolOf 𝕜 net.readout ((c.view.upTo mB).final net.jump
              ((c.view.upTo mB).run net.maxDim true (net.convs.map (rulesOf rule))) net.dims[k])] := by
            funext c
            simp only [SparseNet.rowsAt, List.getElem?_eq_getElem hk]
          rw [this, flatMap_singleton']
          rfl
        · intro hno
          obtain ⟨c, hc⟩ := List.exists_mem_of_ne_nil ds hne
          have hk : ¬ k < net.dims.length := hno c hc
          rw [List.getElem?_eq_none (by omega)]
          rfl
      | out =>
        dsimp only
        rw [l4]
        constructor
        · intro _
          have : net.rowsAt rule mB 𝕜 .out = fun c : Complex R L => [net.predict 𝕜 rule (c.view.upTo mB)] := rfl
          rw [hx, this, flatMap_singleton']
        · intro hno
          obtain ⟨c, hc⟩ := List.exists_mem_of_ne_nil ds hne
          exact absurd trivial (hno c hc)

end Verif
