import Verif.Spec.Dropout
import Verif.Lemmas.Partial
import Mathlib.Tactic.Ring

/-!
# Lemmas about dropout
-/

namespace Verif

variable {𝕜 ι κ L : Type} [Field 𝕜]

/-! ### Expectations -/

section
variable [Fintype κ] [DecidableEq κ]

theorem sum_prod_bool (g : κ → Bool → 𝕜) : ∑ m : κ → Bool, ∏ k, g k (m k) = ∏ k, (g k true + g k false) := by
  have h := Finset.prod_univ_sum (fun _ : κ => (Finset.univ : Finset Bool)) g
  rw [Fintype.piFinset_univ] at h
  rw [← h]
  exact Finset.prod_congr rfl fun k _ => by simp

theorem sum_maskWeight (p : 𝕜) : ∑ m : κ → Bool, maskWeight p m = 1 := by
  unfold maskWeight
  rw [sum_prod_bool fun (_ : κ) b => if b then 1 - p else p]
  simp

theorem sum_maskWeight_entry (p c : 𝕜) (k0 : κ) :
    ∑ m : κ → Bool, maskWeight p m * (if m k0 then c else 0) = (1 - p) * c := by
  have h1 : ∀ m : κ → Bool, maskWeight p m * (if m k0 then c else 0) =
      ∏ k, (if m k then 1 - p else p) * (if k = k0 then (if m k then c else 0) else 1) := by
    intro m
    rw [Finset.prod_mul_distrib]
    congr 1
    rw [Finset.prod_ite_eq' Finset.univ k0 fun k => if m k then c else 0]
    simp
  simp only [h1]
  rw [sum_prod_bool fun k b => (if b then 1 - p else p) * (if k = k0 then (if b then c else 0) else 1)]
  have h2 : ∀ k, ((if (true : Bool) then 1 - p else p) * (if k = k0 then (if (true : Bool) then c else 0) else 1) +
      (if (false : Bool) then 1 - p else p) * (if k = k0 then (if (false : Bool) then c else 0) else 1)) =
      if k = k0 then (1 - p) * c else 1 := by
    intro k
    by_cases h : k = k0
    · simp [h]
    · simp [h]
  rw [Finset.prod_congr rfl fun k _ => h2 k, Finset.prod_ite_eq' Finset.univ k0 fun _ => (1 - p) * c]
  simp

variable {V W : Type} [AddCommGroup V] [Module 𝕜 V] [AddCommGroup W] [Module 𝕜 W]

theorem expect_map (p : 𝕜) (A : V →ₗ[𝕜] W) (f : (κ → Bool) → V) :
    expect p (fun m => A (f m)) = A (expect p f) := by
  unfold expect
  rw [map_sum]
  exact Finset.sum_congr rfl fun m _ => by rw [map_smul]

theorem expect_const (p : 𝕜) (b : V) : expect p (fun _ : κ → Bool => b) = b := by
  unfold expect
  rw [← Finset.sum_smul, sum_maskWeight, one_smul]

theorem expect_add (p : 𝕜) (f g : (κ → Bool) → V) :
    expect p (fun m => f m + g m) = expect p f + expect p g := by
  unfold expect
  rw [← Finset.sum_add_distrib]
  exact Finset.sum_congr rfl fun m _ => smul_add _ _ _

theorem expect_smul (p c : 𝕜) (f : (κ → Bool) → V) : expect p (fun m => c • f m) = c • expect p f := by
  unfold expect
  rw [Finset.smul_sum]
  exact Finset.sum_congr rfl fun m _ => smul_comm _ _ _

theorem expect_affine (p : 𝕜) {g : V → W} (hg : IsAffine 𝕜 g) (f : (κ → Bool) → V) :
    expect p (fun m => g (f m)) = g (expect p f) := by
  obtain ⟨A, b, h⟩ := hg
  simp only [h]
  rw [expect_add, expect_map, expect_const]

theorem expect_listSum {X : Type} (p : 𝕜) (l : List X) (f : X → (κ → Bool) → V) :
    expect p (fun m => (l.map fun x => f x m).sum) = (l.map fun x => expect p (f x)).sum := by
  induction l with
  | nil => simpa using expect_const p (0 : V)
  | cons a l ih =>
    simp only [List.map_cons, List.sum_cons]
    rw [expect_add, ih]

theorem expect_dropRow {p : 𝕜} (hp : p ≠ 1) (e : ι → κ) (x : ι → 𝕜) :
    expect p (fun m => dropRow p (fun i => m (e i)) x) = x := by
  funext i
  unfold expect
  rw [Finset.sum_apply]
  have h : ∀ m : κ → Bool, (maskWeight p m • dropRow p (fun i => m (e i)) x) i =
      maskWeight p m * (if m (e i) then x i / (1 - p) else 0) := fun m => rfl
  simp only [h]
  rw [sum_maskWeight_entry]
  exact mul_div_cancel₀ _ (sub_ne_zero.mpr (Ne.symm hp))

end

/-! ### Dropout of tensors -/

/-- The rows of a tensor in training mode. -/
def dropRows (p : 𝕜) (m : Nat → ι → Bool) (x : List (ι → 𝕜)) : List (ι → 𝕜) :=
  x.zipIdx.map fun xr => dropRow p (m xr.2) xr.1

theorem dropRows_length (p : 𝕜) (m : Nat → ι → Bool) (x : List (ι → 𝕜)) : (dropRows p m x).length = x.length := by
  simp [dropRows]

theorem dropRows_get (p : 𝕜) (m : Nat → ι → Bool) (x : List (ι → 𝕜)) (r : Nat) :
    (dropRows p m x)[r]? = (x[r]?).map (dropRow p (m r)) := by
  unfold dropRows
  rw [List.getElem?_map, List.getElem?_zipIdx]
  cases x[r]? <;> simp

variable [LinearOrder 𝕜]

theorem dropout_eval (conf : DropConf 𝕜) (h : conf.Proper) (ht : conf.training = false) (m : Nat → ι → Bool)
    (x : List (ι → 𝕜)) : dropout conf m x = .ok x := by
  unfold dropout
  rw [if_neg (by rintro (h1 | h1); exacts [absurd h1 h.1.not_gt, absurd h1 h.2.le.not_gt]), ht]
  rfl

theorem dropout_train (conf : DropConf 𝕜) (h : conf.Proper) (ht : conf.training = true) (m : Nat → ι → Bool)
    (x : List (ι → 𝕜)) : dropout conf m x = .ok (dropRows conf.rate m x) := by
  unfold dropout
  rw [if_neg (by rintro (h1 | h1); exacts [absurd h1 h.1.not_gt, absurd h1 h.2.le.not_gt]), ht]
  rfl

/-! ### The last layer -/

theorem lastLayer_eval (conf : DropConf 𝕜) (h : conf.Proper) (ht : conf.training = false) (m : Mask ι)
    (lin2 : (ι → 𝕜) → ι → 𝕜) (rows : Py (List (ι → 𝕜))) :
    lastLayer conf m lin2 rows = rows >>= fun x => .ok (x.map lin2) := by
  unfold lastLayer
  cases rows with
  | error e => rfl
  | ok x =>
    rw [ok_bind, ok_bind, dropout_eval conf h ht]
    rfl

theorem expect_dropRows [Fintype ι] [DecidableEq ι] {p : 𝕜} (hp : p ≠ 1) {D N d r : Nat} (hd : d < D) (hr : r < N)
    (row : ι → 𝕜) :
    expect p (fun m : Fin D × Fin N × ι → Bool => dropRow p (spread m d r) row) = row := by
  have h : ∀ m : Fin D × Fin N × ι → Bool, spread m d r = fun i => m (⟨d, hd⟩, ⟨r, hr⟩, i) := by
    intro m
    funext i
    unfold spread
    rw [dif_pos ⟨hd, hr⟩]
  simp only [h]
  exact expect_dropRow hp (fun i => ((⟨d, hd⟩ : Fin D), (⟨r, hr⟩ : Fin N), i)) row

theorem lastLayer_unbiased [Fintype ι] [DecidableEq ι] (conf : DropConf 𝕜) (h : conf.Proper)
    (ht : conf.training = true) {lin2 : (ι → 𝕜) → ι → 𝕜} (hl : IsAffine 𝕜 lin2) (rows : Py (List (ι → 𝕜))) {D N : Nat}
    (hD : 0 < D) :
    Unbiased conf.rate D N (fun m => lastLayer conf m lin2 rows) (rows >>= fun x => .ok (x.map lin2)) := by
  constructor
  · intro e he m
    cases rows with
    | error e' => exact he
    | ok x => cases he
  · intro out ho hN
    cases rows with
    | error e' => cases ho
    | ok x =>
      rw [ok_bind, ok_inj] at ho
      subst ho
      rw [List.length_map] at hN
      refine ⟨fun m => (dropRows conf.rate (spread m 0) x).map lin2, fun m => ⟨?_, ?_⟩, fun r row hr => ?_⟩
      · unfold lastLayer
        dsimp only
        rw [ok_bind, dropout_train conf h ht]
        rfl
      · rw [List.length_map, List.length_map, dropRows_length]
      · rw [List.getElem?_map] at hr
        obtain ⟨y, hy, rfl⟩ := Option.map_eq_some_iff.mp hr
        have hrN : r < N := lt_of_lt_of_le (List.getElem?_eq_some_iff.mp hy).1 hN
        have he : ∀ m : Fin D × Fin N × ι → Bool, ((dropRows conf.rate (spread m 0) x).map lin2).getD r 0 =
            lin2 (dropRow conf.rate (spread m 0 r) y) := by
          intro m
          rw [List.getD_eq_getElem?_getD, List.getElem?_map, dropRows_get, hy]
          rfl
        simp only [he]
        rw [expect_affine conf.rate hl, expect_dropRows h.2.ne hD hrN]

/-! ### SparseCIN -/

/-- The tensors in front of `torch.stack`, without dropout. -/
def SparseNet.newXs {Lv : Type} (net : SparseNet (ι → 𝕜) Lv) (data : Complex (ι → 𝕜) L)
    (outs : List (List (List (ι → 𝕜)))) : Py (List (List (ι → 𝕜))) := do
  let xs ← finalRows net.jump outs
  let pool ← getPoolingFn net.readout
  let pooled ← poolComplex 𝕜 pool data net.maxDim xs
  let sel ← mapE (listGet pooled) net.dims
  mapE (fun (xd : List (ι → 𝕜) × Nat) => do
    let lin1 ← listGet net.lin1s xd.2
    return xd.1.map fun r => net.act (lin1 r)) (sel.zip net.dims)

theorem SparseNet.readoutPart_newXs {Lv : Type} (net : SparseNet (ι → 𝕜) Lv) (data : Complex (ι → 𝕜) L)
    (outs : List (List (List (ι → 𝕜)))) : net.readoutPart 𝕜 data outs = net.newXs data outs >>= fun new =>
      stackReduce 𝕜 net.finalReadout new >>= fun x => .ok (x.map net.lin2) := by
  unfold SparseNet.readoutPart SparseNet.newXs
  simp only [bind_assoc]
  rfl

theorem mapE_zipIdx {A B : Type} (f : A → Py B) (l : List A) (k : Nat) :
    mapE (fun x : A × Nat => f x.1) (l.zipIdx k) = mapE f l := by
  induction l generalizing k with
  | nil => rfl
  | cons a l ih =>
    rw [List.zipIdx_cons]
    unfold mapE
    rw [ih]

/-- What follows `torch.stack`, if dropout is not in front of the first linear maps. -/
def SparseNet.headDrop {Lv : Type} (conf : DropConf 𝕜) (m : Mask ι) (net : SparseNet (ι → 𝕜) Lv)
    (new : List (List (ι → 𝕜))) : Py (List (ι → 𝕜)) := do
  stackable new
  let new ← dropStack conf m new
  let x ← stackReduce 𝕜 net.finalReadout new
  let x ← dropLin2 conf (m 0) x
  return x.map net.lin2

theorem SparseNet.readoutDrop_newXs {Lv : Type} (conf : DropConf 𝕜) (hb : conf.before ≠ "lin1") (m : Mask ι)
    (net : SparseNet (ι → 𝕜) Lv) (data : Complex (ι → 𝕜) L) (outs : List (List (List (ι → 𝕜)))) :
    net.readoutDrop conf m data outs = net.newXs data outs >>= net.headDrop conf m := by
  unfold SparseNet.readoutDrop SparseNet.newXs SparseNet.headDrop
  simp only [bind_assoc, dropLin1, if_neg hb, ok_bind]
  have h : ∀ sel : List (List (ι → 𝕜)), mapE (fun (xd : (List (ι → 𝕜) × Nat) × Nat) => (do
      let lin1 ← listGet net.lin1s xd.1.2
      return xd.1.1.map fun r => net.act (lin1 r) : Py (List (ι → 𝕜)))) (sel.zip net.dims).zipIdx =
      mapE (fun (xd : List (ι → 𝕜) × Nat) => do
        let lin1 ← listGet net.lin1s xd.2
        return xd.1.map fun r => net.act (lin1 r)) (sel.zip net.dims) := fun sel =>
    mapE_zipIdx (fun (xd : List (ι → 𝕜) × Nat) => (do
      let lin1 ← listGet net.lin1s xd.2
      return xd.1.map fun r => net.act (lin1 r) : Py (List (ι → 𝕜)))) _ 0
  simp only [h]

theorem stackable_error {X : Type} {xs : List (List X)} {e : PyErr} (h : stackable xs = .error e) :
    e = .runtime := by
  unfold stackable at h
  split at h
  · cases h; rfl
  · split at h
    · cases h
    · cases h; rfl

theorem stackReduce_of_error (fr : String) {xs : List (List (ι → 𝕜))} {e : PyErr} (h : stackable xs = .error e) :
    stackReduce 𝕜 fr xs = .error e := by
  unfold stackable at h
  unfold stackReduce
  cases xs with
  | nil => cases h; rfl
  | cons x rest =>
    dsimp only at h ⊢
    split at h
    · cases h
    · rw [if_neg (by assumption)]
      cases h
      rfl

/-- `mean(0)` or `sum(0)` of the rows of one complex. -/
def finalAgg (𝕜 : Type) [Field 𝕜] (fr : String) (l : List (ι → 𝕜)) : ι → 𝕜 :=
  if fr = "mean" then aggMean (𝕜 := 𝕜) l else l.sum

theorem stackReduce_of_ok (fr : String) {xs : List (List (ι → 𝕜))} (h : stackable xs = .ok ()) :
    ∃ n, xs ≠ [] ∧ (∀ y ∈ xs, y.length = n) ∧
      ((fr = "mean" ∨ fr = "sum") → stackReduce 𝕜 fr xs =
        .ok ((List.range n).map fun k => finalAgg 𝕜 fr (xs.filterMap fun y => y[k]?))) ∧
      (¬ (fr = "mean" ∨ fr = "sum") → stackReduce 𝕜 fr xs = .error .notImplemented) := by
  cases xs with
  | nil => cases h
  | cons x rest =>
    unfold stackable at h
    dsimp only at h
    by_cases hall : (rest.all fun y => y.length == x.length) = true
    · refine ⟨x.length, by simp, ?_, ?_, ?_⟩
      · intro y hy
        rcases List.mem_cons.mp hy with rfl | hy
        · rfl
        · exact beq_iff_eq.mp (List.all_eq_true.mp hall y hy)
      · intro hfr
        unfold stackReduce
        dsimp only
        rw [if_pos hall]
        by_cases h1 : fr = "mean"
        · rw [if_pos h1]
          simp only [finalAgg, if_pos h1]
        · rw [if_neg h1, if_pos (hfr.resolve_left h1)]
          simp only [finalAgg, if_neg h1]
      · intro hfr
        unfold stackReduce
        dsimp only
        rw [if_pos hall, if_neg fun h => hfr (.inl h), if_neg fun h => hfr (.inr h)]
    · rw [if_neg hall] at h
      cases h

theorem stackable_of_lengths {X : Type} {xs : List (List X)} {n : Nat} (hne : xs ≠ []) (h : ∀ y ∈ xs, y.length = n) :
    stackable xs = .ok () := by
  cases xs with
  | nil => exact absurd rfl hne
  | cons x rest =>
    unfold stackable
    dsimp only
    rw [if_pos]
    rw [List.all_eq_true]
    intro y hy
    rw [beq_iff_eq, h x (by simp), h y (by simp [hy])]

theorem filterMap_get {X : Type} [Zero X] {xs : List (List X)} {n k : Nat} (h : ∀ y ∈ xs, y.length = n) (hk : k < n) :
    (xs.filterMap fun y => y[k]?) = xs.map fun y => y.getD k 0 := by
  induction xs with
  | nil => rfl
  | cons x xs ih =>
    have hx : k < x.length := by rw [h x (by simp)]; exact hk
    rw [List.filterMap_cons, List.getElem?_eq_getElem hx, List.map_cons,
      ih fun y hy => h y (List.mem_cons_of_mem _ hy)]
    simp [hx]

theorem finalAgg_eq (fr : String) (l : List (ι → 𝕜)) :
    finalAgg 𝕜 fr l = (if fr = "mean" then ((max l.length 1 : Nat) : 𝕜)⁻¹ else 1) • l.sum := by
  unfold finalAgg
  split
  · rfl
  · rw [one_smul]

theorem expect_finalAgg [Fintype κ] [DecidableEq κ] (p : 𝕜) (fr : String) {X : Type} (l : List X)
    (f : X → (κ → Bool) → ι → 𝕜) :
    expect p (fun m => finalAgg 𝕜 fr (l.map fun x => f x m)) = finalAgg 𝕜 fr (l.map fun x => expect p (f x)) := by
  simp only [finalAgg_eq, List.length_map]
  rw [expect_smul, expect_listSum]

theorem mapE_ok' {A B : Type} (f : A → B) (l : List A) : mapE (fun a => (.ok (f a) : Py B)) l = .ok (l.map f) := by
  induction l with
  | nil => rfl
  | cons a l ih =>
    unfold mapE
    rw [ih]
    rfl

theorem dropDims_train (conf : DropConf 𝕜) (h : conf.Proper) (ht : conf.training = true) (m : Mask ι)
    (xs : List (List (ι → 𝕜))) :
    dropDims conf m xs = .ok (xs.zipIdx.map fun xd => dropRows conf.rate (m xd.2) xd.1) := by
  unfold dropDims
  simp only [dropout_train conf h ht]
  exact mapE_ok' _ _

theorem dropDims_eval (conf : DropConf 𝕜) (h : conf.Proper) (ht : conf.training = false) (m : Mask ι)
    (xs : List (List (ι → 𝕜))) : dropDims conf m xs = .ok xs := by
  unfold dropDims
  simp only [dropout_eval conf h ht]
  rw [mapE_zipIdx (fun x : List (ι → 𝕜) => (.ok x : Py (List (ι → 𝕜)))) xs 0]
  simpa using mapE_ok' (fun x : List (ι → 𝕜) => x) xs

theorem SparseNet.headDrop_eval {Lv : Type} (conf : DropConf 𝕜) (h : conf.Proper) (ht : conf.training = false)
    (m : Mask ι) (net : SparseNet (ι → 𝕜) Lv) (new : List (List (ι → 𝕜))) :
    net.headDrop conf m new = stackReduce 𝕜 net.finalReadout new >>= fun x => .ok (x.map net.lin2) := by
  unfold SparseNet.headDrop
  simp only [dropStack, dropLin2, dropDims_eval conf h ht m new, ite_self, ok_bind, dropout_eval conf h ht]
  cases hs : stackable new with
  | error e => rw [stackReduce_of_error _ hs]; rfl
  | ok u => rfl

theorem SparseNet.headDrop_unbiased {Lv : Type} [Fintype ι] [DecidableEq ι] (conf : DropConf 𝕜) (h : conf.Proper)
    (ht : conf.training = true) (hb : conf.before ≠ "lin1") (net : SparseNet (ι → 𝕜) Lv) (hl : IsAffine 𝕜 net.lin2)
    (new : List (List (ι → 𝕜))) {D N : Nat} (hD : new.length ≤ D) :
    Unbiased conf.rate D N (fun m => net.headDrop conf m new)
      (stackReduce 𝕜 net.finalReadout new >>= fun x => .ok (x.map net.lin2)) := by
  cases hs : stackable new with
  | error e =>
    rw [stackReduce_of_error _ hs]
    refine ⟨fun e' he m => ?_, (by intro out ho; cases ho)⟩
    unfold SparseNet.headDrop
    rw [hs]
    exact he
  | ok u =>
    obtain ⟨n, hne, hlen, hok, herr⟩ := stackReduce_of_ok (𝕜 := 𝕜) net.finalReadout hs
    have hD0 : 0 < D := lt_of_lt_of_le (List.length_pos_iff.mpr hne) hD
    by_cases hf : conf.before = "final_readout"
    · have hdrop : ∀ m : Mask ι, net.headDrop conf m new =
          stackReduce 𝕜 net.finalReadout (new.zipIdx.map fun xd => dropRows conf.rate (m xd.2) xd.1) >>=
            fun x => .ok (x.map net.lin2) := by
        intro m
        unfold SparseNet.headDrop
        rw [hs]
        simp only [dropStack, if_pos hf, dropDims_train conf h ht m new, ok_bind, dropLin2, if_neg (show ¬ (conf.before ≠ "lin1" ∧ conf.before ≠ "final_readout") from
          fun hh => hh.2 hf)]
        rfl
      have hlen' : ∀ m : Mask ι, ∀ y ∈ new.zipIdx.map (fun xd => dropRows conf.rate (m xd.2) xd.1), y.length = n := by
        intro m y hy
        obtain ⟨xd, hxd, rfl⟩ := List.mem_map.mp hy
        rw [dropRows_length]
        exact hlen _ (List.fst_mem_of_mem_zipIdx hxd)
      have hs' : ∀ m : Mask ι, stackable (new.zipIdx.map fun xd => dropRows conf.rate (m xd.2) xd.1) = .ok () :=
        fun m => stackable_of_lengths (by simpa using hne) (hlen' m)
      have hn' : ∀ m : Mask ι, (∀ k, (∀ y ∈ new.zipIdx.map (fun xd => dropRows conf.rate (m xd.2) xd.1),
          y.length = k) → k = n) := by
        intro m k hk
        have hne2 : (new.zipIdx.map fun xd => dropRows conf.rate (m xd.2) xd.1) ≠ [] := by simpa using hne
        obtain ⟨y, hy⟩ := List.exists_mem_of_ne_nil _ hne2
        rw [← hk y hy, hlen' m y hy]
      by_cases hfr : net.finalReadout = "mean" ∨ net.finalReadout = "sum"
      · rw [hok hfr]
        refine ⟨(by intro e he; cases he), fun out ho hN => ?_⟩
        rw [ok_bind, ok_inj] at ho
        subst ho
        simp only [List.length_map, List.length_range] at hN
        refine ⟨fun m => ((List.range n).map fun k => finalAgg 𝕜 net.finalReadout
          ((new.zipIdx.map fun xd => dropRows conf.rate (spread m xd.2) xd.1).filterMap fun y => y[k]?)).map net.lin2,
          fun m => ⟨?_, by simp⟩, fun r row hr => ?_⟩
        · dsimp only
          obtain ⟨n', -, h2, h3, -⟩ := stackReduce_of_ok (𝕜 := 𝕜) net.finalReadout (hs' (spread m))
          rw [hdrop, h3 hfr, hn' _ n' h2]
          rfl
        · have hrn : r < n := by
            have := (List.getElem?_eq_some_iff.mp hr).1
            simpa using this
          have hrow : row = net.lin2 (finalAgg 𝕜 net.finalReadout (new.filterMap fun y => y[r]?)) := by
            simp only [List.getElem?_map, List.getElem?_range hrn, Option.map_some, Option.some.injEq] at hr
            exact hr.symm
          have hm : ∀ m : Fin D × Fin N × ι → Bool,
              (((List.range n).map fun k => finalAgg 𝕜 net.finalReadout
                ((new.zipIdx.map fun xd => dropRows conf.rate (spread m xd.2) xd.1).filterMap fun y => y[k]?)).map
                  net.lin2).getD r 0 =
              net.lin2 (finalAgg 𝕜 net.finalReadout
                (new.zipIdx.map fun xd => dropRow conf.rate (spread m xd.2 r) (xd.1.getD r 0))) := by
            intro m
            rw [List.getD_eq_getElem?_getD]
            simp only [List.getElem?_map, List.getElem?_range hrn, Option.map_some, Option.getD_some]
            rw [filterMap_get (hlen' _) hrn, List.map_map]
            congr 2
            apply List.map_congr_left
            intro xd hxd
            have hx : r < xd.1.length := by
              rw [hlen _ (List.fst_mem_of_mem_zipIdx hxd)]
              exact hrn
            simp only [Function.comp, List.getD_eq_getElem?_getD, dropRows_get, List.getElem?_eq_getElem hx,
              Option.map_some, Option.getD_some]
          simp only [hm]
          rw [hrow, expect_affine conf.rate hl, expect_finalAgg conf.rate net.finalReadout new.zipIdx
            fun (xd : List (ι → 𝕜) × Nat) m => dropRow conf.rate (spread m xd.2 r) (xd.1.getD r 0),
            filterMap_get hlen hrn]
          congr 2
          have : (new.map fun y => y.getD r 0) = new.zipIdx.map fun xd => xd.1.getD r 0 := by
            conv_lhs => rw [← List.zipIdx_map_fst 0 new]
            rw [List.map_map]
            rfl
          rw [this]
          apply List.map_congr_left
          intro xd hxd
          have h1 : xd.2 < D := by
            have := List.snd_lt_of_mem_zipIdx hxd
            omega
          exact expect_dropRows h.2.ne h1 (lt_of_lt_of_le hrn hN) _
      · rw [herr hfr]
        refine ⟨fun e he m => ?_, (by intro out ho; cases ho)⟩
        obtain ⟨n', -, -, -, h4⟩ := stackReduce_of_ok (𝕜 := 𝕜) net.finalReadout (hs' m)
        dsimp only
        rw [hdrop, h4 hfr]
        exact he
    · have hdrop : ∀ m : Mask ι, net.headDrop conf m new =
          lastLayer conf m net.lin2 (stackReduce 𝕜 net.finalReadout new) := by
        intro m
        unfold SparseNet.headDrop lastLayer
        rw [hs]
        simp only [dropStack, if_neg hf, ok_bind, dropLin2, if_pos (show conf.before ≠ "lin1" ∧ conf.before ≠ "final_readout" from ⟨hb, hf⟩)]
      simp only [hdrop]
      exact lastLayer_unbiased conf h ht hl _ hD0

end Verif
