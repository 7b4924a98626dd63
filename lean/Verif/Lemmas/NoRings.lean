import Verif.Lemmas.EmbedBatch

/-!
# Lemmas on the variant without rings
-/

namespace Verif

variable {𝕜 R L : Type}

theorem dropRings_params {data : Complex R L} (h : data.cochains[2]? = none) :
    (do let ps ← data.getAllCochainParams 1 true false
        return dropRings ps) = data.getAllCochainParams 1 true false := by
  cases hp : data.getAllCochainParams 1 true false with
  | error e => rfl
  | ok ps =>
    rw [ok_bind]
    simp only [pure_eq_ok, ok_inj]
    match ps, hp with
    | [], _ => rfl
    | [_], _ => rfl
    | v :: e :: rest, hp =>
      unfold dropRings
      simp only [List.cons.injEq, true_and, and_true]
      unfold Complex.getAllCochainParams at hp
      have hl := mapE_length hp
      rw [mapE_eq_ok_iff] at hp
      simp only [List.length_range, List.length_cons] at hl
      have hn : min 1 data.dimension + 1 = 2 := by omega
      rw [hn] at hp
      have hp' : List.Forall₂ (fun a b => data.getCochainParams a 1 true false = .ok b) [0, 1]
        (v :: e :: rest) := hp
      cases hp' with
      | cons _ h2 =>
        cases h2 with
        | cons h2 _ =>
          unfold Complex.getCochainParams at h2
          cases hc : data.cochains[1]? with
          | none => rw [hc] at h2; simp at h2
          | some c =>
            rw [hc] at h2
            dsimp only at h2
            have hup : upParams c data.cochains[1 + 1]? 1 1 true = .ok (none, none) := by
              rw [h]
              unfold upParams
              cases c.upperIndex <;> rfl
            rw [hup, ok_bind] at h2
            obtain ⟨dn, -, h2⟩ := bind_eq_ok.mp h2
            simp only [pure_eq_ok, ok_inj] at h2
            rw [← h2]

theorem setXsLoop_length {cs : List (Cochain R L)} {xs : List (Option (List R))} {out : List (Cochain R L)}
    (h : setXsLoop cs xs = .ok out) : out.length = cs.length := by
  induction cs generalizing xs out with
  | nil =>
    cases xs with
    | nil => cases h; rfl
    | cons x xs => simp [setXsLoop] at h
  | cons c cs ih =>
    cases xs with
    | nil => cases h; rfl
    | cons x xs =>
      unfold setXsLoop at h
      obtain ⟨c', -, h⟩ := bind_eq_ok.mp h
      obtain ⟨cs', h1, h⟩ := bind_eq_ok.mp h
      cases h
      simp [ih h1]

theorem setXs_length {data out : Complex R L} {xs : List (Option (List R))}
    (h : data.setXs xs = .ok out) : out.cochains.length = data.cochains.length := by
  unfold Complex.setXs at h
  obtain ⟨u, -, h⟩ := bind_eq_ok.mp h
  obtain ⟨cs, h1, h⟩ := bind_eq_ok.mp h
  cases h
  exact setXsLoop_length h1

theorem runConvs_flat {Cv : Type} (conv : Cv → List (MPParams R) → Py (List (List R))) (cs : List Cv) :
    ∀ {data : Complex R L}, data.cochains.length ≤ 2 →
      runConvs (fun data : Complex R L => do
        let ps ← data.getAllCochainParams 1 true false
        return dropRings ps) conv data cs =
      runConvs (fun data => data.getAllCochainParams 1 true false) conv data cs := by
  induction cs with
  | nil => intro data _; rfl
  | cons c cs ih =>
    intro data h
    unfold runConvs
    rw [dropRings_params (List.getElem?_eq_none h)]
    cases h1 : data.getAllCochainParams 1 true false with
    | error e => rfl
    | ok ps =>
      simp only [ok_bind]
      cases h2 : conv c ps with
      | error e => rfl
      | ok xs =>
        simp only [ok_bind]
        cases h3 : data.setXs (xs.map some) with
        | error e => rfl
        | ok data' =>
          simp only [ok_bind]
          rw [ih (by rw [setXs_length h3]; exact h)]

theorem forwardNoRings_flat [Field 𝕜] [AddCommMonoid R] [Module 𝕜 R] {Lv : Type}
    {level : Lv → MPParams R → Py (List R)} (net : EmbedNet R Lv) {B : Complex R L}
    (h : B.cochains.length ≤ 2) :
    net.forwardNoRings 𝕜 level B = net.flat.forward 𝕜 level B := by
  unfold EmbedNet.forwardNoRings EmbedNet.forward
  cases h1 : checkNodes B with
  | error e => rfl
  | ok u =>
    simp only [ok_bind]
    have hd := dropRings_params (data := B) (List.getElem?_eq_none h)
    show (B.getAllCochainParams 1 true false >>= _) = (B.getAllCochainParams 1 true false >>= _)
    cases h2 : B.getAllCochainParams 1 true false with
    | error e => rfl
    | ok ps =>
      rw [h2, ok_bind] at hd
      simp only [pure_eq_ok, ok_inj] at hd
      simp only [ok_bind]
      rw [hd]
      show (net.init.forward ps >>= _) = (net.init.forward ps >>= _)
      cases h3 : net.init.forward ps with
      | error e => rfl
      | ok xs =>
        simp only [ok_bind]
        cases h4 : B.setXs (xs.map some) with
        | error e => rfl
        | ok data =>
          simp only [ok_bind]
          rw [runConvs_flat _ _ (by rw [setXs_length h4]; exact h)]
          rfl

theorem EmbedInit.Reads.upperOk [AddCommMonoid R] {l : EmbedInit R} {B : Complex R L} (h : l.Reads B) :
    UpperOk B := by
  intro c c2 x h1 h2 hu hx
  obtain ⟨s, hs⟩ := Option.isSome_iff_exists.mp ((h.upBoth 1 c h1).symm.trans hu)
  refine ⟨s, hs, fun i hi => ?_⟩
  have hle : 1 + 1 ≤ B.dimension := by
    have := (List.getElem?_eq_some_iff.mp h2).1
    rw [h.len] at this; omega
  rw [h.rows 2 x (by rw [attr_of h2]; exact hx)]
  exact h.shared 1 c hle h1 i (by rw [hs]; exact hi)

theorem EmbedNet.forwardNoRings_cut [Field 𝕜] [AddCommMonoid R] [Module 𝕜 R] {Lv : Type}
    {level : Lv → MPParams R → Py (List R)} (hig : IgnoresAttr level)
    {rule : Lv → Rule R} {needs : Lv → Prop} (hreal : Realises level rule needs false)
    {net : EmbedNet R Lv} (hn : net.flat.net.Fits)
    (hred : ∀ a b : List R, a.Perm b → net.init.reduce a = net.init.reduce b)
    {cs : List (Complex R L)} (hne : cs ≠ []) (h : ∀ c ∈ cs, net.init.Embeds c) (hu : UniformFeatures cs)
    {mB : Nat} (hs2 : ∀ c ∈ cs, min c.dimension mB ≤ 2) (hm : 1 ≤ mB) :
    (fromComplexList cs mB >>= net.forwardNoRings 𝕜 level) =
      .ok (cs.map (net.flat.predict 𝕜 rule 1)) := by
  obtain ⟨B, B', hB, -, -, hreads, -⟩ := embed_batch hred hne h hu mB hs2
  have h1 := EmbedNet.forward_cut (𝕜 := 𝕜) (net := net.flat) hreal hn hred hne h hu (mB := 1)
    (fun c _ => (Nat.min_le_right _ _).trans (by omega))
    (fun c _ => Nat.min_le_right _ _)
  obtain ⟨B1, hB1, h1⟩ := bind_eq_ok.mp h1
  have hlen : B1.cochains.length ≤ 2 := by
    rw [(fromComplexList_inv hB1).coherent.len]
    have := (batch_dim_le hB1).1
    omega
  rw [← forwardNoRings_flat net hlen] at h1
  rw [hB, ok_bind]
  have hsame : List.Forall₂ SameGraph cs cs := List.forall₂_same.mpr fun c _ => ⟨rfl, rfl, rfl⟩
  exact (sameBelow_batch hsame le_rfl hm hB1 hB).forwardNoRings hig hreads.upperOk net h1

theorem EmbedNet.forwardNoRings_all [Field 𝕜] [AddCommMonoid R] [Module 𝕜 R] {Lv : Type}
    {level : Lv → MPParams R → Py (List R)} (hig : IgnoresAttr level)
    {rule : Lv → Rule R} {needs : Lv → Prop} (hreal : Realises level rule needs false)
    {net : EmbedNet R Lv} (hn : net.flat.net.Fits)
    (hred : ∀ a b : List R, a.Perm b → net.init.reduce a = net.init.reduce b)
    {cs : List (Complex R L)} (hne : cs ≠ []) (h : ∀ c ∈ cs, net.init.Takes c) (hu : UniformFeatures cs)
    {mB : Nat} (hm : 1 ≤ mB) :
    (fromComplexList cs mB >>= net.forwardNoRings 𝕜 level) =
      .ok (cs.map (net.flat.predict 𝕜 rule 1)) :=
  EmbedNet.forwardNoRings_cut hig hreal hn hred hne (fun c hc => (h c hc).embeds) hu
    (fun c hc => (Nat.min_le_left _ _).trans (h c hc).small) hm

end Verif
