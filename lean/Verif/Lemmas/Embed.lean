import Verif.Spec.Embed
import Verif.Lemmas.Predict
import Verif.Lemmas.Oriented

/-!
# Lemmas on the embedding networks
-/

namespace Verif

variable {𝕜 R L : Type}

/-! ### The no-rings network -/

/-- The parts of the vertices and edges that the no-rings network reads are the same. -/
structure SameBelow (a b : Complex R L) : Prop where
  dim : min 1 b.dimension = min 1 a.dimension
  vertices : ∀ c, a.cochains[0]? = some c → ∃ c', b.cochains[0]? = some c' ∧ c'.x = c.x ∧
    c'.upperIndex = c.upperIndex ∧ c'.sharedCoboundaries = c.sharedCoboundaries ∧ c'.batch = c.batch ∧
    c'.numCellsAttr = c.numCellsAttr ∧ c'.boundaryIndex = c.boundaryIndex
  edges : ∀ c, a.cochains[1]? = some c → ∃ c', b.cochains[1]? = some c' ∧ c'.x = c.x ∧
    c'.batch = c.batch ∧ c'.numCellsAttr = c.numCellsAttr ∧ c'.boundaryIndex = c.boundaryIndex
  noEdges : a.cochains[1]? = none → b.cochains[1]? = none

/-- The features of the 2-cells above the edges can be looked up. -/
def UpperOk (b : Complex R L) : Prop :=
  ∀ c c2 x, b.cochains[1]? = some c → b.cochains[2]? = some c2 → c.upperIndex.isSome → c2.x = some x →
    ∃ s, c.sharedCoboundaries = some s ∧ ∀ i ∈ s, i < x.length

/-- The parameters without the upper adjacency of the edges and its features. -/
def dropUp : List (MPParams R) → List (MPParams R)
  | v :: e :: rest => v :: { e with upIndex := none, upAttr := none } :: rest
  | ps => ps

theorem numCells_of {c c' : Cochain R L} {n : Nat} (h : c.numCells = .ok (some n)) (hx : c'.x = c.x)
    (hn : c'.numCellsAttr = c.numCellsAttr) (hb : c'.boundaryIndex = c.boundaryIndex) :
    c'.numCells = .ok (some n) := by
  unfold Cochain.numCells at h ⊢
  rw [hx, hn, hb]
  cases h1 : c.numCellsAttr with
  | some m => rw [h1] at h; exact h
  | none =>
    rw [h1] at h
    cases h2 : c.x with
    | some m => rw [h2] at h; exact h
    | none =>
      rw [h2] at h
      cases h3 : c.boundaryIndex with
      | some m => rw [h3] at h; exact h
      | none =>
        rw [h3] at h
        dsimp only at h
        obtain ⟨_, -, h⟩ := bind_eq_ok.mp h
        simp at h

theorem setX_of {c c' d : Cochain R L} {x : Option (List R)} (h : c.setX x = .ok d) (hx : c'.x = c.x)
    (hn : c'.numCellsAttr = c.numCellsAttr) (hb : c'.boundaryIndex = c.boundaryIndex) :
    c'.setX x = .ok { c' with x := x } := by
  cases x with
  | none => rfl
  | some rows =>
    unfold Cochain.setX at h ⊢
    dsimp only at h ⊢
    obtain ⟨n, h1, h⟩ := bind_eq_ok.mp h
    obtain ⟨_, h2, -⟩ := bind_eq_ok.mp h
    have hn' : n = some rows.length := by
      rw [pyAssert_eq_ok] at h2
      simpa using h2
    rw [numCells_of (hn' ▸ h1) hx hn hb, ok_bind]
    simp [pyAssert]

theorem setX_eq {c d : Cochain R L} {x : Option (List R)} (h : c.setX x = .ok d) :
    d = { c with x := x } := by
  cases x with
  | none =>
    unfold Cochain.setX at h
    simpa using h.symm
  | some rows =>
    unfold Cochain.setX at h
    dsimp only at h
    obtain ⟨n, h1, h⟩ := bind_eq_ok.mp h
    obtain ⟨_, h2, h⟩ := bind_eq_ok.mp h
    simpa using h.symm

/-- Writing features keeps the relation. -/
theorem SameBelow.setXs {a b a' : Complex R L} (h : SameBelow a b) (hu : UpperOk b)
    {xs : List (Option (List R))} (hl : xs.length = min 1 a.dimension + 1)
    (hs : a.setXs xs = .ok a') :
    ∃ b', b.setXs xs = .ok b' ∧ SameBelow a' b' ∧ UpperOk b' := by
  have hdim := h.dim
  unfold Complex.setXs at hs ⊢
  obtain ⟨_, -, hs⟩ := bind_eq_ok.mp hs
  obtain ⟨cs, hcs, hs⟩ := bind_eq_ok.mp hs
  simp only [pure_eq_ok, ok_inj] at hs
  subst hs
  have hassert : pyAssert (decide (xs.length ≤ b.dimension + 1)) = .ok () := by
    rw [pyAssert_eq_ok]
    simp only [decide_eq_true_eq]
    omega
  rw [hassert, ok_bind]
  match xs, hl with
  | [], hl => simp at hl
  | [x0], _ =>
    cases ha : a.cochains with
    | nil => rw [ha] at hcs; simp [setXsLoop] at hcs
    | cons c cs' =>
      rw [ha] at hcs
      simp only [setXsLoop] at hcs
      obtain ⟨d, hd, hcs⟩ := bind_eq_ok.mp hcs
      simp only [ok_bind, pure_eq_ok, ok_inj] at hcs
      obtain ⟨c', hc', e1, e2, e3, e4, e5, e6⟩ := h.vertices c (by rw [ha]; rfl)
      cases hb : b.cochains with
      | nil => rw [hb] at hc'; simp at hc'
      | cons b0 bs =>
        rw [hb] at hc'
        have hc' : b0 = c' := by simpa using hc'
        subst hc'
        simp only [setXsLoop, setX_of hd e1 e5 e6, ok_bind, pure_eq_ok]
        have hde := setX_eq hd
        refine ⟨_, rfl, ⟨hdim, ?_, ?_, ?_⟩, ?_⟩
        · intro c1 hc1
          rw [← hcs] at hc1
          have : c1 = d := by simpa using hc1.symm
          subst this
          rw [hde]
          exact ⟨_, rfl, rfl, e2, e3, e4, e5, e6⟩
        · intro c1 hc1
          rw [← hcs] at hc1
          obtain ⟨c2, hc2, hh⟩ := h.edges c1 (by rw [ha]; exact hc1)
          rw [hb] at hc2
          exact ⟨c2, hc2, hh⟩
        · intro hc1
          rw [← hcs] at hc1
          have := h.noEdges (by rw [ha]; exact hc1)
          rw [hb] at this
          exact this
        · intro c1 c2 y h1 h2
          exact hu c1 c2 y (by rw [hb]; exact h1) (by rw [hb]; exact h2)
  | [x0, x1], _ =>
    cases ha : a.cochains with
    | nil => rw [ha] at hcs; simp [setXsLoop] at hcs
    | cons c cs' =>
      cases cs' with
      | nil =>
        rw [ha] at hcs
        simp only [setXsLoop] at hcs
        obtain ⟨d, hd, hcs⟩ := bind_eq_ok.mp hcs
        simp at hcs
      | cons e cs' =>
        rw [ha] at hcs
        simp only [setXsLoop] at hcs
        obtain ⟨d, hd, hcs⟩ := bind_eq_ok.mp hcs
        obtain ⟨es, hes, hcs⟩ := bind_eq_ok.mp hcs
        obtain ⟨de, hde, hes⟩ := bind_eq_ok.mp hes
        simp only [ok_bind, pure_eq_ok, ok_inj] at hes hcs
        subst hes
        obtain ⟨c', hc', e1, e2, e3, e4, e5, e6⟩ := h.vertices c (by rw [ha]; rfl)
        obtain ⟨f', hf', f1, f2, f3, f4⟩ := h.edges e (by rw [ha]; rfl)
        cases hb : b.cochains with
        | nil => rw [hb] at hc'; simp at hc'
        | cons b0 bs =>
          cases bs with
          | nil => rw [hb] at hf'; simp at hf'
          | cons b1 bs =>
            rw [hb] at hc' hf'
            have hc' : b0 = c' := by simpa using hc'
            subst hc'
            have hf' : b1 = f' := by simpa using hf'
            subst hf'
            simp only [setXsLoop, setX_of hd e1 e5 e6, setX_of hde f1 f3 f4, ok_bind, pure_eq_ok]
            have hd' := setX_eq hd
            have hde' := setX_eq hde
            refine ⟨_, rfl, ⟨hdim, ?_, ?_, ?_⟩, ?_⟩
            · intro c1 hc1
              rw [← hcs] at hc1
              have : c1 = d := by simpa using hc1.symm
              subst this
              rw [hd']
              exact ⟨_, rfl, rfl, e2, e3, e4, e5, e6⟩
            · intro c1 hc1
              rw [← hcs] at hc1
              have : c1 = de := by simpa using hc1.symm
              subst this
              rw [hde']
              exact ⟨_, rfl, rfl, f2, f3, f4⟩
            · intro hc1
              rw [← hcs] at hc1
              simp at hc1
            · intro c1 c2 y h1 h2
              have : c1 = { b1 with x := x1 } := by simpa using h1.symm
              subst this
              exact hu b1 c2 y (by rw [hb]; rfl) (by rw [hb]; exact h2)
  | _ :: _ :: _ :: _, hl => simp at hl; omega

theorem indexSelect_total {x : List R} {idx : List Nat} (h : ∀ i ∈ idx, i < x.length) :
    ∃ r, indexSelect x idx = .ok r := by
  cases idx with
  | nil => exact ⟨[], rfl⟩
  | cons i idx =>
    have hx : 0 < x.length := by have := h i (by simp); omega
    haveI : Inhabited R := ⟨x[0]⟩
    exact ⟨_, indexSelect_ok h⟩

/-- The parameters of the vertices agree. -/
theorem SameBelow.vertexParams {a b : Complex R L} (h : SameBelow a b) {p : MPParams R}
    (hp : a.getCochainParams 0 1 true false = .ok p) : b.getCochainParams 0 1 true false = .ok p := by
  unfold Complex.getCochainParams at hp ⊢
  cases h0 : a.cochains[0]? with
  | none => rw [h0] at hp; simp at hp
  | some c =>
    obtain ⟨c', hc', e1, e2, e3, e4, e5, e6⟩ := h.vertices c h0
    rw [h0] at hp
    rw [hc']
    dsimp only at hp ⊢
    have hup : upParams c' b.cochains[0 + 1]? 0 1 true = upParams c a.cochains[0 + 1]? 0 1 true := by
      unfold upParams
      rw [e2, e3]
      cases h1 : a.cochains[0 + 1]? with
      | none => rw [h.noEdges h1]
      | some e =>
        obtain ⟨e', he', f1, -⟩ := h.edges e h1
        rw [he']
        cases c.upperIndex with
        | none => rfl
        | some _ => dsimp only; rw [f1]
    have hdown : ∀ bx, downParams c' bx false = .ok (none, none) := fun bx => rfl
    have hdown' : ∀ bx, downParams c bx false = .ok (none, none) := fun bx => rfl
    rw [hup]
    rw [hdown'] at hp
    rw [hdown, e1]
    simp only [boundaryParams, e6, Complex.belowX] at hp ⊢
    exact hp

/-- The parameters agree but for the upper adjacency of the edges. -/
theorem SameBelow.params {a b : Complex R L} (h : SameBelow a b) (hu : UpperOk b)
    {ps : List (MPParams R)} (hp : a.getAllCochainParams 1 true false = .ok ps) :
    ps.length = min 1 a.dimension + 1 ∧
    ∃ ps', b.getAllCochainParams 1 true false = .ok ps' ∧ dropUp ps' = dropUp ps := by
  unfold Complex.getAllCochainParams at hp ⊢
  rw [h.dim]
  refine ⟨by rw [mapE_length hp, List.length_range], ?_⟩
  have hv : ∀ p, a.getCochainParams 0 1 true false = .ok p → b.getCochainParams 0 1 true false = .ok p :=
    fun p => h.vertexParams
  have he : ∀ p, a.getCochainParams 1 1 true false = .ok p →
      ∃ p', b.getCochainParams 1 1 true false = .ok p' ∧
        { p' with upIndex := none, upAttr := none } = { p with upIndex := none, upAttr := none } := by
    intro p hp
    unfold Complex.getCochainParams at hp ⊢
    cases h1 : a.cochains[1]? with
    | none => rw [h1] at hp; simp at hp
    | some c =>
      obtain ⟨c', hc', e1, e4, e5, e6⟩ := h.edges c h1
      rw [h1] at hp
      rw [hc']
      dsimp only at hp ⊢
      obtain ⟨up, -, hp⟩ := bind_eq_ok.mp hp
      obtain ⟨down, hd, hp⟩ := bind_eq_ok.mp hp
      have hd : (.ok (none, none) : Py _) = .ok down := hd
      rw [ok_inj] at hd
      subst hd
      have hup : ∃ up', upParams c' b.cochains[1 + 1]? 1 1 true = .ok up' := by
        unfold upParams
        cases hui : c'.upperIndex with
        | none => exact ⟨_, rfl⟩
        | some ui =>
          cases h2 : b.cochains[1 + 1]? with
          | none => exact ⟨_, rfl⟩
          | some c2 =>
            dsimp only
            cases hx : c2.x with
            | none => exact ⟨_, rfl⟩
            | some x =>
              obtain ⟨s, hs, hlt⟩ := hu c' c2 x hc' h2 (by rw [hui]; rfl) hx
              obtain ⟨r, hr⟩ := indexSelect_total hlt
              simp only [Bool.or_true, if_true, hs, indexSelectOpt, hr, ok_bind, pure_eq_ok]
              exact ⟨_, rfl⟩
      obtain ⟨up', hup'⟩ := hup
      have hdown : ∀ bx, downParams c' bx false = .ok (none, none) := fun bx => rfl
      have hbx : b.belowX 1 = a.belowX 1 := by
        unfold Complex.belowX
        cases h0 : a.cochains[0]? with
        | none =>
          have hlt := (List.getElem?_eq_some_iff.mp h1).1
          rw [List.getElem?_eq_none_iff] at h0
          omega
        | some v =>
          obtain ⟨v', hv', g1, -⟩ := h.vertices v h0
          simp only [hv', h0, Option.bind_some, g1]
      rw [hup', hdown]
      simp only [ok_bind, pure_eq_ok, ok_inj] at hp ⊢
      refine ⟨_, rfl, ?_⟩
      rw [← hp]
      simp only [e1, hbx, boundaryParams, e6]
  rcases Nat.lt_or_ge a.dimension 1 with hlt | hge
  · have h0 : min 1 a.dimension = 0 := by omega
    rw [h0] at hp ⊢
    have hp : mapE (fun dim => a.getCochainParams dim 1 true false) [0] = .ok ps := hp
    have hg : (List.range (0 + 1)) = [0] := rfl
    rw [hg]
    simp only [mapE, pure_eq_ok] at hp ⊢
    obtain ⟨p, hp0, hp⟩ := bind_eq_ok.mp hp
    rw [hv p hp0]
    simp only [ok_bind, ok_inj] at hp ⊢
    exact ⟨_, rfl, by rw [← hp]⟩
  · have h0 : min 1 a.dimension = 1 := by omega
    rw [h0] at hp ⊢
    have hp : mapE (fun dim => a.getCochainParams dim 1 true false) [0, 1] = .ok ps := hp
    have hg : (List.range (1 + 1)) = [0, 1] := rfl
    rw [hg]
    simp only [mapE, pure_eq_ok] at hp ⊢
    obtain ⟨p, hp0, hp⟩ := bind_eq_ok.mp hp
    obtain ⟨r, hr, hp⟩ := bind_eq_ok.mp hp
    obtain ⟨q, hq, hr⟩ := bind_eq_ok.mp hr
    obtain ⟨q', hq', hqq⟩ := he q hq
    rw [hv p hp0, hq']
    simp only [ok_bind, ok_inj] at hp hr ⊢
    refine ⟨_, rfl, ?_⟩
    rw [← hp, ← hr]
    simp only [dropUp, hqq]

/-- The level does not look at the features of shared cells when there is no upper adjacency. -/
def IgnoresAttr {Lv : Type} (level : Lv → MPParams R → Py (List R)) : Prop :=
  ∀ l p, p.upIndex = none → level l p = level l { p with upAttr := none }

theorem sparse_ignoresAttr [Field 𝕜] [AddCommMonoid R] [Module 𝕜 R] :
    IgnoresAttr (SparseLevel.forward (𝕜 := 𝕜) (R := R)) := by
  intro l p hp
  unfold SparseLevel.forward propagate
  rw [hp]
  rfl

theorem pp_ignoresAttr [Field 𝕜] [AddCommMonoid R] [Module 𝕜 R] :
    IgnoresAttr (PPLevel.forward (𝕜 := 𝕜) (R := R)) := by
  intro l p hp
  unfold PPLevel.forward propagate
  rw [hp]
  rfl

theorem convForward_dropRings {Lv : Type} {level : Lv → MPParams R → Py (List R)}
    (hl : IgnoresAttr level) (conv : List Lv) (ps : List (MPParams R)) :
    convForward level conv (dropRings ps) = convForward level conv (dropUp ps) := by
  match ps with
  | [] => rfl
  | [_] => rfl
  | v :: e :: rest =>
    unfold dropRings dropUp convForward
    cases conv with
    | nil => rfl
    | cons l0 conv =>
      cases conv with
      | nil => rfl
      | cons l1 conv =>
        simp only [convLoop]
        rw [hl l1 { e with upIndex := none } rfl]
        rfl

theorem init_dropRings (l : EmbedInit R) (ps : List (MPParams R)) :
    l.forward (dropRings ps) = l.forward (dropUp ps) := by
  match ps with
  | [] => rfl
  | [_] => rfl
  | _ :: _ :: _ => rfl

theorem init_dropUp (l : EmbedInit R) (ps : List (MPParams R)) :
    l.forward ps = l.forward (dropUp ps) := by
  match ps with
  | [] => rfl
  | [_] => rfl
  | _ :: _ :: _ => rfl

theorem init_length {l : EmbedInit R} {ps : List (MPParams R)} {xs : List (List R)}
    (h : l.forward ps = .ok xs) : xs.length = ps.length := by
  match ps with
  | [] => simp [EmbedInit.forward] at h
  | v :: rest =>
    unfold EmbedInit.forward at h
    dsimp only at h
    split at h
    · simp at h
    · cases hx : v.x with
      | none => rw [hx] at h; simp at h
      | some x =>
        rw [hx] at h
        match rest with
        | [] =>
          simp only [ok_inj] at h
          rw [← h]; rfl
        | [e] =>
          dsimp only at h
          obtain ⟨_, -, h⟩ := bind_eq_ok.mp h
          obtain ⟨_, -, h⟩ := bind_eq_ok.mp h
          simp only [pure_eq_ok, ok_inj] at h
          rw [← h]; rfl
        | [e, c] =>
          dsimp only at h
          obtain ⟨_, -, h⟩ := bind_eq_ok.mp h
          obtain ⟨_, -, h⟩ := bind_eq_ok.mp h
          obtain ⟨_, -, h⟩ := bind_eq_ok.mp h
          simp only [pure_eq_ok, ok_inj] at h
          rw [← h]; rfl
        | _ :: _ :: _ :: _ => rename_i hh; simp at hh

theorem dropRings_length (ps : List (MPParams R)) : (dropRings ps).length = ps.length := by
  match ps with
  | [] => rfl
  | [_] => rfl
  | _ :: _ :: _ => rfl

theorem convForward_length {Lv : Type} {level : Lv → MPParams R → Py (List R)} {conv : List Lv}
    {ps : List (MPParams R)} {xs : List (List R)} (h : convForward level conv ps = .ok xs) :
    xs.length = ps.length := by
  unfold convForward at h
  obtain ⟨_, -, h1⟩ := bind_eq_ok.mp h
  clear h
  rename' h1 => h
  induction ps generalizing conv xs with
  | nil =>
    cases conv <;> (simp only [convLoop, ok_inj] at h; rw [← h]; rfl)
  | cons p ps ih =>
    cases conv with
    | nil => simp [convLoop] at h
    | cons l conv =>
      simp only [convLoop] at h
      obtain ⟨_, -, h⟩ := bind_eq_ok.mp h
      obtain ⟨rest, h2, h⟩ := bind_eq_ok.mp h
      simp only [pure_eq_ok, ok_inj] at h
      rw [← h, List.length_cons, List.length_cons, ih h2]

theorem setXs_dimension {a a' : Complex R L} {xs : List (Option (List R))}
    (h : a.setXs xs = .ok a') : a'.dimension = a.dimension := by
  unfold Complex.setXs at h
  obtain ⟨_, -, h⟩ := bind_eq_ok.mp h
  obtain ⟨_, -, h⟩ := bind_eq_ok.mp h
  simp only [pure_eq_ok, ok_inj] at h
  rw [← h]

/-- The parameters the no-rings network uses. -/
def noRingParams (data : Complex R L) : Py (List (MPParams R)) := do
  let ps ← data.getAllCochainParams 1 true false
  return dropRings ps

/-- The layers of the no-rings network. -/
theorem SameBelow.run {Lv : Type} {level : Lv → MPParams R → Py (List R)} (hl : IgnoresAttr level)
    {a b : Complex R L} (h : SameBelow a b) (hu : UpperOk b) {convs : List (List Lv)}
    {a' : Complex R L} {outs : List (List (List R))}
    (hr : runConvs noRingParams (convForward level) a convs = .ok (a', outs)) :
    ∃ b', runConvs noRingParams (convForward level) b convs = .ok (b', outs) ∧ SameBelow a' b' := by
  induction convs generalizing a b outs with
  | nil =>
    simp only [runConvs, ok_inj, Prod.mk.injEq] at hr
    obtain ⟨rfl, rfl⟩ := hr
    exact ⟨b, rfl, h⟩
  | cons conv convs ih =>
    simp only [runConvs] at hr
    obtain ⟨ps0, hps, hr⟩ := bind_eq_ok.mp hr
    obtain ⟨xs, hxs, hr⟩ := bind_eq_ok.mp hr
    obtain ⟨a1, ha1, hr⟩ := bind_eq_ok.mp hr
    obtain ⟨out, hout, hr⟩ := bind_eq_ok.mp hr
    simp only [pure_eq_ok, ok_inj, Prod.mk.injEq] at hr
    have hps1 : (a.getAllCochainParams 1 true false >>= fun ps => pure (dropRings ps)) = .ok ps0 := hps
    obtain ⟨ps, hpsa, hps0⟩ := bind_eq_ok.mp hps1
    simp only [pure_eq_ok, ok_inj] at hps0
    rw [← hps0] at hxs
    obtain ⟨hlen, ps', hps', hdrop⟩ := h.params hu hpsa
    have hxlen : (xs.map some).length = min 1 a.dimension + 1 := by
      rw [List.length_map, convForward_length hxs, dropRings_length, hlen]
    rw [convForward_dropRings hl, ← hdrop, ← convForward_dropRings hl] at hxs
    obtain ⟨b1, hb1, h1, hu1⟩ := h.setXs hu hxlen ha1
    obtain ⟨b', hb', hbb⟩ := ih (outs := out.2) h1 hu1 (by rw [hout, ← hr.1])
    refine ⟨b', ?_, hbb⟩
    have hpb : noRingParams b = .ok (dropRings ps') := by
      unfold noRingParams
      rw [hps', ok_bind, pure_eq_ok]
    simp only [runConvs, hpb, ok_bind, pure_eq_ok, hxs, hb1, hb', ← hr.2]

theorem SameBelow.checkNodes {a b : Complex R L} (h : SameBelow a b) (hc : checkNodes a = .ok ()) :
    checkNodes b = .ok () := by
  unfold Verif.checkNodes at hc ⊢
  cases h0 : a.cochains[0]? with
  | none => rw [h0] at hc; simp at hc
  | some c =>
    obtain ⟨c', hc', e1, -⟩ := h.vertices c h0
    rw [h0] at hc
    rw [hc']
    dsimp only at hc ⊢
    rw [e1]
    exact hc

theorem SameBelow.poolComplex [Field 𝕜] [AddCommMonoid R] [Module 𝕜 R] {a b : Complex R L}
    (h : SameBelow a b) {pool : Pooling} {xs p : List (List R)}
    (hp : poolComplex 𝕜 pool a 1 xs = .ok p) : poolComplex 𝕜 pool b 1 xs = .ok p := by
  unfold Verif.poolComplex at hp ⊢
  obtain ⟨n, hn, hp⟩ := bind_eq_ok.mp hp
  have hbs : batchSize b = .ok n := by
    unfold batchSize at hn ⊢
    cases h0 : a.cochains[0]? with
    | none => rw [h0] at hn; simp at hn
    | some c =>
      obtain ⟨c', hc', -, -, -, e4, -⟩ := h.vertices c h0
      rw [h0] at hn
      rw [hc']
      dsimp only at hn ⊢
      rw [e4]
      exact hn
  rw [hbs, ok_bind]
  split at hp
  · simp at hp
  · rename_i hne
    rw [if_neg hne]
    obtain ⟨pooled, hpo, hp⟩ := bind_eq_ok.mp hp
    have : mapE (poolDim 𝕜 pool b 1 n) xs.zipIdx = .ok pooled := by
      rw [mapE_eq_ok_iff] at hpo ⊢
      refine hpo.imp ?_
      intro xi r hr
      unfold poolDim at hr ⊢
      cases hd : a.cochains[xi.2]? with
      | none => rw [hd] at hr; simp at hr
      | some c =>
        rw [hd] at hr
        dsimp only at hr
        cases hb : c.batch with
        | none => rw [hb] at hr; simp at hr
        | some bt =>
          rw [hb] at hr
          dsimp only at hr
          have hle : xi.2 ≤ 1 := by
            by_contra hgt
            obtain ⟨_, -, hr⟩ := bind_eq_ok.mp hr
            rw [if_neg hgt] at hr
            simp at hr
          have hc' : ∃ c', b.cochains[xi.2]? = some c' ∧ c'.batch = c.batch := by
            rcases Nat.le_one_iff_eq_zero_or_eq_one.mp hle with h0 | h1
            · rw [h0] at hd ⊢
              obtain ⟨c', hc', -, -, -, e4, -⟩ := h.vertices c hd
              exact ⟨c', hc', e4⟩
            · rw [h1] at hd ⊢
              obtain ⟨c', hc', -, e4, -⟩ := h.edges c hd
              exact ⟨c', hc', e4⟩
          obtain ⟨c', hc', e4⟩ := hc'
          rw [hc']
          dsimp only
          rw [e4, hb]
          exact hr
    rw [this, ok_bind]
    exact hp

/-- The no-rings network only reads what `SameBelow` keeps. -/
theorem SameBelow.forwardNoRings [Field 𝕜] [AddCommMonoid R] [Module 𝕜 R] {Lv : Type}
    {level : Lv → MPParams R → Py (List R)} (hl : IgnoresAttr level) {a b : Complex R L}
    (h : SameBelow a b) (hu : UpperOk b) (net : EmbedNet R Lv) {p : List R}
    (hp : net.forwardNoRings 𝕜 level a = .ok p) : net.forwardNoRings 𝕜 level b = .ok p := by
  unfold EmbedNet.forwardNoRings at hp ⊢
  obtain ⟨u, hc, hp⟩ := bind_eq_ok.mp hp
  obtain ⟨ps, hps, hp⟩ := bind_eq_ok.mp hp
  obtain ⟨xs, hxs, hp⟩ := bind_eq_ok.mp hp
  obtain ⟨a1, ha1, hp⟩ := bind_eq_ok.mp hp
  obtain ⟨out, hout, hp⟩ := bind_eq_ok.mp hp
  obtain ⟨hlen, ps', hps', hdrop⟩ := h.params hu hps
  have hxlen : (xs.map some).length = min 1 a.dimension + 1 := by
    rw [List.length_map, init_length hxs, dropRings_length, hlen]
  rw [init_dropRings, ← hdrop, ← init_dropRings] at hxs
  obtain ⟨b1, hb1, h1, hu1⟩ := h.setXs hu hxlen ha1
  obtain ⟨b', hb', hbb⟩ := h1.run hl hu1 (outs := out.2) (a' := out.1) hout
  have hb'' := hb'
  unfold noRingParams at hb''
  rw [h.checkNodes hc, ok_bind, hps', ok_bind, hxs, ok_bind, hb1, ok_bind, hb'', ok_bind]
  unfold SparseNet.readoutPart at hp ⊢
  dsimp only at hp ⊢
  obtain ⟨ys, hys, hp⟩ := bind_eq_ok.mp hp
  obtain ⟨pool, hpool, hp⟩ := bind_eq_ok.mp hp
  obtain ⟨pooled, hpooled, hp⟩ := bind_eq_ok.mp hp
  rw [hys, ok_bind, hpool, ok_bind, hbb.poolComplex hpooled, ok_bind]
  exact hp

/-- So does `EmbedGIN`. -/
theorem SameBelow.forwardGIN [Field 𝕜] [AddCommMonoid R] [Module 𝕜 R] {a b : Complex R L}
    (h : SameBelow a b) (hu : UpperOk b) (net : EmbedGIN 𝕜 R) {p : List R}
    (hp : net.forward a = .ok p) : net.forward b = .ok p := by
  unfold EmbedGIN.forward at hp ⊢
  obtain ⟨u, hc, hp⟩ := bind_eq_ok.mp hp
  obtain ⟨ps, hps, hp⟩ := bind_eq_ok.mp hp
  obtain ⟨xs, hxs, hp⟩ := bind_eq_ok.mp hp
  obtain ⟨a1, ha1, hp⟩ := bind_eq_ok.mp hp
  obtain ⟨q, hq, hp⟩ := bind_eq_ok.mp hp
  obtain ⟨e, he, hp⟩ := bind_eq_ok.mp hp
  obtain ⟨x, hx, hp⟩ := bind_eq_ok.mp hp
  obtain ⟨n, hn, hp⟩ := bind_eq_ok.mp hp
  obtain ⟨pool, hpool, hp⟩ := bind_eq_ok.mp hp
  obtain ⟨pooled, hpooled, hp⟩ := bind_eq_ok.mp hp
  obtain ⟨hlen, ps', hps', hdrop⟩ := h.params hu hps
  have hxlen : (xs.map some).length = min 1 a.dimension + 1 := by
    rw [List.length_map, init_length hxs, hlen]
  rw [init_dropUp, ← hdrop, ← init_dropUp] at hxs
  obtain ⟨b1, hb1, h1, -⟩ := h.setXs hu hxlen ha1
  have hq' : b1.getCochainParams 0 0 true false = .ok q := h1.vertexParams hq
  have hpool' : poolDim 𝕜 pool b1 0 n (x, 0) = .ok pooled ∧ batchSize b1 = .ok n := by
    unfold poolDim batchSize at *
    dsimp only at hpooled ⊢
    cases h0 : a1.cochains[0]? with
    | none => rw [h0] at hn; simp at hn
    | some c =>
      obtain ⟨c', hc', -, -, -, e4, -⟩ := h1.vertices c h0
      rw [h0] at hn hpooled
      rw [hc']
      dsimp only at hn hpooled ⊢
      rw [e4]
      exact ⟨hpooled, hn⟩
  rw [h.checkNodes hc, ok_bind, hps', ok_bind, hxs, ok_bind, hb1, ok_bind, hq', ok_bind, he, ok_bind,
    hx, ok_bind, hpool'.2, ok_bind, hpool, ok_bind, hpool'.1, ok_bind]
  exact hp

/-! ### Batches of complexes with the same vertices and edges -/

theorem unionOf_congr_map {C A : Type} {get : C → Option (List A)} {place place' : Nat → A → A}
    {cs cs' : List C} (hg : cs'.map get = cs.map get) (hp : ∀ i, place' i = place i) :
    unionOf get place' cs' = unionOf get place cs := by
  have hpl : place' = place := funext hp
  subst hpl
  unfold unionOf
  have h1 : (∃ c ∈ cs', (get c).isSome) ↔ ∃ c ∈ cs, (get c).isSome := by
    have : ∀ l : List C, (∃ c ∈ l, (get c).isSome) ↔ ∃ o ∈ l.map get, o.isSome := by
      intro l; simp
    rw [this, this, hg]
  have h2 : (cs'.zipIdx.flatMap fun ci => ((get ci.1).getD []).map (place' ci.2)) =
      cs.zipIdx.flatMap fun ci => ((get ci.1).getD []).map (place' ci.2) := by
    have : ∀ l : List C, (l.zipIdx.flatMap fun ci => ((get ci.1).getD []).map (place' ci.2)) =
        (l.map get).zipIdx.flatMap fun oi => (oi.1.getD []).map (place' oi.2) := by
      intro l
      rw [List.zipIdx_map, List.flatMap_map]
      rfl
    rw [this, this, hg]
  simp only [h1, h2]

theorem before_congr_map {C : Type} {count : C → Nat} {cs cs' : List C} (h : cs'.map count = cs.map count)
    (i : Nat) : before count cs' i = before count cs i := by
  unfold before
  rw [List.map_take, List.map_take, h]

theorem noUpper_numCellsAttr {c c' : Cochain R L} (h : c'.noUpper = c.noUpper) : c'.numCellsAttr = c.numCellsAttr := by
  have := congrArg Cochain.numCellsAttr h
  exact this

theorem noUpper_x {c c' : Cochain R L} (h : c'.noUpper = c.noUpper) : c'.x = c.x := by
  have := congrArg Cochain.x h
  exact this

theorem noUpper_boundaryIndex {c c' : Cochain R L} (h : c'.noUpper = c.noUpper) : c'.boundaryIndex = c.boundaryIndex := by
  have := congrArg Cochain.boundaryIndex h
  exact this

theorem noUpper_lowerIndex {c c' : Cochain R L} (h : c'.noUpper = c.noUpper) : c'.lowerIndex = c.lowerIndex := by
  have := congrArg Cochain.lowerIndex h
  exact this

theorem noUpper_dim {c c' : Cochain R L} (h : c'.noUpper = c.noUpper) : c'.dim = c.dim := by
  have := congrArg Cochain.dim h
  exact this

theorem noUpper_numCellsDownAttr {c c' : Cochain R L} (h : c'.noUpper = c.noUpper) : c'.numCellsDownAttr = c.numCellsDownAttr := by
  have := congrArg Cochain.numCellsDownAttr h
  exact this

theorem count_noUpper {c c' : Cochain R L} (h : c'.noUpper = c.noUpper) : c'.count = c.count := by
  have h1 : c'.numCellsAttr = c.numCellsAttr := noUpper_numCellsAttr h
  have h2 : c'.x = c.x := noUpper_x h
  have h3 : c'.boundaryIndex = c.boundaryIndex := noUpper_boundaryIndex h
  have h4 : c'.lowerIndex = c.lowerIndex := noUpper_lowerIndex h
  unfold Cochain.count Cochain.numCells
  rw [h1, h2, h3, h4]
  cases c.numCellsAttr with
  | some _ => rfl
  | none =>
    cases c.x with
    | some _ => rfl
    | none =>
      cases c.boundaryIndex with
      | some _ => rfl
      | none =>
        dsimp only
        cases c.upperIndex <;> cases c'.upperIndex <;> cases c.lowerIndex <;> rfl

theorem countDown_noUpper {c c' : Cochain R L} (h : c'.noUpper = c.noUpper) :
    c'.countDown = c.countDown := by
  have h1 : c'.numCellsDown = c.numCellsDown := by
    unfold Cochain.numCellsDown
    rw [show c'.dim = c.dim from noUpper_dim h,
      show c'.numCellsDownAttr = c.numCellsDownAttr from noUpper_numCellsDownAttr h,
      show c'.lowerIndex = c.lowerIndex from noUpper_lowerIndex h]
  unfold Cochain.countDown
  rw [h1]

theorem numCells_noUpper {c c' : Cochain R L} (h : c'.noUpper = c.noUpper) {n n' : Option Nat}
    (hn : c.numCells = .ok n) (hn' : c'.numCells = .ok n') : n' = n := by
  have h1 : c'.numCellsAttr = c.numCellsAttr := noUpper_numCellsAttr h
  have h2 : c'.x = c.x := noUpper_x h
  have h3 : c'.boundaryIndex = c.boundaryIndex := noUpper_boundaryIndex h
  unfold Cochain.numCells at hn hn'
  rw [h1, h2, h3] at hn'
  cases h4 : c.numCellsAttr with
  | some _ => rw [h4] at hn hn'; simp at hn hn'; rw [← hn, ← hn']
  | none =>
    rw [h4] at hn hn'
    cases h5 : c.x with
    | some _ => rw [h5] at hn hn'; simp at hn hn'; rw [← hn, ← hn']
    | none =>
      rw [h5] at hn hn'
      cases h6 : c.boundaryIndex with
      | some _ =>
        rw [h6] at hn hn'
        dsimp only at hn hn'
        rw [hn] at hn'
        exact (ok_inj.mp hn').symm
      | none =>
        rw [h6] at hn hn'
        dsimp only at hn hn'
        obtain ⟨_, -, hn⟩ := bind_eq_ok.mp hn
        obtain ⟨_, -, hn'⟩ := bind_eq_ok.mp hn'
        simp only [pure_eq_ok, ok_inj] at hn hn'
        rw [← hn, ← hn']

theorem batchLoop_noUpper {cs cs' : List (Cochain R L)}
    (h : List.Forall₂ (fun c c' => c'.noUpper = c.noUpper) cs cs') {i l : Nat}
    {r r' : List (List Nat) × List Nat} (hr : batchLoop i l cs = .ok r)
    (hr' : batchLoop i l cs' = .ok r') : r' = r := by
  induction h generalizing i l r r' with
  | nil =>
    simp only [batchLoop, ok_inj] at hr hr'
    rw [← hr, ← hr']
  | @cons c c' cs cs' hcc _ ih =>
    simp only [batchLoop] at hr hr'
    obtain ⟨n, hn, hr⟩ := bind_eq_ok.mp hr
    obtain ⟨n', hn', hr'⟩ := bind_eq_ok.mp hr'
    have := numCells_noUpper hcc hn hn'
    subst this
    cases n' with
    | none => exact ih hr hr'
    | some n =>
      dsimp only at hr hr'
      obtain ⟨s, hs, hr⟩ := bind_eq_ok.mp hr
      obtain ⟨s', hs', hr'⟩ := bind_eq_ok.mp hr'
      have := ih hs hs'
      subst this
      simp only [pure_eq_ok, ok_inj] at hr hr'
      rw [← hr, ← hr']

theorem map_noUpper {A : Type} {cs cs' : List (Cochain R L)}
    (h : List.Forall₂ (fun c c' => c'.noUpper = c.noUpper) cs cs') {f : Cochain R L → A}
    (hf : ∀ {c c' : Cochain R L}, c'.noUpper = c.noUpper → f c' = f c) : cs'.map f = cs.map f := by
  induction h with
  | nil => rfl
  | cons hcc _ ih => rw [List.map_cons, List.map_cons, hf hcc, ih]

theorem batch_noUpper {cs cs' : List (Cochain R L)}
    (h : List.Forall₂ (fun c c' => c'.noUpper = c.noUpper) cs cs') {b b' : Cochain R L}
    (hb : fromCochainList cs = .ok b) (hb' : fromCochainList cs' = .ok b') :
    b'.x = b.x ∧ b'.batch = b.batch ∧ b'.numCellsAttr = b.numCellsAttr ∧
      b'.boundaryIndex = b.boundaryIndex := by
  have f := fromCochainList_inv hb
  have f' := fromCochainList_inv hb'
  refine ⟨?_, ?_, ?_, ?_⟩
  · rw [f.x, f'.x]
    exact unionOf_congr_map (map_noUpper h fun hc => noUpper_x hc) fun _ => rfl
  · obtain ⟨r, hr, hbt, -⟩ := f.segs
    obtain ⟨r', hr', hbt', -⟩ := f'.segs
    rw [hbt, hbt', batchLoop_noUpper h hr hr']
  · rw [f.explicit.1, f'.explicit.1]
  · rw [f.boundary, f'.boundary]
    refine unionOf_congr_map (map_noUpper h fun hc => noUpper_boundaryIndex hc) fun i => ?_
    rw [before_congr_map (map_noUpper h countDown_noUpper), before_congr_map (map_noUpper h count_noUpper)]

theorem SameGraph.orEmpty_zero {a b : Complex R L} (h : SameGraph a b) : orEmpty 0 b = orEmpty 0 a := by
  unfold orEmpty
  rw [h.vertices]

theorem SameGraph.orEmpty_one {a b : Complex R L} (h : SameGraph a b) :
    (orEmpty 1 b).noUpper = (orEmpty 1 a).noUpper := by
  have he := h.edges
  cases ha : a.cochains[1]? with
  | none =>
    rw [ha] at he
    have hb : b.cochains[1]? = none := by simpa using he
    unfold orEmpty
    rw [ha, hb]
    dsimp only
    rw [h.vertices]
  | some c =>
    rw [ha] at he
    obtain ⟨c', hc', hcc⟩ : ∃ c', b.cochains[1]? = some c' ∧ c'.noUpper = c.noUpper := by
      simpa using he
    rw [orEmpty_of_some ha, orEmpty_of_some hc']
    exact hcc

theorem max_min_one {l l' : List Nat} (h : List.Forall₂ (fun a b => min 1 b = min 1 a) l l') {m m' : Nat}
    (hm : l.max? = some m) (hm' : l'.max? = some m') : min 1 m' = min 1 m := by
  rw [List.max?_eq_some_iff] at hm hm'
  have key : ∀ {l l' : List Nat}, List.Forall₂ (fun a b => min 1 b = min 1 a) l l' →
      ∀ m ∈ l, ∃ m' ∈ l', min 1 m' = min 1 m := by
    intro l l' h
    induction h with
    | nil => simp
    | cons hab _ ih =>
      intro m hm
      rcases List.mem_cons.mp hm with rfl | hm
      · exact ⟨_, by simp, hab⟩
      · obtain ⟨m', hm', e⟩ := ih m hm
        exact ⟨m', by simp [hm'], e⟩
  obtain ⟨x, hx, ex⟩ := key h m hm.1
  obtain ⟨y, hy, ey⟩ := key (h.flip.imp fun _ _ e => e.symm) m' hm'.1
  have := hm.2 y hy
  have := hm'.2 x hx
  omega

/-- Batches of complexes with the same vertices and edges agree in what the no-rings network reads. -/
theorem sameBelow_batch {cs cs' : List (Complex R L)} (h : List.Forall₂ SameGraph cs cs') {m m' : Nat}
    (hm : 1 ≤ m) (hm' : 1 ≤ m') {B B' : Complex R L} (hB : fromComplexList cs m = .ok B)
    (hB' : fromComplexList cs' m' = .ok B') : SameBelow B B' := by
  have f := fromComplexList_inv hB
  have f' := fromComplexList_inv hB'
  have hdim : min 1 B'.dimension = min 1 B.dimension := by
    obtain ⟨k, hk, e⟩ := f.dimension
    obtain ⟨k', hk', e'⟩ := f'.dimension
    have := max_min_one (l := cs.map Complex.dimension) (l' := cs'.map Complex.dimension)
      (by rw [List.forall₂_map_left_iff, List.forall₂_map_right_iff]; exact h.imp fun _ _ e => e.dim)
      hk hk'
    omega
  have h0 : cs'.map (orEmpty 0) = cs.map (orEmpty 0) := by
    clear hB hB' f f'
    induction h with
    | nil => rfl
    | cons e _ ih => rw [List.map_cons, List.map_cons, e.orEmpty_zero, ih]
  have h1 : List.Forall₂ (fun c c' => c'.noUpper = c.noUpper) (cs.map (orEmpty 1)) (cs'.map (orEmpty 1)) := by
    rw [List.forall₂_map_left_iff, List.forall₂_map_right_iff]
    exact h.imp fun _ _ e => e.orEmpty_one
  have hl := f.coherent.len
  have hl' := f'.coherent.len
  refine ⟨hdim, ?_, ?_, ?_⟩
  · intro c hc
    obtain ⟨b0, u, l, hb0, rfl⟩ := f.cochain 0 c hc
    have hlt : 0 < B'.cochains.length := by omega
    obtain ⟨b0', u', l', hb0', e⟩ := f'.cochain 0 _ (List.getElem?_eq_getElem hlt)
    rw [h0, hb0, ok_inj] at hb0'
    subst hb0'
    refine ⟨_, List.getElem?_eq_getElem hlt, ?_⟩
    rw [e]
    exact ⟨rfl, rfl, rfl, rfl, rfl, rfl⟩
  · intro c hc
    obtain ⟨b0, u, l, hb0, rfl⟩ := f.cochain 1 c hc
    have hlt : 1 < B'.cochains.length := by
      have := (List.getElem?_eq_some_iff.mp hc).1
      omega
    obtain ⟨b0', u', l', hb0', e⟩ := f'.cochain 1 _ (List.getElem?_eq_getElem hlt)
    refine ⟨_, List.getElem?_eq_getElem hlt, ?_⟩
    rw [e]
    have hh := batch_noUpper h1 hb0 hb0'
    exact hh
  · intro hn
    rw [List.getElem?_eq_none_iff] at hn ⊢
    omega

/-- When all complexes of a batch are ready, the features of the 2-cells can be looked up. -/
theorem upperOk_of_ready {cs : List (Complex R L)} {m : Nat} {B : Complex R L}
    (hB : fromComplexList cs m = .ok B) (hr : ∀ c ∈ cs, c.Ready) : UpperOk B := by
  intro c c2 x hc hc2 hui hx
  have hR := batch_runs hB hr
  have hboth := hR.upBoth 1 c hc
  rw [hui] at hboth
  obtain ⟨s, hs⟩ := Option.isSome_iff_exists.mp hboth.symm
  refine ⟨s, hs, ?_⟩
  intro i hi
  have hup : B.view.up 1 = (c.upperIndex.getD []).zip s := by
    unfold Complex.view
    dsimp only
    rw [hc2, attr_of hc, attr_of hc, hs]
    rfl
  have hX : B.view.X 2 = x := by
    unfold Complex.view
    dsimp only
    rw [attr_of hc2, hx]
    rfl
  have hlen := hR.upLen 1 c hc
  rw [hs] at hlen
  obtain ⟨k, hk, hki⟩ := List.mem_iff_getElem.mp hi
  have hk' : k < (c.upperIndex.getD []).length := by
    rw [← hlen]; exact hk
  have hmem : ((c.upperIndex.getD [])[k], i) ∈ B.view.up 1 := by
    rw [hup, ← hki, List.mem_iff_getElem]
    exact ⟨k, by rw [List.length_zip]; omega, by rw [List.getElem_zip]⟩
  have := (hR.range.up 1 _ hmem).2.2
  rw [hX] at this
  exact this

/-- When no complex of a batch has features on 2-cells, nothing is looked up. -/
theorem upperOk_of_bare {cs : List (Complex R L)} {m : Nat} {B : Complex R L}
    (hB : fromComplexList cs m = .ok B) (hr : ∀ c ∈ cs, c.attr 2 Cochain.x = none) : UpperOk B := by
  intro c c2 x hc hc2 hui hx
  obtain ⟨b0, u, l, hb0, rfl⟩ := (fromComplexList_inv hB).cochain 2 c2 hc2
  have hx : b0.x = some x := hx
  rw [(fromCochainList_inv hb0).x] at hx
  unfold unionOf at hx
  rw [if_neg] at hx
  · simp at hx
  · rintro ⟨d, hd, hs⟩
    obtain ⟨comp, hcomp, rfl⟩ := List.mem_map.mp hd
    have h2 := hr comp hcomp
    cases ho : comp.cochains[2]? with
    | none =>
      obtain ⟨n, hn⟩ := orEmpty_of_none ho
      rw [hn] at hs
      simp at hs
    | some c =>
      rw [attr_of ho] at h2
      rw [orEmpty_of_some ho, h2] at hs
      simp at hs

/-! ### The initial reduction -/

section
variable [AddCommMonoid R]

/-- The sum over the boundary of a cell. -/
def bndTotal (bi : List (Nat × Nat)) (rows : List R) (c : Nat) : R :=
  (((bi.filter fun p => p.2 == c).map Prod.fst).map (rowOf rows)).sum

theorem zip_filter_fst {A : Type} (l : List (Nat × Nat)) (f : Nat → A) (c : Nat) :
    ((((l.map Prod.snd).zip ((l.map Prod.fst).map f)).filter fun p => p.1 == c).map Prod.snd) =
      ((l.filter fun p => p.2 == c).map Prod.fst).map f := by
  induction l with
  | nil => rfl
  | cons p l ih =>
    simp only [List.map_cons, List.zip_cons_cons, List.filter_cons]
    by_cases h : p.2 == c
    · simp only [h, if_true, List.map_cons, ih]
    · simp only [h, Bool.false_eq_true, if_false, ih]

theorem initReduce_ok {bi : List (Nat × Nat)} {rows : List R} (hne : bi ≠ [])
    (hr : ∀ p ∈ bi, p.1 < rows.length) :
    ∃ n, initReduce aggAdd rows (some bi) = .ok ((List.range n).map (bndTotal bi rows)) ∧
      (∀ p ∈ bi, p.2 < n) := by
  have hmax : ∃ m, (bi.map Prod.snd).max? = some m := by
    cases h : (bi.map Prod.snd).max? with
    | none =>
      rw [List.max?_eq_none_iff] at h
      exact absurd (List.map_eq_nil_iff.mp h) hne
    | some m => exact ⟨m, rfl⟩
  obtain ⟨m, hm⟩ := hmax
  have hle : ∀ p ∈ bi, p.2 < m + 1 := by
    intro p hp
    have := (List.max?_eq_some_iff.mp hm).2 p.2 (List.mem_map.mpr ⟨p, hp, rfl⟩)
    omega
  refine ⟨m + 1, ?_, hle⟩
  unfold initReduce
  dsimp only
  rw [indexSelect_rowOf (by
    intro i hi
    obtain ⟨p, hp, rfl⟩ := List.mem_map.mp hi
    exact hr p hp), ok_bind]
  unfold Cochain.maxPlusOne
  rw [hm]
  dsimp only
  rw [ok_bind, scatter_ok (by simp) (by
    intro i hi
    obtain ⟨p, hp, rfl⟩ := List.mem_map.mp hi
    exact hle p hp)]
  congr 1
  apply List.map_congr_left
  intro c _
  rw [zip_filter_fst]
  rfl

theorem rowOf_range {n c : Nat} (f : Nat → R) (h : c < n) : rowOf ((List.range n).map f) c = f c := by
  unfold rowOf
  simp [h]

theorem bndTotal_ends {b1 : List (Nat × Nat)} {rows : List R} {e : Nat} {uv : Nat × Nat}
    (h : HasEnds b1 e uv) : bndTotal b1 rows e = rowOf rows uv.1 + rowOf rows uv.2 := by
  unfold bndTotal
  rw [(h.map _).sum_eq]
  simp

theorem sum_zip_add (f : Nat → R) : ∀ (l l' : List Nat), l.length = l'.length →
    ((l.zip l').map fun p => f p.1 + f p.2).sum = (l.map f).sum + (l'.map f).sum
  | [], [], _ => by simp
  | a :: l, b :: l', h => by
    have ih := sum_zip_add f l l' (by simpa using h)
    simp only [List.zip_cons_cons, List.map_cons, List.sum_cons, ih]
    exact add_add_add_comm _ _ _ _
  | [], _ :: _, h => by simp at h
  | _ :: _, [], h => by simp at h

theorem cycle_total {b1 b2 : List (Nat × Nat)} {rows : List R} {n r : Nat} {cyc : List Nat}
    (h : IsCycle b1 b2 r cyc) (hn : ∀ p ∈ b2, p.1 < n) :
    bndTotal b2 ((List.range n).map (bndTotal b1 rows)) r =
      (cyc.map (rowOf rows)).sum + (cyc.map (rowOf rows)).sum := by
  obtain ⟨es, hperm, hf⟩ := h
  have hes : ∀ e ∈ es, e < n := by
    intro e he
    obtain ⟨p, hp, rfl⟩ := List.mem_map.mp (hperm.mem_iff.mpr he)
    exact hn p (List.mem_filter.mp hp).1
  unfold bndTotal
  rw [(hperm.map _).sum_eq]
  have : es.map (rowOf ((List.range n).map fun c =>
      (((b1.filter fun p => p.2 == c).map Prod.fst).map (rowOf rows)).sum)) =
      (cyc.zip (cyc.rotate 1)).map fun p => rowOf rows p.1 + rowOf rows p.2 := by
    clear hperm
    generalize cyc.zip (cyc.rotate 1) = ps at hf
    induction hf with
    | nil => rfl
    | cons hab _ ih =>
      rw [List.map_cons, List.map_cons, ih (fun e he => hes e (by simp [he])),
        rowOf_range _ (hes _ (by simp))]
      congr 1
      exact bndTotal_ends hab
  rw [this, sum_zip_add _ _ _ (by simp), ((cyc.rotate_perm 1).map _).sum_eq]

end

end Verif
