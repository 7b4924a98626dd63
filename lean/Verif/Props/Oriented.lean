import Verif.Lemmas.Oriented
import Verif.FixturesQ

/-!
# C22: orientation equivariance and invariance
-/

namespace Verif

variable {𝕜 R L : Type} [Field 𝕜] [AddCommGroup R] [Module 𝕜 R]

/-- **C22** The oriented convolution with odd maps: reversing the orientation of any set of cells
negates the output rows of these cells and changes nothing else. -/
theorem C22_oriented_conv_equivariant (l : OrientedLevel R) (hl : l.Equivariant) (s : Nat → Int)
    (hs : Signs s) (c : Cochain R L) (out : List R) (h : l.forward c = .ok out) :
    l.forward (c.flip s) = .ok (flipRows s out) := by
  obtain ⟨x, ui, li, uo, lo, hd, rfl⟩ := OrientedLevel.forward_inv h
  rw [l.forward_ok (hd.flip s), flipRows_range, flipRows_length, ok_inj]
  apply List.map_congr_left
  intro k _
  exact orientedRow_flip hs hl x hd.ulen hd.llen k

/-- **C22** What the oriented convolution computes: for every cell the messages are the rows of the
sources of the columns that end there, times the relative orientation of the column. -/
theorem C22_oriented_conv_spec (l : OrientedLevel R) (hl : l.orient = true) (c : Cochain R L)
    (out : List R) (h : l.forward c = .ok out) :
    ∃ (x : List R) (ui li : List (Nat × Nat)) (uo lo : List Int), c.x = some x ∧
      c.upperIndex = some ui ∧ c.lowerIndex = some li ∧ c.upperOrient = some uo ∧
      c.lowerOrient = some lo ∧ out.length = x.length ∧
      ∀ (k : Nat) (r : R), x[k]? = some r → out[k]? = some (l.act (l.update r +
        l.updateUp (((ui.zip uo).filter fun p => p.1.2 == k).map fun p => p.2 • rowOf x p.1.1).sum +
        l.updateDown (((li.zip lo).filter fun p => p.1.2 == k).map fun p => p.2 • rowOf x p.1.1).sum)) := by
  obtain ⟨x, ui, li, uo, lo, hd, rfl⟩ := OrientedLevel.forward_inv h
  refine ⟨x, ui, li, uo, lo, hd.hx, hd.hui, hd.hli, hd.huo, hd.hlo, by simp, ?_⟩
  intro k r hk
  have hlt : k < x.length := by
    by_contra hh
    rw [List.getElem?_eq_none (by omega)] at hk
    simp at hk
  rw [List.getElem?_map, List.getElem?_range hlt]
  simp [orientedRow, orientedSum, hl, rowOf, hk]

/-- **C22** The edge-flow networks with odd layers: the prediction, which is made from absolute
values, does not change when the orientation of any set of edges is reversed. -/
theorem C22_edge_orient_invariant (net : OrientNet R) (hf : net.fullyInvar = false)
    (hl : ∀ l ∈ net.convs, l.Equivariant) (habs : ∀ r, net.abs (-r) = net.abs r) (s : Nat → Int)
    (hs : Signs s) (data : Cochain R L) (pred : List R) (h : net.forward 𝕜 data = .ok pred) :
    net.forward 𝕜 (data.flip s) = .ok pred := by
  unfold OrientNet.forward OrientNet.prepare at h ⊢
  simp only [hf, Bool.false_eq_true, if_false, ok_bind] at h ⊢
  obtain ⟨⟨c', o⟩, h1, h⟩ := bind_eq_ok.mp h
  obtain ⟨h2, h3⟩ := runOriented_flip hs hl h1
  rw [h2, ok_bind]
  cases o with
  | none => simp at h
  | some x =>
    simp only [Option.map_some] at h ⊢
    have hb : (c'.flip s).batch = c'.batch := rfl
    rw [hb, even_flip habs hs]
    exact h

/-- **C22** With `fully_invar` absolute values are taken first and orientations are not used: the
prediction does not change either, whatever the layers compute. -/
theorem C22_fully_invariant (net : OrientNet R) (hf : net.fullyInvar = true)
    (hl : ∀ l ∈ net.convs, l.orient = false) (habs : ∀ r, net.abs (-r) = net.abs r) (s : Nat → Int)
    (hs : Signs s) (data : Cochain R L) (pred : List R) (h : net.forward 𝕜 data = .ok pred) :
    net.forward 𝕜 (data.flip s) = .ok pred := by
  have hrow : ∀ l : OrientedLevel R, l.orient = false → ∀ (c c' : Cochain R L), c'.x = c.x →
      c'.upperIndex = c.upperIndex → c'.lowerIndex = c.lowerIndex →
      c'.upperOrient = c.upperOrient.map (flipCols s (c.upperIndex.getD [])) →
      c'.lowerOrient = c.lowerOrient.map (flipCols s (c.lowerIndex.getD [])) →
      ∀ out, l.forward c = .ok out → l.forward c' = .ok out := by
    intro l hlo c c' hx hui hli huo hlo' out hout
    obtain ⟨x, ui, li, uo, lo, hd, rfl⟩ := OrientedLevel.forward_inv hout
    have hd' : OrientedData c' x ui li (flipCols s ui uo) (flipCols s li lo) :=
      ⟨hx.trans hd.hx, hui.trans hd.hui, hli.trans hd.hli, by rw [huo, hd.huo, hd.hui]; rfl,
        by rw [hlo', hd.hlo, hd.hli]; rfl, flipCols_length s hd.ulen, flipCols_length s hd.llen,
        hd.une, hd.lne, hd.urange, hd.lrange⟩
    rw [l.forward_ok hd', ok_inj]
    apply List.map_congr_left
    intro k _
    have hsum : ∀ (index : List (Nat × Nat)) (os : List Int), os.length = index.length →
        orientedSum false x index (flipCols s index os) k = orientedSum false x index os k := by
      intro index os hlen
      unfold orientedSum
      rw [zip_flipCols s hlen, List.filter_map, List.map_map]
      rfl
    unfold orientedRow
    rw [hlo, hsum _ _ hd.ulen, hsum _ _ hd.llen]
  have hrun : ∀ (ls : List (OrientedLevel R)), (∀ l ∈ ls, l.orient = false) →
      ∀ (c c' d : Cochain R L) (o : Option (List R)), c.x.isSome →
      c' = { c with
        upperOrient := c.upperOrient.map (flipCols s (c.upperIndex.getD [])),
        lowerOrient := c.lowerOrient.map (flipCols s (c.lowerIndex.getD [])) } →
      runOriented c ls = .ok (d, o) → ∃ d', runOriented c' ls = .ok (d', o) ∧ d'.batch = d.batch := by
    intro ls
    induction ls with
    | nil =>
      intro _ c c' d o _ hc' hr
      simp only [runOriented, ok_inj, Prod.mk.injEq] at hr
      obtain ⟨rfl, rfl⟩ := hr
      exact ⟨c', rfl, by rw [hc']⟩
    | cons l ls ih =>
      intro hls c c' d o hcx hc' hr
      simp only [runOriented] at hr ⊢
      obtain ⟨x, hx, hr⟩ := bind_eq_ok.mp hr
      obtain ⟨c1, hc1, hr⟩ := bind_eq_ok.mp hr
      obtain ⟨⟨c2, o2⟩, h2, hr⟩ := bind_eq_ok.mp hr
      simp only [pure_eq_ok, ok_inj, Prod.mk.injEq] at hr
      obtain ⟨rfl, rfl⟩ := hr
      have hc1e := setX_x hc1
      have hset : c'.setX (some x) = .ok { c' with x := some x } := by
        unfold Cochain.setX at hc1 ⊢
        dsimp only at hc1 ⊢
        obtain ⟨n, hn, hc1⟩ := bind_eq_ok.mp hc1
        obtain ⟨_, ha, -⟩ := bind_eq_ok.mp hc1
        have hn' : c'.numCells = .ok n := by
          rw [← hn, hc']
          rfl
        rw [hn', ok_bind, ha, ok_bind, pure_eq_ok]
      rw [hrow l (hls l (by simp)) c c' (by rw [hc']) (by rw [hc']) (by rw [hc']) (by rw [hc'])
        (by rw [hc']) x hx, ok_bind, hset, ok_bind]
      obtain ⟨d', h3, h4⟩ := ih (fun l hl => hls l (by simp [hl])) c1 { c' with x := some x } c2 o2
        (by rw [hc1e]; rfl) (by rw [hc1e, hc']) h2
      rw [h3]
      exact ⟨d', rfl, h4⟩
  unfold OrientNet.forward OrientNet.prepare at h ⊢
  simp only [hf, if_true] at h ⊢
  obtain ⟨c0, h0, h⟩ := bind_eq_ok.mp h
  cases hx : data.x with
  | none => rw [hx] at h0; simp at h0
  | some x =>
    rw [hx] at h0
    dsimp only at h0
    have hc0 := setX_x h0
    have hfx : (data.flip s).x = some (flipRows s x) := by simp [Cochain.flip, hx]
    have hset := flip_setX s h0 (by simp [hx])
    obtain ⟨⟨c', o⟩, h1, h⟩ := bind_eq_ok.mp h
    rw [hfx]
    dsimp only
    rw [even_flip habs hs]
    have hset2 : (data.flip s).setX (some (x.map net.abs)) =
        .ok { data.flip s with x := some (x.map net.abs) } := by
      unfold Cochain.setX at hset ⊢
      dsimp only at hset ⊢
      obtain ⟨n, hn, hset⟩ := bind_eq_ok.mp hset
      obtain ⟨_, ha, -⟩ := bind_eq_ok.mp hset
      rw [flipRows_length] at ha
      rw [hn, ok_bind, ha, ok_bind, pure_eq_ok]
    rw [hset2, ok_bind]
    obtain ⟨d', h3, h4⟩ := hrun net.convs hl c0 { data.flip s with x := some (x.map net.abs) } c' o
      (by rw [hc0]; rfl) (by rw [hc0]; rfl) h1
    rw [h3, ok_bind]
    dsimp only at h ⊢
    cases o with
    | none => simp at h
    | some y =>
      dsimp only at h ⊢
      rw [h4]
      exact h

section Examples
open Fixtures

/-- Three edges of a triangle with orientations, in a batch of one. -/
def flowQ : Cochain ℚ Nat where
  dim := 1
  x := some [1, -2, 3]
  upperIndex := some [(0, 1), (1, 0), (0, 2), (2, 0), (1, 2), (2, 1)]
  upperOrient := some [1, 1, -1, -1, -1, -1]
  lowerIndex := some [(0, 1), (1, 0), (1, 2), (2, 1), (0, 2), (2, 0)]
  lowerOrient := some [-1, -1, 1, 1, 1, 1]
  batch := some [0, 0, 0]

/-- A layer with odd maps. -/
def oddQ : OrientedLevel ℚ := ⟨fun x => 2 * x, fun x => x / 3, fun x => 5 * x, fun x => x * x * x, true⟩

theorem oddQ_equivariant : oddQ.Equivariant :=
  ⟨rfl, fun r => by simp [oddQ], fun r => by simp [oddQ, neg_div], fun r => by simp [oddQ],
    fun r => by simp [oddQ]⟩

/-- A network of two such layers. -/
def orientQ : OrientNet ℚ where
  convs := [oddQ, oddQ]
  abs x := if 0 ≤ x then x else -x
  relu x := max x 0
  lin1 x := x - 7
  lin2 x := 2 * x + 1

/-- Flip edges 0 and 2. -/
def flip02 (c : Nat) : Int := if c = 1 then 1 else -1

example : Signs flip02 := fun c => by unfold flip02; split <;> simp
example : ∃ out, oddQ.forward flowQ = .ok out ∧ out ≠ flipRows flip02 out ∧
    oddQ.forward (flowQ.flip flip02) = .ok (flipRows flip02 out) := by
  refine ⟨_, rfl, ?_, ?_⟩ <;> decide +kernel
example : ∃ pred, orientQ.forward ℚ flowQ = .ok pred ∧
    orientQ.forward ℚ (flowQ.flip flip02) = .ok pred ∧ (flowQ.flip flip02).x ≠ flowQ.x := by
  refine ⟨_, rfl, ?_, ?_⟩ <;> decide +kernel
/-- A layer whose activation is not odd: relu, the default activation of `EdgeMPNN`. -/
def reluQ : OrientedLevel ℚ := ⟨fun _ => 0, fun x => x / 3, fun x => 5 * x, fun x => max x 0, true⟩
/-- `EdgeMPNN` with `fully_invar=False` and the default activation is not invariant. -/
example : ({ orientQ with convs := [reluQ] } : OrientNet ℚ).forward ℚ flowQ ≠
    ({ orientQ with convs := [reluQ] } : OrientNet ℚ).forward ℚ (flowQ.flip flip02) := by decide +kernel
/-- With `fully_invar` it is. -/
example : ∃ pred, ({ orientQ with convs := [{ reluQ with orient := false }], fullyInvar := true } :
      OrientNet ℚ).forward ℚ flowQ = .ok pred ∧
    ({ orientQ with convs := [{ reluQ with orient := false }], fullyInvar := true } :
      OrientNet ℚ).forward ℚ (flowQ.flip flip02) = .ok pred := by
  refine ⟨_, rfl, ?_⟩
  decide +kernel

end Examples

/-! ### The theorems on concrete cases -/

section Cases
open Fixtures
lemma flip02_signs : Signs flip02 := fun c => by unfold flip02; split <;> simp
lemma absQ_even (r : ℚ) : orientQ.abs (-r) = orientQ.abs r := by
  show (if 0 ≤ -r then -r else - -r) = if 0 ≤ r then r else -r
  rcases lt_trichotomy r 0 with h | h | h
  · rw [if_pos (by simpa using h.le), if_neg (not_le.mpr h)]
  · simp [h]
  · rw [if_neg (by simpa using h), if_pos h.le, neg_neg]
example := C22_oriented_conv_equivariant oddQ oddQ_equivariant flip02 flip02_signs flowQ _ rfl
example := C22_oriented_conv_spec oddQ rfl flowQ _ rfl
example := C22_edge_orient_invariant (𝕜 := ℚ) orientQ rfl
  (fun l h => by simp only [orientQ, List.mem_cons, List.not_mem_nil, or_false, or_self] at h; exact h ▸ oddQ_equivariant)
  absQ_even flip02
  flip02_signs flowQ _ rfl
example := C22_fully_invariant (𝕜 := ℚ) { orientQ with convs := [{ reluQ with orient := false }], fullyInvar := true } rfl
  (fun l h => by simp only [List.mem_cons, List.not_mem_nil, or_false] at h; exact h ▸ rfl)
  absQ_even flip02
  flip02_signs flowQ _ rfl
end Cases

end Verif
