import Verif.Spec.Dataset
import Verif.Lemmas.Convert
import Verif.Lemmas.Complex

/-! # Lemmas about the in-memory storage -/

namespace Verif

variable {F L A : Type}

/-- The number of stored values before item `i`. -/
def stored (vals : List (Option (List A))) (i : Nat) : Nat := ((vals.take i).map fun v => (v.getD []).length).sum

theorem stored_succ {vals : List (Option (List A))} {i : Nat} {v : Option (List A)} (h : vals[i]? = some v) :
    stored vals (i + 1) = stored vals i + (v.getD []).length := by
  unfold stored
  rw [List.take_add_one, h]
  simp

theorem columns_eq (vals : List (Option (List A))) :
    vals.foldl Column.add { data := [], slices := [0] } =
      { data := (vals.map fun v => v.getD []).flatten, slices := tab (vals.length + 1) (stored vals) } := by
  induction vals using List.reverseRecOn with
  | nil => rfl
  | append_singleton vals v ih =>
    rw [List.foldl_append, ih]
    have hs : tab (vals.length + 1 + 1) (stored (vals ++ [v])) =
        tab (vals.length + 1) (stored vals) ++ [stored vals vals.length + (v.getD []).length] := by
      refine List.ext_getElem? fun i => ?_
      by_cases hi : i < vals.length + 1
      · rw [tab_get _ (by omega), List.getElem?_append_left (by rw [tab_length]; omega), tab_get _ hi]
        unfold stored
        rw [List.take_append_of_le_length (by omega)]
      · by_cases hi' : i = vals.length + 1
        · subst hi'
          rw [tab_get _ (by omega), List.getElem?_append_right (by rw [tab_length]), tab_length]
          have : (vals ++ [v])[vals.length]? = some v := by simp
          rw [stored_succ this]
          unfold stored
          simp
        · rw [tab_get_none _ (by omega), List.getElem?_eq_none (by simp [tab_length]; omega)]
    have hl : (tab (vals.length + 1) (stored vals)).getLastD 0 = stored vals vals.length := by
      rw [List.getLastD_eq_getLast?, List.getLast?_eq_getElem?, tab_length, tab_get _ (by omega)]
      rfl
    simp only [List.foldl_cons, List.foldl_nil, List.map_append, List.map_cons, List.map_nil, List.flatten_append,
      List.flatten_cons, List.flatten_nil, List.append_nil, List.length_append, List.length_cons,
      List.length_nil, Nat.zero_add, hs]
    cases v with
    | none => simp only [Column.add, hl, Option.getD_none, List.append_nil, List.length_nil, Nat.add_zero]
    | some v => simp only [Column.add, hl, Option.getD_some]

theorem flatten_drop (vals : List (Option (List A))) (i : Nat) :
    (vals.map fun v => v.getD []).flatten.drop (stored vals i) =
      ((vals.drop i).map fun v => v.getD []).flatten := by
  induction vals generalizing i with
  | nil => simp
  | cons v vals ih =>
    cases i with
    | zero => simp [stored]
    | succ i =>
      have : stored (v :: vals) (i + 1) = (v.getD []).length + stored vals i := by simp [stored]
      rw [this, List.map_cons, List.flatten_cons, List.drop_append, Nat.add_sub_cancel_left, ih,
        List.drop_eq_nil_of_le (by omega)]
      simp

theorem readColumn_ok {vals : List (Option (List A))} {i : Nat} {v : Option (List A)} (h : vals[i]? = some v) :
    (vals.foldl Column.add { data := [], slices := [0] }).read i = .ok (nonEmpty v) := by
  have hi := lt_of_get h
  rw [columns_eq]
  unfold Column.read
  simp only [getAt_tab _ (show i < vals.length + 1 by omega), getAt_tab _ (show i + 1 < vals.length + 1 by omega),
    ok_bind, pure_eq_ok, stored_succ h, flatten_drop]
  rw [show vals.drop i = v :: vals.drop (i + 1) by
    rw [List.drop_eq_getElem_cons hi, (List.getElem?_eq_some_iff.mp h).2]]
  rcases v with _ | _ | ⟨a, v⟩
  · simp [nonEmpty]
  · simp [nonEmpty]
  · simp only [Option.getD_some, List.length_cons, List.map_cons, List.flatten_cons, nonEmpty,
      Nat.add_sub_cancel_left, ne_eq, ok_inj]
    rw [if_pos (by omega), List.take_append_of_le_length (by simp), List.take_of_length_le (by simp)]

theorem readOpt_ok {get : Cochain F L → Option (List A)} {level : List (Option (Cochain F L))} {i : Nat}
    {c : Option (Cochain F L)} (h : level[i]? = some c) :
    readOpt (collectColumn get level) i = .ok (nonEmpty (c.bind get)) := by
  unfold collectColumn
  by_cases ha : level.any (fun c => (c.bind get).isSome) = true
  · rw [if_pos ha]
    simp only [readOpt]
    have := readColumn_ok (vals := level.map fun c => c.bind get) (i := i) (v := c.bind get) (by simp [h])
    rwa [List.foldl_map] at this
  · rw [if_neg ha]
    simp only [readOpt]
    rw [List.any_eq_true] at ha
    have h1 : (c.bind get).isSome ≠ true := fun hc => ha ⟨c, List.mem_of_getElem? h, hc⟩
    cases hc : c.bind get with
    | none => rfl
    | some v => rw [hc] at h1; simp at h1

/-- What is read back for a cochain, or for a missing one. -/
def readBack (dim : Nat) (c : Option (Cochain F L)) : Cochain F L where
  dim := dim
  x := nonEmpty (c.bind Cochain.x)
  upperIndex := nonEmpty (c.bind Cochain.upperIndex)
  lowerIndex := nonEmpty (c.bind Cochain.lowerIndex)
  sharedBoundaries := nonEmpty (c.bind Cochain.sharedBoundaries)
  sharedCoboundaries := nonEmpty (c.bind Cochain.sharedCoboundaries)
  boundaryIndex := nonEmpty (c.bind Cochain.boundaryIndex)
  upperOrient := nonEmpty (c.bind Cochain.upperOrient)
  lowerOrient := nonEmpty (c.bind Cochain.lowerOrient)
  y := nonEmpty (c.bind Cochain.y)
  mask := nonEmpty (c.bind Cochain.mask)
  batch := nonEmpty (c.bind Cochain.batch)
  ptr := nonEmpty (c.bind Cochain.ptr)
  numCellsAttr := countAttr (countOf Cochain.numCellsAttr c)
  numCellsUpAttr := countAttr (countOf Cochain.numCellsUpAttr c)
  numCellsDownAttr := downAttr dim (countOf Cochain.numCellsDownAttr c)

theorem readCochain_ok {level : List (Option (Cochain F L))} {dim i : Nat} {c : Option (Cochain F L)}
    (h : level[i]? = some c) : readCochain (collectDim level) dim i = .ok (readBack dim c) := by
  have hc : ∀ get : Cochain F L → Option (Option Nat),
      getAt (level.map (countOf get)) i = .ok (countOf get c) := by
    intro get
    rw [getAt_eq_ok, List.getElem?_map, h]
    rfl
  unfold readCochain
  simp only [collectDim, hc, ok_bind, readOpt_ok h, pure_eq_ok]
  rfl

theorem readCochain_range {level : List (Option (Cochain F L))} {dim i : Nat} (h : level.length ≤ i) :
    readCochain (collectDim level) dim i = .error .index := by
  unfold readCochain
  have : getAt (collectDim level).numCells i = .error .index := by
    unfold getAt collectDim
    simp only
    rw [List.getElem?_eq_none (by simpa using h)]
  rw [this]
  rfl

/-- The cochains of item `i`, as read. -/
theorem getCochain_none {level : List (Option (Cochain F L))} {dim i : Nat} (h : level[i]? = some none) :
    getCochain (collectDim level) dim i = .ok none := by
  unfold getCochain
  rw [readCochain_ok h]
  rfl

/-- The count of a cochain survives when it is positive or explicit. -/
theorem readBack_count {c : Cochain F L} {dim n : Nat} (h : c.numCells = .ok (some n))
    (hn : n ≠ 0 ∨ c.numCellsAttr.isSome) : (readBack dim (some c)).numCells = .ok (some n) := by
  unfold Cochain.numCells at h ⊢
  simp only [readBack, countOf, Option.bind_some]
  cases ha : c.numCellsAttr with
  | some m =>
    rw [ha] at h
    cases ok_inj.mp h
    rfl
  | none =>
    rw [ha] at h hn
    simp only [Option.isSome_none, Bool.false_eq_true, or_false] at hn
    simp only [Option.getD_none, countAttr, Option.map_none]
    cases hx : c.x with
    | some rows =>
      rw [hx] at h
      have hl : rows.length = n := by simpa using ok_inj.mp h
      cases rows with
      | nil => exact absurd hl.symm (by simpa using hn)
      | cons r rows => simpa [nonEmpty] using hl
    | none =>
      rw [hx] at h
      simp only [nonEmpty]
      cases hb : c.boundaryIndex with
      | none =>
        rw [hb] at h
        obtain ⟨_, -, h2⟩ := bind_eq_ok.mp h
        cases ok_inj.mp h2
      | some b =>
        rw [hb] at h
        cases b with
        | nil => simp [Cochain.maxPlusOne] at h
        | cons p b => exact h

theorem getCochain_some {level : List (Option (Cochain F L))} {dim i n : Nat} {c : Cochain F L}
    (h : level[i]? = some (some c)) (hc : c.numCells = .ok (some n)) (hn : n ≠ 0 ∨ c.numCellsAttr.isSome) :
    getCochain (collectDim level) dim i = .ok (some (readBack dim (some c))) := by
  unfold getCochain
  rw [readCochain_ok h, ok_bind, readBack_count hc hn]
  rfl

end Verif
