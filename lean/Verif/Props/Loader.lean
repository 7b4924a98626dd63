import Verif.Lemmas.Loader
import Verif.Spec.Loader

/-!
# C75: the loaders deliver every complex of a split exactly once, and predictions are those of the stored complexes
-/

namespace Verif

section
variable {A : Type}

/-- **C75** The positions are cut into consecutive non-empty parts of the batch size, the last possibly shorter; there
are `⌈n / b⌉` of them. -/
theorem C75_division (b : Nat) (hb : 0 < b) (l : List A) :
    Division b l (chunks b l) ∧ (chunks b l).length = (l.length + b - 1) / b ∧
      ∀ parts, Division b l parts → parts = chunks b l := by
  obtain ⟨h1, h2, h3, h4⟩ := chunks_spec hb l
  refine ⟨⟨h1, h2, h3⟩, h4, ?_⟩
  intro parts hp
  have key : ∀ (n : Nat) (l : List A), l.length ≤ n → ∀ p q : List (List A), Division b l p → Division b l q → p = q := by
    intro n
    induction n with
    | zero =>
      intro l hl p q hp hq
      have : l = [] := List.length_eq_zero_iff.mp (by omega)
      subst this
      have nilOf : ∀ p : List (List A), Division b [] p → p = [] := by
        intro p hp
        cases p with
        | nil => rfl
        | cons a p =>
          have := hp.all
          rw [List.flatten_cons, List.append_eq_nil_iff] at this
          exact absurd this.1 (hp.inhabited a (by simp)).1
      rw [nilOf p hp, nilOf q hq]
    | succ n ih =>
      intro l hl p q hp hq
      cases p with
      | nil =>
        cases q with
        | nil => rfl
        | cons c q =>
          have h1 := hp.all
          have h2 := hq.all
          rw [← h1] at h2
          rw [List.flatten_cons, List.flatten_nil, List.append_eq_nil_iff] at h2
          exact absurd h2.1 (hq.inhabited c (by simp)).1
      | cons a p =>
        cases q with
        | nil =>
          have h1 := hp.all
          have h2 := hq.all
          rw [← h2] at h1
          rw [List.flatten_cons, List.flatten_nil, List.append_eq_nil_iff] at h1
          exact absurd h1.1 (hp.inhabited a (by simp)).1
        | cons c q =>
          have headOf : ∀ (a : List A) (p : List (List A)), Division b l (a :: p) →
              a = l.take b ∧ Division b (l.drop b) p := by
            intro a p hp
            have hall := hp.all
            rw [List.flatten_cons] at hall
            cases p with
            | nil =>
              simp only [List.flatten_nil, List.append_nil] at hall
              subst hall
              have := (hp.inhabited a (by simp)).2
              refine ⟨(List.take_of_length_le this).symm, ?_, by simp, by simp⟩
              rw [List.drop_of_length_le this]
              rfl
            | cons e p =>
              have hlen : a.length = b := hp.full a (by simp)
              refine ⟨by rw [← hall, ← hlen, List.take_left], ?_, fun x hx => hp.inhabited x (by simp [hx]), ?_⟩
              · rw [← hall, ← hlen, List.drop_left]
              · intro x hx
                refine hp.full x ?_
                rw [List.dropLast_cons_of_ne_nil (by simp)]
                exact List.mem_cons_of_mem _ hx
          obtain ⟨e1, d1⟩ := headOf a p hp
          obtain ⟨e2, d2⟩ := headOf c q hq
          rw [e1, e2]
          congr 1
          refine ih (l.drop b) ?_ p q d1 d2
          rw [List.length_drop]
          omega
  exact key l.length l le_rfl parts _ hp ⟨h1, h2, h3⟩

end

section
variable {R L : Type}

theorem splitIds_of_has {s : Splits} {split : String} {ids : List Nat} (h : s.Has split ids) :
    splitIds s none split = .ok ids := by
  cases h with
  | train _ h => simp [splitIds, Splits.find, h]
  | valid _ h => simp [splitIds, Splits.find, h]
  | test _ h => simp [splitIds, Splits.find, h]

/-- **C75** Which requests for a split succeed: only the three names, only with ids, and not on a subset. -/
theorem C75_split_request (s : Splits) (indices : Option (List Nat)) (split : String) :
    (∀ ids, splitIds s indices split = .ok ids ↔ s.Has split ids ∧ indices = none) ∧
      (split ∉ ["train", "valid", "test"] → splitIds s indices split = .error .value) := by
  constructor
  · intro ids
    constructor
    · intro h
      unfold splitIds at h
      obtain ⟨o, h1, h2⟩ := bind_eq_ok.mp h
      have h3 : o = some ids ∧ indices = none := by
        cases o with
        | none => cases h2
        | some l =>
          cases indices with
          | none => simp at h2; exact ⟨by rw [h2], rfl⟩
          | some _ => simp at h2
      obtain ⟨rfl, rfl⟩ := h3
      refine ⟨?_, rfl⟩
      unfold Splits.find at h1
      split at h1
      · rename_i hs; subst hs; exact .train ids (ok_inj.mp h1)
      · split at h1
        · rename_i hs; subst hs; exact .valid ids (ok_inj.mp h1)
        · split at h1
          · rename_i hs; subst hs; exact .test ids (ok_inj.mp h1)
          · cases h1
    · rintro ⟨h, rfl⟩
      exact splitIds_of_has h
  · intro h
    simp only [List.mem_cons, List.not_mem_nil, or_false, not_or] at h
    unfold splitIds Splits.find
    rw [if_neg h.1, if_neg h.2.1, if_neg h.2.2]
    rfl

theorem Storable.hasAttribute {cs : List (Complex R L)} {maxDim : Nat} (hs : Storable cs maxDim) (hne : cs ≠ []) :
    HasAttribute cs maxDim := by
  obtain ⟨c, cs', rfl⟩ := List.exists_cons_of_ne_nil hne
  have hr := hs.ready c (by simp)
  have hlt : 0 < c.cochains.length := by rw [hr.valid.len]; omega
  refine ⟨c, by simp, 0, _, Nat.zero_le _, List.getElem?_eq_getElem hlt, ?_⟩
  have hx := hr.featured c.cochains[0] (List.getElem_mem hlt)
  unfold Cochain.keys
  rw [if_pos hx]
  simp

/-- The stored complexes can be read, as complexes with the same view and label. -/
theorem Storable.reads {cs : List (Complex R L)} {maxDim : Nat} (hs : Storable cs maxDim) {st : Storage R L}
    (h : collate cs maxDim = .ok st) {i : Nat} {c : Complex R L} (hi : cs[i]? = some c) :
    ∃ c', st.read i = .ok c' ∧ c'.view = c.view ∧ c'.Ready ∧ 0 < c'.cellsIn 0 ∧ c'.y = c.y := by
  have hm := List.mem_of_getElem? hi
  have hr := hs.ready c hm
  have hf := hs.full c hm
  obtain ⟨c', h1, h2⟩ := C36_reading_gives_the_stored_complex cs maxDim st h i c hi hr.valid (by
    intro k hk
    obtain ⟨d, hd⟩ := List.mem_iff_getElem?.mp hk
    left
    have hlt := (List.getElem?_eq_some_iff.mp hd).1
    rw [hr.valid.len] at hlt
    have := hf d (by omega)
    rw [count_of (count_of_valid hr.valid hd)]
    omega) (hs.small c hm) (fun a ha => hs.labels a ha c hm)
  refine ⟨c', h1, h2.view, h2.ready hr hf, ?_, h2.y⟩
  rw [h2.cellsIn]
  exact hf 0 (Nat.zero_le _)

/-- The loader of a split, as the collation of a division of what is read without a cache. -/
theorem splitLoader_reads {order : List (List Nat) → List (List Nat)} (ho : ∀ l, (order l).Perm l)
    {cs : List (Complex R L)} {maxDim : Nat} (hatt : HasAttribute cs maxDim) {st : Storage R L}
    (hst : collate cs maxDim = .ok st) {P : Complex R L → Complex R L → Prop}
    (hreads : ∀ (i : Nat) (c : Complex R L), cs[i]? = some c → ∃ c', st.read i = .ok c' ∧ P c c') {splits : Splits} {split : String} {ids : List Nat} (hsp : splits.Has split ids)
    (hne : ids ≠ []) (hids : ∀ i ∈ ids, i < cs.length) {positions : List Nat} {shuffle : Option (List Nat)}
    (hpos : shuffle = none ∧ positions = List.range ids.length ∨
      shuffle = some positions ∧ positions.Perm (List.range ids.length)) {b : Nat} (hb : 0 < b) (mB : Nat)
    (before : List Nat) :
    ∃ rd : Nat → Complex R L, (∀ i ∈ ids, ∃ c, cs[i]? = some c ∧ P c (rd i)) ∧
      splitLoader order (Dataset.getMany order ⟨st, none⟩ before).1 splits split shuffle b mB =
        mapE (fun ds => fromComplexList ds mB)
          ((chunks b (positions.map fun j => ids[j]?.getD 0)).map fun p => p.map rd) ∧
      (∀ j ∈ positions, j < ids.length) := by
  obtain ⟨i0, ids', hi0⟩ := List.exists_cons_of_ne_nil hne
  have hcs : cs ≠ [] := by
    rintro rfl
    have := hids i0 (by rw [hi0]; simp)
    simp at this
  have hl := (C37_length_is_the_number_of_complexes order ho cs maxDim st hst).1 hatt
  have hrr : ∀ i, cs.length ≤ i → st.read i = .error .index := fun i hi => read_range hst hi
  have hex : ∀ i, ∃ c' : Complex R L, i < cs.length → st.read i = .ok c' ∧ ∃ c, cs[i]? = some c ∧ P c c' := by
    intro i
    by_cases hi : i < cs.length
    · obtain ⟨c', h1, h2⟩ := hreads i _ (List.getElem?_eq_getElem hi)
      exact ⟨c', fun _ => ⟨h1, _, List.getElem?_eq_getElem hi, h2⟩⟩
    · exact ⟨cs.head hcs, fun h => absurd h hi⟩
  choose rd hrd using hex
  have hmem : ∀ j ∈ positions, j < ids.length := by
    rcases hpos with ⟨-, rfl⟩ | ⟨-, hp⟩
    · exact fun j hj => List.mem_range.mp hj
    · exact fun j hj => List.mem_range.mp (hp.mem_iff.mp hj)
  refine ⟨rd, fun i hi => (hrd i (hids i hi)).2, ?_, hmem⟩
  obtain ⟨-, g2, g3⟩ := getMany_ok hl hrr before ⟨st, none⟩ rfl (by intro l hl; cases hl)
  unfold splitLoader
  rw [splitIds_of_has hsp, ok_bind, g2, hl]
  have hind : mapE (getAt (List.range cs.length)) ids = .ok ids := by
    rw [mapE_eq_ok_iff, List.forall₂_same]
    intro i hi
    rw [getAt_eq_ok, List.getElem?_range (hids i hi)]
  rw [hind, ok_bind]
  have hsam : samplerOf ids.length shuffle = .ok positions := by
    rcases hpos with ⟨rfl, rfl⟩ | ⟨rfl, hp⟩
    · rfl
    · unfold samplerOf
      have : ids.length ≠ 0 := by rw [hi0]; simp
      simp only [if_neg this]
  rw [hsam, ok_bind, if_neg (by omega)]
  have hpick : mapE (getAt ids) positions = .ok (positions.map fun j => ids[j]?.getD 0) := by
    rw [mapE_eq_ok_iff, List.forall₂_map_right_iff, List.forall₂_same]
    intro j hj
    rw [getAt_eq_ok, List.getElem?_eq_getElem (hmem j hj)]
    rfl
  rw [hpick, ok_bind, loads_ok hl hrr _ _ g2 g3]
  have hin : ∀ i ∈ positions.map (fun j => ids[j]?.getD 0), i < cs.length := by
    intro i hi
    obtain ⟨j, hj, rfl⟩ := List.mem_map.mp hi
    rw [List.getElem?_eq_getElem (hmem j hj)]
    exact hids _ (List.getElem_mem _)
  rw [mapE_map]
  refine mapE_congr fun p hp => ?_
  have hread : mapE st.read p = .ok (p.map rd) := by
    rw [mapE_eq_ok_iff, List.forall₂_map_right_iff, List.forall₂_same]
    intro i hi
    refine (hrd i (hin i ?_)).1
    rw [← (chunks_spec hb (positions.map fun j => ids[j]?.getD 0)).1]
    exact List.mem_flatten.mpr ⟨p, hp, hi⟩
  rw [hread, ok_bind]

/-- The loader of a split, as the collation of a division of what is read without a cache. -/
theorem splitLoader_eq {order : List (List Nat) → List (List Nat)} (ho : ∀ l, (order l).Perm l)
    {cs : List (Complex R L)} {maxDim : Nat} (hs : Storable cs maxDim) {st : Storage R L}
    (hst : collate cs maxDim = .ok st) {splits : Splits} {split : String} {ids : List Nat} (hsp : splits.Has split ids)
    (hne : ids ≠ []) (hids : ∀ i ∈ ids, i < cs.length) {positions : List Nat} {shuffle : Option (List Nat)}
    (hpos : shuffle = none ∧ positions = List.range ids.length ∨
      shuffle = some positions ∧ positions.Perm (List.range ids.length)) {b : Nat} (hb : 0 < b) (mB : Nat)
    (before : List Nat) :
    ∃ rd : Nat → Complex R L, (∀ i ∈ ids, ∃ c, cs[i]? = some c ∧ (rd i).view = c.view ∧ (rd i).Ready ∧
        0 < (rd i).cellsIn 0 ∧ (rd i).y = c.y) ∧
      splitLoader order (Dataset.getMany order ⟨st, none⟩ before).1 splits split shuffle b mB =
        mapE (fun ds => fromComplexList ds mB)
          ((chunks b (positions.map fun j => ids[j]?.getD 0)).map fun p => p.map rd) ∧
      (∀ j ∈ positions, j < ids.length) := by
  have hcs : cs ≠ [] := by
    rintro rfl
    obtain ⟨i0, ids', hi0⟩ := List.exists_cons_of_ne_nil hne
    have := hids i0 (by rw [hi0]; simp)
    simp at this
  exact splitLoader_reads ho (hs.hasAttribute hcs) hst (P := fun c c' => c'.view = c.view ∧ c'.Ready ∧
    0 < c'.cellsIn 0 ∧ c'.y = c.y) (fun i c hi => hs.reads hst hi) hsp hne hids hpos hb mB before

end

section
variable {𝕜 R L V : Type} [Field 𝕜] [AddCommMonoid R] [Module 𝕜 R]

theorem Network.byView {forward : Complex R L → Py (List R)} (hnet : Network 𝕜 R L forward) (mB : Nat) :
    ∃ g : View R → R, ∀ cs : List (Complex R L), cs ≠ [] → (∀ c ∈ cs, c.Ready) → (∀ c ∈ cs, 0 < c.cellsIn 0) →
      (fromComplexList cs mB >>= forward) = .ok (cs.map fun c => g c.view) := by
  cases hnet with
  | sparse net h =>
    exact ⟨fun v => net.predict 𝕜 SparseLevel.rule (v.upTo mB), fun cs hne hr h0 =>
      SparseNet.forward_all (realises_sparse false) h hne hr h0 mB⟩
  | pp net h =>
    exact ⟨fun v => net.predict 𝕜 PPLevel.rule (v.upTo mB), fun cs hne hr h0 =>
      SparseNet.forward_all (realises_pp false) h hne hr h0 mB⟩
  | cin net h =>
    exact ⟨fun v => net.predict 𝕜 CINLevel.rule (v.upTo mB), fun cs hne hr h0 =>
      CINNet.forward_all realises_cin h hne hr h0 mB⟩

theorem map_getD_range {A : Type} (l : List A) (a : A) : ((List.range l.length).map fun j => l[j]?.getD a) = l := by
  refine List.ext_getElem (by simp) fun i h1 h2 => ?_
  simp only [List.getElem_map, List.getElem_range]
  rw [List.getElem?_eq_getElem h2]
  rfl

/-- Predictions over the loader of a split, for any network whose predictions on what is read are those on what was
stored. -/
theorem split_predictions_of {forward : Complex R L → Py (List R)} {order : List (List Nat) → List (List Nat)}
    (ho : ∀ l, (order l).Perm l) {cs : List (Complex R L)} {maxDim : Nat} (hatt : HasAttribute cs maxDim)
    {st : Storage R L} (hst : collate cs maxDim = .ok st) {P : Complex R L → Complex R L → Prop}
    (hreads : ∀ (i : Nat) (c : Complex R L), cs[i]? = some c → ∃ c', st.read i = .ok c' ∧ P c c') {mB : Nat}
    {p : Complex R L → R} (hf : ∀ ds : List (Complex R L), ds ≠ [] → (∀ d ∈ ds, ∃ c ∈ cs, P c d) →
      (fromComplexList ds mB >>= forward) = .ok (ds.map p))
    (hp : ∀ c ∈ cs, ∀ d, P c d → p d = p c)
    (hself : ∀ c ∈ cs, (fromComplexList [c] mB >>= forward) = .ok [p c]) (before : List Nat)
    {splits : Splits} {split : String} {ids : List Nat} (hsp : splits.Has split ids) (hne : ids ≠ [])
    (hids : ∀ i ∈ ids, i < cs.length) {b : Nat} (hb : 0 < b) :
    ∃ preds, List.Forall₂ (fun i p => ∃ c, cs[i]? = some c ∧ (fromComplexList [c] mB >>= forward) = .ok [p]) ids preds ∧
      (∃ batches, splitLoader order (Dataset.getMany order ⟨st, none⟩ before).1 splits split none b mB = .ok batches ∧
        batches.length = (ids.length + b - 1) / b ∧ infer forward batches = .ok preds) ∧
      ∀ perm : List Nat, perm.Perm (List.range ids.length) → ∃ batches drawn,
        splitLoader order (Dataset.getMany order ⟨st, none⟩ before).1 splits split (some perm) b mB = .ok batches ∧
        batches.length = (ids.length + b - 1) / b ∧ infer forward batches = .ok drawn ∧
        List.Forall₂ (fun j p => preds[j]? = some p) perm drawn ∧ drawn.Perm preds := by
  obtain ⟨c0, hc0⟩ : ∃ c, c ∈ cs := by
    obtain ⟨c, hc, -⟩ := hatt
    exact ⟨c, hc⟩
  have main : ∀ (positions : List Nat) (shuffle : Option (List Nat)),
      (shuffle = none ∧ positions = List.range ids.length ∨
        shuffle = some positions ∧ positions.Perm (List.range ids.length)) → ∃ batches,
      splitLoader order (Dataset.getMany order ⟨st, none⟩ before).1 splits split shuffle b mB = .ok batches ∧
        batches.length = (ids.length + b - 1) / b ∧
        infer forward batches = .ok (positions.map fun j => p ((ids[j]?.bind (cs[·]?)).getD c0)) := by
    intro positions shuffle hpos
    obtain ⟨rd, h1, h2, h3⟩ := splitLoader_reads ho hatt hst hreads hsp hne hids hpos hb mB before
    have hlen : positions.length = ids.length := by
      rcases hpos with ⟨-, rfl⟩ | ⟨-, hp⟩
      · simp
      · simpa using hp.length_eq
    obtain ⟨e1, e2, -, e4⟩ := chunks_spec hb (positions.map fun j => ids[j]?.getD 0)
    have hpart : ∀ i ∈ positions.map (fun j => ids[j]?.getD 0), i ∈ ids := by
      intro i hi
      obtain ⟨j, hj, rfl⟩ := List.mem_map.mp hi
      rw [List.getElem?_eq_getElem (h3 j hj)]
      exact List.getElem_mem _
    have hflat : (((chunks b (positions.map fun j => ids[j]?.getD 0)).map fun p => p.map rd)).flatten =
        (positions.map fun j => ids[j]?.getD 0).map rd := by
      rw [← List.map_flatten, e1]
    have hpn : positions ≠ [] := by
      intro h0
      rw [h0] at hlen
      exact hne (List.length_eq_zero_iff.mp (by simpa using hlen.symm))
    have hinf := infer_batches (P := R) (collate := fun ds => fromComplexList ds mB) (forward := forward)
      (g := p) (cs := (positions.map fun j => ids[j]?.getD 0).map rd)
      (bss := (chunks b (positions.map fun j => ids[j]?.getD 0)).map fun p => p.map rd)
      (fun ds hd hmem => hf ds hd
        (fun c hc => by
          obtain ⟨i, hi, rfl⟩ := List.mem_map.mp (hmem c hc)
          obtain ⟨c, k1, k2⟩ := h1 i (hpart i hi)
          exact ⟨c, List.mem_of_getElem? k1, k2⟩))
      (by
        intro h0
        rw [List.map_eq_nil_iff] at h0
        rw [h0] at e1
        exact hpn (by simpa using e1.symm))
      (by
        intro ds hd
        obtain ⟨p, hp, rfl⟩ := List.mem_map.mp hd
        simpa using (e2 p hp).1)
      (by rw [hflat]; exact fun _ h => h)
    rw [← h2, hflat] at hinf
    obtain ⟨batches, h4, h5⟩ := bind_eq_ok.mp hinf
    refine ⟨batches, h4, ?_, ?_⟩
    · rw [h2] at h4
      have := (mapE_eq_ok_iff.mp h4).length_eq
      rw [← this, List.length_map, e4, List.length_map, hlen]
    · rw [h5, ok_inj, List.map_map, List.map_map]
      refine List.map_congr_left fun j hj => ?_
      have hj' := h3 j hj
      obtain ⟨c, k1, k2⟩ := h1 (ids[j]?.getD 0) (hpart _ (List.mem_map.mpr ⟨j, hj, rfl⟩))
      simp only [Function.comp_apply]
      rw [hp c (List.mem_of_getElem? k1) _ k2]
      rw [List.getElem?_eq_getElem hj'] at k1 ⊢
      simp only [Option.getD_some] at k1
      simp only [Option.bind_some, k1, Option.getD_some]
  have hrange : ((List.range ids.length).map fun j => p ((ids[j]?.bind (cs[·]?)).getD c0)) =
      ids.map fun i => p ((cs[i]?).getD c0) := by
    conv_rhs => rw [← map_getD_range ids 0]
    rw [List.map_map]
    refine List.map_congr_left fun j hj => ?_
    simp only [Function.comp_apply]
    rw [List.getElem?_eq_getElem (List.mem_range.mp hj)]
    rfl
  refine ⟨ids.map fun i => p ((cs[i]?).getD c0), ?_, ?_, ?_⟩
  · rw [List.forall₂_map_right_iff, List.forall₂_same]
    intro i hi
    have hc := List.getElem?_eq_getElem (hids i hi)
    refine ⟨_, hc, ?_⟩
    rw [hself _ (List.getElem_mem (hids i hi)), hc]
    rfl
  · obtain ⟨batches, h1, h2, h3⟩ := main (List.range ids.length) none (Or.inl ⟨rfl, rfl⟩)
    exact ⟨batches, h1, h2, by rw [h3, hrange]⟩
  · intro perm hp
    obtain ⟨batches, h1, h2, h3⟩ := main perm (some perm) (Or.inr ⟨rfl, hp⟩)
    refine ⟨batches, _, h1, h2, h3, ?_, ?_⟩
    · rw [List.forall₂_map_right_iff, List.forall₂_same]
      intro j hj
      have hj' : j < ids.length := List.mem_range.mp (hp.mem_iff.mp hj)
      rw [List.getElem?_map, List.getElem?_eq_getElem hj']
      rfl
    · rw [← hrange]
      exact hp.map _

/-- Scores over the loader of a split, for any network whose predictions on what is read are those on what was
stored. -/
theorem split_scores_of {forward : Complex R L → Py (List R)} {order : List (List Nat) → List (List Nat)}
    (ho : ∀ l, (order l).Perm l) {cs : List (Complex R L)} {maxDim : Nat} (hatt : HasAttribute cs maxDim)
    {st : Storage R L} (hst : collate cs maxDim = .ok st) {P : Complex R L → Complex R L → Prop}
    (hreads : ∀ (i : Nat) (c : Complex R L), cs[i]? = some c → ∃ c', st.read i = .ok c' ∧ P c c') {mB : Nat}
    {p : Complex R L → R} (hf : ∀ ds : List (Complex R L), ds ≠ [] → (∀ d ∈ ds, ∃ c ∈ cs, P c d) →
      (fromComplexList ds mB >>= forward) = .ok (ds.map p))
    (hp : ∀ c ∈ cs, ∀ d, P c d → p d = p c)
    (hself : ∀ c ∈ cs, (fromComplexList [c] mB >>= forward) = .ok [p c]) (hyP : ∀ c ∈ cs, ∀ d, P c d → d.y = c.y)
    (before : List Nat) {splits : Splits} {split : String} {ids : List Nat} (hsp : splits.Has split ids)
    (hne : ids ≠ []) (hids : ∀ i ∈ ids, i < cs.length) (hy : ∀ c ∈ cs, c.y.isSome) {b : Nat} (hb : 0 < b)
    {task : Task} {loss : List R → List L → Py ℚ} {metric : List R → Option (List L) → Py V} {v : V} {l : Option ℚ}
    (hrun : (splitLoader order (Dataset.getMany order ⟨st, none⟩ before).1 splits split none b mB >>=
      evalModel task forward Complex.targets loss metric) = .ok (v, l)) :
    ∃ preds, List.Forall₂ (fun i p => ∃ c, cs[i]? = some c ∧ (fromComplexList [c] mB >>= forward) = .ok [p]) ids preds ∧
      metric preds (if task = .isomorphism then none
        else some (ids.flatMap fun i => ((cs[i]?).bind Complex.y).getD [])) = .ok v := by
  obtain ⟨rd, h1, h2, h3⟩ := splitLoader_reads ho hatt hst hreads hsp hne hids (Or.inl ⟨rfl, rfl⟩) hb mB before
  rw [map_getD_range ids 0] at h2
  obtain ⟨e1, e2, -, e4⟩ := chunks_spec hb ids
  have hflat : ((chunks b ids).map fun p => p.map rd).flatten = ids.map rd := by
    rw [← List.map_flatten, e1]
  rw [h2] at hrun
  have hev := eval_batches (g := p) (cs := ids.map rd)
    (fun ds hd hmem => hf ds hd
      (fun c hc => by
        obtain ⟨i, hi, rfl⟩ := List.mem_map.mp (hmem c hc)
        obtain ⟨c, k1, k2⟩ := h1 i hi
        exact ⟨c, List.mem_of_getElem? k1, k2⟩))
    (by
      intro ds hd
      obtain ⟨p, hp, rfl⟩ := List.mem_map.mp hd
      simpa using (e2 p hp).1)
    (by rw [hflat]; exact fun _ h => h)
    (by
      rw [hflat]
      intro c hc
      obtain ⟨i, hi, rfl⟩ := List.mem_map.mp hc
      obtain ⟨c, k1, k2⟩ := h1 i hi
      rw [hyP c (List.mem_of_getElem? k1) _ k2]
      exact hy c (List.mem_of_getElem? k1)) hrun
  rw [hflat, List.map_map, List.flatMap_map] at hev
  refine ⟨ids.map (p ∘ rd), ?_, ?_⟩
  rotate_left
  · have : (ids.flatMap fun i => ((cs[i]?).bind Complex.y).getD []) = ids.flatMap fun i => (rd i).y.getD [] := by
      refine List.flatMap_congr fun i hi => ?_
      obtain ⟨c, k1, k2⟩ := h1 i hi
      rw [k1, hyP c (List.mem_of_getElem? k1) _ k2]
      rfl
    rw [this]
    exact hev
  · rw [List.forall₂_map_right_iff, List.forall₂_same]
    intro i hi
    obtain ⟨c, k1, k2⟩ := h1 i hi
    have hm := List.mem_of_getElem? k1
    refine ⟨c, k1, ?_⟩
    rw [hself c hm]
    simp [hp c hm _ k2]

/-- **C75** Predictions over the loader of a split of a stored dataset. Whatever was read before, in whatever order
the positions are drawn and whatever the batch size: the loader yields `⌈n / b⌉` batches, and the `k`-th prediction is
the prediction of the complex that was stored, passed alone, for the `k`-th position drawn. Without shuffling the
predictions are in the order of the split; with shuffling each occurs as often. -/
theorem C75_split_predictions (forward : Complex R L → Py (List R)) (hnet : Network 𝕜 R L forward)
    (order : List (List Nat) → List (List Nat)) (ho : ∀ l, (order l).Perm l) (cs : List (Complex R L)) (maxDim : Nat)
    (hs : Storable cs maxDim) (st : Storage R L) (hst : collate cs maxDim = .ok st) (before : List Nat)
    (splits : Splits) (split : String) (ids : List Nat) (hsp : splits.Has split ids) (hne : ids ≠ [])
    (hids : ∀ i ∈ ids, i < cs.length) (b : Nat) (hb : 0 < b) (mB : Nat) :
    ∃ preds, List.Forall₂ (fun i p => ∃ c, cs[i]? = some c ∧ (fromComplexList [c] mB >>= forward) = .ok [p]) ids preds ∧
      (∃ batches, splitLoader order (Dataset.getMany order ⟨st, none⟩ before).1 splits split none b mB = .ok batches ∧
        batches.length = (ids.length + b - 1) / b ∧ infer forward batches = .ok preds) ∧
      ∀ perm : List Nat, perm.Perm (List.range ids.length) → ∃ batches drawn,
        splitLoader order (Dataset.getMany order ⟨st, none⟩ before).1 splits split (some perm) b mB = .ok batches ∧
        batches.length = (ids.length + b - 1) / b ∧ infer forward batches = .ok drawn ∧
        List.Forall₂ (fun j p => preds[j]? = some p) perm drawn ∧ drawn.Perm preds := by
  have hcs : cs ≠ [] := by
    rintro rfl
    obtain ⟨i0, ids', hi0⟩ := List.exists_cons_of_ne_nil hne
    have := hids i0 (by rw [hi0]; simp)
    simp at this
  obtain ⟨g, hg⟩ := hnet.byView mB
  exact split_predictions_of ho (hs.hasAttribute hcs) hst (P := fun c c' => c'.view = c.view ∧ c'.Ready ∧
    0 < c'.cellsIn 0 ∧ c'.y = c.y) (fun i c hi => hs.reads hst hi) (p := fun c => g c.view)
    (fun ds hd h => hg ds hd (fun d hm => by obtain ⟨c, -, h1⟩ := h d hm; exact h1.2.1)
      (fun d hm => by obtain ⟨c, -, h1⟩ := h d hm; exact h1.2.2.1))
    (fun c _ d h => by rw [h.1])
    (fun c hm => hg [c] (by simp) (by simpa using hs.ready c hm) (by simpa using hs.full c hm 0 (Nat.zero_le _)))
    before hsp hne hids hb

/-- **C75** Scores over the loader of a split of a stored labelled dataset, without shuffling: what the metric gives
for the predictions and the labels of the complexes that were stored, in the order of the split. -/
theorem C75_split_scores (forward : Complex R L → Py (List R)) (hnet : Network 𝕜 R L forward)
    (order : List (List Nat) → List (List Nat)) (ho : ∀ l, (order l).Perm l) (cs : List (Complex R L)) (maxDim : Nat)
    (hs : Storable cs maxDim) (st : Storage R L) (hst : collate cs maxDim = .ok st) (before : List Nat)
    (splits : Splits) (split : String) (ids : List Nat) (hsp : splits.Has split ids) (hne : ids ≠ [])
    (hids : ∀ i ∈ ids, i < cs.length) (hy : ∀ c ∈ cs, c.y.isSome) (b : Nat) (hb : 0 < b) (mB : Nat) (task : Task)
    (loss : List R → List L → Py ℚ) (metric : List R → Option (List L) → Py V) (v : V) (l : Option ℚ)
    (hrun : (splitLoader order (Dataset.getMany order ⟨st, none⟩ before).1 splits split none b mB >>=
      evalModel task forward Complex.targets loss metric) = .ok (v, l)) :
    ∃ preds, List.Forall₂ (fun i p => ∃ c, cs[i]? = some c ∧ (fromComplexList [c] mB >>= forward) = .ok [p]) ids preds ∧
      metric preds (if task = .isomorphism then none
        else some (ids.flatMap fun i => ((cs[i]?).bind Complex.y).getD [])) = .ok v := by
  have hcs : cs ≠ [] := by
    rintro rfl
    obtain ⟨i0, ids', hi0⟩ := List.exists_cons_of_ne_nil hne
    have := hids i0 (by rw [hi0]; simp)
    simp at this
  obtain ⟨g, hg⟩ := hnet.byView mB
  exact split_scores_of ho (hs.hasAttribute hcs) hst (P := fun c c' => c'.view = c.view ∧ c'.Ready ∧
    0 < c'.cellsIn 0 ∧ c'.y = c.y) (fun i c hi => hs.reads hst hi) (p := fun c => g c.view)
    (fun ds hd h => hg ds hd (fun d hm => by obtain ⟨c, -, h1⟩ := h d hm; exact h1.2.1)
      (fun d hm => by obtain ⟨c, -, h1⟩ := h d hm; exact h1.2.2.1))
    (fun c _ d h => by rw [h.1])
    (fun c hm => hg [c] (by simp) (by simpa using hs.ready c hm) (by simpa using hs.full c hm 0 (Nat.zero_le _)))
    (fun c _ d h => h.2.2.2) before hsp hne hids hy hb hrun

/-- **C75** The loaders of an experiment on a stored dataset: the predictions over the validation and the test loader
are those of the stored complexes of the split, in its order; over the training loader they are those of the training
split, each as often. There is a test loader iff there is a test split. -/
theorem C75_experiment_loaders (forward : Complex R L → Py (List R)) (hnet : Network 𝕜 R L forward)
    (order : List (List Nat) → List (List Nat)) (ho : ∀ l, (order l).Perm l) (cs : List (Complex R L)) (maxDim : Nat)
    (hs : Storable cs maxDim) (st : Storage R L) (hst : collate cs maxDim = .ok st)
    (train valid : List Nat) (test : Option (List Nat)) (htrain : train ≠ []) (hvalid : valid ≠ [])
    (htest : test ≠ some []) (hids : ∀ i ∈ train ++ valid ++ test.getD [], i < cs.length)
    (tuneSplits : Py Splits) (perm : List Nat) (hperm : perm.Perm (List.range train.length)) (b : Nat) (hb : 0 < b)
    (mB : Nat) :
    ∃ trainBatches validBatches testBatches,
      runLoaders order ⟨st, none⟩ ⟨some train, some valid, test⟩ tuneSplits false perm b mB =
        .ok (trainBatches, validBatches, testBatches) ∧
      (∃ preds drawn, List.Forall₂ (fun i p => ∃ c, cs[i]? = some c ∧
          (fromComplexList [c] mB >>= forward) = .ok [p]) train preds ∧
        infer forward trainBatches = .ok drawn ∧ List.Forall₂ (fun j p => preds[j]? = some p) perm drawn ∧
        drawn.Perm preds) ∧
      (∃ preds, List.Forall₂ (fun i p => ∃ c, cs[i]? = some c ∧
          (fromComplexList [c] mB >>= forward) = .ok [p]) valid preds ∧
        infer forward validBatches = .ok preds) ∧
      testBatches.isSome = test.isSome ∧
      (∀ ids, test = some ids → ∃ batches preds, testBatches = some batches ∧
        List.Forall₂ (fun i p => ∃ c, cs[i]? = some c ∧ (fromComplexList [c] mB >>= forward) = .ok [p]) ids preds ∧
        infer forward batches = .ok preds) := by
  have key := fun split ids hsp hne hi =>
    C75_split_predictions forward hnet order ho cs maxDim hs st hst [] ⟨some train, some valid, test⟩ split ids hsp
      hne hi b hb mB
  obtain ⟨p1, hp1, -, hsh⟩ := key "train" train (.train _ rfl) htrain (fun i hi => hids i (by simp [hi]))
  obtain ⟨b1, d1, hb1, -, hd1, hd2, hd3⟩ := hsh perm hperm
  obtain ⟨p2, hp2, ⟨b2, hb2, -, hi2⟩, -⟩ := key "valid" valid (.valid _ rfl) hvalid (fun i hi => hids i (by simp [hi]))
  unfold runLoaders
  simp only [Bool.false_eq_true, if_false, ok_bind]
  change splitLoader order ⟨st, none⟩ _ _ _ _ _ = _ at hb1 hb2
  rw [hb1, ok_bind, hb2, ok_bind]
  cases test with
  | none => exact ⟨b1, b2, none, rfl, ⟨p1, d1, hp1, hd1, hd2, hd3⟩, ⟨p2, hp2, hi2⟩, rfl, fun ids h => by cases h⟩
  | some ids =>
    obtain ⟨p3, hp3, ⟨b3, hb3, -, hi3⟩, -⟩ := key "test" ids (.test _ rfl) (fun h => htest (by rw [h]))
      (fun i hi => hids i (by simp [hi]))
    change splitLoader order ⟨st, none⟩ _ _ _ _ _ = _ at hb3
    simp only
    rw [hb3]
    refine ⟨b1, b2, some b3, rfl, ⟨p1, d1, hp1, hd1, hd2, hd3⟩, ⟨p2, hp2, hi2⟩, rfl, fun ids' h => ?_⟩
    cases h
    exact ⟨b3, p3, rfl, hp3, hi3⟩

end

section
variable {F L : Type}

/-- **C75** With `--tune` the ids of the tuning splits are never used: whatever they are, the loaders are the ones
without `--tune`, as long as both or neither have a test split. -/
theorem C75_tuning_splits_are_ignored (order : List (List Nat) → List (List Nat)) (ds : Dataset F L) (splits : Splits)
    (other : Splits) (h : other.test.isSome = splits.test.isSome) (shuffle : List Nat) (b maxDim : Nat) :
    runLoaders order ds splits (.ok other) true shuffle b maxDim =
      runLoaders order ds splits (.ok other) false shuffle b maxDim := by
  unfold runLoaders
  simp only [if_true, Bool.false_eq_true, if_false, ok_bind]
  cases h1 : other.test <;> cases h2 : splits.test <;> simp_all

end

/-! ### Concrete cases -/

open Fixtures

/-- Three labelled complexes: the house twice, the segment between. -/
def shelf : List (Complex ℚ Nat) := [houseQ, segQ, houseQ]

theorem shelf_storable : Storable shelf 2 := by
  refine ⟨?_, ?_, ?_, ?_⟩
  · intro c hc
    simp only [shelf, List.mem_cons, List.not_mem_nil, or_false] at hc
    rcases hc with rfl | rfl | rfl
    · exact houseQ_ready
    · exact segQ_ready
    · exact houseQ_ready
  · decide
  · decide
  · decide

example : ∃ st, collate shelf 2 = .ok st := (C36_storing_succeeds shelf 2).mpr (by decide)

example : (⟨some [2, 1], none, some [0]⟩ : Splits).Has "train" [2, 1] ∧ ¬ ∃ ids,
    (⟨some [2, 1], none, some [0]⟩ : Splits).Has "valid" ids := by
  refine ⟨.train _ rfl, ?_⟩
  rintro ⟨ids, h⟩
  have := splitIds_of_has h
  simp [splitIds, Splits.find] at this

example : chunks 2 [5, 6, 7, 8, 9] = [[5, 6], [7, 8], [9]] := by decide

/-- Four positions in batches of three: two batches; shuffled, the predictions are shuffled. -/
example : ((do
    let st ← collate shelf 2
    let batches ← splitLoader asGiven ⟨st, none⟩ ⟨some [0, 1, 2, 1], none, none⟩ "train" none 3 2
    let preds ← infer (sparseNetQ.forward ℚ SparseLevel.forward) batches
    let batches' ← splitLoader asGiven ⟨st, none⟩ ⟨some [0, 1, 2, 1], none, none⟩ "train" (some [3, 0, 2, 1]) 3 2
    let preds' ← infer (sparseNetQ.forward ℚ SparseLevel.forward) batches'
    pure (batches.length = 2 ∧ preds' = [preds[1]?, preds[0]?, preds[0]?, preds[1]?].filterMap id ∧
      preds[0]? ≠ preds[1]? : Bool) : Py Bool)) = .ok true := by
  decide +kernel

/-- A training split with a repetition, a validation split and a test split. -/
example (st : Storage ℚ Nat) (hst : collate shelf 2 = .ok st) :=
  C75_experiment_loaders (𝕜 := ℚ) (sparseNetQ.forward ℚ SparseLevel.forward) (.sparse sparseNetQ sparseNetQ_fits)
    asGiven (fun _ => .refl _) shelf 2 shelf_storable st hst [0, 1, 2, 1] [2] (some [1, 0]) (by decide) (by decide)
    (by decide) (by decide) (.error .notImplemented) [3, 0, 2, 1] (by decide) 3 (by decide) 2

/-- Asking for a split without ids, or with batches of size 0. -/
example : (do
    let st ← collate shelf 2
    splitLoader asGiven ⟨st, none⟩ ⟨some [0], none, none⟩ "valid" none 3 2 : Py (List (Complex ℚ Nat))).toOption.isNone ∧
    (do
    let st ← collate shelf 2
    splitLoader asGiven ⟨st, none⟩ ⟨some [0], none, none⟩ "train" none 0 2 : Py (List (Complex ℚ Nat))).toOption.isNone := by
  decide +kernel

end Verif
