import Verif.Lemmas.RingComplex
import Verif.Model.CountRings
import Verif.Spec.CountRings

/-!
# Lemmas for the ring counts
-/

namespace Verif

variable {A V : Type}

/-- A dictionary given by a list of distinct keys and a function. -/
theorem Dict.get?_table (keys : List Nat) (f : Nat → V) (k : Nat) :
    Dict.get? (keys.map fun k => (k, f k)) k = if k ∈ keys then some (f k) else none := by
  induction keys with
  | nil => rfl
  | cons a keys ih =>
    rw [List.map_cons, Dict.get?_cons, ih]
    by_cases h : a = k
    · subst h
      simp
    · simp [h, Ne.symm h]

theorem Dict.set_table {keys : List Nat} (hnd : keys.Nodup) (f : Nat → V) {k : Nat} (hk : k ∈ keys) (v : V) :
    Dict.set (keys.map fun k => (k, f k)) k v = keys.map fun k' => (k', if k' = k then v else f k') := by
  induction keys with
  | nil => cases hk
  | cons a keys ih =>
    rw [List.map_cons, List.map_cons]
    unfold Dict.set
    rw [List.nodup_cons] at hnd
    by_cases h : a = k
    · subst h
      simp only [if_true, List.cons.injEq, true_and]
      apply List.map_congr_left
      intro b hb
      rw [if_neg]
      rintro rfl
      exact hnd.1 hb
    · simp only [if_neg h]
      rw [ih hnd.2 (by rcases List.mem_cons.mp hk with rfl | h'; exact absurd rfl h; exact h')]

theorem Dict.foldl_set_table {keys : List Nat} (hnd : keys.Nodup) (v : V) :
    keys.foldl (fun d k => Dict.set d k v) [] = keys.map fun k => (k, v) := by
  induction keys using List.reverseRecOn with
  | nil => rfl
  | append_singleton keys a ih =>
    rw [List.nodup_append] at hnd
    rw [List.foldl_append, ih hnd.1, List.foldl_cons, List.foldl_nil, Dict.set_of_absent, List.map_append]
    · rfl
    · intro p hp
      obtain ⟨b, hb, rfl⟩ := List.mem_map.mp hp
      exact hnd.2.2 b hb a (by simp)

theorem countRing_table {keys : List Nat} (hnd : keys.Nodup) (rings : List (List Nat))
    (hk : ∀ r ∈ rings, r.length ∈ keys) (f : Nat → Nat) :
    foldE countRing (keys.map fun k => (k, f k)) rings =
      .ok (keys.map fun k => (k, f k + (rings.filter fun r => decide (r.length = k)).length)) := by
  induction rings generalizing f with
  | nil => simp [foldE]
  | cons r rings ih =>
    have hr := hk r (by simp)
    have hget : Dict.get (keys.map fun k => (k, f k)) r.length = .ok (f r.length) := by
      rw [Dict.get_eq_ok, Dict.get?_table, if_pos hr]
    have hstep : countRing (keys.map fun k => (k, f k)) r =
        .ok (keys.map fun k => (k, if k = r.length then f r.length + 1 else f k)) := by
      unfold countRing
      rw [hget, ok_bind, Dict.set_table hnd f hr]
      rfl
    unfold foldE
    rw [hstep, ok_bind, ih (fun r' h' => hk r' (by simp [h']))]
    congr 1
    apply List.map_congr_left
    intro k _
    rw [List.filter_cons]
    by_cases h : r.length = k
    · subst h
      simp
      omega
    · simp [h, Ne.symm h]

theorem appendCount_table {keys sub : List Nat} (hnd : keys.Nodup) (hs : sub.Nodup) (hsub : ∀ k ∈ sub, k ∈ keys)
    (f : Nat → List Nat) (g : Nat → Nat) :
    foldE (appendCount (keys.map fun k => (k, g k))) (keys.map fun k => (k, f k)) sub =
      .ok (keys.map fun k => (k, if k ∈ sub then f k ++ [g k] else f k)) := by
  induction sub generalizing f with
  | nil => simp [foldE]
  | cons a sub ih =>
    have ha := hsub a (by simp)
    rw [List.nodup_cons] at hs
    have h1 : Dict.get (keys.map fun k => (k, f k)) a = .ok (f a) := by
      rw [Dict.get_eq_ok, Dict.get?_table, if_pos ha]
    have h2 : Dict.get (keys.map fun k => (k, g k)) a = .ok (g a) := by
      rw [Dict.get_eq_ok, Dict.get?_table, if_pos ha]
    have hstep : appendCount (keys.map fun k => (k, g k)) (keys.map fun k => (k, f k)) a =
        .ok (keys.map fun k => (k, if k = a then f a ++ [g a] else f k)) := by
      unfold appendCount
      rw [h1, ok_bind, h2, ok_bind, Dict.set_table hnd f ha]
      rfl
    unfold foldE
    rw [hstep, ok_bind, ih hs.2 (fun k hk => hsub k (by simp [hk]))]
    congr 1
    apply List.map_congr_left
    intro k _
    by_cases h : k = a
    · subst h
      simp [hs.1]
    · simp [h]

theorem extendCounts_table {keys sub : List Nat} (hnd : keys.Nodup) (hs : sub.Nodup) (hsub : ∀ k ∈ sub, k ∈ keys)
    (f g : Nat → List Nat) :
    foldE extendCounts (keys.map fun k => (k, f k)) (sub.map fun k => (k, g k)) =
      .ok (keys.map fun k => (k, if k ∈ sub then f k ++ g k else f k)) := by
  induction sub generalizing f with
  | nil => simp [foldE]
  | cons a sub ih =>
    have ha := hsub a (by simp)
    rw [List.nodup_cons] at hs
    have h1 : Dict.get (keys.map fun k => (k, f k)) a = .ok (f a) := by
      rw [Dict.get_eq_ok, Dict.get?_table, if_pos ha]
    have hstep : extendCounts (keys.map fun k => (k, f k)) (a, g a) =
        .ok (keys.map fun k => (k, if k = a then f a ++ g a else f k)) := by
      unfold extendCounts
      rw [h1, ok_bind, Dict.set_table hnd f ha]
      rfl
    rw [List.map_cons]
    unfold foldE
    rw [hstep, ok_bind, ih hs.2 (fun k hk => hsub k (by simp [hk]))]
    congr 1
    apply List.map_congr_left
    intro k _
    by_cases h : k = a
    · subst h
      simp [hs.1]
    · simp [h]

theorem combineAllCards_table {keys : List Nat} (hnd : keys.Nodup) (gs : List A) (hne : gs ≠ []) (g : A → Nat → Nat) :
    combineAllCards (gs.map fun x => keys.map fun k => (k, g x k)) =
      .ok (keys.map fun k => (k, gs.map fun x => g x k)) := by
  have hkeys : ∀ x, (keys.map fun k => (k, g x k)).map Prod.fst = keys := by
    intro x
    rw [List.map_map]
    exact List.map_id keys
  have key : ∀ (gs : List A) (f : Nat → List Nat),
      foldE (fun acc card => foldE (appendCount card) acc keys) (keys.map fun k => (k, f k))
        (gs.map fun x => keys.map fun k => (k, g x k)) =
        .ok (keys.map fun k => (k, f k ++ gs.map fun x => g x k)) := by
    intro gs
    induction gs with
    | nil => intro f; simp [foldE]
    | cons x gs ih =>
      intro f
      rw [List.map_cons]
      unfold foldE
      rw [appendCount_table hnd hnd (fun k h => h) f (g x), ok_bind, ih]
      congr 1
      apply List.map_congr_left
      intro k hk
      simp [hk]
  cases gs with
  | nil => exact absurd rfl hne
  | cons x gs =>
    unfold combineAllCards
    rw [List.map_cons]
    show (Except.ok _ >>= _) = _
    rw [ok_bind, hkeys]
    dsimp only
    rw [Dict.foldl_set_table hnd, ← List.map_cons (f := fun x => keys.map fun k => (k, g x k)), key]
    simp

theorem combineAllCounts_table {keys : List Nat} (hnd : keys.Nodup) (ss : List (Nat → List Nat)) (hne : ss ≠ []) :
    combineAllCounts (ss.map fun s => keys.map fun k => (k, s k)) =
      .ok (keys.map fun k => (k, (ss.map fun s => s k).flatten)) := by
  have hkeys : ∀ s : Nat → List Nat, (keys.map fun k => (k, s k)).map Prod.fst = keys := by
    intro x
    rw [List.map_map]
    exact List.map_id keys
  have key : ∀ (ss : List (Nat → List Nat)) (f : Nat → List Nat),
      foldE (fun all stat => foldE extendCounts all stat) (keys.map fun k => (k, f k))
        (ss.map fun s => keys.map fun k => (k, s k)) =
        .ok (keys.map fun k => (k, f k ++ (ss.map fun s => s k).flatten)) := by
    intro ss
    induction ss with
    | nil => intro f; simp [foldE]
    | cons s ss ih =>
      intro f
      rw [List.map_cons]
      unfold foldE
      rw [extendCounts_table hnd hnd (fun k h => h) f s, ok_bind, ih]
      congr 1
      apply List.map_congr_left
      intro k hk
      simp [hk]
  cases ss with
  | nil => exact absurd rfl hne
  | cons s ss =>
    unfold combineAllCounts
    rw [List.map_cons]
    show (Except.ok _ >>= _) = _
    rw [ok_bind, hkeys, Dict.foldl_set_table hnd,
      ← List.map_cons (f := fun s : Nat → List Nat => keys.map fun k => (k, s k)), key]
    simp

/-- The number of rings of a length that the search finds is the number of vertex sets. -/
theorem rings_of_length {lib : RingLib} (hl : lib.Ok) (edges : List (Nat × Nat)) {maxK k : Nat} (hk : k ≤ maxK) :
    ((getRings lib edges maxK).filter fun r => decide (r.length = k)).length = ringCount edges k := by
  obtain ⟨-, h2, h3⟩ := getRings_spec lib hl.order edges maxK
  have hring : ∀ r ∈ getRings lib edges maxK, IsRing edges r ∧ r.length ≤ maxK := fun r hr => getRings_ring hl hr
  generalize hf : (getRings lib edges maxK).filter (fun r => decide (r.length = k)) = l
  have hmem : ∀ r, r ∈ l ↔ r ∈ getRings lib edges maxK ∧ r.length = k := by
    intro r
    rw [← hf]
    simp
  have hpair : l.Pairwise fun a b => ¬ a.Perm b := by
    rw [← hf]
    exact h3.filter _
  have hset : {s : Finset Nat | ∃ r, IsRing edges r ∧ r.length = k ∧ r.toFinset = s} =
      ↑((l.map List.toFinset).toFinset) := by
    ext s
    simp only [Set.mem_setOf_eq, Finset.mem_coe, List.mem_toFinset, List.mem_map]
    constructor
    · rintro ⟨r, hr, hlen, rfl⟩
      obtain ⟨r', hm, hp⟩ := h2 r ((mem_reported hl).mpr ⟨hr, by omega⟩)
      exact ⟨r', (hmem r').mpr ⟨hm, by rw [hp.length_eq, hlen]⟩, List.toFinset_eq_of_perm _ _ hp⟩
    · rintro ⟨r, hr, rfl⟩
      obtain ⟨hm, hlen⟩ := (hmem r).mp hr
      exact ⟨r, (hring r hm).1, hlen, rfl⟩
  unfold ringCount
  rw [hset, Set.ncard_coe_finset, List.toFinset_card_of_nodup, List.length_map]
  unfold List.Nodup
  rw [List.pairwise_map]
  refine hpair.imp_of_mem ?_
  intro a b ha hb hn e
  refine hn ((List.perm_ext_iff_of_nodup (hring a ((hmem a).mp ha).1).1.nodup
    (hring b ((hmem b).mp hb).1).1.nodup).mpr fun v => ?_)
  rw [← List.mem_toFinset, e, List.mem_toFinset]

/-- A ring has its vertices in the graph. -/
theorem ring_vertices {edges : List (Nat × Nat)} {n : Nat} (hin : EdgesIn edges n) {r : List Nat}
    (hr : IsRing edges r) {v : Nat} (hv : v ∈ r) : v < n := by
  obtain ⟨i, hi, rfl⟩ := List.mem_iff_getElem.mp hv
  have hlong := hr.long
  have hj : ∃ j, j < r.length ∧ Follows r.length i j := by
    by_cases h : i + 1 = r.length
    · exact ⟨0, by omega, Or.inr ⟨h, rfl⟩⟩
    · exact ⟨i + 1, by omega, Or.inl rfl⟩
  obtain ⟨j, hj, hf⟩ := hj
  have := (hr.joined i j _ _ (List.getElem?_eq_getElem hi) (List.getElem?_eq_getElem hj)).mpr (Or.inl hf)
  rcases this.2 with h | h
  · exact (hin _ h).1
  · exact (hin _ h).2

theorem IsRing.map {edges edges' : List (Nat × Nat)} {n : Nat} {x x' : List A} {π : Nat → Nat}
    (hπ : GraphIso edges edges' n x x' π) (hin : EdgesIn edges n) {r : List Nat} (hr : IsRing edges r) :
    IsRing edges' (r.map π) := by
  have hlt := fun v hv => ring_vertices hin hr (v := v) hv
  refine ⟨by rw [List.length_map]; exact hr.long, ?_, ?_⟩
  · exact hr.nodup.map_on fun a ha b hb e => hπ.inj a b (hlt a ha) (hlt b hb) e
  · intro i j u v hu hv
    rw [List.getElem?_map, Option.map_eq_some_iff] at hu hv
    obtain ⟨u, hu, rfl⟩ := hu
    obtain ⟨v, hv, rfl⟩ := hv
    rw [hπ.joined u v (hlt u (List.mem_of_getElem? hu)) (hlt v (List.mem_of_getElem? hv)), List.length_map]
    exact hr.joined i j u v hu hv

/-- The inverse of an isomorphism. -/
theorem GraphIso.inverse {edges edges' : List (Nat × Nat)} {n : Nat} {x x' : List A} {π : Nat → Nat}
    (hπ : GraphIso edges edges' n x x' π) : ∃ ρ, GraphIso edges' edges n x' x ρ ∧
      (∀ v, v < n → ρ (π v) = v) ∧ ∀ v, v < n → π (ρ v) = v := by
  have hsurj : ∀ v, v < n → ∃ u, u < n ∧ π u = v := by
    intro v hv
    let f : Fin n → Fin n := fun i => ⟨π i, hπ.vertex i i.2⟩
    have hinj : Function.Injective f := by
      intro a b e
      exact Fin.ext (hπ.inj a b a.2 b.2 (Fin.mk.inj e))
    obtain ⟨u, hu⟩ := Finite.surjective_of_injective hinj ⟨v, hv⟩
    exact ⟨u, u.2, Fin.mk.inj hu⟩
  have hex : ∀ v, ∃ u, v < n → u < n ∧ π u = v := by
    intro v
    by_cases h : v < n
    · obtain ⟨u, hu⟩ := hsurj v h
      exact ⟨u, fun _ => hu⟩
    · exact ⟨0, fun h' => absurd h' h⟩
  choose ρ hρ using hex
  refine ⟨ρ, ⟨fun v hv => (hρ v hv).1, ?_, ?_, ?_⟩, ?_, fun v hv => (hρ v hv).2⟩
  · intro u v hu hv e
    rw [← (hρ u hu).2, ← (hρ v hv).2, e]
  · intro u v hu hv
    rw [← hπ.joined (ρ u) (ρ v) (hρ u hu).1 (hρ v hv).1, (hρ u hu).2, (hρ v hv).2]
  · intro v hv
    rw [← hπ.feat (ρ v) (hρ v hv).1, (hρ v hv).2]
  · intro v hv
    have := hρ (π v) (hπ.vertex v hv)
    exact hπ.inj _ v this.1 hv this.2

theorem ringCount_iso {edges edges' : List (Nat × Nat)} {n : Nat} {x x' : List A} {π : Nat → Nat}
    (hπ : GraphIso edges edges' n x x' π) (hin : EdgesIn edges n) (hin' : EdgesIn edges' n) (k : Nat) :
    ringCount edges k = ringCount edges' k := by
  obtain ⟨ρ, hρ, h1, h2⟩ := hπ.inverse
  unfold ringCount
  refine Set.ncard_congr (fun s _ => s.image π) ?_ ?_ ?_
  · rintro s ⟨r, hr, hl, rfl⟩
    refine ⟨r.map π, IsRing.map hπ hin hr, by rw [List.length_map, hl], ?_⟩
    ext v
    simp
  · rintro s t ⟨r, hr, hl, rfl⟩ ⟨r', hr', hl', rfl⟩ e
    have hback : ∀ (r : List Nat), IsRing edges r → (r.toFinset.image π).image ρ = r.toFinset := by
      intro r hr
      rw [Finset.image_image]
      ext v
      simp only [Finset.mem_image, List.mem_toFinset, Function.comp]
      constructor
      · rintro ⟨u, hu, rfl⟩
        rwa [h1 u (ring_vertices hin hr hu)]
      · intro hv
        exact ⟨v, hv, h1 v (ring_vertices hin hr hv)⟩
    rw [← hback r hr, ← hback r' hr', e]
  · rintro t ⟨r, hr, hl, rfl⟩
    refine ⟨(r.map ρ).toFinset, ⟨r.map ρ, IsRing.map hρ hin' hr, by rw [List.length_map, hl], rfl⟩, ?_⟩
    ext v
    simp only [Finset.mem_image, List.mem_toFinset, List.mem_map]
    constructor
    · rintro ⟨u, ⟨w, hw, rfl⟩, rfl⟩
      rwa [h2 w (ring_vertices hin' hr hw)]
    · intro hv
      exact ⟨ρ v, ⟨v, hv, rfl⟩, h2 v (ring_vertices hin' hr hv)⟩

end Verif
