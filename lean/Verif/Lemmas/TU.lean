import Verif.Spec.TU
import Verif.Lemmas.Ocean
import Verif.Lemmas.Lists

/-!
# Lemmas for the TU files
-/

namespace Verif

/-! ### Numbering -/

section
variable {K : Type} [DecidableEq K]

theorem idxOf_le_place {l : List K} {i : Nat} {a : K} (h : l[i]? = some a) : l.idxOf a ≤ i := by
  induction l generalizing i with
  | nil => simp at h
  | cons b l ih =>
    by_cases hb : b = a
    · subst hb
      rw [List.idxOf_cons_self]
      omega
    · rw [List.idxOf_cons_ne _ hb]
      cases i with
      | zero => exact absurd (Option.some.inj h) hb
      | succ i => exact Nat.succ_le_succ (ih h)

theorem firsts_append_prefix (l m : List K) : firsts l <+: firsts (l ++ m) := by
  induction m using List.reverseRecOn with
  | nil => rw [List.append_nil]
  | append_singleton m a ih =>
    rw [← List.append_assoc, firsts_snoc]
    split
    · exact ih
    · exact ih.trans (List.prefix_append _ _)

theorem idxOf_firsts_append {l : List K} {a : K} (h : a ∈ l) (m : List K) :
    (firsts (l ++ m)).idxOf a = (firsts l).idxOf a := by
  obtain ⟨t, ht⟩ := firsts_append_prefix l m
  rw [← ht, List.idxOf_append_of_mem (mem_firsts.mpr h)]

theorem length_firsts (l : List K) : (firsts l).length = l.dedup.length :=
  ((List.perm_ext_iff_of_nodup (nodup_firsts l) (List.nodup_dedup l)).mpr fun a => by
    rw [mem_firsts, List.mem_dedup]).length_eq

/-- The places in the list of first occurrences number a list by first occurrence. -/
theorem numberedByFirst (l : List K) : NumberedByFirst l (l.map (firsts l).idxOf) := by
  refine ⟨by simp, fun i a hi => ?_⟩
  have ha : a ∈ l := List.mem_of_getElem? hi
  have hlt : l.idxOf a < l.length := List.idxOf_lt_length_iff.mpr ha
  have hget : l[l.idxOf a]? = some a := by
    rw [List.getElem?_eq_getElem hlt, List.getElem_idxOf]
  have hnot : a ∉ l.take (l.idxOf a) := by
    intro h
    obtain ⟨k, hk⟩ := List.mem_iff_getElem?.mp h
    rw [List.getElem?_take] at hk
    split at hk
    · next hlt =>
      have := idxOf_le_place hk
      omega
    · cases hk
  refine ⟨l.idxOf a, idxOf_le_place hi, hget, hnot, ?_⟩
  rw [List.getElem?_map, hi, Option.map_some, Option.some_inj, ← length_firsts]
  have hsplit : l = (l.take (l.idxOf a) ++ [a]) ++ l.drop (l.idxOf a + 1) := by
    conv_lhs => rw [← List.take_append_drop (l.idxOf a) l]
    rw [List.append_assoc, List.singleton_append, List.drop_eq_getElem_cons hlt, List.getElem_idxOf]
  have hm : a ∈ l.take (l.idxOf a) ++ [a] := by simp
  have h1 := idxOf_firsts_append hm (l.drop (l.idxOf a + 1))
  rw [← hsplit] at h1
  rw [h1, firsts_snoc, if_neg (by rw [mem_firsts]; exact hnot),
    List.idxOf_append_of_notMem (by rw [mem_firsts]; exact hnot)]
  simp

end

theorem Dict.number_firsts (l : List Int) (k : Int) : Dict.number (firsts l).zipIdx k = (firsts (l ++ [k])).zipIdx := by
  unfold Dict.number
  rw [Dict.get?_zipIdx, firsts_snoc]
  by_cases h : k ∈ firsts l
  · rw [if_pos h, if_pos h]
    rfl
  · rw [if_neg h, if_neg h, if_neg (by simp), List.length_zipIdx, Dict.set_zipIdx h]

theorem Dict.get_firsts {l : List Int} {k : Int} (h : k ∈ l) : Dict.get (firsts l).zipIdx k = .ok ((firsts l).idxOf k) :=
  Dict.get_zipIdx (mem_firsts.mpr h)

/-! ### Graphs -/

/-- The graph has the given nodes and edges. -/
structure NxGraph.Built (g : NxGraph) (N : Int → Prop) (E : Int → Int → Prop) : Prop where
  keys : (g.map Prod.fst).Nodup
  nodes : ∀ v, v ∈ g.map Prod.fst ↔ N v
  nbrs : ∀ p ∈ g, p.2.Nodup ∧ ∀ v, v ∈ p.2 ↔ E p.1 v
  edges : ∀ u v, E u v → N u

theorem Dict.get?_isSome {V : Type} (d : Dict Int V) (k : Int) : (Dict.get? d k).isSome ↔ k ∈ d.map Prod.fst := by
  induction d with
  | nil => simp
  | cons p d ih =>
    rw [Dict.get?_cons, List.map_cons, List.mem_cons]
    by_cases h : p.1 = k
    · simp [h]
    · rw [if_neg h, ih]
      exact ⟨.inr, fun hk => hk.resolve_left fun e => h e.symm⟩

theorem Dict.get?_mem {V : Type} {d : Dict Int V} {k : Int} {v : V} (h : Dict.get? d k = some v) : (k, v) ∈ d := by
  induction d with
  | nil => cases h
  | cons p d ih =>
    rw [Dict.get?_cons] at h
    by_cases hp : p.1 = k
    · rw [if_pos hp] at h
      obtain rfl := Option.some.inj h
      rw [← hp]
      exact List.mem_cons_self
    · rw [if_neg hp] at h
      exact List.mem_cons_of_mem _ (ih h)

theorem Dict.keys_set {V : Type} {d : Dict Int V} {k : Int} {v : V} (h : k ∈ d.map Prod.fst) :
    (Dict.set d k v).map Prod.fst = d.map Prod.fst := by
  induction d with
  | nil => simp at h
  | cons p d ih =>
    obtain ⟨a, b⟩ := p
    unfold Dict.set
    by_cases hp : a = k
    · rw [if_pos hp]; rfl
    · rw [if_neg hp, List.map_cons, List.map_cons, ih]
      exact (List.mem_cons.mp h).resolve_left fun e => hp e.symm

theorem Dict.mem_set {V : Type} {d : Dict Int V} {k : Int} {v : V} {p : Int × V} (hd : (d.map Prod.fst).Nodup)
    (h : p ∈ Dict.set d k v) : p = (k, v) ∨ (p ∈ d ∧ p.1 ≠ k) := by
  induction d with
  | nil =>
    left
    simpa [Dict.set] using h
  | cons q d ih =>
    obtain ⟨a, b⟩ := q
    rw [List.map_cons, List.nodup_cons] at hd
    unfold Dict.set at h
    by_cases hp : a = k
    · rw [if_pos hp] at h
      subst hp
      rcases List.mem_cons.mp h with h | h
      · exact .inl h
      · refine .inr ⟨List.mem_cons_of_mem _ h, ?_⟩
        rintro e
        have hm := List.mem_map_of_mem (f := Prod.fst) h
        rw [e] at hm
        exact hd.1 hm
    · rw [if_neg hp] at h
      rcases List.mem_cons.mp h with h | h
      · subst h
        exact .inr ⟨List.mem_cons_self, hp⟩
      · rcases ih hd.2 h with h | ⟨h1, h2⟩
        · exact .inl h
        · exact .inr ⟨List.mem_cons_of_mem _ h1, h2⟩

theorem NxGraph.Built.congr {g : NxGraph} {N N' : Int → Prop} {E E' : Int → Int → Prop} (h : g.Built N E)
    (hN : ∀ v, N v ↔ N' v) (hE : ∀ u v, E u v ↔ E' u v) : g.Built N' E' where
  keys := h.keys
  nodes v := (h.nodes v).trans (hN v)
  nbrs p hp := ⟨(h.nbrs p hp).1, fun v => ((h.nbrs p hp).2 v).trans (hE _ _)⟩
  edges u v he := (hN u).mp (h.edges u v ((hE u v).mpr he))

theorem NxGraph.built_nil : NxGraph.Built [] (fun _ => False) (fun _ _ => False) :=
  ⟨by simp, by simp, by simp, by simp⟩

theorem NxGraph.Built.addNode {g : NxGraph} {N : Int → Prop} {E : Int → Int → Prop} (h : g.Built N E) (a : Int) :
    (g.addNode a).Built (fun v => N v ∨ v = a) E := by
  unfold NxGraph.addNode
  by_cases hs : (Dict.get? g a).isSome
  · rw [if_pos hs]
    have ha := (h.nodes a).mp ((Dict.get?_isSome g a).mp hs)
    exact h.congr (fun v => ⟨.inl, fun hv => hv.elim id fun e => e ▸ ha⟩) fun _ _ => Iff.rfl
  · rw [if_neg hs]
    rw [Dict.get?_isSome] at hs
    have habs : ∀ p ∈ g, p.1 ≠ a := fun p hp e => hs (e ▸ List.mem_map_of_mem hp)
    rw [Dict.set_of_absent habs]
    have hE : ∀ v, ¬ E a v := fun v hv => hs ((h.nodes a).mpr (h.edges a v hv))
    refine ⟨?_, ?_, ?_, fun u v he => .inl (h.edges u v he)⟩
    · rw [List.map_append, List.nodup_append]
      refine ⟨h.keys, by simp, ?_⟩
      intro x hx y hy
      simp only [List.map_cons, List.map_nil, List.mem_singleton] at hy
      rw [hy]
      rintro rfl
      exact hs hx
    · intro v
      rw [List.map_append, List.mem_append, h.nodes v]
      simp
    · intro p hp
      rcases List.mem_append.mp hp with hp | hp
      · exact h.nbrs p hp
      · rw [List.mem_singleton] at hp
        subst hp
        exact ⟨List.nodup_nil, fun v => ⟨fun hv => absurd hv (by simp), fun hv => absurd hv (hE v)⟩⟩

theorem NxGraph.Built.link {g : NxGraph} {N : Int → Prop} {E : Int → Int → Prop} (h : g.Built N E) {a : Int}
    (ha : N a) (b : Int) : (g.link a b).Built N (fun u v => E u v ∨ (u = a ∧ v = b)) := by
  have hk := (h.nodes a).mpr ha
  obtain ⟨l, hl⟩ := Option.isSome_iff_exists.mp ((Dict.get?_isSome g a).mpr hk)
  obtain ⟨h1, h2⟩ := h.nbrs _ (Dict.get?_mem hl)
  unfold NxGraph.link
  rw [hl, Option.getD_some]
  refine ⟨by rw [Dict.keys_set hk]; exact h.keys, by rw [Dict.keys_set hk]; exact h.nodes, ?_, ?_⟩
  · intro p hp
    rcases Dict.mem_set h.keys hp with rfl | ⟨hp, hne⟩
    · dsimp only at h1 h2 ⊢
      split
      · next hb =>
        refine ⟨h1, fun v => ?_⟩
        rw [h2]
        constructor
        · exact .inl
        · rintro (hv | ⟨-, rfl⟩)
          · exact hv
          · exact (h2 _).mp hb
      · next hb =>
        refine ⟨?_, fun v => ?_⟩
        · rw [List.nodup_append]
          refine ⟨h1, by simp, ?_⟩
          intro x hx y hy
          rw [List.mem_singleton.mp hy]
          rintro rfl
          exact hb hx
        · rw [List.mem_append, List.mem_singleton, h2]
          simp
    · obtain ⟨h3, h4⟩ := h.nbrs p hp
      refine ⟨h3, fun v => ?_⟩
      rw [h4]
      simp [hne]
  · rintro u v (he | ⟨rfl, -⟩)
    · exact h.edges u v he
    · exact ha

theorem NxGraph.Built.addEdge {g : NxGraph} {N : Int → Prop} {E : Int → Int → Prop} (h : g.Built N E) (a b : Int) :
    (g.addEdge a b).Built (fun v => N v ∨ v = a ∨ v = b)
      (fun u v => E u v ∨ (u = a ∧ v = b) ∨ (u = b ∧ v = a)) := by
  unfold NxGraph.addEdge
  have h1 := (h.addNode a).addNode b
  have h2 := h1.link (a := a) (.inl (.inr rfl)) b
  have h3 := h2.link (a := b) (.inr rfl) a
  exact h3.congr (fun v => by rw [or_assoc]) (fun u v => by rw [or_assoc])

theorem NxGraph.Built.addEdges {g : NxGraph} {N : Int → Prop} {E : Int → Int → Prop} (h : g.Built N E) (a : Int)
    (ha : N a) (l : List Int) :
    (l.foldl (fun g v => g.addEdge a v) g).Built (fun v => N v ∨ v ∈ l)
      (fun u v => E u v ∨ (u = a ∧ v ∈ l) ∨ (v = a ∧ u ∈ l)) := by
  induction l generalizing g N E with
  | nil => exact h.congr (fun v => by simp) (fun u v => by simp)
  | cons b l ih =>
    refine (ih (h.addEdge a b) (.inl ha)).congr (fun v => ?_) (fun u v => ?_)
    · rw [List.mem_cons]
      constructor
      · rintro ((hv | rfl | hv) | hv)
        · exact .inl hv
        · exact .inl ha
        · exact .inr (.inl hv)
        · exact .inr (.inr hv)
      · rintro (hv | hv | hv)
        · exact .inl (.inl hv)
        · exact .inl (.inr (.inr hv))
        · exact .inr hv
    · rw [List.mem_cons, List.mem_cons]
      tauto

/-- The graph that the first pass builds. -/
def buildGraph (start : Nat) (nodes : List TUNode) (g : NxGraph) : NxGraph :=
  (nodes.zipIdx start).foldl (fun g p => p.1.neighbours.foldl (fun g v => g.addEdge p.2 v) (g.addNode p.2)) g

theorem built_graph (nodes : List TUNode) (start : Nat) {g : NxGraph} {N : Int → Prop} {E : Int → Int → Prop}
    (h : g.Built N E) :
    (buildGraph start nodes g).Built
      (fun v => N v ∨ (∃ i : Nat, v = i ∧ start ≤ i ∧ i < start + nodes.length) ∨ ∃ n ∈ nodes, v ∈ n.neighbours)
      (fun u v => E u v ∨ (∃ (i : Nat) (n : TUNode), u = ((start + i : Nat) : Int) ∧ nodes[i]? = some n ∧ v ∈ n.neighbours) ∨
        (∃ (i : Nat) (n : TUNode), v = ((start + i : Nat) : Int) ∧ nodes[i]? = some n ∧ u ∈ n.neighbours)) := by
  induction nodes generalizing g N E start with
  | nil =>
    refine h.congr (fun v => ?_) (fun u v => by simp)
    constructor
    · exact .inl
    · rintro (hv | ⟨i, -, h1, h2⟩ | ⟨n, hn, -⟩)
      · exact hv
      · simp only [List.length_nil] at h2; omega
      · cases hn
  | cons n nodes ih =>
    have h1 := (h.addNode start).addEdges start (.inr rfl) n.neighbours
    refine (ih (start + 1) h1).congr (fun v => ?_) (fun u v => ?_)
    · constructor
      · rintro (((hv | hv) | hv) | ⟨i, hi, h2, h3⟩ | ⟨m, hm, hv⟩)
        · exact .inl hv
        · exact .inr (.inl ⟨start, hv, le_refl _, by simp⟩)
        · exact .inr (.inr ⟨n, by simp, hv⟩)
        · exact .inr (.inl ⟨i, hi, by omega, by rw [List.length_cons]; omega⟩)
        · exact .inr (.inr ⟨m, by simp [hm], hv⟩)
      · rintro (hv | ⟨i, hi, h2, h3⟩ | ⟨m, hm, hv⟩)
        · exact .inl (.inl (.inl hv))
        · rw [List.length_cons] at h3
          by_cases he : i = start
          · subst he
            exact .inl (.inl (.inr hi))
          · exact .inr (.inl ⟨i, hi, by omega, by omega⟩)
        · rcases List.mem_cons.mp hm with rfl | hm
          · exact .inl (.inr hv)
          · exact .inr (.inr ⟨m, hm, hv⟩)
    · have key : ∀ a b : Int, (∃ (i : Nat) (m : TUNode), a = ((start + i : Nat) : Int) ∧ (n :: nodes)[i]? = some m ∧
          b ∈ m.neighbours) ↔ ((a = start ∧ b ∈ n.neighbours) ∨
          ∃ (i : Nat) (m : TUNode), a = ((start + 1 + i : Nat) : Int) ∧ nodes[i]? = some m ∧ b ∈ m.neighbours) := by
        intro a b
        constructor
        · rintro ⟨i, m, hi, hm, hb⟩
          cases i with
          | zero =>
            obtain rfl := Option.some.inj hm
            exact .inl ⟨hi, hb⟩
          | succ i => exact .inr ⟨i, m, by rw [hi]; congr 1; omega, hm, hb⟩
        · rintro (⟨hi, hb⟩ | ⟨i, m, hi, hm, hb⟩)
          · exact ⟨0, n, hi, rfl, hb⟩
          · exact ⟨i + 1, m, by rw [hi]; congr 1; omega, hm, hb⟩
      rw [key u v, key v u]
      generalize (∃ (i : Nat) (m : TUNode), u = ((start + 1 + i : Nat) : Int) ∧ nodes[i]? = some m ∧ v ∈ m.neighbours) = A
      generalize (∃ (i : Nat) (m : TUNode), v = ((start + 1 + i : Nat) : Int) ∧ nodes[i]? = some m ∧ u ∈ m.neighbours) = B
      tauto

/-- The graph of a source. -/
theorem built_source (g : TUSource) :
    (buildGraph 0 g.nodes []).Built
      (fun v => (0 ≤ v ∧ v < g.nodes.length) ∨ ∃ n ∈ g.nodes, v ∈ n.neighbours) g.Adj := by
  refine (built_graph g.nodes 0 NxGraph.built_nil).congr (fun v => ?_) (fun u v => ?_)
  · constructor
    · rintro (hv | ⟨i, rfl, -, h2⟩ | hv)
      · exact hv.elim
      · exact .inl ⟨by omega, by omega⟩
      · exact .inr hv
    · rintro (⟨h1, h2⟩ | hv)
      · exact .inr (.inl ⟨v.toNat, by omega, by omega, by omega⟩)
      · exact .inr (.inr hv)
  · unfold TUSource.Adj TUSource.Lists
    simp only [false_or, Nat.zero_add]
    constructor
    · rintro (⟨i, n, h1, h2, h3⟩ | ⟨i, n, h1, h2, h3⟩)
      · exact .inl ⟨i, h1, n, h2, h3⟩
      · exact .inr ⟨i, h1, n, h2, h3⟩
    · rintro (⟨i, h1, n, h2, h3⟩ | ⟨i, h1, n, h2, h3⟩)
      · exact .inl ⟨i, n, h1, h2, h3⟩
      · exact .inr ⟨i, n, h1, h2, h3⟩

/-- The graph has as many nodes as announced exactly if the listed neighbours are nodes. -/
theorem length_buildGraph (g : TUSource) : (buildGraph 0 g.nodes []).length = g.nodes.length ↔ g.InRange := by
  have hb := built_source g
  have hR : ((List.range g.nodes.length).map fun i : Nat => (i : Int)).Nodup :=
    List.nodup_range.map fun _ _ h => Int.ofNat.inj h
  have hmem : ∀ v : Int, v ∈ ((List.range g.nodes.length).map fun i : Nat => (i : Int)) ↔
      0 ≤ v ∧ v < g.nodes.length := by
    intro v
    rw [List.mem_map]
    constructor
    · rintro ⟨i, hi, rfl⟩
      rw [List.mem_range] at hi
      omega
    · rintro ⟨h1, h2⟩
      exact ⟨v.toNat, by rw [List.mem_range]; omega, by omega⟩
  have hsub := hR.subperm (l₂ := (buildGraph 0 g.nodes []).map Prod.fst) fun v hv =>
    (hb.nodes v).mpr (.inl ((hmem v).mp hv))
  constructor
  · intro hlen n hn v hv
    have hp := hsub.perm_of_length_le (by simp [hlen])
    exact (hmem v).mp (hp.mem_iff.mpr ((hb.nodes v).mpr (.inr ⟨n, hn, hv⟩)))
  · intro hin
    have hp := (List.perm_ext_iff_of_nodup hR hb.keys).mpr fun v => by
      rw [hmem, hb.nodes]
      exact ⟨.inl, fun h => h.elim id fun ⟨n, hn, hv⟩ => hin n hn v hv⟩
    simpa using hp.length_eq.symm

/-! ### Edges -/

theorem mem_edgesFrom {g : NxGraph} {seen : List Int} {u v : Int} :
    (u, v) ∈ NxGraph.edgesFrom seen g ↔ ∃ pre nbrs post, g = pre ++ (u, nbrs) :: post ∧ v ∈ nbrs ∧ v ∉ seen ∧
      v ∉ pre.map Prod.fst := by
  induction g generalizing seen with
  | nil => simp [NxGraph.edgesFrom]
  | cons p g ih =>
    obtain ⟨w, nbrs⟩ := p
    unfold NxGraph.edgesFrom
    rw [List.mem_append, ih]
    constructor
    · rintro (h | ⟨pre, l, post, rfl, h1, h2, h3⟩)
      · obtain ⟨x, hx, he⟩ := List.mem_map.mp h
        rw [Prod.mk.injEq] at he
        obtain ⟨rfl, rfl⟩ := he
        rw [List.mem_filter] at hx
        exact ⟨[], nbrs, g, rfl, hx.1, by simpa using hx.2, by simp⟩
      · refine ⟨(w, nbrs) :: pre, l, post, rfl, h1, fun h => h2 (List.mem_cons_of_mem _ h), ?_⟩
        rw [List.map_cons, List.mem_cons]
        rintro (rfl | h)
        · exact h2 List.mem_cons_self
        · exact h3 h
    · rintro ⟨pre, l, post, he, h1, h2, h3⟩
      cases pre with
      | nil =>
        rw [List.nil_append, List.cons.injEq, Prod.mk.injEq] at he
        obtain ⟨⟨rfl, rfl⟩, rfl⟩ := he
        refine .inl (List.mem_map.mpr ⟨v, ?_, rfl⟩)
        rw [List.mem_filter]
        exact ⟨h1, by simpa using h2⟩
      | cons q pre =>
        rw [List.cons_append, List.cons.injEq] at he
        obtain ⟨rfl, rfl⟩ := he
        rw [List.map_cons, List.mem_cons, not_or] at h3
        refine .inr ⟨pre, l, post, rfl, h1, ?_, h3.2⟩
        rw [List.mem_cons, not_or]
        exact ⟨h3.1, h2⟩

theorem nodup_edgesFrom {g : NxGraph} (hk : (g.map Prod.fst).Nodup) (hn : ∀ p ∈ g, p.2.Nodup) (seen : List Int) :
    (NxGraph.edgesFrom seen g).Nodup := by
  induction g generalizing seen with
  | nil => simp [NxGraph.edgesFrom]
  | cons p g ih =>
    obtain ⟨w, nbrs⟩ := p
    rw [List.map_cons, List.nodup_cons] at hk
    unfold NxGraph.edgesFrom
    rw [List.nodup_append]
    refine ⟨((hn _ List.mem_cons_self).filter _).map fun a b h => (Prod.mk.inj h).2,
      ih hk.2 (fun q hq => hn q (List.mem_cons_of_mem _ hq)) _, ?_⟩
    intro a ha b hb hab
    obtain ⟨x, -, rfl⟩ := List.mem_map.mp ha
    subst hab
    obtain ⟨pre, l, post, rfl, -⟩ := mem_edgesFrom.mp hb
    exact hk.1 (by simp)

section
variable {g : NxGraph} {N : Int → Prop} {E : Int → Int → Prop}

/-- Every edge is listed, in one direction. -/
theorem NxGraph.Built.mem_edges (h : g.Built N E) (hs : ∀ u v, E u v → E v u) {u v : Int} :
    ((u, v) ∈ g.edges ∨ (v, u) ∈ g.edges) ↔ E u v := by
  constructor
  · rintro (he | he)
    · obtain ⟨pre, l, post, rfl, h1, -⟩ := mem_edgesFrom.mp he
      exact ((h.nbrs (u, l) (by simp)).2 v).mp h1
    · obtain ⟨pre, l, post, rfl, h1, -⟩ := mem_edgesFrom.mp he
      exact hs _ _ (((h.nbrs (v, l) (by simp)).2 u).mp h1)
  · intro he
    have hu := (h.nodes u).mpr (h.edges u v he)
    have hv := (h.nodes v).mpr (h.edges v u (hs _ _ he))
    obtain ⟨⟨u', l⟩, hp, rfl⟩ := List.mem_map.mp hu
    obtain ⟨pre, post, rfl⟩ := List.append_of_mem hp
    by_cases hpre : v ∈ pre.map Prod.fst
    · obtain ⟨⟨v', l'⟩, hq, rfl⟩ := List.mem_map.mp hpre
      obtain ⟨pre', post', rfl⟩ := List.append_of_mem hq
      refine .inr (mem_edgesFrom.mpr ⟨pre', l', post' ++ (u', l) :: post, by simp, ?_, by simp, ?_⟩)
      · exact ((h.nbrs (v', l') (by simp)).2 u').mpr (hs _ _ he)
      · intro hmem
        have hk := h.keys
        simp only [List.append_assoc, List.map_append, List.map_cons, List.nodup_append] at hk
        exact hk.2.2 _ hmem u' (by simp) rfl
    · exact .inl (mem_edgesFrom.mpr ⟨pre, l, post, rfl, ((h.nbrs (u', l) (by simp)).2 v).mpr he, by simp, hpre⟩)

/-- No edge is listed in both directions. -/
theorem NxGraph.Built.edges_one_way (h : g.Built N E) {u v : Int} (h1 : (u, v) ∈ g.edges) (h2 : (v, u) ∈ g.edges) :
    u = v := by
  obtain ⟨pre, l, post, e1, -, -, h3⟩ := mem_edgesFrom.mp h1
  obtain ⟨pre', l', post', e2, -, -, h4⟩ := mem_edgesFrom.mp h2
  by_contra hne
  have hv : v ∈ post.map Prod.fst := by
    have : v ∈ g.map Prod.fst := by rw [e2]; simp
    rw [e1, List.map_append, List.mem_append, List.map_cons, List.mem_cons] at this
    exact (this.resolve_left h3).resolve_left fun e => hne e.symm
  obtain ⟨⟨v', l2⟩, hq, rfl⟩ := List.mem_map.mp hv
  obtain ⟨a, b, rfl⟩ := List.append_of_mem hq
  have hk := h.keys
  have e3 : pre' ++ (v', l') :: post' = (pre ++ (u, l) :: a) ++ (v', l2) :: b := by
    rw [← e2, e1]
    simp
  have hnd : ((pre' ++ (v', l') :: post').map Prod.fst).Nodup := by rw [← e2]; exact hk
  have hpre : pre'.map Prod.fst = (pre ++ (u, l) :: a).map Prod.fst := by
    have hlen : ∀ (x y x' y' : List Int) (c : Int), x ++ c :: y = x' ++ c :: y' → (x ++ c :: y).Nodup → x = x' := by
      intro x
      induction x with
      | nil =>
        intro y x' y' c he hn
        cases x' with
        | nil => rfl
        | cons d x' =>
          rw [List.nil_append, List.cons_append, List.cons.injEq] at he
          obtain ⟨rfl, rfl⟩ := he
          simp at hn
      | cons d x ih =>
        intro y x' y' c he hn
        cases x' with
        | nil =>
          rw [List.nil_append, List.cons_append, List.cons.injEq] at he
          obtain ⟨rfl, rfl⟩ := he
          simp at hn
        | cons d' x' =>
          rw [List.cons_append, List.cons_append, List.cons.injEq] at he
          rw [List.cons_append, List.nodup_cons] at hn
          rw [he.1, ih y x' y' c he.2 hn.2]
    refine hlen _ (post'.map Prod.fst) _ (b.map Prod.fst) v' ?_ (by simpa using hnd)
    have := congrArg (List.map Prod.fst) e3
    simpa using this
  exact h4 (by rw [hpre]; simp)

/-- The edges of the matrix. -/
theorem NxGraph.Built.edge_matrix (h : g.Built N E) (hs : ∀ u v, E u v → E v u) :
    (∀ u v, (u, v) ∈ g.edges ++ g.edges.map (fun e => (e.2, e.1)) ↔ E u v) ∧
    (∀ u v, u ≠ v → (g.edges ++ g.edges.map (fun e => (e.2, e.1))).count (u, v) ≤ 1) ∧
    (∀ u, E u u → (g.edges ++ g.edges.map (fun e => (e.2, e.1))).count (u, u) = 2) := by
  have hmem : ∀ u v, (u, v) ∈ g.edges.map (fun e => (e.2, e.1)) ↔ (v, u) ∈ g.edges := by
    intro u v
    rw [List.mem_map]
    constructor
    · rintro ⟨⟨a, b⟩, hab, he⟩
      rw [Prod.mk.injEq] at he
      obtain ⟨rfl, rfl⟩ := he
      exact hab
    · exact fun he => ⟨(v, u), he, rfl⟩
  have hnd : g.edges.Nodup := nodup_edgesFrom h.keys (fun p hp => (h.nbrs p hp).1) []
  have hnd' : (g.edges.map fun e => (e.2, e.1)).Nodup := hnd.map fun a b he => by
    obtain ⟨a1, a2⟩ := a
    obtain ⟨b1, b2⟩ := b
    simp only [Prod.mk.injEq] at he ⊢
    exact ⟨he.2, he.1⟩
  refine ⟨fun u v => ?_, fun u v hne => ?_, fun u hu => ?_⟩
  · rw [List.mem_append, hmem, h.mem_edges hs]
  · rw [List.count_append, hnd.count, hnd'.count]
    by_cases h1 : (u, v) ∈ g.edges
    · have h2 : (u, v) ∉ g.edges.map fun e => (e.2, e.1) := by
        rw [hmem]
        exact fun h2 => hne (h.edges_one_way h1 h2)
      rw [if_pos h1, if_neg h2]
    · rw [if_neg h1]
      split <;> omega
  · rw [List.count_append, hnd.count, hnd'.count]
    have h1 : (u, u) ∈ g.edges := by
      rcases (h.mem_edges hs (u := u) (v := u)).mpr hu with h | h <;> exact h
    rw [if_pos h1, if_pos ((hmem u u).mpr h1)]

end

/-! ### Reading -/

theorem readRow_line (v : TUNode) : readRow v.line = .ok (v.tag :: v.neighbours.length :: v.neighbours) := by
  show mapE Word.toInt (sliceTo v.line ((v.neighbours.length : Int) + 2)) = _
  have hs : sliceTo v.line ((v.neighbours.length : Int) + 2) =
      .int v.tag :: .int v.neighbours.length :: v.neighbours.map .int := by
    unfold sliceTo
    rw [if_pos (by omega)]
    have : ((v.neighbours.length : Int) + 2).toNat = v.neighbours.length + 1 + 1 := by omega
    rw [this]
    unfold TUNode.line
    rw [List.take_succ_cons, List.take_succ_cons, List.take_append_of_le_length (by simp), List.take_of_length_le (by simp)]
  rw [hs]
  have hm : mapE Word.toInt (v.neighbours.map Word.int) = .ok v.neighbours := by
    rw [mapE_map]
    exact (mapE_ok (f := fun a => (Word.int a).toInt) (g := id) fun a _ => rfl).trans (by rw [List.map_id])
  rw [mapE_cons, mapE_cons, hm]
  rfl

theorem read_nodes (nodes : List TUNode) (rest : List (List Word)) (raw : List Int) :
    ∀ (start : Nat) (s : NodeState), s.lines = nodes.map TUNode.line ++ rest → s.feats = (firsts raw).zipIdx →
    foldE readNode s (List.range' start nodes.length) = .ok {
      lines := rest
      feats := (firsts (raw ++ nodes.map TUNode.tag)).zipIdx
      graph := buildGraph start nodes s.graph
      tags := s.tags ++ nodes.map fun v => (firsts (raw ++ nodes.map TUNode.tag)).idxOf v.tag } := by
  induction nodes generalizing raw with
  | nil =>
    intro start s h1 h2
    obtain ⟨a, b, c, d⟩ := s
    simp only [List.map_nil, List.nil_append] at h1 h2
    subst h1 h2
    simp [foldE, buildGraph]
  | cons v nodes ih =>
    intro start s h1 h2
    rw [List.length_cons, List.range'_succ]
    show (readNode s start >>= fun a => foldE readNode a (List.range' (start + 1) nodes.length)) = _
    have hstep : readNode s start = .ok {
        lines := nodes.map TUNode.line ++ rest
        feats := (firsts (raw ++ [v.tag])).zipIdx
        graph := v.neighbours.foldl (fun g w => g.addEdge start w) (s.graph.addNode start)
        tags := s.tags ++ [(firsts (raw ++ [v.tag])).idxOf v.tag] } := by
      unfold readNode
      rw [h1, h2]
      show (readRow v.line >>= _) = _
      rw [readRow_line, ok_bind]
      show (Dict.get (Dict.number (firsts raw).zipIdx v.tag) v.tag >>= _) = _
      rw [Dict.number_firsts, Dict.get_firsts (by simp)]
      rfl
    rw [hstep, ok_bind, ih (raw ++ [v.tag]) (start + 1) _ rfl rfl]
    have hraw : raw ++ (v :: nodes).map TUNode.tag = raw ++ [v.tag] ++ nodes.map TUNode.tag := by simp
    rw [hraw]
    congr 2
    rw [List.append_assoc, List.map_cons, List.singleton_append,
      idxOf_firsts_append (l := raw ++ [v.tag]) (by simp)]

/-- A graph after the first pass. -/
def sourceGraph (all : List Int) (g : TUSource) : S2VGraph where
  graph := buildGraph 0 g.nodes []
  label := g.label
  tags := g.nodes.map fun v => (firsts all).idxOf v.tag

/-- The state after some graphs. -/
def readState (gs : List TUSource) (all : List Int) (rest : List (List Word)) : ReadState where
  lines := rest
  labels := (firsts (gs.map TUSource.label)).zipIdx
  feats := (firsts (gs.flatMap fun g => g.nodes.map TUNode.tag)).zipIdx
  graphs := gs.map (sourceGraph all)

theorem read_graph {pre : List TUSource} {g : TUSource} {all : List Int} {rest : List (List Word)} {more : List Int}
    (hall : all = ((pre ++ [g]).flatMap fun g => g.nodes.map TUNode.tag) ++ more) (i : Nat) :
    readGraph (readState pre all (g.lines ++ rest)) i =
      (pyAssert (decide (((buildGraph 0 g.nodes []).length : Int) = g.nodes.length)) >>= fun _ =>
        .ok (readState (pre ++ [g]) all rest)) := by
  unfold readGraph
  show (mapE Word.toInt [.int g.nodes.length, .int g.label] >>= _) = _
  show (foldE readNode { lines := g.nodes.map TUNode.line ++ rest, feats := (readState pre all (g.lines ++ rest)).feats, graph := [], tags := [] } (List.range ((g.nodes.length : Nat) : Int).toNat) >>= _) = _
  rw [Int.toNat_natCast, List.range_eq_range', read_nodes g.nodes rest _ 0 _ rfl rfl, ok_bind]
  dsimp only
  have hstate : ({
    lines := rest
    labels := Dict.number (readState pre all (g.lines ++ rest)).labels g.label
    feats := (firsts ((pre.flatMap fun g => g.nodes.map TUNode.tag) ++ g.nodes.map TUNode.tag)).zipIdx
    graphs := (readState pre all (g.lines ++ rest)).graphs ++ [{ graph := buildGraph 0 g.nodes [], label := g.label, tags := [] ++ g.nodes.map fun v => (firsts ((pre.flatMap fun g => g.nodes.map TUNode.tag) ++ g.nodes.map TUNode.tag)).idxOf v.tag }] } : ReadState) = readState (pre ++ [g]) all rest := by
    unfold readState
    dsimp only
    rw [Dict.number_firsts]
    congr 1
    · simp
    · simp
    · rw [List.map_append]
      congr 1
      simp only [List.nil_append, List.map_cons, List.map_nil, sourceGraph]
      congr 2
      apply List.map_congr_left
      intro v hv
      rw [hall, idxOf_firsts_append (l := (pre ++ [g]).flatMap fun g => g.nodes.map TUNode.tag)]
      · simp
      · simp only [List.flatMap_append, List.flatMap_cons, List.flatMap_nil, List.append_nil, List.mem_append]
        exact .inr (List.mem_map_of_mem hv)
  rw [← hstate]
  rfl

theorem read_graphs (all : List Int) (post : List TUSource) : ∀ (pre : List TUSource) (start : Nat) (more : List Int),
    all = ((pre ++ post).flatMap fun g => g.nodes.map TUNode.tag) ++ more →
    ((∀ g ∈ post, g.InRange) →
      foldE readGraph (readState pre all (post.flatMap TUSource.lines)) (List.range' start post.length) =
        .ok (readState (pre ++ post) all [])) ∧
    ((∃ g ∈ post, ¬ g.InRange) →
      foldE readGraph (readState pre all (post.flatMap TUSource.lines)) (List.range' start post.length) =
        .error .assertion) := by
  induction post with
  | nil =>
    intro pre start more _
    refine ⟨fun _ => by rw [List.append_nil]; rfl, ?_⟩
    rintro ⟨g, hg, -⟩
    cases hg
  | cons g post ih =>
    intro pre start more hall
    have hall' : all = ((pre ++ [g]).flatMap fun g => g.nodes.map TUNode.tag) ++
        ((post.flatMap fun g => g.nodes.map TUNode.tag) ++ more) := by rw [hall]; simp
    have hread := read_graph (rest := post.flatMap TUSource.lines) hall' start
    have ih' := ih (pre ++ [g]) (start + 1) more (by rw [hall]; simp)
    have hfold : foldE readGraph (readState pre all ((g :: post).flatMap TUSource.lines))
        (List.range' start (g :: post).length) =
        (readGraph (readState pre all (g.lines ++ post.flatMap TUSource.lines)) start >>= fun a =>
          foldE readGraph a (List.range' (start + 1) post.length)) := by
      rw [List.length_cons, List.range'_succ, List.flatMap_cons]
      rfl
    rw [hfold, hread]
    have hin : (decide (((buildGraph 0 g.nodes []).length : Int) = g.nodes.length) = true) ↔ g.InRange := by
      rw [decide_eq_true_eq, Int.natCast_inj, length_buildGraph]
    by_cases hg : g.InRange
    · rw [hin.mpr hg]
      simp only [pyAssert_true, ok_bind]
      refine ⟨fun h => ?_, ?_⟩
      · rw [ih'.1 fun g' hg' => h g' (by simp [hg'])]
        simp
      · rintro ⟨g', hg', hno⟩
        rcases List.mem_cons.mp hg' with rfl | hg'
        · exact absurd hg hno
        · exact ih'.2 ⟨g', hg', hno⟩
    · have hf : decide (((buildGraph 0 g.nodes []).length : Int) = g.nodes.length) = false := by
        rw [Bool.eq_false_iff]
        exact fun h => hg (hin.mp h)
      rw [hf]
      exact ⟨fun h => absurd (h g (by simp)) hg, fun _ => rfl⟩

/-- Reading a file. -/
theorem read_file (gs : List TUSource) :
    ((∀ g ∈ gs, g.InRange) →
      readFile (tuFile gs) = .ok (readState gs (gs.flatMap fun g => g.nodes.map TUNode.tag) [])) ∧
    ((∃ g ∈ gs, ¬ g.InRange) → readFile (tuFile gs) = .error .assertion) := by
  have h := read_graphs (gs.flatMap fun g => g.nodes.map TUNode.tag) gs [] 0 [] (by simp)
  have hfile : readFile (tuFile gs) = foldE readGraph (readState [] (gs.flatMap fun g => g.nodes.map TUNode.tag)
      (gs.flatMap TUSource.lines)) (List.range' 0 gs.length) := by
    rw [← List.range_eq_range']
    rfl
  rw [hfile]
  simpa using h

/-! ### The second pass -/

theorem TUSource.adj_symm (g : TUSource) (u v : Int) (h : g.Adj u v) : g.Adj v u := h.symm

theorem TUSource.hasEdge_iff (g : TUSource) : g.HasEdge ↔ ∃ u v, g.Adj u v := by
  unfold TUSource.HasEdge TUSource.Adj TUSource.Lists
  constructor
  · rintro ⟨n, hn, hne⟩
    obtain ⟨i, hi⟩ := List.mem_iff_getElem?.mp hn
    obtain ⟨v, hv⟩ := List.exists_mem_of_ne_nil _ hne
    exact ⟨i, v, .inl ⟨i, rfl, n, hi, hv⟩⟩
  · rintro ⟨u, v, ⟨i, -, n, hn, hv⟩ | ⟨i, -, n, hn, hv⟩⟩
    · exact ⟨n, List.mem_of_getElem? hn, List.ne_nil_of_mem hv⟩
    · exact ⟨n, List.mem_of_getElem? hn, List.ne_nil_of_mem hv⟩

theorem edges_eq_nil (g : TUSource) : (buildGraph 0 g.nodes []).edges = [] ↔ ¬ g.HasEdge := by
  have hb := built_source g
  rw [TUSource.hasEdge_iff]
  constructor
  · rintro he ⟨u, v, huv⟩
    have := (hb.mem_edges g.adj_symm (u := u) (v := v)).mpr huv
    simp [he] at this
  · intro hno
    rw [List.eq_nil_iff_forall_not_mem]
    rintro ⟨u, v⟩ huv
    exact hno ⟨u, v, (hb.mem_edges g.adj_symm).mp (.inl huv)⟩

theorem buildGraph_eq_nil (g : TUSource) (h : g.InRange) : buildGraph 0 g.nodes [] = [] ↔ g.nodes = [] := by
  rw [← List.length_eq_zero_iff, (length_buildGraph g).mpr h, List.length_eq_zero_iff]

/-- The matrix of the edges of a source. -/
def sourceEdges (g : TUSource) : List (Int × Int) :=
  (buildGraph 0 g.nodes []).edges ++ (buildGraph 0 g.nodes []).edges.map fun e => (e.2, e.1)

/-- The graph after the second pass. -/
def finished (labels tags : List Int) (g : TUSource) : TUGraph where
  graph := buildGraph 0 g.nodes []
  label := (firsts labels).idxOf g.label
  tags := g.nodes.map fun v => (firsts tags).idxOf v.tag
  edgeMat := sourceEdges g

theorem finishGraph_ok {labels : Dict Int Nat} {s : S2VGraph} {l : Nat} (h1 : s.graph ≠ [])
    (h2 : Dict.get labels s.label = .ok l) (h3 : s.graph.edges ≠ []) :
    finishGraph labels s = .ok { graph := s.graph, label := l, tags := s.tags,
                                 edgeMat := s.graph.edges ++ s.graph.edges.map fun e => (e.2, e.1) } := by
  unfold finishGraph
  rw [if_neg h1, h2, ok_bind, if_neg h3]
  rfl

theorem finishGraph_index {labels : Dict Int Nat} {s : S2VGraph} {l : Nat} (h1 : s.graph ≠ [])
    (h2 : Dict.get labels s.label = .ok l) (h3 : s.graph.edges = []) : finishGraph labels s = .error .index := by
  unfold finishGraph
  rw [if_neg h1, h2, ok_bind, if_pos h3]

theorem finishGraph_value {labels : Dict Int Nat} {s : S2VGraph} (h1 : s.graph = []) :
    finishGraph labels s = .error .value := by
  unfold finishGraph
  rw [if_pos h1]

theorem finish_source {gs : List TUSource} {tags : List Int} {rest : List (List Word)} {g : TUSource} (hg : g ∈ gs)
    (hin : g.InRange) :
    (g.HasEdge → finishGraph (readState gs tags rest).labels (sourceGraph tags g) =
      .ok (finished (gs.map TUSource.label) tags g)) ∧
    (¬ g.HasEdge → finishGraph (readState gs tags rest).labels (sourceGraph tags g) =
      .error (if g.nodes = [] then .value else .index)) := by
  have hlabel : Dict.get (readState gs tags rest).labels (sourceGraph tags g).label =
      .ok ((firsts (gs.map TUSource.label)).idxOf g.label) := Dict.get_firsts (List.mem_map_of_mem hg)
  have hnil := buildGraph_eq_nil g hin
  constructor
  · intro he
    have hne : ¬ buildGraph 0 g.nodes [] = [] := by
      rw [hnil]
      intro h0
      obtain ⟨n, hn, -⟩ := he
      rw [h0] at hn
      cases hn
    exact finishGraph_ok hne hlabel fun h => (edges_eq_nil g).mp h he
  · intro he
    by_cases h0 : g.nodes = []
    · rw [if_pos h0]
      exact finishGraph_value (hnil.mpr h0)
    · rw [if_neg h0]
      exact finishGraph_index (fun h => h0 (hnil.mp h)) hlabel ((edges_eq_nil g).mpr he)

/-! ### Features -/

theorem hotRow_isOneHot {n i : Nat} (h : i < n) : IsOneHot n (hotRow n i) := by
  refine ⟨by simp [hotRow], i, h, fun j hj => ?_⟩
  unfold hotRow
  rw [List.getElem?_map, List.getElem?_range hj]
  rfl

theorem hotRow_inj {n i j : Nat} (hi : i < n) (h : hotRow n i = hotRow n j) : i = j := by
  have := congrArg (fun l => l[i]?) h
  simp only [hotRow, List.getElem?_map, List.getElem?_range hi, Option.map_some, Option.some_inj, if_true] at this
  by_contra hne
  rw [if_neg hne] at this
  omega

theorem tagFeatures_ok {tagset : List Nat} {g : TUGraph} (h : ∀ t ∈ g.tags, t ∈ tagset) :
    tagFeatures tagset g = .ok { g with features := g.tags.map fun t => hotRow tagset.length (tagset.idxOf t) } := by
  unfold tagFeatures
  rw [mapE_ok (g := tagset.idxOf) fun t ht => Dict.get_zipIdx (h t ht)]
  simp only [ok_bind, pure_eq_ok, List.map_map, Function.comp_def]

theorem foldl_max_int (l : List Int) (m : Int) : m ≤ l.foldl max m ∧ (∀ a ∈ l, a ≤ l.foldl max m) ∧
    (l.foldl max m = m ∨ l.foldl max m ∈ l) := by
  induction l generalizing m with
  | nil => simp
  | cons b l ih =>
    obtain ⟨h1, h2, h3⟩ := ih (max m b)
    rw [List.foldl_cons]
    refine ⟨by omega, ?_, ?_⟩
    · intro a ha
      rcases List.mem_cons.mp ha with rfl | ha
      · omega
      · exact h2 a ha
    · rcases h3 with h3 | h3
      · rw [h3]
        rcases max_choice m b with h | h
        · exact .inl h
        · right; rw [h]; exact List.mem_cons_self
      · exact .inr (List.mem_cons_of_mem _ h3)

theorem count_fst (l : List (Int × Int)) (v : Int) : (l.map Prod.fst).count v = degreeIn l v := by
  unfold degreeIn
  induction l with
  | nil => rfl
  | cons p l ih =>
    rw [List.map_cons, List.count_cons, ih, List.filter_cons]
    by_cases h : p.1 = v
    · simp [h]
    · simp [h]

/-- The degrees that are computed anew: in order, if the last node is not isolated. -/
theorem torchDegree_source (g : TUSource) (hin : g.InRange) {u : Int} (hlast : g.Adj (g.nodes.length - 1) u) :
    torchDegree ((sourceEdges g).map Prod.fst) =
      (List.range g.nodes.length).map fun i : Nat => degreeIn (sourceEdges g) i := by
  have hb := built_source g
  obtain ⟨hE, -, -⟩ := hb.edge_matrix g.adj_symm
  have hrange : ∀ a ∈ (sourceEdges g).map Prod.fst, 0 ≤ a ∧ a < g.nodes.length := by
    intro a ha
    obtain ⟨⟨x, y⟩, hxy, rfl⟩ := List.mem_map.mp ha
    rcases hb.edges _ _ ((hE x y).mp hxy) with h | ⟨n, hn, hv⟩
    · exact h
    · exact hin n hn _ hv
  have hmem : (g.nodes.length : Int) - 1 ∈ (sourceEdges g).map Prod.fst :=
    List.mem_map.mpr ⟨(_, u), (hE _ _).mpr hlast, rfl⟩
  obtain ⟨h1, h2, h3⟩ := foldl_max_int ((sourceEdges g).map Prod.fst) (-1)
  have h4 := h2 _ hmem
  have h5 := hrange _ hmem
  have hmax : (((sourceEdges g).map Prod.fst).foldl max (-1) + 1).toNat = g.nodes.length := by
    rcases h3 with h3 | h3
    · omega
    · have := hrange _ h3
      omega
  unfold torchDegree
  rw [hmax]
  apply List.map_congr_left
  intro i _
  exact count_fst _ _

theorem encode_aligned (width : Nat) (f : Nat → Nat) (gs : List TUGraph) (degs : TUGraph → List Nat)
    (h : ∀ g ∈ gs, (degs g).length = g.features.length) :
    encodeDegrees width ((gs.flatMap degs).map f) gs =
      gs.map fun g => { g with features := (degs g).map fun d => hotRow width (f d) } := by
  induction gs with
  | nil => rfl
  | cons g gs ih =>
    have hg := h g (by simp)
    unfold encodeDegrees
    rw [List.flatMap_cons, List.map_append, List.take_append_of_le_length (by simp [hg]),
      List.take_of_length_le (by simp [hg]), List.drop_append_of_le_length (by simp [hg]),
      List.drop_eq_nil_of_le (by simp [hg]), List.nil_append, ih fun g' hg' => h g' (by simp [hg']), List.map_cons,
      List.map_map]
    rfl

theorem mem_uniqueDegrees {l : List Nat} {a : Nat} : a ∈ uniqueDegrees l ↔ a ∈ l := by
  unfold uniqueDegrees
  rw [(List.perm_insertionSort (· ≤ ·) l.dedup).mem_iff, List.mem_dedup]

theorem length_uniqueDegrees (l : List Nat) : (uniqueDegrees l).length = l.dedup.length :=
  (List.perm_insertionSort (· ≤ ·) l.dedup).length_eq

end Verif
