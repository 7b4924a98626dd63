import Verif.Lemmas.Ocean

/-!
# Lemmas about stripping paths
-/

namespace Verif

theorem moves_push {l : List Nat} {a : Nat} (node : Nat) (h : l.getLast? = some a) :
    moves (l ++ [node]) = moves l ++ [(a, node)] := by
  obtain ⟨l', rfl⟩ : ∃ l', l = l' ++ [a] := by
    rw [List.getLast?_eq_some_iff] at h
    exact h
  exact moves_snoc l' a node

theorem netPassages_push {l : List Nat} {a : Nat} (node : Nat) (h : l.getLast? = some a) (q : Nat × Nat) :
    netPassages (l ++ [node]) q =
      netPassages l q + ((if (a, node) = q then 1 else 0) - if (a, node) = q.swap then 1 else 0) := by
  unfold netPassages
  rw [moves_push node h, List.count_append, List.count_append, List.count_singleton, List.count_singleton]
  simp only [beq_iff_eq]
  split <;> split <;> push_cast <;> ring

structure StripInv (pre res : List Nat) : Prop where
  last : res.head? = pre.getLast?
  first : res.getLast? = pre.head?
  moves : ∀ m ∈ moves res.reverse, m ∈ moves pre
  net : ∀ q, netPassages res.reverse q = netPassages pre q
  noReturn : NoReturn res

theorem NoReturn.tail {a : Nat} {l : List Nat} (h : NoReturn (a :: l)) : NoReturn l :=
  fun pre x y z post e => h (a :: pre) x y z post (by rw [e]; rfl)

theorem NoReturn.reverse {l : List Nat} (h : NoReturn l) : NoReturn l.reverse := by
  intro pre a b c post e
  have : l = post.reverse ++ c :: b :: a :: pre.reverse := by
    rw [← List.reverse_reverse l, e]
    simp
  exact (h _ _ _ _ _ this).symm

theorem stripStep_inv {pre res : List Nat} (h : StripInv pre res) (node : Nat) :
    StripInv (pre ++ [node]) (stripStep res node) := by
  have pushes : (∀ a b l, res = b :: a :: l → node ≠ a) → stripStep res node = node :: res →
      StripInv (pre ++ [node]) (stripStep res node) := by
    intro hno hs
    rw [hs]
    have hfirst : (node :: res).getLast? = (pre ++ [node]).head? := by
      cases res with
      | nil =>
        have := h.first
        rw [List.getLast?_nil, eq_comm, List.head?_eq_none_iff] at this
        subst this
        rfl
      | cons b l =>
        rw [List.getLast?_cons_cons, h.first, List.head?_append]
        have := h.first
        cases hp : pre.head? with
        | some x => rfl
        | none =>
          rw [hp] at this
          simp at this
    refine ⟨by simp, hfirst, ?_, ?_, ?_⟩
    · rw [List.reverse_cons]
      cases res with
      | nil => intro m hm; cases hm
      | cons b l =>
        have hl : (b :: l).reverse.getLast? = some b := by simp
        have hp : pre.getLast? = some b := h.last.symm
        rw [moves_push node hl, moves_push node hp]
        intro m hm
        rcases List.mem_append.mp hm with hm | hm
        · exact List.mem_append_left _ (h.moves m hm)
        · exact List.mem_append_right _ hm
    · intro q
      rw [List.reverse_cons]
      cases res with
      | nil =>
        have : pre = [] := by
          have := h.first
          rwa [List.getLast?_nil, eq_comm, List.head?_eq_none_iff] at this
        subst this
        rfl
      | cons b l =>
        have hl : (b :: l).reverse.getLast? = some b := by simp
        have hp : pre.getLast? = some b := h.last.symm
        rw [netPassages_push node hl, netPassages_push node hp, h.net]
    · intro p a b c post e
      cases p with
      | nil =>
        simp only [List.nil_append, List.cons.injEq] at e
        obtain ⟨rfl, e⟩ := e
        exact hno c b post e
      | cons x p =>
        simp only [List.cons_append, List.cons.injEq] at e
        exact h.noReturn p a b c post e.2
  match res, h, pushes with
  | [], h, pushes => exact pushes (by simp) rfl
  | [b], h, pushes => exact pushes (by simp) rfl
  | b :: a :: l, h, pushes =>
    by_cases hn : node = a
    · subst hn
      have hs : stripStep (b :: node :: l) node = node :: l := by simp [stripStep]
      rw [hs]
      have hp : pre.getLast? = some b := h.last.symm
      have hl : (node :: l).reverse.getLast? = some node := by simp
      have hmv : moves (b :: node :: l).reverse = moves (node :: l).reverse ++ [(node, b)] := by
        rw [List.reverse_cons, moves_push b hl]
      refine ⟨by simp, ?_, ?_, ?_, h.noReturn.tail⟩
      · have := h.first
        rw [List.getLast?_cons_cons] at this
        rw [this]
        cases pre with
        | nil => simp at hp
        | cons x pre => rfl
      · intro m hm
        rw [moves_push node hp]
        exact List.mem_append_left _ (h.moves m (by rw [hmv]; exact List.mem_append_left _ hm))
      · intro q
        rw [netPassages_push node hp, ← h.net, List.reverse_cons (a := b), netPassages_push b hl]
        obtain ⟨x, y⟩ := q
        simp only [Prod.swap_prod_mk, Prod.mk.injEq]
        have e1 : (b = x ∧ node = y) ↔ (node = y ∧ b = x) := and_comm
        have e2 : (b = y ∧ node = x) ↔ (node = x ∧ b = y) := and_comm
        simp only [e1, e2]
        ring
    · refine pushes ?_ (by simp [stripStep, hn])
      intro a' b' l' e
      simp only [List.cons.injEq] at e
      rw [← e.2.1]
      exact hn

theorem strip_inv (path : List Nat) : StripInv path (path.foldl stripStep []) := by
  induction path using List.reverseRecOn with
  | nil => exact ⟨rfl, rfl, by simp [moves], fun q => rfl, fun p a b c post e => by simp at e⟩
  | append_singleton l a ih =>
    rw [List.foldl_append]
    exact stripStep_inv ih a

theorem strip_noReturn {path : List Nat} (h : NoReturn path) : path.foldl stripStep [] = path.reverse := by
  induction path using List.reverseRecOn with
  | nil => rfl
  | append_singleton l a ih =>
    have hl : NoReturn l := fun pre x y z post e => h pre x y z (post ++ [a]) (by rw [e]; simp)
    rw [List.foldl_append, ih hl, List.reverse_append]
    simp only [List.foldl_cons, List.foldl_nil, List.reverse_singleton, List.singleton_append]
    match hr : l.reverse with
    | [] => rfl
    | [b] => rfl
    | b :: c :: r =>
      have hlr : l = r.reverse ++ [c, b] := by
        rw [← List.reverse_reverse l, hr]
        simp
      have := h r.reverse c b a [] (by rw [hlr]; simp)
      simp [stripStep, this.symm]

end Verif
