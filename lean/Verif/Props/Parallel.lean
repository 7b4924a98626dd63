import Verif.Spec.Parallel
import Verif.Props.Convert
import Verif.Props.Checks

/-!
# C121: Parallel conversion
-/

namespace Verif

variable {A B F L : Type}

/-- What holds at every moment: the jobs followed by the tasks that wait are the input, and a result is that of its task. -/
def Pool.Faithful (f : A → Py B) (items : List A) (s : Pool A B) : Prop :=
  s.jobs.map Prod.fst ++ s.waiting = items ∧ ∀ job ∈ s.jobs, ∀ r, job.2 = some r → r = f job.1

theorem step_faithful {f : A → Py B} {items : List A} {s : Pool A B} (h : s.Faithful f items) (e : PoolEvent) :
    (s.step f e).Faithful f items := by
  obtain ⟨h1, h2⟩ := h
  cases e with
  | dispatch =>
    cases hw : s.waiting with
    | nil =>
      have : s.step f .dispatch = s := by simp [Pool.step, hw]
      rw [this]; exact ⟨h1, h2⟩
    | cons a rest =>
      have : s.step f .dispatch = { waiting := rest, jobs := s.jobs ++ [(a, none)] } := by simp [Pool.step, hw]
      rw [this]
      refine ⟨by rw [← h1, hw]; simp, fun job hj r hr => ?_⟩
      rcases List.mem_append.mp hj with hj | hj
      · exact h2 job hj r hr
      · rw [List.mem_singleton.mp hj] at hr; cases hr
  | finish i =>
    refine ⟨?_, fun job hj r hr => ?_⟩
    · rw [← h1]
      congr 1
      show (s.jobs.modify i fun job => (job.1, some (f job.1))).map Prod.fst = _
      apply List.ext_getElem?
      intro k
      simp only [List.getElem?_map, List.getElem?_modify]
      cases s.jobs[k]? with
      | none => rfl
      | some job => by_cases hk : i = k <;> simp [hk]
    · obtain ⟨k, hk⟩ := List.mem_iff_getElem?.mp hj
      replace hk : (s.jobs.modify i fun job => (job.1, some (f job.1)))[k]? = some job := hk
      rw [List.getElem?_modify] at hk
      cases hs : s.jobs[k]? with
      | none => rw [hs] at hk; cases hk
      | some old =>
        rw [hs] at hk
        by_cases hik : i = k
        · simp only [hik, if_true, Option.map_eq_map, Option.map_some] at hk
          rw [← Option.some.inj hk] at hr ⊢
          exact (Option.some.inj hr).symm
        · simp only [hik, if_false, Option.map_eq_map, Option.map_some, id] at hk
          rw [← Option.some.inj hk] at hr ⊢
          exact h2 old (List.mem_of_getElem? hs) r hr

theorem run_faithful {f : A → Py B} {items : List A} : ∀ (events : List PoolEvent) (s : Pool A B), s.Faithful f items →
    (s.run f events).Faithful f items := by
  intro events
  induction events with
  | nil => exact fun s h => h
  | cons e events ih => exact fun s h => ih _ (step_faithful h e)

theorem start_faithful (f : A → Py B) (items : List A) : (Pool.mk items ([] : List (A × Option (Py B)))).Faithful f items :=
  ⟨rfl, by simp⟩

/-- What is retrieved, when all results are those of their tasks. -/
theorem retrieve_faithful {f : A → Py B} {r : Py (List B)} : ∀ (jobs : List (A × Option (Py B))),
    (∀ job ∈ jobs, ∀ r, job.2 = some r → r = f job.1) → retrieve jobs = some r →
    r = mapE f (jobs.map Prod.fst) ∨ ∃ e, r = .error e ∧ ∀ rest, mapE f (jobs.map Prod.fst ++ rest) = .error e := by
  intro jobs
  induction jobs generalizing r with
  | nil => intro _ h; cases h; exact .inl rfl
  | cons job jobs ih =>
    obtain ⟨a, o⟩ := job
    intro hj h
    cases o with
    | none => cases h
    | some res =>
      have hres := hj (a, some res) (by simp) res rfl
      dsimp only at hres
      cases res with
      | error e =>
        cases h
        exact .inr ⟨e, rfl, fun rest => by simp [mapE_cons, ← hres, error_bind]⟩
      | ok b =>
        unfold retrieve at h
        cases hr : retrieve jobs with
        | none => rw [hr] at h; cases h
        | some r' =>
          rw [hr] at h
          have h := (Option.some.inj h).symm
          rcases ih (fun job hm => hj job (by simp [hm])) hr with h' | ⟨e, he, h'⟩
          · left
            rw [h, h', List.map_cons, mapE_cons, ← hres, ok_bind]
            rfl
          · refine .inr ⟨e, by rw [h, he]; rfl, fun rest => ?_⟩
            rw [List.map_cons, List.cons_append, mapE_cons, ← hres, ok_bind, h', error_bind]

/-- **C121** Whatever the schedule, what a parallel call returns or raises is what the loop over the input returns or
raises. -/
theorem C121_any_schedule (f : A → Py B) (items : List A) (events : List PoolEvent) (r : Py (List B))
    (h : progressParallel f items events = some r) : r = mapE f items := by
  obtain ⟨h1, h2⟩ := run_faithful events _ (start_faithful f items)
  unfold progressParallel Pool.result at h
  generalize (Pool.mk items []).run f events = s at *
  cases hr : retrieve s.jobs with
  | none => rw [hr] at h; cases h
  | some r' =>
    rw [hr] at h
    cases r' with
    | error e =>
      cases h
      rcases retrieve_faithful s.jobs h2 hr with h' | ⟨e', he, h'⟩
      · rw [← h1, mapE_append, ← h', error_bind]
      · cases he
        rw [← h1, h']
    | ok bs =>
      dsimp only at h
      split_ifs at h with hw
      cases h
      rcases retrieve_faithful s.jobs h2 hr with h' | ⟨e', he, h'⟩
      · rw [← h1, List.isEmpty_iff.mp hw, List.append_nil, h']
      · cases he

theorem retrieve_done : ∀ (jobs : List (A × Option (Py B))), (∀ job ∈ jobs, job.2.isSome) → ∃ r, retrieve jobs = some r := by
  intro jobs
  induction jobs with
  | nil => exact fun _ => ⟨_, rfl⟩
  | cons job jobs ih =>
    obtain ⟨a, o⟩ := job
    intro h
    cases o with
    | none => have := h (a, none) (by simp); cases this
    | some res =>
      cases res with
      | error e => exact ⟨_, rfl⟩
      | ok b =>
        obtain ⟨r, hr⟩ := ih fun job hm => h job (by simp [hm])
        exact ⟨_, by unfold retrieve; rw [hr]; rfl⟩

/-- **C121** When all tasks are dispatched and complete, the call ends. -/
theorem C121_the_call_ends (f : A → Py B) (items : List A) (events : List PoolEvent)
    (hw : ((Pool.mk items []).run f events).waiting = [])
    (hc : ((Pool.mk items []).run f events).completed = items.length) :
    progressParallel f items events = some (mapE f items) := by
  obtain ⟨h1, -⟩ := run_faithful events _ (start_faithful f items)
  have key : ∃ r, progressParallel f items events = some r := by
    unfold progressParallel Pool.result
    generalize (Pool.mk items []).run f events = s at *
    rw [hw, List.append_nil] at h1
    have hlen : s.jobs.length = items.length := by rw [← h1, List.length_map]
    unfold Pool.completed at hc
    rw [← hlen, List.countP_eq_length] at hc
    obtain ⟨r, hr⟩ := retrieve_done s.jobs hc
    rw [hr]
    cases r with
    | error e => exact ⟨_, rfl⟩
    | ok bs => exact ⟨.ok bs, by simp [hw]⟩
  obtain ⟨r, hr⟩ := key
  rw [hr, C121_any_schedule f items events r hr]

theorem oneByOne_run (f : A → Py B) : ∀ (items : List A) (jobs : List (A × Option (Py B))),
    (Pool.mk items jobs).run f ((List.range' jobs.length items.length).flatMap fun i => [.dispatch, .finish i]) =
      ⟨[], jobs ++ items.map fun a => (a, some (f a))⟩ := by
  intro items
  induction items with
  | nil => intro jobs; simp [Pool.run]
  | cons a items ih =>
    intro jobs
    have h := ih (jobs ++ [(a, some (f a))])
    simp only [List.length_append, List.length_singleton, List.append_assoc] at h
    rw [List.map_cons, ← List.singleton_append (l := List.map _ _), ← h]
    simp only [List.length_cons, List.range'_succ, List.flatMap_cons, Pool.run, List.cons_append, List.nil_append,
      List.foldl_cons]
    congr 1
    simp only [Pool.step]
    congr 1
    apply List.ext_getElem?
    intro k
    rw [List.getElem?_modify]
    rcases Nat.lt_trichotomy k jobs.length with hk | hk | hk
    · rw [List.getElem?_append_left hk, List.getElem?_append_left hk]
      simp [show jobs.length ≠ k by omega]
    · subst hk
      simp
    · rw [List.getElem?_eq_none (by simp; omega), List.getElem?_eq_none (by simp; omega)]
      rfl

/-- **C121** One job after the other: the call ends, with the result of the loop. -/
theorem C121_one_job (f : A → Py B) (items : List A) :
    progressParallel f items (oneByOne items.length) = some (mapE f items) := by
  have h := oneByOne_run f items []
  rw [List.length_nil, ← List.range_eq_range'] at h
  refine C121_the_call_ends f items (oneByOne items.length) ?_ ?_
  · unfold oneByOne; rw [h]
  · unfold oneByOne; rw [h]
    simp [Pool.completed, Function.comp_def]

/-- **C121** The bar never goes beyond its total, and stands there when a list is returned. -/
theorem C121_bar (f : A → Py B) (items : List A) (events : List PoolEvent) (total : Option Nat)
    (ht : total = none ∨ total = some items.length) :
    (((Pool.mk items []).run f events).bar total).1 ≤ (((Pool.mk items []).run f events).bar total).2 ∧
    (∀ bs, progressParallel f items events = some (.ok bs) → ((Pool.mk items []).run f events).bar total =
      (items.length, items.length)) := by
  obtain ⟨h1, -⟩ := run_faithful events _ (start_faithful f items)
  unfold progressParallel
  generalize (Pool.mk items []).run f events = s at *
  have hle : s.jobs.length ≤ items.length := by rw [← h1, List.length_append, List.length_map]; omega
  have hcle : s.completed ≤ s.jobs.length := List.countP_le_length
  have hdone : ∀ jobs : List (A × Option (Py B)), ∀ bs, retrieve jobs = some (.ok bs) → ∀ job ∈ jobs, job.2.isSome := by
    intro jobs
    induction jobs with
    | nil => simp
    | cons job jobs ih =>
      obtain ⟨a, o⟩ := job
      intro bs h
      cases o with
      | none => cases h
      | some res =>
        cases res with
        | error e => cases h
        | ok b =>
          unfold retrieve at h
          cases hr : retrieve jobs with
          | none => rw [hr] at h; cases h
          | some r' =>
            rw [hr] at h
            cases r' with
            | error e => cases h
            | ok bs' =>
              intro job hj
              rcases List.mem_cons.mp hj with rfl | hj
              · rfl
              · exact ih bs' hr job hj
  constructor
  · unfold Pool.bar Pool.dispatched
    rcases ht with rfl | rfl
    · exact hcle
    · exact hcle.trans hle
  · intro bs h
    unfold Pool.result at h
    cases hr : retrieve s.jobs with
    | none => rw [hr] at h; cases h
    | some r' =>
      rw [hr] at h
      cases r' with
      | error e => cases h
      | ok bs' =>
        dsimp only at h
        split_ifs at h with hw
        rw [List.isEmpty_iff.mp hw, List.append_nil] at h1
        have hl : s.jobs.length = items.length := by rw [← h1, List.length_map]
        have hc : s.completed = s.jobs.length := List.countP_eq_length.mpr (hdone _ _ hr)
        unfold Pool.bar Pool.dispatched
        rw [hc, hl]
        rcases ht with rfl | rfl <;> rfl

section

variable [DecidableEq F] [DecidableEq L]

/-- **C121** The conversion does not depend on the number of jobs and on the schedule. -/
theorem C121_conversion (g : Gudhi) (lib : RingLib) (agg : List F → F) (width : F → Nat) (dataset : List (GraphData F L))
    (maxK : Nat) (down initEdges initRings : Bool) (events : List PoolEvent) (r : Py (Converted F L))
    (h : convertParallel g lib agg width dataset maxK down initEdges initRings events = some r) :
    r = convertWithRings g lib agg width dataset maxK down initEdges initRings := by
  unfold convertParallel at h
  obtain ⟨r', h1, h2⟩ := Option.map_eq_some_iff.mp h
  rw [← h2, C121_any_schedule _ _ _ _ h1]
  rfl

/-- **C121** What the checks after the conversion detect: if the complexes came back in another order, the loop would accept
them exactly if each has the label, the node features and the number of edges of the graph at its position. -/
theorem C121_what_the_checks_detect (g : Gudhi) (lib : RingLib) (agg : List F → F) (width : F → Nat)
    (dataset : List (GraphData F L)) (maxK : Nat) (down initEdges initRings : Bool) (r : Converted F L)
    (h : convertWithRings g lib agg width dataset maxK down initEdges initRings = .ok r) (comps : List (Complex F L))
    (hp : comps.Perm r.complexes) :
    (∃ r', checkConverted width dataset comps = .ok r') ↔ List.Forall₂ MatchesGraph dataset comps := by
  obtain ⟨h1, h2, h3, h4⟩ := (C35_ring_conversion ..).mp h
  have hlen : comps.length = dataset.length := by rw [hp.length_eq, h1.length_eq]
  unfold checkConverted
  constructor
  · rintro ⟨r', hr⟩
    obtain ⟨s, h5, -⟩ := bind_eq_ok.mp hr
    exact ((ringLoop_eq_ok comps dataset hlen _ _).mp h5).2
  · intro hm
    have h3' : Reports width comps r.dimension r.numFeatures := by
      refine ⟨?_, h3.len, fun c hc => h3.widths c (hp.mem_iff.mp hc)⟩
      have := h3.largest
      revert this
      cases r.dimension with
      | none =>
        intro this
        have this : r.complexes.map Complex.dimension = [] := this
        show comps.map Complex.dimension = []
        rw [List.map_eq_nil_iff] at this ⊢
        rw [this] at hp
        exact hp.eq_nil
      | some m =>
        rintro ⟨q1, q2⟩
        exact ⟨(hp.map _).mem_iff.mpr q1, fun d hd => q2 d ((hp.map _).mem_iff.mp hd)⟩
    obtain ⟨nf', h5, h6⟩ := reports_iff.mpr ⟨h3', fun c hc => Nat.lt_succ_of_le (h4 c (hp.mem_iff.mp hc))⟩
    refine ⟨_, bind_eq_ok.mpr ⟨_, (ringLoop_eq_ok comps dataset hlen _ _).mpr ⟨h5, hm⟩, rfl⟩⟩

/-- **C121** If no two graphs have the same label and the same node features, the loop accepts the right order only. -/
theorem C121_distinct_graphs (g : Gudhi) (lib : RingLib) (agg : List F → F) (width : F → Nat)
    (dataset : List (GraphData F L)) (maxK : Nat) (down initEdges initRings : Bool) (r : Converted F L)
    (h : convertWithRings g lib agg width dataset maxK down initEdges initRings = .ok r) (comps : List (Complex F L))
    (hp : comps.Perm r.complexes) (hd : dataset.Pairwise fun a b => a.y ≠ b.y ∨ a.x ≠ b.x) (r' : Converted F L)
    (hr : checkConverted width dataset comps = .ok r') : comps = r.complexes := by
  have hm := (C121_what_the_checks_detect g lib agg width dataset maxK down initEdges initRings r h comps hp).mp ⟨r', hr⟩
  obtain ⟨h1, h2, -, -⟩ := (C35_ring_conversion ..).mp h
  apply List.ext_getElem?
  intro i
  by_cases hi : i < dataset.length
  · have hi' : i < comps.length := by rw [← hm.length_eq]; exact hi
    have hc := List.getElem?_eq_getElem hi'
    obtain ⟨j, hj⟩ := List.mem_iff_getElem?.mp (hp.mem_iff.mp (List.mem_of_getElem? hc))
    have hjl : j < r.complexes.length := (List.getElem?_eq_some_iff.mp hj).1
    have hjd : j < dataset.length := by rw [h2.length_eq]; exact hjl
    have m1 := hm.get hi (by exact hi')
    have m2 := h2.get hjd (by exact hjl)
    simp only [List.get_eq_getElem] at m1 m2
    have hcj : r.complexes[j] = comps[i] := by
      have := List.getElem?_eq_getElem hjl
      rw [hj] at this
      exact (Option.some.inj this).symm
    rw [hcj] at m2
    have hy : dataset[i].y = dataset[j].y := m1.label.symm.trans m2.label
    have hx : dataset[i].x = dataset[j].x := by
      obtain ⟨x, a1, a2⟩ := m1.features
      obtain ⟨x', b1, b2⟩ := m2.features
      rw [a1, b1, ← a2, ← b2]
    have hij : i = j := by
      rw [List.pairwise_iff_getElem] at hd
      rcases Nat.lt_trichotomy i j with hlt | heq | hlt
      · rcases hd i j hi hjd hlt with q | q
        · exact absurd hy q
        · exact absurd hx q
      · exact heq
      · rcases hd j i hjd hi hlt with q | q
        · exact absurd hy.symm q
        · exact absurd hx.symm q
    subst hij
    rw [hc, hj]
  · rw [List.getElem?_eq_none (by rw [← hm.length_eq]; omega), List.getElem?_eq_none (by rw [← h2.length_eq]; omega)]

/-- **C121** Two graphs that look alike can change places unnoticed. -/
theorem C121_swap_is_not_detected (g : Gudhi) (lib : RingLib) (agg : List F → F) (width : F → Nat)
    (a b : GraphData F L) (hab : a.LooksLike b) (maxK : Nat) (down initEdges initRings : Bool) (r : Converted F L)
    (h : convertWithRings g lib agg width [a, b] maxK down initEdges initRings = .ok r) :
    ∃ ca cb r', r.complexes = [ca, cb] ∧ checkConverted width [a, b] [cb, ca] = .ok r' := by
  obtain ⟨h1, h2, h3, h4⟩ := (C35_ring_conversion ..).mp h
  obtain ⟨ca, cb, hc⟩ : ∃ ca cb, r.complexes = [ca, cb] := by
    have := h1.length_eq
    match hr : r.complexes, this with
    | [ca, cb], _ => exact ⟨ca, cb, rfl⟩
  rw [hc] at h2
  obtain ⟨ma, h2⟩ := List.forall₂_cons.mp h2
  obtain ⟨mb, -⟩ := List.forall₂_cons.mp h2
  obtain ⟨e1, e2, e3⟩ := hab
  have hm : List.Forall₂ MatchesGraph [a, b] [cb, ca] := by
    refine .cons ⟨mb.label.trans e1.symm, by rw [e2]; exact mb.features, fun hd => ?_⟩
      (.cons ⟨ma.label.trans e1, by rw [← e2]; exact ma.features, fun hd => ?_⟩ .nil)
    · rw [e3]; exact mb.edges hd
    · rw [← e3]; exact ma.edges hd
  obtain ⟨r', hr⟩ := (C121_what_the_checks_detect g lib agg width [a, b] maxK down initEdges initRings r h [cb, ca]
    (by rw [hc]; exact List.Perm.swap _ _ _)).mpr hm
  exact ⟨ca, cb, r', hc, hr⟩

/-- **C121** The test of the parallel conversion passes, for all datasets of simple graphs with one label each and node and
edge features of one width, and all schedules that end. -/
theorem C121_test_passes (g : Gudhi) (hg : g.Ok) (lib : RingLib) (hl : lib.Ok) (agg : List F → F) (width : F → Nat) (w wE : Nat)
    (hagg : ∀ l : List F, l ≠ [] → (∀ r ∈ l, width r = w) → width (agg l) = w) (dataset : List (GraphData F L))
    (hd : ∀ data ∈ dataset, ∃ x, data.Ok x ∧ data.Simple ∧ (∀ r ∈ x, width r = w) ∧
      ((data.edgeAttr = none ∧ wE = w) ∨ ∃ a, data.edgeAttr = some a ∧ ∀ r ∈ a, width r = wE))
    (hy : ∀ data ∈ dataset, data.y.isSome) (one two : List PoolEvent) (r : Py Unit)
    (h : parallelTest g lib agg width dataset one two = some r) : r = .ok () := by
  obtain ⟨conv, hconv, -, -⟩ := C35_ring_datasets_convert g hg lib hl agg width w wE hagg 7 false true dataset hd
  obtain ⟨h1, h2, -, -⟩ := (C35_ring_conversion ..).mp hconv
  unfold parallelTest at h
  cases ho : convertParallel g lib agg width dataset 7 false true true one with
  | none => rw [ho] at h; cases h
  | some seq =>
    cases ht : convertParallel g lib agg width dataset 7 false true true two with
    | none => rw [ho, ht] at h; cases h
    | some par =>
      rw [ho, ht] at h
      rw [C121_conversion _ _ _ _ _ _ _ _ _ _ _ ho, C121_conversion _ _ _ _ _ _ _ _ _ _ _ ht, hconv] at h
      simp only [ok_bind] at h
      have hall : ∀ pair ∈ conv.complexes.zip conv.complexes, compareComplexes pair.1 pair.2 true = .ok () := by
        intro pair hpair
        obtain ⟨k, hk⟩ := List.mem_iff_getElem?.mp hpair
        obtain ⟨k1, k2⟩ := List.getElem?_zip_eq_some.mp hk
        have : pair.2 = pair.1 := by rw [k1] at k2; exact (Option.some.inj k2).symm
        rw [this]
        obtain ⟨data, hdata, hlift⟩ := forall₂_mem h1.flip (List.mem_of_getElem? k1)
        obtain ⟨x, ok, simple, -, -⟩ := hd data hdata
        obtain ⟨l, hl1⟩ := Option.isSome_iff_exists.mp (hy data hdata)
        obtain ⟨l0, rfl⟩ : ∃ l0, l = [l0] := List.length_eq_one_iff.mp (simple.label l hl1)
        rw [ok.features, hl1] at hlift
        obtain ⟨hv, hs, hx⟩ := ring_lift_shaped g hg lib hl agg x data.edgeIndex data.edgeAttr data.numNodes 7 l0 false true
          ok.edges simple.noLoops ok.pos ok.rows simple.attr pair.1 hlift
        exact (C102_compare_accepts_itself pair.1 hv true).mpr ⟨hs.label, fun d hd => (hx d hd).mpr (.inl rfl),
          hs.boundary, hs.bottom, hs.top⟩
      obtain ⟨us, hus⟩ := mapE_unit_eq_ok.mpr hall
      rw [hus] at h
      exact (Option.some.inj h).symm

end

/-! ### Examples -/

/-- Three tasks, finished in the order 1, 0, 2, with a dispatch in between. -/
example : progressParallel (fun n : Nat => (.ok (n * n) : Py Nat)) [3, 4, 5]
    [.dispatch, .dispatch, .finish 1, .dispatch, .finish 0, .finish 2] = some (.ok [9, 16, 25]) := by decide +kernel

/-- The second task raises; the third is complete, the call raises what the second one did. -/
example : progressParallel (fun n : Nat => if n = 4 then .error .value else (.ok n : Py Nat)) [3, 4, 5]
    ([.dispatch, .dispatch, .finish 1, .dispatch, .finish 2, .finish 0]) = some (.error .value) := by decide +kernel

example : progressParallel (fun n : Nat => (.ok (n + 1) : Py Nat)) [3, 4] (oneByOne 2) = some (.ok [4, 5]) := by decide +kernel

/-- A task is still running. -/
example : progressParallel (fun n : Nat => (.ok n : Py Nat)) [3, 4] [.dispatch, .dispatch, .finish 1] = none := by decide +kernel

example : ((Pool.mk [3, 4] []).run (fun n : Nat => (.ok n : Py Nat)) [.dispatch, .finish 0, .dispatch]).bar none = (1, 2) ∧
    ((Pool.mk [3, 4] []).run (fun n : Nat => (.ok n : Py Nat)) [.dispatch, .finish 0]).bar (some 2) = (1, 2) := by
  decide +kernel

section Cases
open Fixtures

example (events : List PoolEvent) (r : Py (Converted (List Nat) Nat)) (h : convertParallel plainGudhi plainRings addRows List.length
    [dotData, shedData] 4 true true false events = some r) :=
  C121_conversion plainGudhi plainRings addRows List.length [dotData, shedData] 4 true true false events r h

/-- A path and a star with the same label and the same features. -/
def pathData : GraphData (List Nat) Nat :=
  { x := some [[1], [1], [1], [1]], edgeIndex := [(0, 1), (1, 0), (1, 2), (2, 1), (2, 3), (3, 2)], edgeAttr := none,
    numNodes := 4, y := some [0] }

def starData : GraphData (List Nat) Nat :=
  { x := some [[1], [1], [1], [1]], edgeIndex := [(0, 1), (1, 0), (0, 2), (2, 0), (0, 3), (3, 0)], edgeAttr := none,
    numNodes := 4, y := some [0] }

/-- The conversion of the two succeeds and gives different complexes, which can change places. -/
example : ∃ r ca cb r', convertWithRings plainGudhi plainRings addRows List.length [pathData, starData] 4 = .ok r ∧
    r.complexes = [ca, cb] ∧ ca ≠ cb ∧ checkConverted List.length [pathData, starData] [cb, ca] = .ok r' := by
  have hne : ((convertWithRings plainGudhi plainRings addRows List.length [pathData, starData] 4).map
      fun r => (r.complexes.map fun c => c.attr 1 Cochain.boundaryIndex)).toOption.bind (fun l => l[0]?) ≠
    ((convertWithRings plainGudhi plainRings addRows List.length [pathData, starData] 4).map
      fun r => (r.complexes.map fun c => c.attr 1 Cochain.boundaryIndex)).toOption.bind (fun l => l[1]?) := by decide +kernel
  cases hr : convertWithRings plainGudhi plainRings addRows List.length [pathData, starData] 4 with
  | error e => rw [hr] at hne; exact absurd rfl hne
  | ok r =>
    obtain ⟨ca, cb, r', h1, h2⟩ := C121_swap_is_not_detected plainGudhi plainRings addRows List.length pathData starData
      ⟨rfl, rfl, rfl⟩ 4 false true false r hr
    refine ⟨r, ca, cb, r', rfl, h1, ?_, h2⟩
    rintro rfl
    rw [hr] at hne
    exact hne (by simp [Except.map, Except.toOption, h1])

/-- The hypotheses of the theorem on the test. -/
example (one two : List PoolEvent) (r : Py Unit)
    (h : parallelTest plainGudhi plainRings addRows List.length [dotData, shedData] one two = some r) : r = .ok () :=
  C121_test_passes plainGudhi plainGudhi_ok plainRings plainRings_ok addRows List.length 1 2 (fun _ _ _ => rfl)
    [dotData, shedData] (by
      intro data hd
      rcases List.mem_pair.mp hd with rfl | rfl
      · exact ⟨_, dotData_ok, dotData_simple, by decide, .inr ⟨_, rfl, by decide⟩⟩
      · exact ⟨_, shedData_ok, shedData_simple, by decide, .inr ⟨_, rfl, by decide⟩⟩)
    (by intro data hd; rcases List.mem_pair.mp hd with rfl | rfl <;> rfl) one two r h

/-- Distinct labels: the other order is rejected. -/
example (r r' : Converted (List Nat) Nat) (comps : List (Complex (List Nat) Nat))
    (h : convertWithRings plainGudhi plainRings addRows List.length [dotData, shedData] 4 = .ok r)
    (hp : comps.Perm r.complexes) (hr : checkConverted List.length [dotData, shedData] comps = .ok r') : comps = r.complexes :=
  C121_distinct_graphs plainGudhi plainRings addRows List.length [dotData, shedData] 4 false true false r h comps hp
    (by simp [dotData, shedData]) r' hr

end Cases

end Verif
