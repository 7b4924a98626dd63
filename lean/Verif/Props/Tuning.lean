import Verif.Lemmas.Tuning
import Mathlib.Data.List.Nodup

/-!
# C101: tuning on grids

exp/run_tu_tuning.py divides the combinations of a grid among eight processes; exp/prepare_tu_tuning.py builds the
datasets first.
-/

namespace Verif

/-! ### The combinations -/

/-- **C101** The combinations of a grid: as many as the product of the sizes of the lists; number `h` has from each list
the value whose place is the digit of `h` in the mixed radix of the sizes; and every choice of values occurs. -/
theorem C101_combinations {V : Type} (vss : List (List V)) :
    (gridProduct vss).length = (vss.map List.length).prod ∧
    (∀ h < (vss.map List.length).prod, ∃ c, (gridProduct vss)[h]? = some c ∧ c.length = vss.length ∧
      ∀ k vs, vss[k]? = some vs → gridDigit (vss.map List.length) h k < vs.length ∧
        c[k]? = vs[gridDigit (vss.map List.length) h k]?) ∧
    ∀ c, c ∈ gridProduct vss ↔ List.Forall₂ (fun v vs => v ∈ vs) c vss := by
  refine ⟨length_gridProduct vss, gridProduct_get vss, ?_⟩
  exact fun c => mem_gridProduct

/-- **C101** Eight processes, one for each remainder modulo 8, run every combination exactly once, under its number; each
process in increasing order. -/
theorem C101_every_combination_once {V : Type} (grid : List (List V)) (idxs : List Int) (h8 : EightProcesses idxs) :
    (idxs.flatMap fun idx => expQueue idx grid).Perm (grid.zipIdx.map fun p => (p.2, p.1)) ∧
    ∀ idx, (expQueue idx grid).Pairwise fun a b => a.1 < b.1 :=
  ⟨queues_perm h8 grid, fun idx => queue_increasing idx grid⟩

/-! ### The arguments -/

section
variable {syn : NumberSyntax} {root dataset code : String} {conf : TuneConf}

/-- The arguments from the grid. -/
theorem grid_given (hs : syn.Ok) (hroot : root.toList.head? = some '/') (hdata : PlainText syn dataset)
    (hu : conf.Understood syn) (idx : Int) (e : Nat × List Yaml)
    (he : e ∈ expQueue idx (gridProduct (conf.hypers.map Prod.snd))) :
    ∃ hg, parseArgs syn (tuneArgs root dataset code idx (conf.hypers.map Prod.fst) e) =
        some ((basePairs root dataset code idx e.1).map (fun p => (p.1, [p.2])) ++ hg) ∧
      hg.length = conf.hypers.length ∧ e.2.length = conf.hypers.length ∧
      ∀ (k : Nat) (name : String) (vs : List Yaml), conf.hypers[k]? = some (name, vs) → ∃ (v : Yaml) (o : String × ArgKind),
        e.2[k]? = some v ∧ StandsFor name o ∧
        hg[k]? = some (o.1, [v.format]) := by
  have hc : List.Forall₂ (fun v vs => v ∈ vs) e.2 (conf.hypers.map Prod.snd) :=
    mem_gridProduct.mp (List.mem_of_getElem? (mem_expQueue.mp he).1)
  have hlen : e.2.length = conf.hypers.length := by simpa using hc.length_eq
  have hget : ∀ (k : Nat) (name : String) (vs : List Yaml), conf.hypers[k]? = some (name, vs) → ∃ v, e.2[k]? = some v ∧ v ∈ vs := by
    intro k name vs hk
    have hlt := (List.getElem?_eq_some_iff.mp hk).1
    have h1 := (List.forall₂_iff_get.mp hc).2 k (by omega) (by simpa using hlt)
    refine ⟨e.2[k]'(by omega), List.getElem?_eq_getElem _, ?_⟩
    have h2 := (List.getElem?_eq_some_iff.mp hk).2
    simpa [h2] using h1
  have hdash : ∀ v ∈ e.2, ¬ "--".toList <+: v.format.toList := by
    intro v hv
    obtain ⟨k, hk⟩ := List.getElem?_of_mem hv
    have hlt := (List.getElem?_eq_some_iff.mp hk).1
    obtain ⟨w, hw, hmem⟩ := hget k _ _ (List.getElem?_eq_getElem (l := conf.hypers) (by omega))
    rw [hk] at hw
    cases hw
    exact plain_no_dashes hs (hu _ (List.getElem_mem _) v hmem).1
  obtain ⟨hg, hfa⟩ : ∃ hg, List.Forall₂ (fun (p : String × Yaml) (g : String × List String) =>
      ∃ o, StandsFor p.1 o ∧ PlainText syn p.2.format ∧ Takes syn o.2 p.2.format ∧ g = (o.1, [p.2.format]))
      ((conf.hypers.map Prod.fst).zip e.2) hg := by
    have key : ∀ p ∈ (conf.hypers.map Prod.fst).zip e.2, ∃ g : String × List String,
        ∃ o, StandsFor p.1 o ∧ PlainText syn p.2.format ∧ Takes syn o.2 p.2.format ∧ g = (o.1, [p.2.format]) := by
      intro p hp
      obtain ⟨k, hk⟩ := List.getElem?_of_mem hp
      rw [List.getElem?_zip_eq_some] at hk
      obtain ⟨h1, h2⟩ := hk
      rw [List.getElem?_map, Option.map_eq_some_iff] at h1
      obtain ⟨⟨name, vs⟩, h3, h4⟩ := h1
      obtain ⟨v, h5, h6⟩ := hget k name vs h3
      rw [h2] at h5
      cases h5
      obtain ⟨h7, o, h8, h9⟩ := hu _ (List.mem_of_getElem? h3) _ h6
      exact ⟨_, o, h4 ▸ h8, h7, h9, rfl⟩
    clear hdash hget hc hlen he
    generalize (conf.hypers.map Prod.fst).zip e.2 = l at key
    induction l with
    | nil => exact ⟨[], .nil⟩
    | cons p l ih =>
      obtain ⟨g, h1⟩ := key p (by simp)
      obtain ⟨gs, h2⟩ := ih fun q hq => key q (by simp [hq])
      exact ⟨g :: gs, .cons h1 h2⟩
  have hl : hg.length = conf.hypers.length := by
    rw [← hfa.length_eq, List.length_zip, List.length_map, hlen, Nat.min_self]
  refine ⟨hg, (parse_tune hs code hroot hdata idx _ e hdash _).mpr ⟨hg, rfl, hfa⟩, hl, hlen, ?_⟩
  intro k name vs hk
  have hlt := (List.getElem?_eq_some_iff.mp hk).1
  obtain ⟨v, hv, -⟩ := hget k name vs hk
  have h1 := (List.forall₂_iff_get.mp hfa).2 k (by rw [List.length_zip, List.length_map]; omega) (by omega)
  obtain ⟨o, h2, -, -, h3⟩ := h1
  have hn := (List.getElem?_eq_some_iff.mp hk).2
  have hv' := (List.getElem?_eq_some_iff.mp hv).2
  simp only [List.get_eq_getElem, List.getElem_zip, List.getElem_map, hn, hv'] at h2 h3
  exact ⟨v, o, hv, h2, by rw [List.getElem?_eq_getElem (by omega), h3]⟩

theorem grid_plain (hu : conf.Understood syn) (idx : Int) (e : Nat × List Yaml)
    (he : e ∈ expQueue idx (gridProduct (conf.hypers.map Prod.snd))) : ∀ v ∈ e.2, PlainText syn v.format := by
  have hcm : List.Forall₂ (fun v vs => v ∈ vs) e.2 (conf.hypers.map Prod.snd) :=
    mem_gridProduct.mp (List.mem_of_getElem? (mem_expQueue.mp he).1)
  intro v hv
  obtain ⟨k, hk⟩ := List.getElem?_of_mem hv
  obtain ⟨hlt, rfl⟩ := List.getElem?_eq_some_iff.mp hk
  have h1 := (List.forall₂_iff_get.mp hcm).2 k hlt (hcm.length_eq ▸ hlt)
  simp only [List.get_eq_getElem, List.getElem_map] at h1
  exact (hu _ (List.getElem_mem _) _ h1).1

/-- **C101** If the command line understands all values of the grid and no two entries stand for the same option, the
experiments get the values of their combination, the number of the combination as name, the dataset and the result
folder of the grid; what is not in the grid keeps its default. -/
theorem C101_arguments (hs : syn.Ok) (hroot : root.toList.head? = some '/') (hdata : PlainText syn dataset)
    (hu : conf.Understood syn) (hd : conf.Distinct) (idx : Int) (e : Nat × List Yaml)
    (he : e ∈ expQueue idx (gridProduct (conf.hypers.map Prod.snd))) :
    ∃ given, parseArgs syn (tuneArgs root dataset code idx (conf.hypers.map Prod.fst) e) = some given ∧
      (∀ (k : Nat) (name : String) (vs : List Yaml), conf.hypers[k]? = some (name, vs) → ∃ (v : Yaml) (o : String × ArgKind),
        e.2[k]? = some v ∧ StandsFor name o ∧
        givenValue given o.1 = some v.format) ∧
      (∀ name value, (name, value) ∈ [("device", toString idx), ("task_type", "classification"),
          ("eval_metric", "accuracy"), ("dataset", dataset),
          ("result_folder", root ++ "/exp/results/" ++ dataset ++ "_tuning_" ++ code), ("exp_name", toString e.1)] →
        conf.Leaves name → givenValue given name = some value) ∧
      ∀ name, name ∉ ["device", "task_type", "eval_metric", "dataset", "result_folder", "exp_name"] → conf.Leaves name →
        ∀ g ∈ given, g.1 ≠ name := by
  obtain ⟨hg, h1, hl, hlen, h2⟩ := grid_given (code := code) hs hroot hdata hu idx e he
  have hleave : ∀ name, conf.Leaves name → ∀ g ∈ hg, g.1 ≠ name := by
    intro name hn g hgm
    obtain ⟨k, hk⟩ := List.getElem?_of_mem hgm
    have hlt := (List.getElem?_eq_some_iff.mp hk).1
    obtain ⟨v, o, -, h3, h4⟩ := h2 k _ _ (List.getElem?_eq_getElem (l := conf.hypers) (by omega))
    rw [hk] at h4
    cases h4
    exact hn _ (List.getElem_mem _) o h3
  refine ⟨_, h1, ?_, ?_, ?_⟩
  · intro k name vs hk
    obtain ⟨v, o, h3, h4, h5⟩ := h2 k name vs hk
    refine ⟨v, o, h3, h4, givenValue_right (List.mem_of_getElem? h5) ?_⟩
    intro g hgm hgn
    obtain ⟨k', hk'⟩ := List.getElem?_of_mem hgm
    have hlt' := (List.getElem?_eq_some_iff.mp hk').1
    have hlt := (List.getElem?_eq_some_iff.mp hk).1
    obtain ⟨v', o', h6, h7, h8⟩ := h2 k' _ _ (List.getElem?_eq_getElem (l := conf.hypers) (by omega))
    rw [hk'] at h8
    cases h8
    rcases lt_trichotomy k k' with h | h | h
    · have := (List.pairwise_iff_getElem.mp hd) k k' hlt (by omega) h o o' (by
        rw [(List.getElem?_eq_some_iff.mp hk).2]; exact h4) h7
      exact absurd hgn.symm this
    · subst h
      rw [h5] at hk'
      exact (Option.some.inj hk').symm
    · have := (List.pairwise_iff_getElem.mp hd) k' k (by omega) hlt h o' o h7 (by
        rw [(List.getElem?_eq_some_iff.mp hk).2]; exact h4)
      exact absurd hgn this
  · intro name value hmem hn
    rw [givenValue_left (hleave name hn)]
    apply givenValue_unique
    · exact List.mem_map.mpr ⟨(name, value), hmem, rfl⟩
    · intro g hgm hgn
      obtain ⟨p, hp, rfl⟩ := List.mem_map.mp hgm
      have : p = (name, value) := by
        have hnd : ((basePairs root dataset code idx e.1).map Prod.fst).Nodup :=
          (by decide : ["device", "task_type", "eval_metric", "dataset", "result_folder", "exp_name"].Nodup)
        exact List.inj_on_of_nodup_map hnd hp hmem hgn
      rw [this]
  · intro name hn hl' g hgm
    rcases List.mem_append.mp hgm with h | h
    · obtain ⟨p, hp, rfl⟩ := List.mem_map.mp h
      rintro rfl
      exact hn (List.mem_map_of_mem (f := Prod.fst) hp)
    · exact hleave name hl' g h

/-- **C101** No experiment is begun with a value that the command line does not understand: a process stops at the first
such combination. -/
theorem C101_only_understood_values (hs : syn.Ok) (hroot : root.toList.head? = some '/') (hdata : PlainText syn dataset)
    (hc : conf.dataset = some dataset) (hdash : ∀ h ∈ conf.hypers, ∀ v ∈ h.2, ¬ "--".toList <+: v.format.toList)
    (done : List (String × List String) → Bool) (idx : Int) :
    ∃ lines, tuneLines root code conf idx = .ok lines ∧ ∀ given ∈ beginExps syn done lines,
      ∃ e ∈ expQueue idx (gridProduct (conf.hypers.map Prod.snd)),
        parseArgs syn (tuneArgs root dataset code idx (conf.hypers.map Prod.fst) e) = some given ∧
        ∀ p ∈ (conf.hypers.map Prod.fst).zip e.2, Understood syn p.1 p.2.format := by
  refine ⟨_, by rw [tuneLines, hc], ?_⟩
  have key : ∀ (queue : List (Nat × List Yaml)), (∀ e ∈ queue, e ∈ expQueue idx (gridProduct (conf.hypers.map Prod.snd))) →
      ∀ given ∈ beginExps syn done (queue.map (tuneArgs root dataset code idx (conf.hypers.map Prod.fst))),
      ∃ e ∈ queue, parseArgs syn (tuneArgs root dataset code idx (conf.hypers.map Prod.fst) e) = some given := by
    intro queue
    induction queue with
    | nil => intro _ given h; cases h
    | cons e queue ih =>
      intro hq given h
      rw [List.map_cons, beginExps] at h
      cases hp : parseArgs syn (tuneArgs root dataset code idx (conf.hypers.map Prod.fst) e) with
      | none => rw [hp] at h; cases h
      | some g =>
        rw [hp] at h
        rcases List.mem_cons.mp h with rfl | h
        · exact ⟨e, by simp, hp⟩
        · split at h
          · obtain ⟨e', h1, h2⟩ := ih (fun e' he' => hq e' (by simp [he'])) given h
            exact ⟨e', by simp [h1], h2⟩
          · cases h
  intro given hg
  obtain ⟨e, he, hp⟩ := key _ (fun e he => he) given hg
  refine ⟨e, he, hp, fun p hp' => ?_⟩
  have hcm : List.Forall₂ (fun v vs => v ∈ vs) e.2 (conf.hypers.map Prod.snd) :=
    mem_gridProduct.mp (List.mem_of_getElem? (mem_expQueue.mp he).1)
  have hd' : ∀ v ∈ e.2, ¬ "--".toList <+: v.format.toList := by
    intro v hv
    obtain ⟨k, hk⟩ := List.getElem?_of_mem hv
    obtain ⟨hlt, rfl⟩ := List.getElem?_eq_some_iff.mp hk
    have h1 := (List.forall₂_iff_get.mp hcm).2 k hlt (hcm.length_eq ▸ hlt)
    simp only [List.get_eq_getElem, List.getElem_map] at h1
    exact hdash _ (List.getElem_mem _) _ h1
  obtain ⟨hg', -, hfa⟩ := (parse_tune hs code hroot hdata idx _ e hd' given).mp hp
  obtain ⟨k, hk⟩ := List.getElem?_of_mem hp'
  obtain ⟨hlt, rfl⟩ := List.getElem?_eq_some_iff.mp hk
  obtain ⟨o, h1, h2, h3, -⟩ := (List.forall₂_iff_get.mp hfa).2 k hlt (hfa.length_eq ▸ hlt)
  exact ⟨h2, o, h1, h3⟩

/-- **C101** If one entry of the grid has no value that the command line understands, no process begins any experiment.
This is so for every entry that stands for a flag (such as `include_down_adj`). -/
theorem C101_nothing_begun (hs : syn.Ok) (hroot : root.toList.head? = some '/') (hdata : PlainText syn dataset)
    (hc : conf.dataset = some dataset) (hdash : ∀ h ∈ conf.hypers, ∀ v ∈ h.2, ¬ "--".toList <+: v.format.toList)
    (h : String × List Yaml) (hmem : h ∈ conf.hypers)
    (hbad : (∀ v ∈ h.2, ¬ Understood syn h.1 v.format) ∨ ∃ o, StandsFor h.1 o ∧ o.2 = .flag)
    (done : List (String × List String) → Bool) (idx : Int) :
    ∃ lines, tuneLines root code conf idx = .ok lines ∧ beginExps syn done lines = [] := by
  obtain ⟨lines, h1, h2⟩ := C101_only_understood_values (code := code) hs hroot hdata hc hdash done idx
  refine ⟨lines, h1, List.eq_nil_iff_forall_not_mem.mpr fun given hg => ?_⟩
  have hbad' : ∀ v ∈ h.2, ¬ Understood syn h.1 v.format := by
    rcases hbad with hb | ⟨o, ho, hf⟩
    · exact hb
    · rintro v - ⟨-, o', ho', ht⟩
      obtain rfl := standsFor_unique ho ho'
      rw [hf] at ht
      exact ht
  obtain ⟨e, he, -, h3⟩ := h2 given hg
  have hcm : List.Forall₂ (fun v vs => v ∈ vs) e.2 (conf.hypers.map Prod.snd) :=
    mem_gridProduct.mp (List.mem_of_getElem? (mem_expQueue.mp he).1)
  obtain ⟨k, hk⟩ := List.getElem?_of_mem hmem
  obtain ⟨hlt, rfl⟩ := List.getElem?_eq_some_iff.mp hk
  have hlen : e.2.length = conf.hypers.length := by simpa using hcm.length_eq
  have hv := (List.forall₂_iff_get.mp hcm).2 k (by omega) (by simpa using hlt)
  simp only [List.get_eq_getElem, List.getElem_map] at hv
  refine hbad' _ hv (h3 (conf.hypers[k].1, e.2[k]'(by omega)) ?_)
  refine List.mem_of_getElem? (i := k) ?_
  rw [List.getElem?_zip_eq_some]
  exact ⟨by simp [hlt], List.getElem?_eq_getElem _⟩

/-- **C101** If all values are understood and all experiments end without exception, eight processes, one for each
remainder, begin one experiment for each number of a combination, under this name. -/
theorem C101_all_begun (hs : syn.Ok) (hroot : root.toList.head? = some '/') (hdata : PlainText syn dataset)
    (hc : conf.dataset = some dataset) (hu : conf.Understood syn) (hd : conf.Distinct) (hn : conf.Leaves "exp_name")
    (idxs : List Int) (h8 : EightProcesses idxs) :
    ∃ lines : Int → List (List String), (∀ idx, tuneLines root code conf idx = .ok (lines idx)) ∧
      ((idxs.flatMap fun idx => beginExps syn (fun _ => true) (lines idx)).map fun given =>
        givenValue given "exp_name").Perm
      ((List.range (conf.hypers.map fun h => h.2.length).prod).map fun i : Nat => some (toString i)) := by
  refine ⟨fun idx => _, fun idx => by rw [tuneLines, hc], ?_⟩
  have key : ∀ (idx : Int) (queue : List (Nat × List Yaml)),
      (∀ e ∈ queue, e ∈ expQueue idx (gridProduct (conf.hypers.map Prod.snd))) →
      (beginExps syn (fun _ => true) (queue.map (tuneArgs root dataset code idx (conf.hypers.map Prod.fst)))).map
        (fun given => givenValue given "exp_name") = queue.map fun e => some (toString e.1) := by
    intro idx queue
    induction queue with
    | nil => intro _; rfl
    | cons e queue ih =>
      intro hq
      obtain ⟨given, h1, -, h2, -⟩ := C101_arguments (code := code) hs hroot hdata hu hd idx e (hq e (by simp))
      rw [List.map_cons, beginExps, h1]
      dsimp only
      rw [if_pos rfl, List.map_cons, ih fun e' he' => hq e' (by simp [he']), h2 "exp_name" (toString e.1) (by simp) hn, List.map_cons]
  rw [List.map_flatMap]
  simp only [key _ _ fun e he => he]
  rw [← List.map_flatMap (f := fun e : Nat × List Yaml => some (toString e.1))]
  refine ((queues_perm h8 _).map _).trans (List.Perm.of_eq ?_)
  rw [List.map_map]
  have : ((fun e : Nat × List Yaml => some (toString e.1)) ∘ fun p : List Yaml × Nat => (p.2, p.1)) =
      (fun i : Nat => some (toString i)) ∘ Prod.snd := rfl
  rw [this, ← List.map_map, List.zipIdx_map_snd, length_gridProduct, List.map_map, List.range_eq_range']
  rfl

/-- **C101** The ten folds of an experiment get the arguments of the experiment and the number of the fold. -/
theorem C101_folds (hs : syn.Ok) (hroot : root.toList.head? = some '/') (hdata : PlainText syn dataset)
    (hu : conf.Understood syn) (idx : Int) (e : Nat × List Yaml)
    (he : e ∈ expQueue idx (gridProduct (conf.hypers.map Prod.snd))) (given : List (String × List String))
    (hg : parseArgs syn (tuneArgs root dataset code idx (conf.hypers.map Prod.fst) e) = some given) :
    (foldLines (tuneArgs root dataset code idx (conf.hypers.map Prod.fst) e)).map (parseArgs syn) =
      (List.range 10).map fun i : Nat => some (given ++ [("fold", [toString i])]) := by
  unfold foldLines
  rw [List.map_map]
  refine List.map_congr_left fun i _ => ?_
  have hplain := grid_plain hu idx e he
  have hd : ∀ p ∈ basePairs root dataset code idx e.1 ++
      (((conf.hypers.map Prod.fst).zip e.2).map fun p => (p.1, p.2.format)), ¬ "--".toList <+: p.2.toList := by
    intro p hp
    rcases List.mem_append.mp hp with hp | hp
    · exact base_no_dashes hs hroot hdata idx e.1 p hp
    · obtain ⟨q, hq, rfl⟩ := List.mem_map.mp hp
      exact plain_no_dashes hs (hplain q.2 (List.of_mem_zip hq).2)
  have hi : PlainText syn (toString i) := .inl (nat_plain syn i)
  unfold parseArgs at hg
  rw [tuneArgs_words, parse_words hs _ _ (by rw [length_words]; omega) hd] at hg
  show parseArgs syn (tuneArgs root dataset code idx (conf.hypers.map Prod.fst) e ++ ["--fold", toString i]) = _
  have hw : tuneArgs root dataset code idx (conf.hypers.map Prod.fst) e ++ ["--fold", toString i] =
      words ((basePairs root dataset code idx e.1 ++
        (((conf.hypers.map Prod.fst).zip e.2).map fun p => (p.1, p.2.format))) ++ [("fold", toString i)]) := by
    rw [tuneArgs_words]
    unfold words
    rw [List.flatMap_append (ys := [_])]
    rfl
  unfold parseArgs
  rw [hw, parse_words hs _ _ (by rw [length_words]; omega), forall₂_append_split]
  · refine ⟨given, _, hg, .cons ⟨("fold", .int), ⟨by decide +kernel, .inl rfl⟩, hi, ⟨i, hs.int i⟩, rfl⟩ .nil, rfl⟩
  · intro p hp
    rcases List.mem_append.mp hp with hp | hp
    · exact hd p hp
    · obtain rfl := List.mem_singleton.mp hp
      exact plain_no_dashes hs hi

/-- **C101** Different combinations write different result files. -/
theorem C101_results_are_kept_apart (folder : String) (h h' : Nat)
    (he : resultFile folder dataset (toString h) = resultFile folder dataset (toString h')) : h = h' := by
  unfold resultFile at he
  have he := congrArg String.toList he
  simp only [String.toList_append, List.append_assoc] at he
  have he := List.append_cancel_left he
  have he := List.append_cancel_left he
  have he := List.append_cancel_left he
  have he := List.append_cancel_left he
  exact digits_inj (List.append_cancel_right he)

end

/-! ### Preparing the datasets -/

/-- The entries of a grid that the preparation reads. -/
structure TuneConf.Reads (conf : TuneConf) (dims : List Nat) (rings : List (Option Nat)) (inits : List String) : Prop where
  dims : conf.get "max_dim" = .ok (dims.map Yaml.int)
  rings : conf.get "max_ring_size" = .ok (rings.map fun r => r.elim Yaml.null Yaml.int)
  inits : conf.get "init_method" = .ok (inits.map Yaml.text)

theorem prepare_triples {conf : TuneConf} {dims : List Nat} {rings : List (Option Nat)} {inits : List String}
    (h : conf.Reads dims rings inits) {name : String} (hc : conf.dataset = some name) :
    prepareTuning conf = mapE (fun t : Nat × Option Nat × String => prepareOne name t.1 t.2.1 t.2.2)
      (dims.flatMap fun d => rings.flatMap fun r => inits.map fun i => (d, r, i)) := by
  unfold prepareTuning
  rw [hc]
  dsimp only
  rw [h.dims, ok_bind, h.rings, ok_bind, h.inits, ok_bind]
  have : ((dims.map Yaml.int).flatMap fun d => (rings.map fun r => r.elim Yaml.null Yaml.int).flatMap fun r =>
      (inits.map Yaml.text).map fun i => (d, r, i)) =
      (dims.flatMap fun d => rings.flatMap fun r => inits.map fun i => (d, r, i)).map fun t =>
        (Yaml.int t.1, t.2.1.elim Yaml.null Yaml.int, Yaml.text t.2.2) := by
    simp only [List.flatMap_map, List.map_flatMap, List.map_map]
    rfl
  rw [this, mapE_map]
  apply mapE_congr
  rintro ⟨d, r, i⟩ -
  cases r <;> rfl

/-- **C101** For the datasets of films and threads, with ring sizes from 4 on in dimension 2: the preparation builds the
dataset of each choice of dimension, ring size and features, and nothing else. -/
theorem C101_prepared (conf : TuneConf) (dims : List Nat) (rings : List (Option Nat)) (inits : List String)
    (h : conf.Reads dims rings inits) (name : String) (tags : Bool) (hc : conf.dataset = some name)
    (hn : (name, tags) ∈ [("IMDBBINARY", true), ("IMDBMULTI", true), ("REDDITBINARY", false), ("REDDITMULTI5K", false)])
    (hr : ∀ n, some n ∈ rings → 3 < n ∧ ∀ d ∈ dims, d = 2) :
    ∃ built, prepareTuning conf = .ok built ∧ ∀ o, o ∈ built ↔
      o.maxDim ∈ dims ∧ o.maxRingSize ∈ rings ∧ o.initMethod ∈ inits ∧ o.includeDown = false ∧ o.degreeAsTag = tags := by
  rw [prepare_triples h hc]
  have hone : ∀ t ∈ dims.flatMap fun d => rings.flatMap fun r => inits.map fun i => (d, r, i),
      prepareOne name t.1 t.2.1 t.2.2 = .ok (TUOptions.mk t.1 t.2.2 t.2.1 false tags) := by
    rintro ⟨d, r, i⟩ ht
    simp only [List.mem_flatMap, List.mem_map, Prod.mk.injEq] at ht
    obtain ⟨d', hd, r', hr', i', hi, rfl, rfl, rfl⟩ := ht
    have h1 : (r'.all fun n => decide (3 < n)) = true := by
      cases r' with
      | none => rfl
      | some n => simpa using (hr n hr').1
    have h2 : (r'.isNone || d' == 2) = true := by
      cases r' with
      | none => rfl
      | some n => simpa using (hr n hr').2 d' hd
    have h3 : (pyAssert (r'.all fun n => decide (3 < n)) : Py Unit) = .ok () := by rw [h1]; rfl
    have h4 : (pyAssert (r'.isNone || d' == 2) : Py Unit) = .ok () := by rw [h2]; rfl
    unfold prepareOne
    dsimp only
    rw [h3, h4]
    simp only [List.mem_cons, List.not_mem_nil, or_false, Prod.mk.injEq] at hn
    rcases hn with ⟨rfl, rfl⟩ | ⟨rfl, rfl⟩ | ⟨rfl, rfl⟩ | ⟨rfl, rfl⟩ <;> rfl
  rw [mapE_ok hone]
  refine ⟨_, rfl, fun o => ?_⟩
  simp only [List.mem_map, List.mem_flatMap, Prod.exists, Prod.mk.injEq]
  constructor
  · rintro ⟨_, _, _, ⟨d, hd, r, hr, i, hi, rfl, rfl, rfl⟩, rfl⟩
    exact ⟨hd, hr, hi, rfl, rfl⟩
  · rintro ⟨h1, h2, h3, h4, h5⟩
    refine ⟨_, _, _, ⟨_, h1, _, h2, _, h3, rfl, rfl, rfl⟩, ?_⟩
    cases o
    simp_all

/-- **C101** For the five other TUDatasets the preparation raises `KeyError` at the first choice: it does not pass
`include_down_adj`. -/
theorem C101_preparation_fails (conf : TuneConf) (dims : List Nat) (rings : List (Option Nat)) (inits : List String)
    (h : conf.Reads dims rings inits) (name : String) (hc : conf.dataset = some name)
    (hn : name ∈ ["PROTEINS", "NCI1", "NCI109", "PTC", "MUTAG"]) (hd : dims ≠ []) (hr : rings ≠ []) (hi : inits ≠ []) :
    prepareTuning conf = .error .key := by
  rw [prepare_triples h hc]
  obtain ⟨d, dims, rfl⟩ := List.exists_cons_of_ne_nil hd
  obtain ⟨r, rings, rfl⟩ := List.exists_cons_of_ne_nil hr
  obtain ⟨i, inits, rfl⟩ := List.exists_cons_of_ne_nil hi
  have : prepareOne name d r i = .error .key := by
    simp only [List.mem_cons, List.not_mem_nil, or_false] at hn
    rcases hn with rfl | rfl | rfl | rfl | rfl <;> rfl
  simp only [List.flatMap_cons, List.map_cons, List.cons_append, mapE_cons, this]
  rfl

/-- **C101** A grid without ring sizes (as template.yml advises for simplicial networks) cannot be prepared. -/
theorem C101_preparation_needs_ring_sizes (conf : TuneConf) (h : ∀ p ∈ conf.hypers, p.1 ≠ "max_ring_size") :
    prepareTuning conf = .error .key := by
  have h1 : conf.get "max_ring_size" = .error .key := by
    unfold TuneConf.get
    rw [List.find?_eq_none.mpr (by simpa using h)]
  unfold prepareTuning
  cases conf.dataset with
  | none => rfl
  | some name =>
    dsimp only
    rw [h1]
    unfold TuneConf.get
    split <;> rfl

/-! ### Examples -/

/-- Decimal numbers. -/
def decimals : NumberSyntax where
  int t := match t.toList with
    | '-' :: l => if l ≠ [] ∧ l.all Char.isDigit = true then some (-(readDigits l : Int)) else none
    | l => if l ≠ [] ∧ l.all Char.isDigit = true then some (readDigits l : Int) else none
  float t := t.toList ≠ [] && t.toList.all fun c => c.isDigit || c == '.'
  negative t := match t.toList with
    | '-' :: l => l ≠ [] && l.all fun c => c.isDigit || c == '.'
    | _ => false

theorem digits_ne_nil (n : Nat) : digits n ≠ [] := by
  rw [digits_eq]
  exact Nat.toDigits_ne_nil

theorem decimals_ok : decimals.Ok where
  int i := by
    have hall : ∀ n, (digits n).all Char.isDigit = true := fun n => List.all_eq_true.mpr fun c hc => digits_isDigit hc
    cases i with
    | ofNat n =>
      show (match digits n with
        | '-' :: l => _
        | l => _) = _
      have h1 := digits_ne_nil n
      have h2 := nat_plain decimals n
      have h3 := hall n
      have h4 : readDigits (digits n) = n := by rw [digits_eq, readDigits_toDigits]
      change (digits n).head? ≠ some '-' at h2
      generalize digits n = l at h1 h2 h3 h4 ⊢
      split
      · exact absurd rfl h2
      · rw [if_pos ⟨h1, h3⟩, h4]
        rfl
    | negSucc n =>
      have h : (toString (Int.negSucc n)).toList = '-' :: digits (n + 1) := by
        show ("-" ++ toString (n + 1)).toList = _
        rw [String.toList_append]
        rfl
      unfold decimals
      dsimp only
      rw [h]
      show (if digits (n + 1) ≠ [] ∧ (digits (n + 1)).all Char.isDigit = true then
        some (-(readDigits (digits (n + 1)) : Int)) else none) = _
      rw [if_pos ⟨digits_ne_nil _, hall _⟩, digits_eq, readDigits_toDigits]
      rfl
  negative n := by
    have h : (toString (-(n + 1 : Nat) : Int)).toList = '-' :: digits (n + 1) := by
      show ("-" ++ toString (n + 1)).toList = _
      rw [String.toList_append]
      rfl
    unfold decimals
    dsimp only
    rw [h]
    show (decide (digits (n + 1) ≠ []) && (digits (n + 1)).all fun c => c.isDigit || c == '.') = true
    rw [Bool.and_eq_true, decide_eq_true_iff]
    refine ⟨digits_ne_nil _, List.all_eq_true.mpr fun c hc => ?_⟩
    rw [digits_isDigit hc]
    rfl
  dashes t := by
    unfold decimals
    dsimp only
    have h : ("--" ++ t).toList = '-' :: '-' :: t.toList := by
      rw [String.toList_append]
      rfl
    rw [h]
    rfl

theorem understood_iff (syn : NumberSyntax) (name value : String) : Understood syn name value ↔
    (isValue syn value && (findOption parserOptions name).any fun o => acceptsValue syn o.2 value) = true := by
  rw [Bool.and_eq_true, isValue_iff, Option.any_eq_true]
  unfold Understood
  simp only [acceptsValue_iff, ← findOption_iff]

theorem distinct_of {conf : TuneConf}
    (h : conf.hypers.Pairwise fun h h' => (findOption parserOptions h.1).map Prod.fst ≠
      (findOption parserOptions h'.1).map Prod.fst) : conf.Distinct := by
  refine h.imp fun hne o o' ho ho' he => hne ?_
  rw [(findOption_iff _ _).mpr ho, (findOption_iff _ _).mpr ho', Option.map_some, Option.map_some, he]

theorem leaves_of {conf : TuneConf} {name : String}
    (h : ∀ p ∈ conf.hypers, (findOption parserOptions p.1).map Prod.fst ≠ some name) : conf.Leaves name := by
  intro p hp o ho he
  refine h p hp ?_
  rw [(findOption_iff _ _).mpr ho, Option.map_some, he]

/-- A part of template.yml for IMDB-BINARY. `lr_scheduler` is an option and the beginning of others. -/
def imdbGrid : TuneConf where
  dataset := some "IMDBBINARY"
  hypers := [("batch_size", [.int 32, .int 128]), ("drop_rate", [.real "0.0", .real "0.5"]), ("init_method",
    [.text "sum", .text "mean"]), ("lr_scheduler", [.text "StepLR"]), ("max_dim", [.int 2]), ("max_ring_size", [.int 6]),
    ("use_coboundaries", [.bool true, .bool false])]

theorem imdbGrid_understood : imdbGrid.Understood decimals := by
  intro h hh v hv
  rw [understood_iff]
  have : ∀ h ∈ imdbGrid.hypers, ∀ v ∈ h.2, (isValue decimals v.format &&
      (findOption parserOptions h.1).any fun o => acceptsValue decimals o.2 v.format) = true := by decide +kernel
  exact this h hh v hv

theorem imdbGrid_distinct : imdbGrid.Distinct := distinct_of (by decide +kernel)

theorem imdbGrid_names : imdbGrid.Leaves "exp_name" := leaves_of (by decide +kernel)

theorem eight : EightProcesses [0, 1, 2, 3, 4, 5, 6, 7] := by
  show List.Perm _ _
  decide

/-- The combinations 3 and 11 of the sixteen. -/
example : (gridProduct (imdbGrid.hypers.map Prod.snd)).length = 16 ∧
    (expQueue 3 (gridProduct (imdbGrid.hypers.map Prod.snd))).map Prod.fst = [3, 11] ∧
    (gridProduct (imdbGrid.hypers.map Prod.snd))[11]? =
      some [.int 128, .real "0.0", .text "mean", .text "StepLR", .int 2, .int 6, .bool false] := by
  decide +kernel

/-- Eight processes begin the experiments 0, …, 15. -/
example : ∃ lines : Int → List (List String), (∀ idx, tuneLines "/cwn" "a" imdbGrid idx = .ok (lines idx)) ∧
    (([0, 1, 2, 3, 4, 5, 6, 7].flatMap fun idx => beginExps decimals (fun _ => true) (lines idx)).map fun given =>
      givenValue given "exp_name").Perm ((List.range 16).map fun i : Nat => some (toString i)) :=
  C101_all_begun decimals_ok rfl (.inl (by decide)) rfl imdbGrid_understood imdbGrid_distinct imdbGrid_names _ eight

/-- The arguments of one of them. -/
example : ∃ given, parseArgs decimals (tuneArgs "/cwn" "IMDBBINARY" "a" 3 (imdbGrid.hypers.map Prod.fst)
      (11, [.int 128, .real "0.0", .text "mean", .text "StepLR", .int 2, .int 6, .bool false])) = some given ∧
    givenValue given "use_coboundaries" = some "False" ∧ givenValue given "exp_name" = some "11" ∧
    (foldLines (tuneArgs "/cwn" "IMDBBINARY" "a" 3 (imdbGrid.hypers.map Prod.fst)
      (11, [.int 128, .real "0.0", .text "mean", .text "StepLR", .int 2, .int 6, .bool false]))).map (parseArgs decimals) =
      (List.range 10).map fun i : Nat => some (given ++ [("fold", [toString i])]) := by
  have he : (11, [.int 128, .real "0.0", .text "mean", .text "StepLR", .int 2, .int 6, .bool false]) ∈
      expQueue 3 (gridProduct (imdbGrid.hypers.map Prod.snd)) := by decide +kernel
  obtain ⟨given, h1, h2, h3, -⟩ := C101_arguments (root := "/cwn") (dataset := "IMDBBINARY") (code := "a") decimals_ok rfl
    (.inl (by decide)) imdbGrid_understood imdbGrid_distinct 3 _ he
  refine ⟨given, h1, ?_, h3 "exp_name" "11" (by decide +kernel) imdbGrid_names,
    C101_folds decimals_ok rfl (.inl (by decide)) imdbGrid_understood 3 _ he given h1⟩
  obtain ⟨v, o, hv, ho, h4⟩ := h2 6 "use_coboundaries" _ rfl
  cases hv
  have := (findOption_iff _ _).mpr ho
  rw [show findOption parserOptions "use_coboundaries" = some ("use_coboundaries", .str) by decide +kernel] at this
  cases this
  exact h4

/-- With the lower adjacencies in the grid, nothing is begun. -/
example (idx : Int) : ∃ lines, tuneLines "/cwn" "a"
      ⟨some "PROTEINS", [("include_down_adj", [.bool true, .bool false]), ("num_layers", [.int 3])]⟩ idx = .ok lines ∧
    beginExps decimals (fun _ => true) lines = [] :=
  C101_nothing_begun decimals_ok rfl (.inl (by decide)) rfl (by decide +kernel)
    ("include_down_adj", [.bool true, .bool false]) (by simp)
    (.inr ⟨("include_down_adj", .flag), (findOption_iff _ _).mp (by decide +kernel), rfl⟩) _ idx

/-- With complexes of cliques beside complexes of rings in the grid, the experiments up to the first without rings are
begun. -/
example : ((tuneLines "/cwn" "a" ⟨some "IMDBMULTI", [("max_ring_size", [.int 6, .null])]⟩ 0).map fun lines =>
      (beginExps decimals (fun _ => true) lines).length) = .ok 1 ∧
    ((tuneLines "/cwn" "a" ⟨some "IMDBMULTI", [("max_ring_size", [.int 6, .null])]⟩ 1).map fun lines =>
      (beginExps decimals (fun _ => true) lines).length) = .ok 0 := by
  decide +kernel

theorem imdbGrid_reads : imdbGrid.Reads [2] [some 6] ["sum", "mean"] :=
  ⟨by decide +kernel, by decide +kernel, by decide +kernel⟩

example : ∃ built, prepareTuning imdbGrid = .ok built ∧ ∀ o, o ∈ built ↔ o.maxDim ∈ [2] ∧ o.maxRingSize ∈ [some 6] ∧
    o.initMethod ∈ ["sum", "mean"] ∧ o.includeDown = false ∧ o.degreeAsTag = true :=
  C101_prepared imdbGrid [2] [some 6] ["sum", "mean"] imdbGrid_reads "IMDBBINARY" true rfl (by simp) (by simp)

example : prepareTuning { imdbGrid with dataset := some "MUTAG" } = .error .key :=
  C101_preparation_fails _ [2] [some 6] ["sum", "mean"] ⟨imdbGrid_reads.1, imdbGrid_reads.2, imdbGrid_reads.3⟩ "MUTAG" rfl
    (by simp) (by simp) (by simp) (by simp)

example : prepareTuning ⟨some "IMDBBINARY", [("max_dim", [.int 2]), ("init_method", [.text "sum"])]⟩ = .error .key :=
  C101_preparation_needs_ring_sizes _ (by decide +kernel)

example : resultFile "/cwn/exp/results/IMDBBINARY_tuning_a" "IMDBBINARY" (toString 11) =
    "/cwn/exp/results/IMDBBINARY_tuning_a/IMDBBINARY-11/result.txt" := by
  decide +kernel

end Verif
