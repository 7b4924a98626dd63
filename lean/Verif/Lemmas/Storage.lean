import Verif.Spec.Storage
import Mathlib.Data.List.Basic
import Mathlib.Data.Option.Basic
import Mathlib.Data.Nat.Find

/-!
# Lemmas: processed files over a history of constructions
-/

namespace Verif

variable {O V : Type}

theorem lookup_cons_self {fs : Files V} {p : DiskPath} {v : V} : List.lookup p ((p, v) :: fs) = some v := by
  simp [List.lookup]

theorem lookup_cons_ne {fs : Files V} {p q : DiskPath} {v : V} (h : p ≠ q) :
    List.lookup p ((q, v) :: fs) = fs.lookup p := by
  have : (p == q) = false := by simpa using h
  rw [List.lookup_cons, this]

theorem writeFiles_other : ∀ {entries : List (DiskPath × V)} {fs : Files V} {p : DiskPath},
    p ∉ entries.map Prod.fst → (writeFiles fs entries).lookup p = fs.lookup p
  | [], _, _, _ => rfl
  | (q, v) :: entries, fs, p, h => by
    rw [List.map_cons, List.mem_cons, not_or] at h
    show List.lookup p (writeFiles ((q, v) :: fs) entries) = _
    rw [writeFiles_other h.2, lookup_cons_ne h.1]

theorem zip_keys : ∀ {ps : List DiskPath} {vs : List V}, vs.length = ps.length → (ps.zip vs).map Prod.fst = ps
  | [], _, _ => rfl
  | _ :: _, [], h => by cases h
  | _ :: ps, _ :: vs, h => by rw [List.zip_cons_cons, List.map_cons, zip_keys (by simpa using h)]

theorem writeFiles_all : ∀ {ps : List DiskPath} {vs : List V} {fs : Files V}, ps.Nodup → vs.length = ps.length →
    ps.map (fun p => (writeFiles fs (ps.zip vs)).lookup p) = vs.map some
  | [], [], _, _, _ => rfl
  | [], _ :: _, _, _, h => by cases h
  | _ :: _, [], _, _, h => by cases h
  | p :: ps, v :: vs, fs, hn, hl => by
    obtain ⟨hp, hn⟩ := List.nodup_cons.mp hn
    have hl : vs.length = ps.length := by simpa using hl
    have e : writeFiles fs ((p :: ps).zip (v :: vs)) = writeFiles ((p, v) :: fs) (ps.zip vs) := rfl
    rw [List.map_cons, List.map_cons, e, writeFiles_all hn hl, writeFiles_other (by rwa [zip_keys hl]),
      lookup_cons_self]

theorem filesExist_iff {fs : Files V} {ps : List DiskPath} :
    filesExist fs ps = true ↔ ps ≠ [] ∧ ∀ p ∈ ps, ∃ v, fs.lookup p = some v := by
  unfold filesExist
  simp [Option.isSome_iff_exists]

theorem filesExist_of {fs : Files V} {ps : List DiskPath} {vs : List V} (hne : ps ≠ [])
    (h : ps.map (fun p => fs.lookup p) = vs.map some) : filesExist fs ps = true := by
  rw [filesExist_iff]
  refine ⟨hne, fun p hp => ?_⟩
  have : fs.lookup p ∈ vs.map some := by
    rw [← h]
    exact List.mem_map_of_mem hp
  obtain ⟨v, -, e⟩ := List.mem_map.mp this
  exact ⟨v, e.symm⟩

theorem loadFiles_of {fs : Files V} : ∀ {ps : List DiskPath} {vs : List V},
    ps.map (fun p => fs.lookup p) = vs.map some → mapE (loadFile fs) ps = .ok vs
  | [], [], _ => rfl
  | [], _ :: _, h => by cases h
  | _ :: _, [], h => by cases h
  | p :: ps, v :: vs, h => by
    rw [List.map_cons, List.map_cons, List.cons.injEq] at h
    rw [mapE_eq_ok_iff]
    refine .cons ?_ (mapE_eq_ok_iff.mp (loadFiles_of h.2))
    unfold loadFile
    rw [h.1]

/-! ### First complete runs -/

/-- Some attempt wrote the files of these options completely. -/
def Store.Done (S : Store O V) (history : List (Attempt O)) (o : O) : Prop :=
  ∃ a ∈ history, S.paths a.options = S.paths o ∧ ∃ vs, S.Completes a vs

theorem Store.first_of_done {S : Store O V} {history : List (Attempt O)} {o : O} (h : S.Done history o) :
    ∃ vs, S.First history o vs := by
  classical
  obtain ⟨a, ha, hp, vs, hc⟩ := h
  obtain ⟨i, hi⟩ := List.mem_iff_getElem?.mp ha
  let P : Nat → Prop := fun i => ∃ a, history[i]? = some a ∧
    S.paths a.options = S.paths o ∧ ∃ vs, S.Completes a vs
  have hP : ∃ i, P i := ⟨i, a, hi, hp, vs, hc⟩
  obtain ⟨b, hb, hq, ws, hd⟩ := Nat.find_spec hP
  exact ⟨ws, Nat.find hP, b, hb, hq, hd, fun j c us hj hc' hpc hcc =>
    Nat.find_min hP hj ⟨c, hc', hpc, us, hcc⟩⟩

theorem Store.done_of_first {S : Store O V} {history : List (Attempt O)} {o : O} {vs : List V}
    (h : S.First history o vs) : S.Done history o := by
  obtain ⟨i, a, hi, hp, hc, -⟩ := h
  exact ⟨a, List.mem_of_getElem? hi, hp, vs, hc⟩

theorem Store.first_append {S : Store O V} {history : List (Attempt O)} {o : O} {vs : List V} {a : Attempt O}
    (h : S.First (history ++ [a]) o vs) : S.First history o vs ∨
      (¬ S.Done history o ∧ S.paths a.options = S.paths o ∧ S.Completes a vs) := by
  obtain ⟨i, b, hi, hp, hc, hmin⟩ := h
  rcases Nat.lt_or_ge i history.length with hl | hl
  · rw [List.getElem?_append_left hl] at hi
    refine .inl ⟨i, b, hi, hp, hc, fun j c ws hj hcj => hmin j c ws hj ?_⟩
    rw [List.getElem?_append_left (by omega)]
    exact hcj
  · have : i = history.length := by
      have := (List.getElem?_eq_some_iff.mp hi).1
      simp at this
      omega
    subst this
    rw [List.getElem?_append_right (Nat.le_refl _), Nat.sub_self] at hi
    cases hi
    refine .inr ⟨?_, hp, hc⟩
    rintro ⟨c, hc', hpc, ws, hw⟩
    obtain ⟨j, hj⟩ := List.mem_iff_getElem?.mp hc'
    have hl' := (List.getElem?_eq_some_iff.mp hj).1
    exact hmin j c ws hl' (by rw [List.getElem?_append_left hl']; exact hj) hpc hw

/-! ### The invariant -/

/-- Complete files are those of the first complete run; as long as there is none, the last file is missing. -/
def Store.Inv (S : Store O V) (fs : Files V) (history : List (Attempt O)) : Prop :=
  ∀ o, (∀ vs, S.First history o vs → (S.paths o).map (fun p => fs.lookup p) = vs.map some) ∧
    (¬ S.Done history o → ∀ p, (S.paths o).getLast? = some p → fs.lookup p = none)

theorem Store.inv_nil (S : Store O V) : S.Inv [] [] := by
  refine fun o => ⟨?_, fun _ _ _ => rfl⟩
  rintro vs ⟨i, a, hi, -⟩
  cases hi

section
variable {S : Store O V} (hS : S.Regular)
include hS

theorem Store.Inv.exist {fs : Files V} {history : List (Attempt O)} (h : S.Inv fs history) (o : O) :
    filesExist fs (S.paths o) = true ↔ S.Done history o := by
  constructor
  · intro he
    by_contra hn
    rw [filesExist_iff] at he
    obtain ⟨p, hp⟩ : ∃ p, (S.paths o).getLast? = some p := ⟨_, List.getLast?_eq_getLast_of_ne_nil he.1⟩
    obtain ⟨v, hv⟩ := he.2 p (List.mem_of_getLast? hp)
    rw [(h o).2 hn p hp] at hv
    cases hv
  · intro hd
    obtain ⟨vs, hv⟩ := S.first_of_done hd
    exact filesExist_of (hS.some_file o) ((h o).1 vs hv)

theorem Store.Inv.step {fs : Files V} {history : List (Attempt O)} (h : S.Inv fs history) (a : Attempt O) :
    S.Inv (openDataset S fs a).1 (history ++ [a]) ∧
    (∀ vs, S.First history a.options vs → (openDataset S fs a).2 = some (.ok vs)) ∧
    (¬ S.Done history a.options → (openDataset S fs a).2 = S.alone a) := by
  by_cases hd : S.Done history a.options
  · obtain ⟨vs, hv⟩ := S.first_of_done hd
    have he : openDataset S fs a = (fs, some (.ok vs)) := by
      unfold openDataset
      rw [if_pos ((h.exist hS _).mpr hd), loadFiles_of ((h _).1 vs hv)]
    rw [he]
    refine ⟨fun o => ⟨fun ws hw => ?_, fun hn p hp => ?_⟩, fun ws hw => ?_, fun hn => absurd hd hn⟩
    · rcases S.first_append hw with hw | ⟨hn, hp, -⟩
      · exact (h o).1 ws hw
      · obtain ⟨b, hb, hpb, hc⟩ := hd
        exact absurd ⟨b, hb, hpb.trans hp, hc⟩ hn
    · refine (h o).2 (fun ⟨b, hb, hr⟩ => hn ⟨b, by simp [hb], hr⟩) p hp
    · have := ((h _).1 vs hv).symm.trans ((h _).1 ws hw)
      rw [(List.map_injective_iff.mpr (Option.some_injective V)) this]
  · have hex : filesExist fs (S.paths a.options) ≠ true := fun e => hd ((h.exist hS _).mp e)
    have keep : ∀ {fs' : Files V}, (∀ p, fs'.lookup p = fs.lookup p) → (∀ vs, ¬ S.Completes a vs) →
        S.Inv fs' (history ++ [a]) := by
      intro fs' heq hnc o
      refine ⟨fun ws hw => ?_, fun hn p hp => ?_⟩
      · rcases S.first_append hw with hw | ⟨-, -, hc⟩
        · rw [← (h o).1 ws hw]
          exact List.map_congr_left fun p _ => heq p
        · exact absurd hc (hnc ws)
      · rw [heq]
        exact (h o).2 (fun ⟨b, hb, hr⟩ => hn ⟨b, by simp [hb], hr⟩) p hp
    have first_absurd : ∀ vs, S.First history a.options vs → False := fun vs hv => hd (S.done_of_first hv)
    cases hp : S.process a.options a.draw with
    | error e =>
      have he : openDataset S fs a = (fs, some (.error e)) := by
        unfold openDataset
        rw [if_neg hex, hp]
      rw [he]
      refine ⟨keep (fun _ => rfl) ?_, fun vs hv => (first_absurd vs hv).elim, fun _ => ?_⟩
      · rintro vs ⟨o, ho, -⟩
        rw [hp] at ho
        cases ho
      · unfold Store.alone
        rw [hp]
    | ok r =>
      obtain ⟨o', vs⟩ := r
      obtain ⟨rfl, hlen⟩ := hS.keeps _ _ _ _ hp
      have hcomp : ∀ ws, S.Completes a ws → ws = vs := by
        rintro ws ⟨o, ho, -⟩
        rw [hp] at ho
        cases ho
        rfl
      have full : ∀ {fs' : Files V}, fs' = writeFiles fs ((S.paths a.options).zip vs) →
          S.Completes a vs → S.Inv fs' (history ++ [a]) := by
        rintro fs' rfl hc o
        refine ⟨fun ws hw => ?_, fun hn p hpl => ?_⟩
        · rcases S.first_append hw with hw | ⟨-, hpo, hc'⟩
          · rw [← (h o).1 ws hw]
            refine List.map_congr_left fun p hpm => writeFiles_other ?_
            rw [zip_keys hlen]
            intro hpa
            obtain ⟨b, hb, hpb, hc''⟩ := S.done_of_first hw
            exact hd ⟨b, hb, hpb.trans (hS.apart o a.options p hpm hpa), hc''⟩
          · rw [hcomp ws hc', ← hpo]
            exact writeFiles_all (hS.nodup _) hlen
        · have hpm := List.mem_of_getLast? hpl
          rw [writeFiles_other, (h o).2 (fun ⟨b, hb, hr⟩ => hn ⟨b, by simp [hb], hr⟩) p hpl]
          rw [zip_keys hlen]
          intro hpa
          exact hn ⟨a, by simp, hS.apart _ _ p hpa hpm, vs, hc⟩
      cases hk : a.killed with
      | none =>
        have hc : S.Completes a vs := ⟨a.options, hp, fun n hn => by rw [hk] at hn; cases hn⟩
        have he : openDataset S fs a = (writeFiles fs ((S.paths a.options).zip vs), some (.ok vs)) := by
          unfold openDataset
          rw [if_neg hex, hp, hk]
          simp only
          rw [loadFiles_of (writeFiles_all (hS.nodup _) hlen)]
        rw [he]
        refine ⟨full rfl hc, fun vs hv => (first_absurd vs hv).elim, fun _ => ?_⟩
        unfold Store.alone
        rw [hp, hk]
      | some n =>
        have he : openDataset S fs a = (writeFiles fs (((S.paths a.options).zip vs).take n), none) := by
          unfold openDataset
          rw [if_neg hex, hp, hk]
        rw [he]
        refine ⟨?_, fun vs hv => (first_absurd vs hv).elim, fun _ => ?_⟩
        · by_cases hn : vs.length ≤ n
          · refine full ?_ ⟨a.options, hp, fun m hm => ?_⟩
            · rw [List.take_of_length_le]
              rw [List.length_zip, hlen]
              omega
            · rw [hk] at hm
              cases hm
              exact hn
          · have hnc : ∀ ws, ¬ S.Completes a ws := by
              intro ws hc
              obtain rfl := hcomp ws hc
              obtain ⟨o, ho, hm⟩ := hc
              exact hn (hm n hk)
            intro o
            have hsub : ∀ p, p ∈ ((((S.paths a.options).zip vs).take n).map Prod.fst) → p ∈ S.paths a.options := by
              intro p hpm
              rw [List.map_take, zip_keys hlen] at hpm
              exact List.mem_of_mem_take hpm
            refine ⟨fun ws hw => ?_, fun hn' p hpl => ?_⟩
            · rcases S.first_append hw with hw | ⟨-, -, hc'⟩
              · rw [← (h o).1 ws hw]
                refine List.map_congr_left fun p hpm => writeFiles_other fun hpa => ?_
                obtain ⟨b, hb, hpb, hc''⟩ := S.done_of_first hw
                exact hd ⟨b, hb, hpb.trans (hS.apart o a.options p hpm (hsub p hpa)), hc''⟩
              · exact absurd hc' (hnc ws)
            · have hpm := List.mem_of_getLast? hpl
              rw [writeFiles_other, (h o).2 (fun ⟨b, hb, hr⟩ => hn' ⟨b, by simp [hb], hr⟩) p hpl]
              intro hpa
              have hsame := hS.apart _ _ p (hsub p hpa) hpm
              rw [List.map_take, zip_keys hlen] at hpa
              rw [← hsame] at hpl
              -- the last of the files is not among the first ones
              have hne := hS.some_file a.options
              have hsplit := List.dropLast_append_getLast hne
              have hlast : p = (S.paths a.options).getLast hne := by
                rw [List.getLast?_eq_getLast_of_ne_nil hne] at hpl
                exact (Option.some.inj hpl).symm
              have hnd := hS.nodup a.options
              rw [← hsplit] at hnd
              have hout : p ∉ (S.paths a.options).dropLast := by
                rw [hlast]
                exact fun hm => (List.nodup_append.mp hnd).2.2 _ hm _ (by simp) rfl
              refine hout ?_
              rw [List.dropLast_eq_take]
              have : n ≤ (S.paths a.options).length - 1 := by omega
              exact (List.take_subset_take_left _ this) hpa
        · unfold Store.alone
          rw [hp, hk]

theorem Store.results {fs : Files V} : ∀ {history as : List (Attempt O)}, S.Inv fs history →
    (openAll S fs as).2.length = as.length ∧
    ∀ i a, as[i]? = some a →
      (∀ vs, S.First (history ++ as.take i) a.options vs → (openAll S fs as).2[i]? = some (some (.ok vs))) ∧
      (¬ S.Done (history ++ as.take i) a.options → (openAll S fs as).2[i]? = some (S.alone a))
  | history, [], _ => ⟨rfl, fun i a h => by simp at h⟩
  | history, a :: as, h => by
    obtain ⟨h1, h2, h3⟩ := h.step hS a
    obtain ⟨l, r⟩ := Store.results (as := as) h1
    refine ⟨by simp [openAll, l], fun i b hb => ?_⟩
    cases i with
    | zero =>
      cases hb
      rw [List.take_zero, List.append_nil]
      exact ⟨fun vs hv => by simp [openAll, h2 vs hv], fun hn => by simp [openAll, h3 hn]⟩
    | succ i =>
      have := r i b (by simpa using hb)
      rw [List.append_assoc, List.singleton_append] at this
      rw [List.take_succ_cons]
      refine ⟨fun vs hv => ?_, fun hn => ?_⟩
      · simpa [openAll] using this.1 vs hv
      · simpa [openAll] using this.2 hn

end

end Verif
