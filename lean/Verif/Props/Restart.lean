import Verif.Sim.Files

/-!
# C75: starting a simulation from saved files
-/

namespace PyBox
namespace Files

open Spec Rl

namespace Spec

/-- No file name contains two of the patterns. -/
def OneKind (ps : List Str) (disk : Disk) : Prop :=
  ∀ f ∈ disk.keys, ∀ p ∈ ps, ∀ q ∈ ps, p <:+: f → q <:+: f → p = q

/-- The directory after a series of runs that prepare their files, starting from an empty one. Every run has its
environment, the name and the text of its mechanism file. -/
def afterRuns (v : Version) (runs : List (Env × Str × Str)) : Disk :=
  runs.foldl (fun d r => (startFresh v r.1 r.2.1 r.2.2 d).1) []

/-- C75 in full: after any series of runs, starting from the saved files of a mechanism simulates what one of the runs
for that mechanism simulated. -/
def C75_Statement : Prop :=
  ∀ (v : Version) (runs : List (Env × Str × Str)), (∀ r ∈ runs, '.' ∉ r.2.1 ∧ ∀ x, r.1.compiles x = true) →
    ∀ name s, startSaved v name (afterRuns v runs) = .ok s →
      ∃ e text, (e, name, text) ∈ runs ∧ (startFresh v e name text []).2 = .ok s

end Spec

open Spec

/-! ### What a sequence of steps leaves in a file -/

/-- Does the step change what the file `n` holds? -/
def Step.Touches (n : Str) : Step → Prop
  | .remove ps => hits ps n = true
  | .save f _ => n = f
  | .build s t _ _ => n = s ∨ n = t

theorem get?_filter (disk : Disk) (f : Str → Bool) (n : Str) :
    Dict.get? (disk.filter (fun p => f p.1)) n = if f n then disk.get? n else none := by
  induction disk with
  | nil => simp
  | cons p t ih =>
    rw [List.filter_cons, Dict.get?_cons]
    by_cases hp : f p.1
    · rw [if_pos hp, Dict.get?_cons, ih]
      by_cases hn : p.1 = n
      · subst hn; simp [hp]
      · simp [hn]
    · rw [if_neg hp, ih]
      by_cases hn : p.1 = n
      · subst hn; simp [hp]
      · simp [hn]

theorem Step.run_untouched {s : Step} {n : Str} (h : ¬ s.Touches n) (disk : Disk) :
    (s.run disk).1.get? n = disk.get? n := by
  match s with
  | .remove ps =>
    simp only [Step.Touches, Bool.not_eq_true] at h
    simp only [Step.run]
    split
    · rfl
    · show Dict.get? (disk.filter (fun p => !hits ps p.1)) n = _
      rw [get?_filter disk (fun x => !hits ps x)]
      simp [h]
  | .save f (.error e) => rfl
  | .save f (.ok c) => exact Dict.get?_set_ne _ _ h
  | .build s t k (.error e) => rfl
  | .build s t true (.ok c) =>
    simp only [Step.Touches, not_or] at h
    show Dict.get? ((disk.set s c).set t (.compiled c)) n = _
    rw [Dict.get?_set_ne _ _ h.2, Dict.get?_set_ne _ _ h.1]
  | .build s t false (.ok c) =>
    simp only [Step.Touches, not_or] at h
    exact Dict.get?_set_ne _ _ h.1

theorem runSteps_cons {s : Step} {rest : List Step} {disk d : Disk} (h : runSteps (s :: rest) disk = (d, none)) :
    (s.run disk).2 = none ∧ runSteps rest (s.run disk).1 = (d, none) := by
  unfold runSteps at h
  split at h
  · rename_i d' hd
    rw [hd]
    exact ⟨rfl, h⟩
  · injection h with _ h2
    cases h2

theorem runSteps_append {pre post : List Step} {disk d : Disk} (h : runSteps (pre ++ post) disk = (d, none)) :
    ∃ d', runSteps pre disk = (d', none) ∧ runSteps post d' = (d, none) := by
  induction pre generalizing disk with
  | nil => exact ⟨disk, rfl, h⟩
  | cons s rest ih =>
    obtain ⟨h1, h2⟩ := runSteps_cons (by simpa using h)
    obtain ⟨d', h3, h4⟩ := ih h2
    refine ⟨d', ?_, h4⟩
    unfold runSteps
    have : s.run disk = ((s.run disk).1, none) := Prod.ext rfl h1
    rw [this]
    exact h3

/-- Whether it fails or not, a sequence leaves files alone that no step touches. -/
theorem runSteps_untouched {ss : List Step} {n : Str} (h : ∀ s ∈ ss, ¬ s.Touches n) (disk : Disk) :
    (runSteps ss disk).1.get? n = disk.get? n := by
  induction ss generalizing disk with
  | nil => rfl
  | cons s rest ih =>
    have hs := Step.run_untouched (h s (by simp)) disk
    unfold runSteps
    split
    · rename_i d hd
      rw [ih (fun s hs => h s (by simp [hs])) d, ← hs, hd]
    · rename_i d e hd
      rw [← hs, hd]

theorem runSteps_saved {pre post : List Step} {n : Str} {c : Except PyErr Content} {disk d : Disk}
    (h : runSteps (pre ++ .save n c :: post) disk = (d, none)) (hpost : ∀ s ∈ post, ¬ s.Touches n) :
    ∃ v, c = .ok v ∧ d.get? n = some v := by
  obtain ⟨d', -, h2⟩ := runSteps_append h
  obtain ⟨h3, h4⟩ := runSteps_cons h2
  match c with
  | .error e => cases h3
  | .ok v =>
    refine ⟨v, rfl, ?_⟩
    have := runSteps_untouched hpost (Step.run d' (.save n (.ok v))).1
    rw [h4] at this
    rw [this]
    exact Dict.get?_set_self _ _ _

theorem runSteps_built {pre post : List Step} {source n : Str} {k : Bool} {c : Except PyErr Content} {disk d : Disk}
    (h : runSteps (pre ++ .build source n k c :: post) disk = (d, none)) (hpost : ∀ s ∈ post, ¬ s.Touches n) :
    ∃ v, c = .ok v ∧ (k = true → d.get? n = some (.compiled v)) ∧
      (k = false → n ≠ source → (∀ s ∈ pre, ¬ s.Touches n) → d.get? n = disk.get? n) := by
  obtain ⟨d', h1, h2⟩ := runSteps_append h
  obtain ⟨h3, h4⟩ := runSteps_cons h2
  match c with
  | .error e => cases h3
  | .ok v =>
    refine ⟨v, rfl, ?_, ?_⟩
    · rintro rfl
      have := runSteps_untouched hpost (Step.run d' (.build source n true (.ok v))).1
      rw [h4] at this
      rw [this]
      exact Dict.get?_set_self _ _ _
    · rintro rfl hn hpre
      have := runSteps_untouched hpost (Step.run d' (.build source n false (.ok v))).1
      rw [h4] at this
      rw [this]
      have h0 := runSteps_untouched hpre disk
      rw [h1] at h0
      rw [← h0]
      exact Dict.get?_set_ne _ _ hn

/-! ### File names -/

theorem ne_same {a s t : Str} (h : s ≠ t) : a ++ s ≠ a ++ t := fun e => h (List.append_cancel_left e)

theorem ne_fixed {a s t : Str} (h : ¬ s <:+ t) : a ++ s ≠ t := fun e => h ⟨a, e⟩

theorem ne_fixed' {a s t : Str} (h : ¬ s <:+ t) : t ≠ a ++ s := fun e => h ⟨a, e.symm⟩

theorem ne_ends {a b s t : Str} (h : ¬ s <:+ t) (h' : ¬ t <:+ s) : a ++ s ≠ b ++ t := fun e =>
  (List.suffix_or_suffix_of_suffix (⟨a, e⟩ : s <:+ b ++ t) (⟨b, rfl⟩ : t <:+ b ++ t)).elim h h'

theorem hits_append {ps : List Str} {a s : Str} (h : ∃ p ∈ ps, p <:+: s) : hits ps (a ++ s) = true := by
  obtain ⟨p, hp, hi⟩ := h
  unfold hits
  rw [List.any_eq_true]
  exact ⟨p, hp, by simpa using hi.trans (List.suffix_append a s).isInfix⟩

/-- Distinct file names. -/
macro "names" : tactic => `(tactic| first
  | exact ne_same (by decide +kernel)
  | exact ne_fixed (by decide +kernel)
  | exact ne_fixed' (by decide +kernel)
  | exact ne_ends (by decide +kernel) (by decide +kernel)
  | (unfold sparseFile; exact ne_ends (by decide +kernel) (by decide +kernel))
  | (unfold netFile; exact ne_ends (by decide +kernel) (by decide +kernel))
  | (unfold sparseFile; exact ne_fixed' (by decide +kernel))
  | (unfold netFile; exact ne_fixed' (by decide +kernel))
  | decide +kernel)

theorem split_at {ss : List Step} {i : ℕ} {s : Step} (h : ss[i]? = some s) :
    ss = ss.take i ++ s :: ss.drop (i + 1) := by
  obtain ⟨hi, rfl⟩ := List.getElem?_eq_some_iff.1 h
  simp

theorem saved_at {ss : List Step} {i : ℕ} {n : Str} {c : Except PyErr Content} {disk d : Disk}
    (h : runSteps ss disk = (d, none)) (hi : ss[i]? = some (.save n c)) (hpost : ∀ s ∈ ss.drop (i + 1), ¬ s.Touches n) :
    ∃ v, c = .ok v ∧ d.get? n = some v := by
  rw [split_at hi] at h
  exact runSteps_saved h hpost

theorem built_at {ss : List Step} {i : ℕ} {source n : Str} {k : Bool} {c : Except PyErr Content} {disk d : Disk}
    (h : runSteps ss disk = (d, none)) (hi : ss[i]? = some (.build source n k c))
    (hpost : ∀ s ∈ ss.drop (i + 1), ¬ s.Touches n) :
    ∃ v, c = .ok v ∧ (k = true → d.get? n = some (.compiled v)) ∧
      (k = false → n ≠ source → (∀ s ∈ ss.take i, ¬ s.Touches n) → d.get? n = disk.get? n) := by
  rw [split_at hi] at h
  exact runSteps_built h hpost

macro "untouched" : tactic => `(tactic| (
  simp only [prepare, preparePython, prepareFortran, saveTables, List.cons_append, List.nil_append,
    List.drop_succ_cons, List.drop_zero, List.take_succ_cons, List.take_zero, List.forall_mem_cons, List.not_mem_nil, false_imp_iff, implies_true,
    and_true, Step.Touches, not_or, indexFile, speciesFile, equationsFile, radicalsFile, ratesModule, reactantsModule,
    lossGainModule, jacobianModule]
  and_intros
  all_goals names))

/-! ### The files a preparing run leaves behind -/

section

variable {v : Version} {e : Env} {name text : Str} {disk d : Disk}

theorem map_ok {α β : Type} {x : Except PyErr α} {f : α → β} {b : β} (h : x.map f = .ok b) :
    ∃ a, x = .ok a ∧ f a = b := by
  match x with
  | .error e => cases h
  | .ok a => exact ⟨a, rfl, by injection h⟩

/-- The saved tables. -/
theorem tables_saved (h : runSteps (prepare e name text v) disk = (d, none)) :
    ∃ m, extractMechanism text = .ok m ∧ d.get? (indexFile name) = some (.index m.tables.index) ∧
      d.get? (speciesFile name) = some (.species m.tables.species) ∧
      d.get? (equationsFile name) = some (.count m.equations) ∧
      d.get? (radicalsFile name) = some (.indices (ro2Indices m.tables.index)) := by
  match v with
  | .python =>
    obtain ⟨c1, e1, h1⟩ := saved_at (i := 2) h rfl (by untouched)
    obtain ⟨c2, e2, h2⟩ := saved_at (i := 3) h rfl (by untouched)
    obtain ⟨c3, e3, h3⟩ := saved_at (i := 4) h rfl (by untouched)
    obtain ⟨c4, e4, h4⟩ := saved_at (i := 13) h rfl (by untouched)
    obtain ⟨m, hm, rfl⟩ := map_ok e1
    rw [hm] at e2 e3 e4
    cases e2; cases e3; cases e4
    exact ⟨m, hm, h1, h2, h3, h4⟩
  | .fortran =>
    obtain ⟨c1, e1, h1⟩ := saved_at (i := 2) h rfl (by untouched)
    obtain ⟨c2, e2, h2⟩ := saved_at (i := 3) h rfl (by untouched)
    obtain ⟨c3, e3, h3⟩ := saved_at (i := 4) h rfl (by untouched)
    obtain ⟨c4, e4, h4⟩ := saved_at (i := 10) h rfl (by untouched)
    obtain ⟨m, hm, rfl⟩ := map_ok e1
    rw [hm] at e2 e3 e4
    cases e2; cases e3; cases e4
    exact ⟨m, hm, h1, h2, h3, h4⟩

theorem bind_ok' {α β : Type} {x : Except PyErr α} {f : α → Except PyErr β} {b : β} (h : x.bind f = .ok b) :
    ∃ a, x = .ok a ∧ f a = .ok b := by
  match x with
  | .error e => cases h
  | .ok a => exact ⟨a, rfl, h⟩

theorem generated_ok {κ : Type} [Place κ] {L : Layout} {write : Mechanism → Except PyErr (List (Line κ))} {c : Content}
    {m : Mechanism} (hm : extractMechanism text = .ok m) (h : generated e text L write = .ok c) :
    ∃ P, write m = .ok P ∧ c = .text (fileText L e.num e.date m.tables.species.length m.equations.toNat P) := by
  obtain ⟨m', hm', h2⟩ := bind_ok' h
  obtain rfl : m = m' := by rw [hm] at hm'; injection hm'
  obtain ⟨P, hP, rfl⟩ := map_ok h2
  exact ⟨P, hP, rfl⟩

/-- The routines of the Python version. -/
theorem routines_python (h : runSteps (prepare e name text .python) disk = (d, none)) {m : Mechanism}
    (hm : extractMechanism text = .ok m) :
    d.get? (ratesModule .python) =
      some (.writes (ratesFile .numba none (convertTable (convertOf .numba) m.tables.rate))) ∧
    (∃ P, writeReactantsPy m.tables.gen m.equations.toNat = .ok P ∧ d.get? (reactantsModule .python) = some (.text
      (fileText reactantsPyLayout e.num e.date m.tables.species.length m.equations.toNat P))) ∧
    d.get? (lossGainModule .python) = some (.text (fileText lossGainPyLayout e.num e.date m.tables.species.length
      m.equations.toNat (writeLossGainPy m.tables.gen))) ∧
    (∃ J, writeJacobianPy m.tables.gen e.ord = .ok J ∧ d.get? (jacobianModule .python) = some (.text
      (fileText jacobianPyLayout e.num e.date m.tables.species.length m.equations.toNat J))) := by
  obtain ⟨c1, e1, h1⟩ := saved_at (i := 5) h rfl (by untouched)
  obtain ⟨c2, e2, h2⟩ := saved_at (i := 9) h rfl (by untouched)
  obtain ⟨c3, e3, h3⟩ := saved_at (i := 11) h rfl (by untouched)
  obtain ⟨c4, e4, h4⟩ := saved_at (i := 12) h rfl (by untouched)
  rw [hm] at e1
  cases e1
  obtain ⟨P, hP, rfl⟩ := generated_ok hm e2
  obtain ⟨Q, hQ, rfl⟩ := generated_ok hm e3
  obtain ⟨J, hJ, rfl⟩ := generated_ok hm e4
  cases hQ
  exact ⟨h1, ⟨P, hP, h2⟩, h3, ⟨J, hJ, h4⟩⟩

/-- The routines of the Fortran version, if the compiler succeeds. -/
theorem routines_fortran (h : runSteps (prepare e name text .fortran) disk = (d, none)) {m : Mechanism}
    (hm : extractMechanism text = .ok m) (hc : ∀ x, e.compiles x = true) :
    d.get? (ratesModule .fortran) = some (.compiled
      (.writes (ratesFile .fortran e.cores ((convertTable (convertOf .fortran))^[2] m.tables.rate)))) ∧
    (∃ P, writeReactantsF m.tables.gen m.equations.toNat e.cores = .ok P ∧
      d.get? (reactantsModule .fortran) = some (.compiled (.text
        (fileText reactantsFLayout e.num e.date m.tables.species.length m.equations.toNat P)))) ∧
    d.get? (lossGainModule .fortran) = some (.compiled (.text (fileText lossGainFLayout e.num e.date
      m.tables.species.length m.equations.toNat (writeLossGainF m.tables.gen m.tables.species.length e.cores)))) ∧
    (∃ J, writeJacobianF m.tables.gen e.ord m.tables.species.length e.cores = .ok J ∧
      d.get? (jacobianModule .fortran) = some (.compiled (.text
        (fileText jacobianFLayout e.num e.date m.tables.species.length m.equations.toNat J)))) := by
  obtain ⟨c1, e1, h1, -⟩ := built_at (i := 5) h rfl (by untouched)
  obtain ⟨c2, e2, h2, -⟩ := built_at (i := 8) h rfl (by untouched)
  obtain ⟨c3, e3, h3, -⟩ := built_at (i := 9) h rfl (by untouched)
  obtain ⟨c4, e4, h4, -⟩ := built_at (i := 11) h rfl (by untouched)
  rw [hm] at e1
  cases e1
  obtain ⟨P, hP, rfl⟩ := generated_ok hm e2
  obtain ⟨Q, hQ, rfl⟩ := generated_ok hm e3
  obtain ⟨J, hJ, rfl⟩ := generated_ok hm e4
  cases hQ
  exact ⟨h1 (hc _), ⟨P, hP, h2 (hc _)⟩, h3 (hc _), ⟨J, hJ, h4 (hc _)⟩⟩

theorem readFile_some {n : Str} {c : Content} (h : disk.get? n = some c) : readFile disk n = .ok c := by
  unfold readFile; rw [h]

theorem readFile_none {n : Str} (h : disk.get? n = none) : readFile disk n = .error .noFile := by
  unfold readFile; rw [h]

theorem startFresh_ok {s : Session} (h : startFresh v e name text disk = (d, .ok s)) :
    runSteps (prepare e name text v) disk = (d, none) ∧ ∃ m, extractMechanism text = .ok m ∧
      session v name m.tables.index m.tables.species m.equations d = .ok s := by
  unfold startFresh at h
  split at h
  · injection h with _ h2; cases h2
  · rename_i d' hd
    injection h with h1 h2
    subst h1
    refine ⟨hd, ?_⟩
    split at h2
    · cases h2
    · rename_i m hm
      exact ⟨m, hm, h2⟩

theorem startSaved_eq {i : Dict Str ℕ} {sp : Dict ℕ Str} {q : ℤ} (h1 : disk.get? (indexFile name) = some (.index i))
    (h2 : disk.get? (speciesFile name) = some (.species sp)) (h3 : disk.get? (equationsFile name) = some (.count q)) :
    startSaved v name disk = session v name i sp q disk := by
  unfold startSaved
  rw [readFile_some h1, readFile_some h2, readFile_some h3]
  rfl

/-- **C75**: starting again from the files a run left behind simulates what that run simulated. -/
theorem C75_restart {s : Session} (h : startFresh v e name text disk = (d, .ok s)) : startSaved v name d = .ok s := by
  obtain ⟨hr, m, hm, hs⟩ := startFresh_ok h
  obtain ⟨m', hm', h1, h2, h3, -⟩ := tables_saved hr
  obtain rfl : m = m' := by rw [hm] at hm'; injection hm'
  rw [startSaved_eq h1 h2 h3, hs]

theorem session_eq {i : Dict Str ℕ} {sp : Dict ℕ Str} {q : ℤ} {r : List ℕ} {c1 c2 c3 c4 : Content} {l : List Str}
    {x y z : Str} (hr : disk.get? (radicalsFile name) = some (.indices r))
    (h1 : disk.get? (ratesModule v) = some c1) (h2 : disk.get? (reactantsModule v) = some c2)
    (h3 : disk.get? (lossGainModule v) = some c3) (h4 : disk.get? (jacobianModule v) = some c4)
    (w1 : c1.asWrites v = .ok l) (w2 : c2.asText v = .ok x) (w3 : c3.asText v = .ok y) (w4 : c4.asText v = .ok z) :
    session v name i sp q disk = .ok ⟨i, sp, q, r, ⟨l, x, y⟩, z⟩ := by
  unfold session
  rw [readFile_some hr, readFile_some h1, readFile_some h2, readFile_some h3, readFile_some h4]
  simp only [Content.asIndices, bind, Except.bind, w1, w2, w3, w4]
  rfl

/-- What a run of the Python version that prepares its files works with. -/
theorem python_session (hr : runSteps (prepare e name text .python) disk = (d, none)) {m : Mechanism}
    (hm : extractMechanism text = .ok m) :
    ∃ P J, writeReactantsPy m.tables.gen m.equations.toNat = .ok P ∧ writeJacobianPy m.tables.gen e.ord = .ok J ∧
      session .python name m.tables.index m.tables.species m.equations d =
        .ok ⟨m.tables.index, m.tables.species, m.equations, ro2Indices m.tables.index,
          ⟨ratesFile .numba none (convertTable (convertOf .numba) m.tables.rate),
            fileText reactantsPyLayout e.num e.date m.tables.species.length m.equations.toNat P,
            fileText lossGainPyLayout e.num e.date m.tables.species.length m.equations.toNat
              (writeLossGainPy m.tables.gen)⟩,
          fileText jacobianPyLayout e.num e.date m.tables.species.length m.equations.toNat J⟩ := by
  obtain ⟨m', hm', -, -, -, h4⟩ := tables_saved hr
  obtain rfl : m = m' := by rw [hm] at hm'; injection hm'
  obtain ⟨r1, ⟨P, hP, r2⟩, r3, ⟨J, hJ, r4⟩⟩ := routines_python hr hm
  exact ⟨P, J, hP, hJ, session_eq h4 r1 r2 r3 r4 rfl rfl rfl rfl⟩

/-- The same for the Fortran version, if the compiler succeeds. -/
theorem fortran_session (hr : runSteps (prepare e name text .fortran) disk = (d, none)) {m : Mechanism}
    (hm : extractMechanism text = .ok m) (hc : ∀ x, e.compiles x = true) :
    ∃ P J, writeReactantsF m.tables.gen m.equations.toNat e.cores = .ok P ∧
      writeJacobianF m.tables.gen e.ord m.tables.species.length e.cores = .ok J ∧
      session .fortran name m.tables.index m.tables.species m.equations d =
        .ok ⟨m.tables.index, m.tables.species, m.equations, ro2Indices m.tables.index,
          ⟨ratesFile .fortran e.cores ((convertTable (convertOf .fortran))^[2] m.tables.rate),
            fileText reactantsFLayout e.num e.date m.tables.species.length m.equations.toNat P,
            fileText lossGainFLayout e.num e.date m.tables.species.length m.equations.toNat
              (writeLossGainF m.tables.gen m.tables.species.length e.cores)⟩,
          fileText jacobianFLayout e.num e.date m.tables.species.length m.equations.toNat J⟩ := by
  obtain ⟨m', hm', -, -, -, h4⟩ := tables_saved hr
  obtain rfl : m = m' := by rw [hm] at hm'; injection hm'
  obtain ⟨r1, ⟨P, hP, r2⟩, r3, ⟨J, hJ, r4⟩⟩ := routines_fortran hr hm hc
  exact ⟨P, J, hP, hJ, session_eq h4 r1 r2 r3 r4 rfl rfl rfl rfl⟩

/-- **C75**: what a preparing run simulates does not depend on the files it finds, nor on the name of the mechanism
file. In the Fortran version this needs the compiler to succeed. -/
theorem C75_own {name' : Str} {disk' d' : Disk} {s s' : Session} (hc : v = .fortran → ∀ x, e.compiles x = true)
    (h : startFresh v e name text disk = (d, .ok s)) (h' : startFresh v e name' text disk' = (d', .ok s')) :
    s = s' := by
  obtain ⟨hr, m, hm, hs⟩ := startFresh_ok h
  obtain ⟨hr', m', hm', hs'⟩ := startFresh_ok h'
  obtain rfl : m = m' := by rw [hm] at hm'; injection hm'
  match v with
  | .python =>
    obtain ⟨P, J, hP, hJ, e1⟩ := python_session hr hm
    obtain ⟨P', J', hP', hJ', e2⟩ := python_session hr' hm
    rw [hP] at hP'; cases hP'
    rw [hJ] at hJ'; cases hJ'
    rw [e1] at hs; rw [e2] at hs'
    cases hs; cases hs'; rfl
  | .fortran =>
    obtain ⟨P, J, hP, hJ, e1⟩ := fortran_session hr hm (hc rfl)
    obtain ⟨P', J', hP', hJ', e2⟩ := fortran_session hr' hm (hc rfl)
    rw [hP] at hP'; cases hP'
    rw [hJ] at hJ'; cases hJ'
    rw [e1] at hs; rw [e2] at hs'
    cases hs; cases hs'; rfl

/-- **C75**: the values and routines a preparing run of the Python version works with are those of its mechanism. -/
theorem C75_python (hd : '\n' ∉ e.date) {s : Session} (h : startFresh .python e name text disk = (d, .ok s)) :
    ∃ m, extractMechanism text = .ok m ∧ s.index = m.tables.index ∧ s.species = m.tables.species ∧
      s.equations = m.equations ∧ s.radicals = ro2Indices m.tables.index ∧ s.files.WrittenPython m 1 e.num ∧
      ∃ J, writeJacobianPy m.tables.gen e.ord = .ok J ∧
        s.jacobian = fileText jacobianPyLayout e.num e.date m.tables.species.length m.equations.toNat J := by
  obtain ⟨hr, m, hm, hs⟩ := startFresh_ok h
  obtain ⟨P, J, hP, hJ, e1⟩ := python_session hr hm
  rw [e1] at hs
  cases hs
  refine ⟨m, hm, rfl, rfl, rfl, by dsimp only, ⟨by dsimp only [Function.iterate_succ, Function.iterate_zero]; rfl, ⟨P, e.date, hP, hd, rfl⟩, ⟨e.date, hd, rfl⟩⟩, J, hJ, rfl⟩

/-- C75, the same for the Fortran version if the compiler succeeds. -/
theorem C75_fortran (hd : '\n' ∉ e.date) (hc : ∀ x, e.compiles x = true) {s : Session}
    (h : startFresh .fortran e name text disk = (d, .ok s)) :
    ∃ m, extractMechanism text = .ok m ∧ s.index = m.tables.index ∧ s.species = m.tables.species ∧
      s.equations = m.equations ∧ s.radicals = ro2Indices m.tables.index ∧ s.files.WrittenFortran m e.cores 2 e.num ∧
      ∃ J, writeJacobianF m.tables.gen e.ord m.tables.species.length e.cores = .ok J ∧
        s.jacobian = fileText jacobianFLayout e.num e.date m.tables.species.length m.equations.toNat J := by
  obtain ⟨hr, m, hm, hs⟩ := startFresh_ok h
  obtain ⟨P, J, hP, hJ, e1⟩ := fortran_session hr hm hc
  rw [e1] at hs
  cases hs
  refine ⟨m, hm, rfl, rfl, rfl, by dsimp only, ⟨by dsimp only [Function.iterate_succ, Function.iterate_zero], ⟨P, e.date, hP, hd, rfl⟩, ⟨e.date, hd, rfl⟩⟩, J, hJ, rfl⟩

/-- **C75**: a restart of the Python version computes the rate law of the mechanism the files were prepared for. -/
theorem C75_simulates {m : Mechanism} {qs : List RawEqn} (hd : '\n' ∉ e.date) {r : Except FileErr Session} {s : Session}
    (h : startFresh .python e name text disk = (d, r)) (hr : r = .ok s)
    (hm : extractMechanism text = .ok m) (hq : Reads text m.equations.toNat qs)
    (hreg : ∀ q ∈ qs, Regular q) (hrad : ∃ s ∈ ro2Names, (m.tables.index.get? s).isSome)
    (hn : ∀ s ∈ lostRadicals ++ damagedEntries, m.tables.index.get? s = none) (hw : Prints e.num id m.tables)
    (hread : ReadableRates .numba ((convertOf .numba)^[1]) qs) :
    ∃ s', startSaved .python name d = .ok s' ∧ ∀ (junk : Vals) (start h2o temp time : ℝ) (y : ℕ → ℝ), ∃ out,
      dydtPython s'.files s'.species.length s'.equations.toNat s'.radicals junk start h2o temp time y = some out ∧
      ∀ x i, s'.index.get? x = some i → out i = if x ∈ heldConstant then 0 else
        rateLaw qs (concOf m.tables y) (textRate .numba ((convertOf .numba)^[1]) qs temp (start + time)
          (radicalSum m.tables.index y) h2o) x := by
  subst hr
  refine ⟨s, C75_restart h, fun junk start h2o temp time y => ?_⟩
  obtain ⟨m', hm', e1, e2, e3, e4, hf, -⟩ := C75_python hd h
  obtain rfl : m = m' := by rw [hm] at hm'; injection hm'
  rw [e1, e2, e3, e4]
  exact C73_rate_law_python hm hq hreg hrad hn hw hf hread junk start h2o temp time y

/-! ### Runs on a directory with files of other runs -/

/-- The patterns of `/repo/Gas_simulation.py` 107–113, also of the aerosol versions. -/
def savedKinds : List Str := [chars% ".npy", chars% ".pickle", chars% ".npz", chars% ".eqn.txt"]

/-- The patterns of `/repo/f2py/Gas_simulation_f2py.py` 104–106. -/
def sourceKinds : List Str := [chars% ".f90", chars% ".eqn.txt"]

theorem kinds_ok {ps : List Str} (hn : ps.Nodup) (h : OneKind ps disk) :
    (Step.remove ps).run disk = (disk.filter (fun p => !hits ps p.1), none) := by
  simp only [Step.run]
  rw [if_neg]
  rw [List.any_eq_true]
  rintro ⟨p, hp, hc⟩
  have hk : p.1 ∈ disk.keys := List.mem_map_of_mem hp
  have h2 := of_decide_eq_true hc
  rw [List.countP_eq_length_filter] at h2
  have hnd := hn.filter (fun q => decide (q <:+: p.1))
  match hl : ps.filter (fun q => decide (q <:+: p.1)) with
  | [] => rw [hl] at h2; simp at h2
  | [_] => rw [hl] at h2; simp at h2
  | a :: b :: t =>
    have ha : a ∈ ps.filter (fun q => decide (q <:+: p.1)) := by rw [hl]; simp
    have hb : b ∈ ps.filter (fun q => decide (q <:+: p.1)) := by rw [hl]; simp
    rw [List.mem_filter, decide_eq_true_iff] at ha hb
    rw [hl] at hnd
    exact (List.nodup_cons.1 hnd).1 (by rw [h _ hk a ha.1 b hb.1 ha.2 hb.2]; simp)

theorem removed {ps : List Str} {n : Str} (h : hits ps n = true) :
    Dict.get? (disk.filter (fun p => !hits ps p.1)) n = none := by
  rw [get?_filter disk (fun x => !hits ps x)]
  simp [h]

/-- If a sequence that ends with writing `n` fails, `n` is what it was. -/
theorem failed_before {pre : List Step} {n : Str} {c : Except PyErr Content} (hpre : ∀ s ∈ pre, ¬ s.Touches n)
    {err : FileErr} (h : runSteps (pre ++ [.save n c]) disk = (d, some err)) : d.get? n = disk.get? n := by
  induction pre generalizing disk with
  | nil =>
    match c with
    | .error e => cases h; rfl
    | .ok c => cases h
  | cons s rest ih =>
    have hs := Step.run_untouched (hpre s (by simp)) disk
    rw [List.cons_append] at h
    unfold runSteps at h
    split at h
    · rename_i d' hd
      rw [ih (fun s hs => hpre s (by simp [hs])) h, ← hs, hd]
    · rename_i d' e' hd
      cases h
      rw [← hs, hd]

theorem bind_ok'' {α β : Type} {x : Except FileErr α} {f : α → Except FileErr β} {b : β} (h : (x >>= f) = .ok b) :
    ∃ a, x = .ok a ∧ f a = .ok b := by
  match x with
  | .error e => cases h
  | .ok a => exact ⟨a, rfl, h⟩

theorem readFile_ok {n : Str} {c : Content} (h : readFile disk n = .ok c) : disk.get? n = some c := by
  unfold readFile at h
  split at h
  · cases h
  · rename_i c' hc; cases h; exact hc

theorem session_radicals {i : Dict Str ℕ} {sp : Dict ℕ Str} {q : ℤ} {s : Session}
    (h : session v name i sp q disk = .ok s) : disk.get? (radicalsFile name) ≠ none := by
  unfold session at h
  obtain ⟨r, h1, -⟩ := bind_ok'' h
  rw [readFile_ok h1]
  exact Option.some_ne_none _

theorem startSaved_ok {s : Session} (h : startSaved v name disk = .ok s) :
    ∃ i sp q, disk.get? (indexFile name) = some (.index i) ∧ disk.get? (speciesFile name) = some (.species sp) ∧
      disk.get? (equationsFile name) = some (.count q) ∧ session v name i sp q disk = .ok s := by
  unfold startSaved at h
  obtain ⟨c1, r1, h⟩ := bind_ok'' h
  obtain ⟨i, a1, h⟩ := bind_ok'' h
  obtain ⟨c2, r2, h⟩ := bind_ok'' h
  obtain ⟨sp, a2, h⟩ := bind_ok'' h
  obtain ⟨c3, r3, h⟩ := bind_ok'' h
  obtain ⟨q, a3, h⟩ := bind_ok'' h
  refine ⟨i, sp, q, ?_, ?_, ?_, h⟩
  · rw [readFile_ok r1]
    unfold Content.asIndex at a1
    split at a1 <;> cases a1
    rfl
  · rw [readFile_ok r2]
    unfold Content.asSpecies at a2
    split at a2 <;> cases a2
    rfl
  · rw [readFile_ok r3]
    unfold Content.asCount at a3
    split at a3 <;> cases a3
    rfl

/-- **C75**, Python version: after a run that prepared files, whether it succeeded or not and whatever was there before,
only its own mechanism can be started from the saved files, and only if it succeeded; what is simulated then is
what it simulated. -/
theorem C75_last {name' : Str} {r : Except FileErr Session} {s : Session} (hk : OneKind savedKinds disk)
    (h : startFresh .python e name text disk = (d, r)) (h' : startSaved .python name' d = .ok s) :
    name' = name ∧ r = .ok s := by
  obtain ⟨i, sp, q, -, -, -, hs⟩ := startSaved_ok h'
  have hrad := session_radicals hs
  have hfirst : prepare e name text .python = .remove savedKinds :: (prepare e name text .python).drop 1 := rfl
  have hlast : (prepare e name text .python).drop 1 = ((prepare e name text .python).take 13).drop 1 ++
    [.save (radicalsFile name) ((extractMechanism text).map (fun m => .indices (ro2Indices m.tables.index)))] := rfl
  have hrm := kinds_ok (ps := savedKinds) (by decide +kernel) hk
  have hgone : Dict.get? (disk.filter (fun p => !hits savedKinds p.1)) (radicalsFile name') = none :=
    removed (hits_append (by decide +kernel))
  have hrun : runSteps (prepare e name text .python) disk =
      runSteps ((prepare e name text .python).drop 1) (disk.filter (fun p => !hits savedKinds p.1)) := by
    rw [hfirst]
    conv_lhs => unfold runSteps
    rw [hrm]
    rfl
  have hname : name' = name := by
    by_contra hne
    refine hrad ?_
    have : d = (runSteps (prepare e name text .python) disk).1 := by
      unfold startFresh at h
      split at h <;> (rename_i hd; cases h; rw [hd])
    rw [this, hrun, runSteps_untouched ?_, hgone]
    have : radicalsFile name' ≠ radicalsFile name := fun hc => hne (List.append_cancel_right hc)
    have hun : ∀ s ∈ ((prepare e name text .python).take 13).drop 1, ¬ s.Touches (radicalsFile name') := by untouched
    rw [hlast]
    intro s hs
    rcases List.mem_append.1 hs with hs | hs
    · exact hun s hs
    · rw [List.mem_singleton] at hs
      subst hs
      exact this
  refine ⟨hname, ?_⟩
  subst hname
  unfold startFresh at h
  split at h
  · rename_i d' err hd
    cases h
    exfalso
    rw [hrun, hlast] at hd
    refine hrad ((failed_before ?_ hd).trans hgone)
    untouched
  · rename_i d' hd
    obtain ⟨m, hm, h1, h2, h3, -⟩ := tables_saved hd
    rw [hm] at h
    cases h
    rw [← h', startSaved_eq h1 h2 h3]

/-! ### Names without a dot -/

theorem infix_append {a s p : Str} (ha : '.' ∉ a) (h : '.' :: p <:+: a ++ s) : '.' :: p <:+: s := by
  obtain ⟨l, r, hlr⟩ := h
  rw [List.append_assoc] at hlr
  rcases List.append_eq_append_iff.1 hlr with ⟨x, rfl, hx⟩ | ⟨x, rfl, hx⟩
  · match x with
    | [] => exact ⟨[], r, by simpa using hx⟩
    | c :: t =>
      rw [List.cons_append, List.cons_append] at hx
      injection hx with h1 _
      subst h1
      exact absurd (by simp) ha
  · exact ⟨x, r, by rw [List.append_assoc]; exact hx.symm⟩

/-- The files a step may create. -/
def Step.created : Step → List Str
  | .remove _ => []
  | .save f _ => [f]
  | .build s t _ _ => [s, t]

theorem Step.run_keys (s : Step) (disk : Disk) {f : Str} (h : f ∈ (s.run disk).1.keys) :
    f ∈ disk.keys ∨ f ∈ s.created := by
  match s with
  | .remove ps =>
    left
    simp only [Step.run] at h
    split at h
    · exact h
    · obtain ⟨p, hp, rfl⟩ := List.mem_map.1 h
      exact List.mem_map_of_mem (List.mem_filter.1 hp).1
  | .save g (.error e) => exact .inl h
  | .save g (.ok c) =>
    rcases (Dict.mem_keys_set _ _ _ _).1 h with h | h
    · exact .inr (by simp [Step.created, h])
    · exact .inl h
  | .build s t k (.error e) => exact .inl h
  | .build s t true (.ok c) =>
    rcases (Dict.mem_keys_set _ _ _ _).1 h with h | h
    · exact .inr (by simp [Step.created, h])
    · rcases (Dict.mem_keys_set _ _ _ _).1 h with h | h
      · exact .inr (by simp [Step.created, h])
      · exact .inl h
  | .build s t false (.ok c) =>
    rcases (Dict.mem_keys_set _ _ _ _).1 h with h | h
    · exact .inr (by simp [Step.created, h])
    · exact .inl h

theorem runSteps_keys {ss : List Step} {f : Str} (h : f ∈ (runSteps ss disk).1.keys) :
    f ∈ disk.keys ∨ ∃ s ∈ ss, f ∈ s.created := by
  induction ss generalizing disk with
  | nil => exact .inl h
  | cons s rest ih =>
    unfold runSteps at h
    split at h
    · rename_i d' hd
      rcases ih h with h | ⟨s', hs', h⟩
      · have := Step.run_keys s disk (f := f) (by rw [hd]; exact h)
        exact this.imp_right fun h => ⟨s, by simp, h⟩
      · exact .inr ⟨s', by simp [hs'], h⟩
    · rename_i d' err hd
      have := Step.run_keys s disk (f := f) (by rw [hd]; exact h)
      exact this.imp_right fun h => ⟨s, by simp, h⟩

theorem kinds_after {ps : List Str} {ss : List Step} (h : OneKind ps disk)
    (hs : ∀ s ∈ ss, ∀ f ∈ s.created, ∀ p ∈ ps, ∀ q ∈ ps, p <:+: f → q <:+: f → p = q) :
    OneKind ps (runSteps ss disk).1 := by
  intro f hf
  rcases runSteps_keys hf with hf | ⟨s, hm, hf⟩
  · exact h f hf
  · exact hs s hm f hf

theorem kind_append {a s : Str} {ps : List Str} (ha : '.' ∉ a) (hdot : ∀ p ∈ ps, p.head? = some '.')
    (h : ∀ p ∈ ps, ∀ q ∈ ps, p <:+: s → q <:+: s → p = q) :
    ∀ p ∈ ps, ∀ q ∈ ps, p <:+: a ++ s → q <:+: a ++ s → p = q := by
  intro p hp q hq h1 h2
  have key : ∀ x ∈ ps, x <:+: a ++ s → x <:+: s := by
    intro x hx hi
    match x, hdot x hx with
    | c :: t, hc =>
      cases hc
      exact infix_append ha hi
  exact h p hp q hq (key p hp h1) (key q hq h2)

theorem startFresh_disk : (startFresh v e name text disk).1 = (runSteps (prepare e name text v) disk).1 := by
  unfold startFresh
  split <;> (rename_i hd; rw [hd])

/-- A run with a name without dots keeps the directory in a state in which the next run can remove files. -/
theorem kinds_kept (hn : '.' ∉ name) (h : OneKind savedKinds disk) :
    OneKind savedKinds (startFresh v e name text disk).1 := by
  rw [startFresh_disk]
  have h1 : '.' ∉ chars% "reactants_indices_sparse_" ++ name := by
    intro h; rcases List.mem_append.1 h with h | h
    · revert h; decide +kernel
    · exact hn h
  have h2 : '.' ∉ chars% "loss_gain_" ++ name := by
    intro h; rcases List.mem_append.1 h with h | h
    · revert h; decide +kernel
    · exact hn h
  refine kinds_after h ?_
  cases v <;>
  · simp only [prepare, preparePython, prepareFortran, saveTables, List.cons_append, List.nil_append,
      List.forall_mem_cons, List.not_mem_nil, false_imp_iff, implies_true, and_true, Step.created, indexFile,
      speciesFile, equationsFile, radicalsFile]
    and_intros
    all_goals first
      | decide +kernel
      | exact kind_append hn (by decide +kernel) (by decide +kernel)
      | exact kind_append h1 (by decide +kernel) (by decide +kernel)
      | exact kind_append h2 (by decide +kernel) (by decide +kernel)

theorem kinds_source (hn : '.' ∉ name) (h : OneKind sourceKinds disk) :
    OneKind sourceKinds (startFresh v e name text disk).1 := by
  rw [startFresh_disk]
  have h1 : '.' ∉ chars% "reactants_indices_sparse_" ++ name := by
    intro h; rcases List.mem_append.1 h with h | h
    · revert h; decide +kernel
    · exact hn h
  have h2 : '.' ∉ chars% "loss_gain_" ++ name := by
    intro h; rcases List.mem_append.1 h with h | h
    · revert h; decide +kernel
    · exact hn h
  refine kinds_after h ?_
  cases v <;>
  · simp only [prepare, preparePython, prepareFortran, saveTables, List.cons_append, List.nil_append,
      List.forall_mem_cons, List.not_mem_nil, false_imp_iff, implies_true, and_true, Step.created, indexFile,
      speciesFile, equationsFile, radicalsFile]
    and_intros
    all_goals first
      | decide +kernel
      | exact kind_append hn (by decide +kernel) (by decide +kernel)
      | exact kind_append h1 (by decide +kernel) (by decide +kernel)
      | exact kind_append h2 (by decide +kernel) (by decide +kernel)

theorem kinds_runs {runs : List (Env × Str × Str)} (hn : ∀ r ∈ runs, '.' ∉ r.2.1) (h : OneKind savedKinds disk) :
    OneKind savedKinds (runs.foldl (fun d r => (startFresh v r.1 r.2.1 r.2.2 d).1) disk) := by
  induction runs generalizing disk with
  | nil => exact h
  | cons r rest ih =>
    rw [List.foldl_cons]
    exact ih (fun r hr => hn r (by simp [hr])) (kinds_kept (hn r (by simp)) h)

theorem kinds_empty (ps : List Str) : OneKind ps [] := fun f hf => by cases hf

/-- The step raises no exception. -/
def Step.Fine : Step → Prop
  | .remove _ => False
  | .save _ c => ∃ x, c = .ok x
  | .build _ _ _ c => ∃ x, c = .ok x

theorem Step.Fine.run {s : Step} (h : s.Fine) (disk : Disk) : (s.run disk).2 = none := by
  match s, h with
  | .save f _, ⟨x, rfl⟩ => rfl
  | .build f g k _, ⟨x, rfl⟩ => rfl

theorem runSteps_fine {ss : List Step} (h : ∀ s ∈ ss, s.Fine) (disk : Disk) : ∃ d, runSteps ss disk = (d, none) := by
  induction ss generalizing disk with
  | nil => exact ⟨_, rfl⟩
  | cons s rest ih =>
    obtain ⟨d, hd⟩ := ih (fun s hs => h s (by simp [hs])) (s.run disk).1
    refine ⟨d, ?_⟩
    have : s.run disk = ((s.run disk).1, none) := Prod.ext rfl ((h s (by simp)).run disk)
    unfold runSteps
    rw [this]
    exact hd

theorem fine_of_runSteps {ss : List Step} (h : runSteps ss disk = (d, none)) (hs : ∀ s ∈ ss, ∀ ps, s ≠ .remove ps) :
    ∀ s ∈ ss, s.Fine := by
  induction ss generalizing disk with
  | nil => intro s hs; cases hs
  | cons s rest ih =>
    obtain ⟨h1, h2⟩ := runSteps_cons h
    intro s' hs'
    rcases List.mem_cons.1 hs' with rfl | hs'
    · match s' with
      | .remove ps => exact absurd rfl (hs _ (by simp) ps)
      | .save f (.ok c) => exact ⟨c, rfl⟩
      | .save f (.error c) => cases h1
      | .build f g k (.ok c) => exact ⟨c, rfl⟩
      | .build f g k (.error c) => cases h1
    · exact ih h2 (fun s hs' => hs s (by simp [hs'])) s' hs'

/-- The patterns of the first step. -/
def kindsOf : Version → List Str
  | .python => savedKinds
  | .fortran => sourceKinds

theorem prepare_eq : prepare e name text v = .remove (kindsOf v) :: (prepare e name text v).drop 1 := by
  cases v <;> rfl

theorem prepare_rest : ∀ s ∈ (prepare e name text v).drop 1, ∀ ps, s ≠ .remove ps := by
  cases v <;>
  · simp only [prepare, preparePython, prepareFortran, saveTables, List.cons_append, List.nil_append,
      List.drop_succ_cons, List.drop_zero, List.forall_mem_cons, List.not_mem_nil, false_imp_iff, implies_true,
      and_true]
    and_intros
    all_goals (intro ps h; cases h)

/-- Where files can be removed, a preparing run raises an exception only while parsing or generating. -/
theorem prepare_ok_iff (hk : OneKind (kindsOf v) disk) :
    (∃ d, runSteps (prepare e name text v) disk = (d, none)) ↔ ∀ s ∈ (prepare e name text v).drop 1, s.Fine := by
  have hrm := kinds_ok (ps := kindsOf v) (by cases v <;> decide +kernel) hk
  constructor
  · rintro ⟨d, hd⟩
    rw [prepare_eq] at hd
    exact fine_of_runSteps (runSteps_cons hd).2 prepare_rest
  · intro h
    obtain ⟨d, hd⟩ := runSteps_fine h (disk.filter (fun p => !hits (kindsOf v) p.1))
    refine ⟨d, ?_⟩
    rw [prepare_eq]
    unfold runSteps
    rw [hrm]
    exact hd

/-- C75: a preparing run that succeeds in one directory succeeds in every directory whose files can be removed. -/
theorem C75_anywhere {disk' : Disk} {s : Session} (hc : v = .fortran → ∀ x, e.compiles x = true)
    (hk' : OneKind (kindsOf v) disk') (h : (startFresh v e name text disk).2 = .ok s) :
    (startFresh v e name text disk').2 = .ok s := by
  obtain ⟨hr, m, hm, hs⟩ := startFresh_ok (Prod.ext rfl h : startFresh v e name text disk = (_, .ok s))
  have hf : ∀ s ∈ (prepare e name text v).drop 1, s.Fine := by
    rw [prepare_eq] at hr
    exact fine_of_runSteps (runSteps_cons hr).2 prepare_rest
  obtain ⟨d', hd'⟩ := (prepare_ok_iff hk').2 hf
  have hex : ∃ s', startFresh v e name text disk' = (d', .ok s') := by
    unfold startFresh
    rw [hd']
    dsimp only
    rw [hm]
    dsimp only
    match v with
    | .python =>
      obtain ⟨P, J, -, -, e1⟩ := python_session hd' hm
      exact ⟨_, by rw [e1]⟩
    | .fortran =>
      obtain ⟨P, J, -, -, e1⟩ := fortran_session hd' hm (hc rfl)
      exact ⟨_, by rw [e1]⟩
  obtain ⟨s', hs'⟩ := hex
  rw [hs', C75_own hc (Prod.ext rfl h : startFresh v e name text disk = (_, .ok s)) hs']

/-- **C75**, Python version: after any series of runs whose names have no dots, starting from the saved files of a
mechanism simulates what the last run simulated, which was for that mechanism. -/
theorem C75_history {runs : List (Env × Str × Str)} (hn : ∀ r ∈ runs, '.' ∉ r.2.1) {name : Str} {s : Session}
    (h : startSaved .python name (afterRuns .python runs) = .ok s) :
    ∃ before e text, runs = before ++ [(e, name, text)] ∧
      (startFresh .python e name text (afterRuns .python before)).2 = .ok s := by
  rcases List.eq_nil_or_concat runs with rfl | ⟨before, ⟨e, name', text⟩, rfl⟩
  · cases h
  · rw [List.concat_eq_append] at h hn ⊢
    unfold afterRuns at h
    rw [List.foldl_append, List.foldl_cons, List.foldl_nil] at h
    have hk := kinds_runs (v := .python) (runs := before) (fun r hr => hn r (by simp [hr])) (kinds_empty savedKinds)
    obtain ⟨rfl, hr⟩ := C75_last (e := e) (text := text) hk rfl h
    exact ⟨before, e, text, rfl, hr⟩

/-- The full statement for the Python version. -/
theorem C75_partial {runs : List (Env × Str × Str)} (hn : ∀ r ∈ runs, '.' ∉ r.2.1) {name : Str} {s : Session}
    (h : startSaved .python name (afterRuns .python runs) = .ok s) :
    ∃ e text, (e, name, text) ∈ runs ∧ (startFresh .python e name text []).2 = .ok s := by
  obtain ⟨before, e, text, rfl, hs⟩ := C75_history hn h
  exact ⟨e, text, by simp, C75_anywhere (by rintro ⟨⟩) (kinds_empty _) hs⟩

/-! ### The Fortran version -/

theorem session_modules {n i sp q} {s : Session} (h : session v n i sp q disk = .ok s) :
    s.index = i ∧ s.species = sp ∧ s.equations = q ∧ (readFile disk (radicalsFile n) >>= Content.asIndices) = .ok s.radicals ∧
      ∀ n' i' sp' q' r', disk.get? (radicalsFile n') = some (.indices r') →
        session v n' i' sp' q' disk = .ok ⟨i', sp', q', r', s.files, s.jacobian⟩ := by
  unfold session at h
  obtain ⟨c0, r0, h⟩ := bind_ok'' h
  obtain ⟨x0, a0, h⟩ := bind_ok'' h
  obtain ⟨c1, r1, h⟩ := bind_ok'' h
  obtain ⟨x1, a1, h⟩ := bind_ok'' h
  obtain ⟨c2, r2, h⟩ := bind_ok'' h
  obtain ⟨x2, a2, h⟩ := bind_ok'' h
  obtain ⟨c3, r3, h⟩ := bind_ok'' h
  obtain ⟨x3, a3, h⟩ := bind_ok'' h
  obtain ⟨c4, r4, h⟩ := bind_ok'' h
  obtain ⟨x4, a4, h⟩ := bind_ok'' h
  cases h
  refine ⟨rfl, rfl, rfl, ?_, fun n' i' sp' q' r' hr => ?_⟩
  · rw [r0]; exact a0
  · exact session_eq hr (readFile_ok r1) (readFile_ok r2) (readFile_ok r3) (readFile_ok r4) a1 a2 a3 a4

theorem hits_false {ps : List Str} {a s : Str} (ha : '.' ∉ a) (hdot : ∀ p ∈ ps, p.head? = some '.')
    (h : hits ps s = false) : hits ps (a ++ s) = false := by
  unfold hits at h ⊢
  rw [List.any_eq_false] at h ⊢
  intro p hp
  have := h p hp
  rw [decide_eq_true_iff] at this ⊢
  intro hi
  match p, hdot p hp with
  | c :: t, hc =>
    cases hc
    exact this (infix_append ha hi)

/-- The Fortran version never removes saved tables: those of other mechanisms stay. -/
theorem tables_kept {other suffix : Str} (ho : '.' ∉ other) (hne : other ≠ name)
    (hs : suffix = chars% "_species_dict2array.pickle" ∨ suffix = chars% "_species_dict.pickle" ∨
      suffix = chars% "_equations.pickle" ∨ suffix = chars% "_RO2_indices.npy") :
    (startFresh .fortran e name text disk).1.get? (other ++ suffix) = disk.get? (other ++ suffix) := by
  rw [startFresh_disk]
  refine runSteps_untouched ?_ disk
  have hh : ∀ t : Str, other ++ t ≠ name ++ t := fun t hc => hne (List.append_cancel_right hc)
  rcases hs with rfl | rfl | rfl | rfl <;>
  · simp only [prepare, prepareFortran, saveTables, List.cons_append, List.nil_append,
      List.forall_mem_cons, List.not_mem_nil, false_imp_iff, implies_true, and_true, Step.Touches, not_or,
      indexFile, speciesFile, equationsFile, radicalsFile]
    and_intros
    all_goals first
      | exact hh _
      | names
      | (rw [Bool.not_eq_true]; exact hits_false ho (by decide +kernel) (by decide +kernel))

/-- **C75**, Fortran version: preparing another mechanism leaves the saved tables of the first one and replaces the
routines. A restart of the first one then runs on its own tables with the routines of the other one. -/
theorem C75_mixed {e' : Env} {name' text' : Str} {d' : Disk} {s s' : Session} (hn : '.' ∉ name) (hne : name ≠ name')
    (h : startFresh .fortran e name text disk = (d, .ok s))
    (h' : startFresh .fortran e' name' text' d = (d', .ok s')) :
    startSaved .fortran name d' = .ok { s with files := s'.files, jacobian := s'.jacobian } := by
  obtain ⟨hr, m, hm, hs⟩ := startFresh_ok h
  obtain ⟨m', hm', h1, h2, h3, h4⟩ := tables_saved hr
  obtain rfl : m = m' := by rw [hm] at hm'; injection hm'
  obtain ⟨-, m', hm', hs'⟩ := startFresh_ok h'
  have hd : d' = (startFresh .fortran e' name' text' d).1 := by rw [h']
  have k1 := tables_kept (e := e') (text := text') (disk := d) hn hne (.inl rfl)
  have k2 := tables_kept (e := e') (text := text') (disk := d) hn hne (.inr (.inl rfl))
  have k3 := tables_kept (e := e') (text := text') (disk := d) hn hne (.inr (.inr (.inl rfl)))
  have k4 := tables_kept (e := e') (text := text') (disk := d) hn hne (.inr (.inr (.inr rfl)))
  rw [← hd] at k1 k2 k3 k4
  rw [startSaved_eq (k1.trans h1) (k2.trans h2) (k3.trans h3), (session_modules hs').2.2.2.2 _ _ _ _ _ (k4.trans h4)]
  obtain ⟨e1, e2, e3, e4, -⟩ := session_modules hs
  rw [readFile_some h4] at e4
  have e5 : ro2Indices m.tables.index = s.radicals := by injection e4
  rw [e5, ← e1, ← e2, ← e3]

/-- **C75**, Fortran version: the exit status of the compiler is not looked at. If it fails for a mechanism after
another one has been prepared, the tables of the new mechanism are simulated with the routines of the old one. -/
theorem C75_stale {e' : Env} {name' text' : Str} {d' : Disk} {s : Session}
    (h : (startFresh .fortran e name text disk) = (d, .ok s)) (hc : ∀ x, e'.compiles x = false)
    (h' : runSteps (prepare e' name' text' .fortran) d = (d', none)) :
    ∃ m', extractMechanism text' = .ok m' ∧ startFresh .fortran e' name' text' d =
      (d', .ok ⟨m'.tables.index, m'.tables.species, m'.equations, ro2Indices m'.tables.index, s.files, s.jacobian⟩) := by
  obtain ⟨m', hm', -, -, -, h4⟩ := tables_saved h'
  obtain ⟨-, m, hm, hs⟩ := startFresh_ok h
  refine ⟨m', hm', ?_⟩
  have k1 : d'.get? (ratesModule .fortran) = d.get? (ratesModule .fortran) := by
    obtain ⟨-, -, -, k⟩ := built_at (i := 5) h' rfl (by untouched)
    exact k (hc _) (by decide +kernel) (by untouched)
  have k2 : d'.get? (reactantsModule .fortran) = d.get? (reactantsModule .fortran) := by
    obtain ⟨-, -, -, k⟩ := built_at (i := 8) h' rfl (by untouched)
    exact k (hc _) (by decide +kernel) (by untouched)
  have k3 : d'.get? (lossGainModule .fortran) = d.get? (lossGainModule .fortran) := by
    obtain ⟨-, -, -, k⟩ := built_at (i := 9) h' rfl (by untouched)
    exact k (hc _) (by decide +kernel) (by untouched)
  have k4 : d'.get? (jacobianModule .fortran) = d.get? (jacobianModule .fortran) := by
    obtain ⟨-, -, -, k⟩ := built_at (i := 11) h' rfl (by untouched)
    exact k (hc _) (by decide +kernel) (by untouched)
  unfold startFresh
  rw [h']
  dsimp only
  rw [hm']
  dsimp only
  unfold session at hs
  obtain ⟨c0, r0, hs⟩ := bind_ok'' hs
  obtain ⟨x0, a0, hs⟩ := bind_ok'' hs
  obtain ⟨c1, r1, hs⟩ := bind_ok'' hs
  obtain ⟨x1, a1, hs⟩ := bind_ok'' hs
  obtain ⟨c2, r2, hs⟩ := bind_ok'' hs
  obtain ⟨x2, a2, hs⟩ := bind_ok'' hs
  obtain ⟨c3, r3, hs⟩ := bind_ok'' hs
  obtain ⟨x3, a3, hs⟩ := bind_ok'' hs
  obtain ⟨c4, r4, hs⟩ := bind_ok'' hs
  obtain ⟨x4, a4, hs⟩ := bind_ok'' hs
  cases hs
  rw [session_eq h4 (k1.trans (readFile_ok r1)) (k2.trans (readFile_ok r2)) (k3.trans (readFile_ok r3))
    (k4.trans (readFile_ok r4)) a1 a2 a3 a4]

/-- A preparing run works if the mechanism can be parsed and the routines can be written. -/
theorem C75_prepares_python {m : Mechanism} {P : List (Line ℕ)} {J : List (Line (ℕ × ℕ))}
    (hk : OneKind savedKinds disk) (hm : extractMechanism text = .ok m)
    (hP : writeReactantsPy m.tables.gen m.equations.toNat = .ok P) (hJ : writeJacobianPy m.tables.gen e.ord = .ok J) :
    ∃ d s, startFresh .python e name text disk = (d, .ok s) := by
  have hf : ∀ s ∈ (prepare e name text .python).drop 1, s.Fine := by
    simp only [prepare, preparePython, saveTables, List.cons_append, List.nil_append,
      List.drop_succ_cons, List.drop_zero, List.forall_mem_cons, List.not_mem_nil, false_imp_iff, implies_true,
      and_true, generated, hm, Step.Fine, Except.map, Except.bind, hP, hJ]
    and_intros
    all_goals exact ⟨_, rfl⟩
  obtain ⟨d, hd⟩ := (prepare_ok_iff (v := .python) hk).2 hf
  obtain ⟨P', J', -, -, e1⟩ := python_session hd hm
  obtain ⟨s, e2⟩ : ∃ s, session .python name m.tables.index m.tables.species m.equations d = .ok s := ⟨_, e1⟩
  refine ⟨d, s, ?_⟩
  unfold startFresh
  rw [hd]
  dsimp only
  rw [hm]
  dsimp only
  rw [e2]

theorem C75_prepares_fortran {m : Mechanism} {P : List (Line ℕ)} {J : List (Line (ℕ × ℕ))}
    (hk : OneKind sourceKinds disk) (hc : ∀ x, e.compiles x = true) (hm : extractMechanism text = .ok m)
    (hP : writeReactantsF m.tables.gen m.equations.toNat e.cores = .ok P)
    (hJ : writeJacobianF m.tables.gen e.ord m.tables.species.length e.cores = .ok J) :
    ∃ d s, startFresh .fortran e name text disk = (d, .ok s) := by
  have hf : ∀ s ∈ (prepare e name text .fortran).drop 1, s.Fine := by
    simp only [prepare, prepareFortran, saveTables, List.cons_append, List.nil_append,
      List.drop_succ_cons, List.drop_zero, List.forall_mem_cons, List.not_mem_nil, false_imp_iff, implies_true,
      and_true, generated, hm, Step.Fine, Except.map, Except.bind, hP, hJ]
    and_intros
    all_goals exact ⟨_, rfl⟩
  obtain ⟨d, hd⟩ := (prepare_ok_iff (v := .fortran) hk).2 hf
  obtain ⟨P', J', -, -, e1⟩ := fortran_session hd hm hc
  obtain ⟨s, e2⟩ : ∃ s, session .fortran name m.tables.index m.tables.species m.equations d = .ok s := ⟨_, e1⟩
  refine ⟨d, s, ?_⟩
  unfold startFresh
  rw [hd]
  dsimp only
  rw [hm]
  dsimp only
  rw [e2]

end

/-! ### The aerosol versions -/

theorem mapM_readFile {disk : Disk} {fs : List Str} {f : Str} (hf : f ∈ fs) (h : disk.get? f = none) :
    fs.mapM (readFile disk) = .error .noFile := by
  induction fs with
  | nil => cases hf
  | cons g rest ih =>
    rw [List.mapM_cons]
    cases hg : disk.get? g with
    | none => rw [readFile_none hg]; rfl
    | some c =>
      rcases List.mem_cons.1 hf with rfl | hf
      · rw [h] at hg; cases hg
      · rw [readFile_some hg, ih hf]; rfl

theorem remove_gone {disk : Disk} {ps : List Str} {n : Str} (h : ((Step.remove ps).run disk).2 = none)
    (hh : hits ps n = true) : ((Step.remove ps).run disk).1.get? n = none := by
  simp only [Step.run] at h ⊢
  split at h
  · cases h
  · rename_i h5
    rw [if_neg h5]
    exact removed hh

/-- **C75**, aerosol versions: after a run that prepared its files, no mechanism can be started from saved files,
whatever the directory held before and whatever is written. The number of reactions is loaded by a restart, but removed
and not saved by the preparing run. -/
theorem C75_aerosol (v v' : AerosolVersion) (name name' : Str) (c : Str → Except PyErr Content) (compiles : Str → Bool)
    {disk d : Disk} (h : runSteps (prepareAerosol name c compiles v) disk = (d, none)) :
    loadAerosol v' name' d = .error .noFile := by
  refine mapM_readFile (f := equationsFile name') (by cases v' <;> simp) ?_
  have key : ∀ (ps : List Str) (rest : List Step), prepareAerosol name c compiles v =
      .remove [chars% ".f90"] :: .remove ps :: rest → chars% ".pickle" ∈ ps →
      (∀ s ∈ rest, ¬ s.Touches (equationsFile name')) → d.get? (equationsFile name') = none := by
    intro ps rest he hp hrest
    rw [he] at h
    obtain ⟨-, h1⟩ := runSteps_cons h
    obtain ⟨h2, h3⟩ := runSteps_cons h1
    have h4 := runSteps_untouched hrest (Step.run (Step.run disk (.remove [chars% ".f90"])).1 (.remove ps)).1
    rw [h3] at h4
    rw [h4]
    exact remove_gone h2 (hits_append ⟨_, hp, by decide +kernel⟩)
  cases v with
  | mechanism =>
    refine key _ ((prepareAerosol name c compiles .mechanism).drop 2) rfl (by decide +kernel) ?_
    simp only [prepareAerosol, List.drop_succ_cons, List.drop_zero, List.map_cons, List.map_nil, List.cons_append, List.nil_append,
      List.forall_mem_cons, List.not_mem_nil,
      false_imp_iff, implies_true, and_true, Step.Touches, not_or, indexFile, speciesFile, equationsFile, radicalsFile]
    and_intros
    all_goals names
  | fixedYield =>
    refine key _ ((prepareAerosol name c compiles .fixedYield).drop 2) rfl (by decide +kernel) ?_
    simp only [prepareAerosol, List.drop_succ_cons, List.drop_zero, List.map_cons, List.map_nil, List.cons_append, List.nil_append,
      List.forall_mem_cons, List.not_mem_nil,
      false_imp_iff, implies_true, and_true, Step.Touches, not_or, indexFile, speciesFile, equationsFile]
    and_intros
    all_goals names

theorem mapM_readFile_ok {disk : Disk} {fs : List Str} {cs : List Content}
    (h : List.Forall₂ (fun f c => disk.get? f = some c) fs cs) : fs.mapM (readFile disk) = .ok cs := by
  induction h with
  | nil => rfl
  | cons h _ ih => rw [List.mapM_cons, readFile_some h, ih]; rfl

macro "unmoved" : tactic => `(tactic| (
  simp only [prepareAerosol, List.map_cons, List.map_nil, List.cons_append, List.nil_append,
    List.drop_succ_cons, List.drop_zero, List.forall_mem_cons, List.not_mem_nil, false_imp_iff, implies_true,
    and_true, Step.Touches, not_or, indexFile, speciesFile, radicalsFile]
  and_intros
  all_goals names))

/-- **C75**, aerosol versions: the number of reactions is the only thing missing. With this file put into the directory by
hand, the run that starts from saved files loads what the preparing run of this version wrote, in the order of the names it is
assigned to. -/
theorem C75_aerosol_repaired (v : AerosolVersion) (name : Str) (c : Str → Except PyErr Content) (compiles : Str → Bool)
    {disk d : Disk} (h : runSteps (prepareAerosol name c compiles v) disk = (d, none)) (count : Content) :
    ∃ index species objects smiles gas,
      c (name ++ chars% "_species_dict2array.pickle") = .ok index ∧ c (name ++ chars% "_species_dict.pickle") = .ok species ∧
      c (name ++ chars% "_Pybel_object_dict.pickle") = .ok objects ∧ c (name ++ chars% "_SMILES_dict.pickle") = .ok smiles ∧
      c (name ++ chars% "_num_species_gas.pickle") = .ok gas ∧
      match v with
      | .mechanism => loadAerosol v name (d.set (name ++ chars% "_equations.pickle") count) =
          .ok [index, species, count, objects, smiles, gas]
      | .fixedYield => ∃ amounts, c (name ++ chars% "concentration_dict.pickle") = .ok amounts ∧
          loadAerosol v name (d.set (name ++ chars% "_equations.pickle") count) =
            .ok [index, species, count, objects, smiles, gas, amounts] := by
  cases v with
  | mechanism =>
    obtain ⟨c1, e1, h1⟩ := saved_at (i := 3) h rfl (by unmoved)
    obtain ⟨c2, e2, h2⟩ := saved_at (i := 4) h rfl (by unmoved)
    obtain ⟨c3, e3, h3⟩ := saved_at (i := 5) h rfl (by unmoved)
    obtain ⟨c4, e4, h4⟩ := saved_at (i := 6) h rfl (by unmoved)
    obtain ⟨c5, e5, h5⟩ := saved_at (i := 7) h rfl (by unmoved)
    refine ⟨c1, c2, c3, c4, c5, e1, e2, e3, e4, e5, ?_⟩
    dsimp only
    unfold loadAerosol
    refine mapM_readFile_ok (.cons ?_ (.cons ?_ (.cons (Dict.get?_set_self _ _ _) (.cons ?_ (.cons ?_ (.cons ?_ .nil))))))
    · exact (Dict.get?_set_ne _ _ (by unfold indexFile; names)).trans h1
    · exact (Dict.get?_set_ne _ _ (by unfold speciesFile; names)).trans h2
    · exact (Dict.get?_set_ne _ _ (by names)).trans h3
    · exact (Dict.get?_set_ne _ _ (by names)).trans h4
    · exact (Dict.get?_set_ne _ _ (by names)).trans h5
  | fixedYield =>
    obtain ⟨c1, e1, h1⟩ := saved_at (i := 2) h rfl (by unmoved)
    obtain ⟨c2, e2, h2⟩ := saved_at (i := 3) h rfl (by unmoved)
    obtain ⟨c3, e3, h3⟩ := saved_at (i := 4) h rfl (by unmoved)
    obtain ⟨c4, e4, h4⟩ := saved_at (i := 5) h rfl (by unmoved)
    obtain ⟨c5, e5, h5⟩ := saved_at (i := 6) h rfl (by unmoved)
    obtain ⟨c6, e6, h6⟩ := saved_at (i := 7) h rfl (by unmoved)
    refine ⟨c1, c2, c3, c4, c5, e1, e2, e3, e4, e5, c6, e6, ?_⟩
    unfold loadAerosol
    refine mapM_readFile_ok (.cons ?_ (.cons ?_ (.cons (Dict.get?_set_self _ _ _) (.cons ?_ (.cons ?_ (.cons ?_ (.cons ?_ .nil)))))))
    · exact (Dict.get?_set_ne _ _ (by unfold indexFile; names)).trans h1
    · exact (Dict.get?_set_ne _ _ (by unfold speciesFile; names)).trans h2
    · exact (Dict.get?_set_ne _ _ (by names)).trans h3
    · exact (Dict.get?_set_ne _ _ (by names)).trans h4
    · exact (Dict.get?_set_ne _ _ (by names)).trans h5
    · exact (Dict.get?_set_ne _ _ (by names)).trans h6

/-- The hypothesis is met: a preparing run of each version in an empty directory. -/
example (v : AerosolVersion) : ∃ d, runSteps (prepareAerosol (chars% "a") (fun f => .ok (.text f)) (fun _ => true) v) [] =
    (d, none) := by
  cases v <;> exact ⟨_, rfl⟩

/-! ### A restart with the routines of another mechanism -/

def plainEnv : Env := ⟨shortNum, id, [], none, fun _ => true⟩

def singleText : Str := "{1.}NO2=NO+O:J(4);".toList

def singleReactions : List RawEqn :=
  [{ reactants := [(1, "NO2".toList)], products := [(1, "NO".toList), (1, "O".toList)], rate := "J(4)".toList }]

theorem single_parses : extractMechanism singleText = .ok { tables := build singleReactions, equations := 1 } := by
  rw [extract_ok_iff]
  refine ⟨"1.".toList, 1, singleReactions, ?_, by decide +kernel, ?_, rfl⟩
  · rw [labels_eq _ (not_mem_removeChar _ _)]; decide +kernel
  · rw [bodies_eq _ (not_mem_removeChar _ _)]; decide +kernel

theorem ok_of_isSome {α : Type} {x : Except PyErr α} (h : x.toOption.isSome = true) : ∃ a, x = .ok a := by
  match x, h with
  | .ok a, _ => exact ⟨a, rfl⟩

theorem single_prepared (name : Str) (disk : Disk) (hk : OneKind sourceKinds disk) :
    ∃ d s, startFresh .fortran plainEnv name singleText disk = (d, .ok s) := by
  obtain ⟨P, hP⟩ := ok_of_isSome (x := writeReactantsF (build singleReactions).gen 1 none) (by decide +kernel)
  obtain ⟨J, hJ⟩ := ok_of_isSome (x := writeJacobianF (build singleReactions).gen id
    (build singleReactions).species.length none) (by decide +kernel)
  exact C75_prepares_fortran hk (fun _ => rfl) single_parses hP hJ

theorem radical_prepared (name : Str) (disk : Disk) (hk : OneKind sourceKinds disk) :
    ∃ d s, startFresh .fortran plainEnv name radicalText disk = (d, .ok s) := by
  obtain ⟨P, hP⟩ := ok_of_isSome (x := writeReactantsF (build radicalReactions).gen 2 none) (by decide +kernel)
  obtain ⟨J, hJ⟩ := ok_of_isSome (x := writeJacobianF (build radicalReactions).gen id
    (build radicalReactions).species.length none) (by decide +kernel)
  exact C75_prepares_fortran hk (fun _ => rfl) radical_parses hP hJ

/-- **C75** fails for the Fortran version: after preparing one mechanism and then another, a restart of the first runs
with the routines of the second. -/
theorem C75_false : ¬ C75_Statement := by
  intro H
  obtain ⟨d, s, h⟩ := radical_prepared (chars% "a") [] (kinds_empty _)
  have hk : OneKind sourceKinds d := by
    have := kinds_source (v := .fortran) (e := plainEnv) (text := radicalText) (name := chars% "a") (by decide)
      (kinds_empty sourceKinds)
    rw [h] at this
    exact this
  obtain ⟨d', s', h'⟩ := single_prepared (chars% "b") d hk
  have hmix := C75_mixed (by decide) (by decide) h h'
  have hdisk : afterRuns .fortran [(plainEnv, chars% "a", radicalText), (plainEnv, chars% "b", singleText)] = d' := by
    unfold afterRuns
    simp only [List.foldl_cons, List.foldl_nil, h, h']
  obtain ⟨e, text, hmem, hs⟩ := H .fortran [(plainEnv, chars% "a", radicalText), (plainEnv, chars% "b", singleText)]
    (by
      intro r hr
      simp only [List.mem_cons, List.not_mem_nil, or_false] at hr
      rcases hr with rfl | rfl
      · exact ⟨by decide, fun _ => rfl⟩
      · exact ⟨by decide, fun _ => rfl⟩) (chars% "a") _ (by rw [hdisk]; exact hmix)
  simp only [List.mem_cons, List.not_mem_nil, or_false, Prod.mk.injEq] at hmem
  rcases hmem with ⟨rfl, -, rfl⟩ | ⟨-, hne, -⟩
  · rw [h] at hs
    have hs2 : s = { s with files := s'.files, jacobian := s'.jacobian } := by injection hs
    have hl : s.files.lossGain = s'.files.lossGain := congrArg (fun x => x.files.lossGain) hs2
    obtain ⟨hr, m, hm, e1⟩ := startFresh_ok h
    obtain ⟨hr', m', hm', e2⟩ := startFresh_ok h'
    rw [radical_parses] at hm
    rw [single_parses] at hm'
    cases hm
    cases hm'
    obtain ⟨P, J, -, -, f1⟩ := fortran_session hr radical_parses (fun _ => rfl)
    obtain ⟨P', J', -, -, f2⟩ := fortran_session hr' single_parses (fun _ => rfl)
    rw [e1] at f1
    rw [e2] at f2
    injection f1 with f1
    injection f2 with f2
    rw [f1, f2] at hl
    dsimp only at hl
    revert hl
    decide +kernel
  · revert hne; decide

/-- The hypotheses of `C75_restart` and `C75_mixed` are met. -/
example : ∃ d s d' s', startFresh .fortran plainEnv (chars% "a") radicalText [] = (d, .ok s) ∧
    startFresh .fortran plainEnv (chars% "b") singleText d = (d', .ok s') ∧ startSaved .fortran (chars% "b") d' = .ok s' := by
  obtain ⟨d, s, h⟩ := radical_prepared (chars% "a") [] (kinds_empty _)
  have hk : OneKind sourceKinds d := by
    have := kinds_source (v := .fortran) (e := plainEnv) (text := radicalText) (name := chars% "a") (by decide)
      (kinds_empty sourceKinds)
    rw [h] at this
    exact this
  obtain ⟨d', s', h'⟩ := single_prepared (chars% "b") d hk
  exact ⟨d, s, d', s', h, h', C75_restart h'⟩

/-- The hypotheses of the statements about the Python version are met: two runs, then a restart of the second one. -/
example : ∃ d s d' s', startFresh .python plainEnv (chars% "a") radicalText [] = (d, .ok s) ∧
    OneKind savedKinds d ∧ startFresh .python plainEnv (chars% "b") singleText d = (d', .ok s') ∧
    startSaved .python (chars% "b") d' = .ok s' ∧ ∀ s'', startSaved .python (chars% "a") d' ≠ .ok s'' := by
  obtain ⟨P, hP⟩ := ok_of_isSome (x := writeReactantsPy (build radicalReactions).gen 2) (by decide +kernel)
  obtain ⟨J, hJ⟩ := ok_of_isSome (x := writeJacobianPy (build radicalReactions).gen id) (by decide +kernel)
  obtain ⟨d, s, h⟩ := C75_prepares_python (e := plainEnv) (name := chars% "a") (kinds_empty _) radical_parses hP hJ
  have hk : OneKind savedKinds d := by
    have := kinds_kept (v := .python) (e := plainEnv) (text := radicalText) (name := chars% "a") (by decide)
      (kinds_empty savedKinds)
    rw [h] at this
    exact this
  obtain ⟨P, hP⟩ := ok_of_isSome (x := writeReactantsPy (build singleReactions).gen 1) (by decide +kernel)
  obtain ⟨J, hJ⟩ := ok_of_isSome (x := writeJacobianPy (build singleReactions).gen id) (by decide +kernel)
  obtain ⟨d', s', h'⟩ := C75_prepares_python (e := plainEnv) (name := chars% "b") hk single_parses hP hJ
  exact ⟨d, s, d', s', h, hk, h', C75_restart h', fun s'' hs => absurd (C75_last hk h' hs).1 (by decide)⟩

/-- A run of an aerosol version that writes all its files. -/
example : ∃ d, runSteps (prepareAerosol (chars% "a") (fun _ => .ok .other) (fun _ => true) .mechanism) [] = (d, none) ∧
    d.length = 17 := ⟨_, rfl, by decide +kernel⟩

end Files
end PyBox
