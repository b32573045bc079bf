import Verif.Aerosol.PartCall
import Verif.Aerosol.PartRoutine

/-!
# The text of the partitioning routine (C71)

`Partitioning.f90` (`/repo/Parse_eqn_file.py` 3418–3650) is read as Fortran with an OpenMP loop and called with the
arguments of `/repo/Aerosol/f2py/ODE_solver.py` 131–134, in any order of execution of the statements of the loop.
Every statement is executed as a whole.
-/

namespace PyBox

open Aerosol

namespace Spec

/-- Read the subroutine `dydt_partition` from a file and call it.  `strict`: an operation without a value (division
by zero, a power of a number that is not positive) is an error.  `g` and `gt` are the contents of uninitialised
memory, `thr` gives the thread of every pass, `tr` the order of execution. -/
noncomputable def callPartition (strict : Prop) (file : Str) (g : Ft.Junk) (gt : ℕ → Ft.Junk) (thr : ℕ → ℕ)
    (tr : List Ft.Event) (args : List Ft.V) : Option (List Ft.V) :=
  (Ft.readRoutine "dydt_partition".toList file).bind (fun R => R.call strict g gt thr tr args)

/-- An array as Python sees it, indexed from 0. -/
def pyArray (n : ℕ) (f : ℕ → ℝ) : Ft.V := .arr ((List.range n).map f)

/-- What a call returns when the loop writes the particle entries in the order `ev`. -/
noncomputable def partResults (L : Aerosol.Layout) (P : PartInput) (ev : List Aerosol.Event) : List Ft.V :=
  [.real (totalSoaMass L P), pyArray L.numBins (fun b => waterActivity L P (b + 1)),
    pyArray L.numBins (fun b => sizeArray L P (b + 1)),
    pyArray (L.numSpecies + L.numBins * L.numCond) (partitionWith L P ev)]

/-- Statements of one pass of the loop. -/
def passLength (L : Aerosol.Layout) : ℕ := L.incl.length + 29

/-- `tr` is a possible order of execution of the statements of the loop. -/
def PossibleOrder (L : Aerosol.Layout) (thr : ℕ → ℕ) (tr : List Ft.Event) : Prop :=
  Ft.Interleaved (passLength L) 1 L.numBins thr tr

/-- The assignments to `index1`, `index2` and the slice of `dy_dt`, in the order of execution. -/
def indexOrder (L : Aerosol.Layout) (tr : List Ft.Event) : List Aerosol.Event := Ft.indexEvents L.incl.length tr

/-- Whenever a slice is written, `index1` and `index2` were last set for one and the same bin. -/
def OneBin (ev : List Aerosol.Event) : Prop :=
  ∀ pre b post, ev = pre ++ ⟨b, .writeSlice⟩ :: post → lastBin .setIndex1 pre = lastBin .setIndex2 pre

/-- Physically meaningful arguments. -/
structure Running (L : Aerosol.Layout) (P : PartInput) : Prop where
  bins : ∀ b < L.numBins, Physical L P b
  moles : ∀ b < L.numBins, 0 < (∑ j ∈ Finset.range L.numCond, conc L P b j) + P.ycore (b + 1) * P.coreDiss
  gas : 0 < P.rGas
  temp : 0 < P.temp

end Spec

open Spec

/-! ## Physical arguments have all values defined -/

theorem running_defined {L : Aerosol.Layout} {P : PartInput} (h : Running L P) {b : ℕ} (h1 : 1 ≤ b)
    (h2 : b ≤ L.numBins) : Ft.Defined L P b := by
  obtain ⟨b, rfl⟩ : ∃ c, b = c + 1 := ⟨b - 1, by omega⟩
  have hp := h.bins b (by omega)
  have hm := hp.binMass_pos
  have hv := hp.binVolume_pos
  have hs := hp.size_pos
  have hn := hp.number
  have hpi := fPi_pos
  have hT := h.temp
  have hR := h.gas
  have hd : 0 < density L P (b + 1) := by rw [density_eq]; positivity
  have hM : 0 < totalMass L P (b + 1) := by rw [totalMass_eq]; exact hm
  have hkn : ∀ i, 1 ≤ i → i ≤ L.numCond → 0 < knudsen L P (b + 1) i := by
    intro i hi1 hi2
    obtain ⟨j, rfl⟩ : ∃ c, i = c + 1 := ⟨i - 1, by omega⟩
    exact div_pos (hp.path j (by omega)) hs
  have hacc : ∀ i, 1 ≤ i → i ≤ L.numCond → 0 < P.alpha i ∧ P.alpha i ≤ 1 := by
    intro i hi1 hi2
    obtain ⟨j, rfl⟩ : ∃ c, i = c + 1 := ⟨i - 1, by omega⟩
    exact hp.acc j (by omega)
  have hinv : ∀ i, 1 ≤ i → i ≤ L.numCond → 0 < inverseKn L P (b + 1) i := fun i a c => by
    have := hkn i a c
    unfold inverseKn
    positivity
  refine ⟨?_, hp.na.ne', hM.ne', ?_, ?_, by positivity, by positivity, .inl (by positivity), hs.ne',
    fun i a c => (hkn i a c).ne', fun i a c => ?_, fun i a c => ?_, fun i a c => ?_, by positivity, by positivity⟩
  · rw [totalMoles_eq]
    exact (h.moles b (by omega)).ne'
  · intro i hi1 hi2
    unfold densityArray
    split
    · exact hp.coreRho.ne'
    · obtain ⟨j, rfl⟩ : ∃ c, i = c + 1 := ⟨i - 1, by omega⟩
      exact (hp.rho j (by omega)).ne'
  · rw [specific_volume]
    positivity
  · have := hinv i a c
    positivity
  · have := (hacc i a c).1
    positivity
  · have k1 := hkn i a c
    have k2 := hinv i a c
    obtain ⟨a1, a2⟩ := hacc i a c
    have k3 : 0 ≤ 1 - P.alpha i := by linarith
    unfold correction3 correction1 correction2
    positivity

/-! ## The call -/

section

variable {L : Aerosol.Layout} {P : PartInput} {strict : Prop} {date : Str} {thr : ℕ → ℕ} {tr : List Ft.Event}

theorem good_fits (hL : GoodLayout L) (hc : 1 ≤ L.numCond) :
    Ft.Fits L (L.numSpecies + L.numBins * L.numCond) ∧ 1 ≤ L.numSpecies := by
  refine ⟨⟨rfl, hc, hL.len.le, hL.valid⟩, ?_⟩
  have hne : L.incl ≠ [] := by
    intro h
    have := hL.len
    rw [h] at this
    simp at this
    omega
  obtain ⟨s, hs⟩ := List.exists_mem_of_ne_nil _ hne
  have := hL.valid s hs
  omega

theorem call_results (L : Aerosol.Layout) (P : PartInput) (ev : List Aerosol.Event) :
    [Ft.V.real (totalSoaMass L P), .arr (Ft.vec L.numBins (waterActivity L P)),
      .arr (Ft.vec L.numBins (sizeArray L P)),
      .arr (Ft.vec (L.numSpecies + L.numBins * L.numCond) (dyDtWith L P ev))] = partResults L P ev := rfl

open Classical in
/-- C71: a call of the generated text has exactly these outcomes.  If every slice is written with indices of one bin
it returns the four results of the model, whatever memory contains, whatever is passed for the arguments that are
never read and however the passes are distributed to threads and mixed; if not, the two sides of the assignment have
different lengths. -/
theorem C71_exact (hd : '\n' ∉ date) (hL : GoodLayout L) (hc : 1 ≤ L.numCond) (hs : strict → Running L P)
    (U : Ft.Unused L) (g : Ft.Junk) (gt : ℕ → Ft.Junk) (ho : PossibleOrder L thr tr) :
    callPartition strict (Ft.partText date L (L.numSpecies + L.numBins * L.numCond)) g gt thr tr
        (Ft.callArgs L (L.numSpecies + L.numBins * L.numCond) P U) =
      if OneBin (indexOrder L tr) then some (partResults L P (indexOrder L tr)) else none := by
  unfold callPartition
  rw [Ft.read_part hd, Option.bind_some]
  obtain ⟨F, h1⟩ := good_fits hL hc
  split
  · rename_i hp
    exact Ft.part_call F h1 (fun h b a c => running_defined (hs h) a c) U g gt ho hp
  · rename_i hp
    exact Ft.part_call_fails F (fun h b a c => running_defined (hs h) a c) U g gt ho hp

theorem synced_oneBin {ev : List Aerosol.Event} (h : Synced ev) : OneBin ev := by
  intro pre b post he
  obtain ⟨h1, h2⟩ := h pre b post he
  rw [h1, h2]

theorem possible_interleaving (ho : PossibleOrder L thr tr) : Interleaving L.numBins thr (indexOrder L tr) :=
  Ft.indexEvents_interleaving ho

theorem pyArray_congr {n : ℕ} {f f' : ℕ → ℝ} (h : ∀ i < n, f i = f' i) : pyArray n f = pyArray n f' := by
  unfold pyArray
  exact congrArg _ (List.map_congr_left (fun i hi => h i (List.mem_range.mp hi)))

theorem interleaving_writes {n : ℕ} {ev : List Aerosol.Event} (h : Interleaving n thr ev) (b : ℕ) :
    b ∈ writes ev ↔ 1 ≤ b ∧ b ≤ n := by
  unfold writes
  rw [List.mem_map]
  constructor
  · rintro ⟨e, he, rfl⟩
    obtain ⟨he, -⟩ := List.mem_filter.mp he
    exact (mem_serialEvents _ _).mp ((interleaving_mem h e).mp he)
  · rintro ⟨h1, h2⟩
    refine ⟨⟨b, .writeSlice⟩, List.mem_filter.mpr ⟨(interleaving_mem h _).mpr ((mem_serialEvents _ _).mpr ⟨h1, h2⟩), by simp⟩, rfl⟩

/-- C71: several threads give the same results if no pass sets the indices between another pass setting and using
them. -/
theorem C71_synced (hd : '\n' ∉ date) (hL : GoodLayout L) (hc : 1 ≤ L.numCond) (hs : strict → Running L P)
    (U : Ft.Unused L) (g : Ft.Junk) (gt : ℕ → Ft.Junk) (ho : PossibleOrder L thr tr) (hy : Synced (indexOrder L tr)) :
    callPartition strict (Ft.partText date L (L.numSpecies + L.numBins * L.numCond)) g gt thr tr
        (Ft.callArgs L (L.numSpecies + L.numBins * L.numCond) P U) =
      some [.real (totalSoaMass L P), pyArray L.numBins (fun b => waterActivity L P (b + 1)),
        pyArray L.numBins (fun b => sizeArray L P (b + 1)),
        pyArray (L.numSpecies + L.numBins * L.numCond) (partition L P)] := by
  rw [C71_exact hd hL hc hs U g gt ho, if_pos (synced_oneBin hy)]
  unfold partResults
  rw [pyArray_congr (C51_synced_partial L P _ hy (interleaving_writes (possible_interleaving ho)))]

/-- C71: with one thread a call returns the SOA mass, the water activities, the sizes and the rates of change of the
model. -/
theorem C71_one_thread (hd : '\n' ∉ date) (hL : GoodLayout L) (hc : 1 ≤ L.numCond) (hs : strict → Running L P)
    (U : Ft.Unused L) (g : Ft.Junk) (gt : ℕ → Ft.Junk) (h1 : ∀ b, thr b = 0) (ho : PossibleOrder L thr tr) :
    callPartition strict (Ft.partText date L (L.numSpecies + L.numBins * L.numCond)) g gt thr tr
        (Ft.callArgs L (L.numSpecies + L.numBins * L.numCond) P U) =
      some [.real (totalSoaMass L P), pyArray L.numBins (fun b => waterActivity L P (b + 1)),
        pyArray L.numBins (fun b => sizeArray L P (b + 1)),
        pyArray (L.numSpecies + L.numBins * L.numCond) (partition L P)] := by
  refine C71_synced hd hL hc hs U g gt ho (fun pre b post he => ?_)
  obtain ⟨pre0, hpre⟩ := interleaving_before_write (possible_interleaving ho) pre post b he
  rw [List.filter_eq_self.mpr (fun e _ => by simp [h1])] at hpre
  subst hpre
  constructor <;> simp [lastBin, List.filter_append]

/-- With one thread there is a possible order. -/
example (L : Aerosol.Layout) : PossibleOrder L (fun _ => 0) (Ft.allEvents (passLength L) 1 L.numBins) := fun _ => rfl

/-! ## Orders that go wrong -/

theorem oneBin_append {ev : List Aerosol.Event} (h : OneBin ev) (b : ℕ) : OneBin (ev ++ binEvents b) := by
  intro pre c post he
  rcases List.append_eq_append_iff.mp he with ⟨a, rfl, ha⟩ | ⟨a, rfl, ha⟩
  · -- the write is in the last pass
    match a, ha with
    | [], ha => exact absurd (congrArg List.head? ha) (by simp [binEvents])
    | [x], ha => exact absurd (congrArg (fun l => l.tail.head?) ha) (by simp [binEvents])
    | [x, y], ha =>
      simp only [binEvents, List.cons_append, List.nil_append, List.cons.injEq] at ha
      obtain ⟨rfl, rfl, -, -⟩ := ha
      simp [lastBin, List.filter_append]
    | x :: y :: z :: a, ha => exact absurd (congrArg List.length ha) (by simp [binEvents])
  · match a, ha with
    | [], ha => exact absurd (congrArg List.head? ha) (by simp [binEvents])
    | e :: a, ha =>
      simp only [List.cons_append, List.cons.injEq] at ha
      obtain ⟨rfl, -⟩ := ha
      exact h pre c a rfl

theorem racy_oneBin (n : ℕ) : OneBin (racyEvents n) := by
  unfold racyEvents
  induction n with
  | zero =>
    intro pre b post he
    simp only [List.range'_zero, List.flatMap_nil, List.append_nil] at he
    have hlen : pre.length < 6 := by
      have := congrArg List.length he
      simp at this; omega
    have hpre : pre = (racyEvents 0).take pre.length := by
      show pre = ([_, _, _, _, _, _] : List Aerosol.Event).take pre.length
      rw [he]; simp
    have hget : (racyEvents 0)[pre.length]? = some ⟨b, .writeSlice⟩ := by
      show ([_, _, _, _, _, _] : List Aerosol.Event)[pre.length]? = _
      rw [he]; simp
    generalize pre.length = n at hlen hpre hget
    subst hpre
    rcases (by omega : n = 0 ∨ n = 1 ∨ n = 2 ∨ n = 3 ∨ n = 4 ∨ n = 5) with
      rfl | rfl | rfl | rfl | rfl | rfl <;> simp [racyEvents] at hget <;> decide
  | succ n ih =>
    rw [List.range'_concat, List.flatMap_append, ← List.append_assoc]
    simpa using oneBin_append ih (2 + n + 1)

/-- C71, the race: with two bins or more, a call by two threads can return the right SOA mass, water activities and
sizes and, as rates of change of all species in the first bin, zeros. -/
theorem C71_race (hd : '\n' ∉ date) (hL : GoodLayout L) (hc : 1 ≤ L.numCond) (hs : strict → Running L P)
    (U : Ft.Unused L) (g : Ft.Junk) (gt : ℕ → Ft.Junk) (hb : 2 ≤ L.numBins) :
    ∃ tr f, PossibleOrder L twoThreads tr ∧
      callPartition strict (Ft.partText date L (L.numSpecies + L.numBins * L.numCond)) g gt twoThreads tr
          (Ft.callArgs L (L.numSpecies + L.numBins * L.numCond) P U) =
        some [.real (totalSoaMass L P), pyArray L.numBins (fun b => waterActivity L P (b + 1)),
          pyArray L.numBins (fun b => sizeArray L P (b + 1)), pyArray (L.numSpecies + L.numBins * L.numCond) f] ∧
      ∀ j < L.numCond, f (L.numSpecies + j) = 0 := by
  obtain ⟨n, hn⟩ : ∃ n, L.numBins = n + 2 := ⟨L.numBins - 2, by omega⟩
  obtain ⟨tr, h1, h2⟩ := Ft.interleaving_lift L.incl.length (racy_interleaving n)
  rw [← hn] at h1
  refine ⟨tr, _, h1, ?_, racy_lost L P n⟩
  have h2 : indexOrder L tr = racyEvents n := h2
  rw [C71_exact hd hL hc hs U g gt h1, h2, if_pos (racy_oneBin n)]
  rfl

/-- The two threads set the indices in the order first, second, second, first. -/
def crossedEvents (n : ℕ) : List Aerosol.Event :=
  [⟨1, .setIndex1⟩, ⟨2, .setIndex1⟩, ⟨2, .setIndex2⟩, ⟨1, .setIndex2⟩,
    ⟨1, .writeSlice⟩, ⟨2, .writeSlice⟩] ++
    (List.range' 2 n).flatMap (fun k => binEvents (k + 1))

theorem crossed_interleaving (n : ℕ) : Interleaving (n + 2) twoThreads (crossedEvents n) := by
  intro t
  rw [← racy_interleaving n t]
  unfold crossedEvents racyEvents
  rw [List.filter_append, List.filter_append]
  congr 1
  by_cases h0 : t = 0
  · subst h0; decide
  · by_cases h1 : t = 1
    · subst h1; decide
    · have e0 : ¬ (0 = t) := fun h => h0 h.symm
      have e1 : ¬ (1 = t) := fun h => h1 h.symm
      simp [twoThreads, e0, e1]

/-- C71: with two bins or more, two threads can also reach an assignment `dy_dt(index1:index2)=...` whose sides have
different lengths. -/
theorem C71_crossed (hd : '\n' ∉ date) (hL : GoodLayout L) (hc : 1 ≤ L.numCond) (hs : strict → Running L P)
    (U : Ft.Unused L) (g : Ft.Junk) (gt : ℕ → Ft.Junk) (hb : 2 ≤ L.numBins) :
    ∃ tr, PossibleOrder L twoThreads tr ∧
      callPartition strict (Ft.partText date L (L.numSpecies + L.numBins * L.numCond)) g gt twoThreads tr
        (Ft.callArgs L (L.numSpecies + L.numBins * L.numCond) P U) = none := by
  obtain ⟨n, hn⟩ : ∃ n, L.numBins = n + 2 := ⟨L.numBins - 2, by omega⟩
  obtain ⟨tr, h1, h2⟩ := Ft.interleaving_lift L.incl.length (crossed_interleaving n)
  rw [← hn] at h1
  refine ⟨tr, h1, ?_⟩
  have h2 : indexOrder L tr = crossedEvents n := h2
  rw [C71_exact hd hL hc hs U g gt h1, h2, if_neg]
  intro h
  have := h [⟨1, .setIndex1⟩, ⟨2, .setIndex1⟩, ⟨2, .setIndex2⟩, ⟨1, .setIndex2⟩] 1 _ rfl
  revert this
  decide

/-- The names of the scalars that passes of the loop assign and share. -/
def Spec.sharedScalars (R : Ft.Routine) : List Str :=
  ((R.decls.zipIdx.filter (fun d => d.1.dims = [] ∧ d.2 ∉ R.loop.priv ∧
    d.2 ∈ R.loop.body.map (fun s => s.target.name))).map (fun d => d.1.name))

/-- C71, the cause: besides the two indices only the unused `total_water_cond_mass` is a scalar that the passes
assign and share. -/
theorem C71_shared (hd : '\n' ∉ date) (L : Aerosol.Layout) (total : ℕ) :
    ∃ R, Ft.readRoutine "dydt_partition".toList (Ft.partText date L total) = some R ∧
      sharedScalars R = ["total_water_cond_mass".toList, "index1".toList, "index2".toList] := by
  refine ⟨_, Ft.read_part hd L total, ?_⟩
  have harr : ∀ d ∈ (Ft.partDecls (Ft.holes L total)).zipIdx, d.1.dims = [] → d.2 ∉ [40, 27, 28, 39, 29] := by
    intro d hd h0 h
    have hm := List.mem_zipIdx' hd
    have h1 : (Ft.partDecls (Ft.holes L total))[d.2]? = some d.1 := by
      rw [hm.2]
      exact List.getElem?_eq_getElem _
    simp only [List.mem_cons, List.not_mem_nil, or_false] at h
    rcases h with h | h | h | h | h <;> rw [h] at h1 <;>
      exact absurd ((congrArg Ft.Decl.dims (Option.some.inj h1)).trans h0) (by simp)
  have key : ∀ d ∈ (Ft.partDecls (Ft.holes L total)).zipIdx,
      decide (d.1.dims = [] ∧ d.2 ∉ (Ft.partRoutine L total).loop.priv ∧
        d.2 ∈ (Ft.partRoutine L total).loop.body.map (fun s => s.target.name)) =
      decide (d.1.dims = [] ∧ d.2 ∈ [54, 57, 58]) := by
    intro d hd
    rw [decide_eq_decide]
    show d.1.dims = [] ∧ d.2 ∉ Ft.partPriv ∧
      d.2 ∈ (Ft.partBody1 ++ L.incl.zipIdx.map Ft.gasStmt ++ Ft.partBody2).map (fun s => s.target.name) ↔ _
    rw [List.map_append, List.map_append, List.mem_append, List.mem_append]
    constructor
    · rintro ⟨h0, h1, (h2 | h2) | h2⟩
      · have := (by decide : ∀ x ∈ Ft.partBody1.map (fun s => s.target.name), x ∉ Ft.partPriv →
          x ∉ [40, 27, 28, 39, 29] → x ∈ [54, 57, 58]) _ h2 h1 (harr d hd h0)
        exact ⟨h0, this⟩
      · rw [List.map_map, List.mem_map] at h2
        obtain ⟨p, -, hp⟩ := h2
        have hp : 39 = d.2 := hp
        exact absurd (harr d hd h0) (by rw [← hp]; decide)
      · have := (by decide : ∀ x ∈ Ft.partBody2.map (fun s => s.target.name), x ∉ Ft.partPriv →
          x ∉ [40, 27, 28, 39, 29] → x ∈ [54, 57, 58]) _ h2 h1 (harr d hd h0)
        exact ⟨h0, this⟩
    · rintro ⟨h0, h1⟩
      have := (by decide : ∀ x ∈ [54, 57, 58], x ∉ Ft.partPriv ∧ (x ∈ Ft.partBody1.map (fun s => s.target.name) ∨
        x ∈ Ft.partBody2.map (fun s => s.target.name))) _ h1
      exact ⟨h0, this.1, this.2.elim (fun h => .inl (.inl h)) .inr⟩
  show List.map _ (List.filter _ (Ft.partDecls (Ft.holes L total)).zipIdx) = _
  rw [List.filter_congr (fun d hd => key d hd)]
  kernel_rfl

end

/-! ## A case that meets the hypotheses -/

theorem dryInput_running : Running sampleLayout dryInput where
  bins := fun b _ => dryInput_physical b
  moles := fun b _ => by
    refine add_pos_of_nonneg_of_pos (Finset.sum_nonneg (fun j hj => (dryInput_physical b).conc j (Finset.mem_range.mp hj))) ?_
    norm_num [dryInput, sampleInput]
  gas := by norm_num [dryInput, sampleInput]
  temp := by norm_num [dryInput, sampleInput]

/-- The values lost in `C71_race` are positive with one thread. -/
example (date : Str) (hd : '\n' ∉ date) (U : Ft.Unused sampleLayout) (g : Ft.Junk) (gt : ℕ → Ft.Junk) :
    (∃ tr f, callPartition True (Ft.partText date sampleLayout 7) g gt (fun _ => 0) tr
        (Ft.callArgs sampleLayout 7 dryInput U) = some [.real (totalSoaMass sampleLayout dryInput),
          pyArray 2 (fun b => waterActivity sampleLayout dryInput (b + 1)),
          pyArray 2 (fun b => sizeArray sampleLayout dryInput (b + 1)), pyArray 7 f] ∧ 0 < f 3) ∧
    (∃ tr f, callPartition True (Ft.partText date sampleLayout 7) g gt twoThreads tr
        (Ft.callArgs sampleLayout 7 dryInput U) = some [.real (totalSoaMass sampleLayout dryInput),
          pyArray 2 (fun b => waterActivity sampleLayout dryInput (b + 1)),
          pyArray 2 (fun b => sizeArray sampleLayout dryInput (b + 1)), pyArray 7 f] ∧ f 3 = 0) := by
  have hL : GoodLayout sampleLayout := ⟨rfl, by decide, by decide⟩
  constructor
  · exact ⟨_, _, C71_one_thread hd hL (by decide) (fun _ => dryInput_running) U g gt (fun _ => rfl) (fun _ => rfl),
      dryInput_condenses 0 0 (by omega) (by omega)⟩
  · obtain ⟨tr, f, -, h, hf⟩ := C71_race (strict := True) hd hL (by decide) (fun _ => dryInput_running) U g gt (le_refl 2)
    exact ⟨tr, f, h, hf 0 (by decide)⟩

example : Ft.Unused sampleLayout := ⟨[0, 1, 0], [0, 0], 9.8, 0, 0, 0, 0, 0, 0, rfl, rfl⟩

end PyBox
