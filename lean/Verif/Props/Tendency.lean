import Verif.Props.Reactants
import Mathlib.Algebra.Order.BigOperators.Ring.Finset

/-!
# C12–C18: generated tendencies
-/

namespace PyBox

open Spec

/-! ## C12 -/

/-- Species held constant by the generators, as the property names them. -/
def Spec.heldConstant : List Str := ["AIR".toList, "H2O".toList, "O2".toList, "hv".toList]

/-- Recorded gain (or loss) coefficient, zero when there is no entry. -/
def Spec.recorded (d : Dict Str (Dict Nat ℚ)) (s : Str) (e : Nat) : ℚ := (cell d s e).getD 0

/-- C12: whenever the generated Python routine is a valid program (see C18), it sets the tendency of
every species not held constant to the sum over reactions of recorded gain minus recorded loss, times
the reaction rate. -/
theorem C12_gain_minus_loss {text : Str} {m : Mechanism} (h : extractMechanism text = .ok m)
    {env : Env} {a out : Nat → ℝ} (hrun : exec .python env (writeLossGainPy m.tables.gen) a = some out)
    {s : Str} {i : Nat} (hs : m.tables.index.get? s = some i) (hx : s ∉ heldConstant) :
    out i = ∑ e ∈ Finset.range m.equations.toNat,
      ((recorded m.tables.gain s e : ℝ) - (recorded m.tables.loss s e : ℝ)) * env.r e := by
  obtain ⟨qs, -, h2, h3⟩ := extract_reads h
  rw [h2] at hrun hs ⊢
  rw [tendencyPy_value hrun ((index_mem_iff qs s i).2 hs) hx, rateSum_gain, rateSum_loss, ← h3,
    ← Finset.sum_sub_distrib]
  apply Finset.sum_congr rfl
  intro e _
  unfold recorded
  ring

/-- C12 in terms of the reactions as written, when their products are recorded correctly (C06). -/
theorem C12_written {text : Str} {m : Mechanism} (h : extractMechanism text = .ok m)
    {qs : List RawEqn} (hq : Reads text m.equations.toNat qs) (hg : ∀ q ∈ qs, GainGood q)
    {env : Env} {a out : Nat → ℝ} (hrun : exec .python env (writeLossGainPy m.tables.gen) a = some out)
    {s : Str} {i : Nat} (hs : m.tables.index.get? s = some i) (hx : s ∉ heldConstant) :
    out i = (qs.zipIdx.map (fun p =>
      ((coef (chemProducts p.1) s : ℝ) - (coef (chemReactants p.1) s : ℝ)) * env.r p.2)).sum := by
  rw [C12_gain_minus_loss h hrun hs hx]
  obtain ⟨h2, h3⟩ := extract_tables h hq
  rw [← h3]
  have key : ∀ e q, qs[e]? = some q → (recorded m.tables.gain s e : ℝ) - (recorded m.tables.loss s e : ℝ) =
      (coef (chemProducts q) s : ℝ) - (coef (chemReactants q) s : ℝ) := by
    intro e q he
    unfold recorded
    rw [C06_gain_coefficients_partial h hq he (hg q (List.mem_of_getElem? he)),
      C05_loss_coefficients h hq, he, Option.bind_some, gainCoef]
    congr 1
    · by_cases hm : s ∈ names (chemProducts q)
      · rw [if_pos hm]; rfl
      · rw [if_neg hm, coef_of_not_mem hm]; rfl
    · by_cases hm : s ∈ names (chemReactants q)
      · rw [if_pos hm]; rfl
      · rw [if_neg hm, coef_of_not_mem hm]; rfl
  clear hq hg h3
  have gen : ∀ (l : List RawEqn) (k : Nat) (F : Nat → ℝ),
      (∀ j q, l[j]? = some q → F (k + j) =
        ((coef (chemProducts q) s : ℝ) - (coef (chemReactants q) s : ℝ)) * env.r (k + j)) →
      ∑ e ∈ Finset.range l.length, F (k + e) = ((l.zipIdx k).map (fun p =>
        ((coef (chemProducts p.1) s : ℝ) - (coef (chemReactants p.1) s : ℝ)) * env.r p.2)).sum := by
    intro l
    induction l with
    | nil => intro k F _; simp
    | cons q l ih =>
      intro k F hF
      rw [List.length_cons, Finset.sum_range_succ', List.zipIdx_cons, List.map_cons, List.sum_cons]
      have h0 := hF 0 q rfl
      rw [Nat.add_zero] at h0 ⊢
      rw [h0, add_comm]
      congr 1
      rw [← ih (k + 1) F]
      · apply Finset.sum_congr rfl
        intro e _; congr 1; omega
      · intro j q' hj
        have := hF (j + 1) q' (by simpa using hj)
        rw [show k + 1 + j = k + (j + 1) by omega]; exact this
  have := gen qs 0 (fun e =>
    ((recorded m.tables.gain s e : ℝ) - (recorded m.tables.loss s e : ℝ)) * env.r e) (by
      intro j q hj; rw [Nat.zero_add, key j q hj])
  simpa using this

/-! ## C18 -/

/-- C18 in full. -/
def C18_Statement : Prop :=
  ∀ (text : Str) (m : Mechanism), extractMechanism text = .ok m →
    ∀ k rhs, Line.asg k rhs ∈ writeLossGainPy m.tables.gen →
      rhs ≠ [] ∧ ∀ env, (evalRhs .python env rhs).isSome

/-- C18: the exact condition. The Python tendency routine is a valid program (whatever the rates and
the array passed in) if and only if every species not held constant has a recorded gain or loss. -/
theorem C18_valid_iff {text : Str} {m : Mechanism} (h : extractMechanism text = .ok m) (env : Env)
    (a : Nat → ℝ) :
    (exec .python env (writeLossGainPy m.tables.gen) a).isSome ↔
      ∀ s i, m.tables.index.get? s = some i → s ∉ heldConstant →
        ∃ e, cell m.tables.gain s e ≠ none ∨ cell m.tables.loss s e ≠ none := by
  obtain ⟨qs, -, h2, -⟩ := extract_reads h
  rw [h2, exec_isSome_iff]
  have hcell : ∀ (d : Dict Nat ℚ), d ≠ [] ↔ ∃ e, d.get? e ≠ none := by
    intro d
    cases d with
    | nil => simp [Dict.get?]
    | cons p d =>
      simp only [ne_eq, reduceCtorEq, not_false_eq_true, true_iff]
      refine ⟨p.1, ?_⟩
      rw [Dict.get?_cons, if_pos rfl]; simp
  constructor
  · intro hall s i hi hx
    have hm := (mem_writeLossGainPy (build qs).gen i _).2 ⟨s, (index_mem_iff qs s i).2 hi, hx, rfl⟩
    have := hall _ _ hm
    rw [evalRhs_tendencyPy] at this
    split at this
    · simp at this
    · rename_i hne
      rw [not_and_or] at hne
      rcases hne with hne | hne
      · obtain ⟨e, he⟩ := (hcell _).1 hne; exact ⟨e, .inr he⟩
      · obtain ⟨e, he⟩ := (hcell _).1 hne; exact ⟨e, .inl he⟩
  · intro hall k rhs hm
    rw [mem_writeLossGainPy] at hm
    obtain ⟨s, hs, hx, rfl⟩ := hm
    obtain ⟨e, he⟩ := hall s k ((index_mem_iff qs s k).1 hs) hx
    rw [evalRhs_tendencyPy, if_neg]
    · rfl
    · rintro ⟨hl, hg⟩
      rcases he with he | he
      · exact (hcell _).2 ⟨e, he⟩ hg
      · exact (hcell _).2 ⟨e, he⟩ hl

/-- C18 for Fortran: the same condition, whatever the number of cores. -/
theorem C18_valid_iff_fortran {text : Str} {m : Mechanism} (h : extractMechanism text = .ok m) (env : Env)
    (n : Nat) (cores : Option Nat) (a : Nat → ℝ) :
    (exec .fortran env (writeLossGainF m.tables.gen n cores) a).isSome ↔
      ∀ s i, m.tables.index.get? s = some i → s ∉ heldConstant →
        ∃ e, cell m.tables.gain s e ≠ none ∨ cell m.tables.loss s e ≠ none := by
  rw [← C18_valid_iff h env a]
  obtain ⟨qs, -, h2, -⟩ := extract_reads h
  rw [h2]
  unfold writeLossGainF
  rw [exec_withOmp, exec_isSome_iff, exec_isSome_iff]
  constructor
  · intro hall k rhs hm
    rw [mem_writeLossGainPy] at hm
    obtain ⟨s, hs, hx, rfl⟩ := hm
    have := hall _ _ ((mem_tendencyLinesF (build qs).gen (k + 1) _).2
      ⟨s, k, hs, hx, index_keys qs hs, rfl, rfl⟩)
    rw [evalRhs_tendencyF] at this
    rw [evalRhs_tendencyPy]
    split at this
    · simp at this
    · rename_i hne; rw [if_neg hne]; rfl
  · intro hall k rhs hm
    rw [mem_tendencyLinesF] at hm
    obtain ⟨s, i, hs, hx, -, rfl, rfl⟩ := hm
    have := hall _ _ ((mem_writeLossGainPy (build qs).gen i _).2 ⟨s, hs, hx, rfl⟩)
    rw [evalRhs_tendencyPy] at this
    rw [evalRhs_tendencyF]
    split at this
    · simp at this
    · rename_i hne; rw [if_neg hne]; rfl

theorem exec_python_valid {κ : Type} [DecidableEq κ] [Subscript κ] {P : List (Line κ)} {env : Env}
    {a : κ → ℝ} (h : (exec .python env P a).isSome) (k : κ) (rhs : List Tok) (hm : Line.asg k rhs ∈ P) :
    rhs ≠ [] ∧ (evalRhs .python env rhs).isSome := by
  have := (exec_isSome_iff .python env P a).1 h k rhs hm
  refine ⟨?_, this⟩
  rintro rfl
  simp [evalRhs, evalExpr] at this

/-- C18, the part that holds: mechanisms whose products are all recorded. Missing: mechanisms with a
species that occurs only as a dropped product (see `C18_valid_iff` for the exact condition). -/
theorem C18_valid_partial {text : Str} {m : Mechanism} (h : extractMechanism text = .ok m)
    {qs : List RawEqn} (hq : Reads text m.equations.toNat qs) (hg : ∀ q ∈ qs, GainGood q) :
    ∀ k rhs, Line.asg k rhs ∈ writeLossGainPy m.tables.gen →
      rhs ≠ [] ∧ ∀ env, (evalRhs .python env rhs).isSome := by
  have hall : ∀ env, (exec .python env (writeLossGainPy m.tables.gen) (fun _ => 0)).isSome := by
    intro env
    rw [C18_valid_iff h]
    intro s i hi _
    obtain ⟨e, he, q, hqe, hs⟩ := (C02_indexed_iff h hq s).1 ⟨i, hi⟩
    refine ⟨e, ?_⟩
    simp only [occurrences, List.mem_filter, List.mem_append, names, List.mem_map] at hs
    obtain ⟨⟨p, hp, rfl⟩ | ⟨p, hp, rfl⟩, hne⟩ := hs
    · right
      rw [C05_loss_coefficients h hq, hqe, Option.bind_some, if_pos]
      · simp
      · simp only [names, chemReactants, List.mem_map, List.mem_filter]; exact ⟨p, ⟨hp, hne⟩, rfl⟩
    · left
      rw [C06_gain_coefficients_partial h hq hqe (hg q (List.mem_of_getElem? hqe)), gainCoef, if_pos]
      · simp
      · simp only [names, chemProducts, List.mem_map, List.mem_filter]; exact ⟨p, ⟨hp, hne⟩, rfl⟩
  intro k rhs hm
  exact ⟨(exec_python_valid (hall ⟨fun _ => 0, fun _ => 0⟩) k rhs hm).1,
    fun env => (exec_python_valid (hall env) k rhs hm).2⟩

/-- One reaction whose only new product is dropped. -/
def dropText : Str := "{1.}OH+CO=CO+HO2:K;".toList

def dropReactions : List RawEqn :=
  [{ reactants := [(1, "OH".toList), (1, "CO".toList)],
     products := [(1, "CO".toList), (1, "HO2".toList)], rate := "K".toList }]

theorem drop_parses :
    extractMechanism dropText = .ok { tables := build dropReactions, equations := 1 } := by
  rw [extract_ok_iff]
  refine ⟨"1.".toList, 1, dropReactions, ?_, by decide +kernel, ?_, rfl⟩
  · rw [labels_eq _ (not_mem_removeChar _ _)]; decide +kernel
  · rw [bodies_eq _ (not_mem_removeChar _ _)]; decide +kernel

theorem drop_reads : Reads dropText 1 dropReactions := by
  unfold Reads bodyTexts; decide +kernel

/-- C18 does not hold: `OH + CO = CO + HO2` writes an assignment without right-hand side. -/
theorem C18_false : ¬ C18_Statement := by
  intro h
  have hm := (mem_writeLossGainPy (build dropReactions).gen 2 []).2
    ⟨"HO2".toList, by decide +kernel, by decide +kernel, by decide +kernel⟩
  exact (h _ _ drop_parses _ _ hm).1 rfl

example : extractMechanism sampleText = .ok ⟨build sampleReactions, 3⟩ ∧
    Reads sampleText 3 sampleReactions ∧ (∀ q ∈ sampleReactions, GainGood q) ∧
    (build sampleReactions).index.get? "HO2".toList = some 5 ∧ "HO2".toList ∉ heldConstant ∧
    recorded (build sampleReactions).loss "HO2".toList 2 = 2 :=
  ⟨sample_parses, sample_reads, by decide +kernel, by decide +kernel, by decide +kernel,
    by decide +kernel⟩

/-! ## C13 -/

/-- C13 in full. -/
def C13_Statement : Prop :=
  ∀ (text : Str) (m : Mechanism), extractMechanism text = .ok m →
    ∀ (env : Env) (n : Nat) (cores : Option Nat) (outP outF : Nat → ℝ),
      exec .python env (writeLossGainPy m.tables.gen) (fun _ => 0) = some outP →
      exec .fortran env (writeLossGainF m.tables.gen n cores) (fun _ => 0) = some outF → outF = outP

/-- What the Fortran routine uses in place of a coefficient: one more, unless it is one. -/
def Spec.offByOne (o : Option ℚ) : ℚ :=
  match o with
  | none => 0
  | some c => if c = 1 then 1 else c + 1

theorem offByOne_eq (o : Option ℚ) : (o.map fortranCoef).getD 0 = offByOne o := by
  cases o <;> rfl

/-- C13, what the Fortran program computes for every mechanism. -/
theorem C13_value {text : Str} {m : Mechanism} (h : extractMechanism text = .ok m)
    {env : Env} {n : Nat} {cores : Option Nat} {a out : Nat → ℝ}
    (hrun : exec .fortran env (writeLossGainF m.tables.gen n cores) a = some out)
    {s : Str} {i : Nat} (hs : m.tables.index.get? s = some i) (hx : s ∉ heldConstant) :
    out i = ∑ e ∈ Finset.range m.equations.toNat,
      ((offByOne (cell m.tables.gain s e) : ℝ) - (offByOne (cell m.tables.loss s e) : ℝ)) * env.r e := by
  obtain ⟨qs, -, h2, h3⟩ := extract_reads h
  rw [h2] at hrun hs ⊢
  rw [tendencyF_value hrun ((index_mem_iff qs s i).2 hs) hx, rateSumF_gain, rateSumF_loss, ← h3,
    ← Finset.sum_sub_distrib]
  apply Finset.sum_congr rfl
  intro e _
  rw [offByOne_eq, offByOne_eq]
  ring

theorem untouchedPy {qs : List RawEqn} {env : Env} {a out : Nat → ℝ}
    (h : exec .python env (writeLossGainPy (build qs).gen) a = some out) {i : Nat}
    (hi : ∀ s, (build qs).index.get? s = some i → s ∈ excluded) : out i = a i := by
  apply exec_untouched .python env _ a out i h
  intro k rhs hm hk
  have hk' : k = i := hk
  subst hk'
  rw [mem_writeLossGainPy] at hm
  obtain ⟨s, hs, hx, -⟩ := hm
  exact hx (hi s ((index_mem_iff qs s k).1 hs))

theorem untouchedF {qs : List RawEqn} {env : Env} {n : Nat} {cores : Option Nat} {a out : Nat → ℝ}
    (h : exec .fortran env (writeLossGainF (build qs).gen n cores) a = some out) {i : Nat}
    (hi : ∀ s, (build qs).index.get? s = some i → s ∈ excluded) : out i = a i := by
  unfold writeLossGainF at h
  rw [exec_withOmp] at h
  apply exec_untouched .fortran env _ a out i h
  intro k rhs hm hk
  rw [mem_tendencyLinesF] at hm
  obtain ⟨s, j, hs, hx, -, rfl, -⟩ := hm
  have hk' : j = i := hk
  subst hk'
  exact hx (hi s ((index_mem_iff qs s j).1 hs))

/-- Whether the Fortran writer changes a coefficient. -/
def Spec.altered (o : Option ℚ) : Bool :=
  match o with
  | none => false
  | some c => decide (c ≠ 1)

theorem offByOne_sub (o : Option ℚ) : offByOne o = o.getD 0 + if altered o then 1 else 0 := by
  cases o with
  | none => simp [offByOne, altered]
  | some c => by_cases h : c = 1 <;> simp [offByOne, altered, h]

/-- C13: the exact condition. The two programs agree for all rates if and only if in each reaction
every species not held constant is altered on both sides or on neither. -/
theorem C13_exact {text : Str} {m : Mechanism} (h : extractMechanism text = .ok m) (n : Nat)
    (cores : Option Nat)
    (hvalid : ∀ env, (exec .python env (writeLossGainPy m.tables.gen) (fun _ => 0)).isSome) :
    (∀ (env : Env) (outP outF : Nat → ℝ),
      exec .python env (writeLossGainPy m.tables.gen) (fun _ => 0) = some outP →
      exec .fortran env (writeLossGainF m.tables.gen n cores) (fun _ => 0) = some outF → outF = outP) ↔
    ∀ s i e, m.tables.index.get? s = some i → s ∉ heldConstant →
      altered (cell m.tables.gain s e) = altered (cell m.tables.loss s e) := by
  have hvalidF : ∀ env, (exec .fortran env (writeLossGainF m.tables.gen n cores) (fun _ => 0)).isSome := by
    intro env
    rw [C18_valid_iff_fortran h, ← C18_valid_iff h env (fun _ => 0)]
    exact hvalid env
  obtain ⟨qs, hreads, h2, h3⟩ := extract_reads h
  constructor
  · intro hall s i e hs hx
    by_cases he : e < m.equations.toNat
    · let env : Env := ⟨fun _ => 0, fun e' => if e' = e then 1 else 0⟩
      obtain ⟨oP, hP⟩ := Option.isSome_iff_exists.1 (hvalid env)
      obtain ⟨oF, hF⟩ := Option.isSome_iff_exists.1 (hvalidF env)
      have heq := hall env oP oF hP hF
      have h4 := C12_gain_minus_loss h hP hs hx
      have h5 := C13_value h hF hs hx
      rw [heq, h4] at h5
      simp only [env, mul_ite, mul_one, mul_zero, Finset.sum_ite_eq', Finset.mem_range, he, if_true] at h5
      unfold recorded at h5
      rw [offByOne_sub, offByOne_sub] at h5
      cases hg : altered (cell m.tables.gain s e) <;> cases hl : altered (cell m.tables.loss s e) <;>
        simp only [hg, hl, if_true, Bool.false_eq_true, if_false] at h5 ⊢
      · push_cast at h5; linarith
      · push_cast at h5; linarith
    · have hnone : qs[e]? = none := List.getElem?_eq_none_iff.2 (by omega)
      rw [h2, cell_build_gain, cell_build_loss, hnone]; rfl
  · intro hall env oP oF hP hF
    funext i
    by_cases hi : ∃ s, m.tables.index.get? s = some i ∧ s ∉ heldConstant
    · obtain ⟨s, hs, hx⟩ := hi
      rw [C12_gain_minus_loss h hP hs hx, C13_value h hF hs hx]
      apply Finset.sum_congr rfl
      intro e _
      rw [offByOne_sub, offByOne_sub, hall s i e hs hx]
      unfold recorded
      push_cast; ring
    · have hi' : ∀ s, (build qs).index.get? s = some i → s ∈ excluded := by
        intro s hs
        by_contra hc
        exact hi ⟨s, by rw [h2]; exact hs, hc⟩
      rw [h2] at hP hF
      rw [untouchedPy hP hi', untouchedF hF hi']

/-- C13, the part that holds: mechanisms in which every recorded coefficient is one. Missing:
coefficients other than one, where the Fortran writer prints one more than the coefficient. -/
theorem C13_same_partial {text : Str} {m : Mechanism} (h : extractMechanism text = .ok m)
    (hone : ∀ s e c, cell m.tables.gain s e = some c ∨ cell m.tables.loss s e = some c → c = 1)
    (env : Env) (n : Nat) (cores : Option Nat) :
    exec .fortran env (writeLossGainF m.tables.gen n cores) (fun _ => 0) =
      exec .python env (writeLossGainPy m.tables.gen) (fun _ => 0) := by
  have halt : ∀ s e, altered (cell m.tables.gain s e) = false ∧ altered (cell m.tables.loss s e) = false := by
    intro s e
    constructor
    · cases hc : cell m.tables.gain s e with
      | none => rfl
      | some c => simp [altered, hone s e c (.inl hc)]
    · cases hc : cell m.tables.loss s e with
      | none => rfl
      | some c => simp [altered, hone s e c (.inr hc)]
  cases hP : exec .python env (writeLossGainPy m.tables.gen) (fun _ => 0) with
  | none =>
    have h1 : ¬ (exec .fortran env (writeLossGainF m.tables.gen n cores) (fun _ => 0)).isSome := by
      rw [C18_valid_iff_fortran h, ← C18_valid_iff h env (fun _ => 0), hP]; simp
    rw [Option.not_isSome_iff_eq_none] at h1
    exact h1
  | some oP =>
    have hv : ∀ env, (exec .python env (writeLossGainPy m.tables.gen) (fun _ => 0)).isSome := by
      intro env'
      rw [C18_valid_iff h, ← C18_valid_iff h env (fun _ => 0), hP]; rfl
    have h1 : (exec .fortran env (writeLossGainF m.tables.gen n cores) (fun _ => 0)).isSome := by
      rw [C18_valid_iff_fortran h, ← C18_valid_iff h env (fun _ => 0)]
      exact hv env
    obtain ⟨oF, hF⟩ := Option.isSome_iff_exists.1 h1
    rw [hF]
    congr 1
    exact (C13_exact h n cores hv).2 (fun s i e _ _ => by rw [(halt s e).1, (halt s e).2]) env oP oF hP hF

/-- C13 does not hold: in `HO2 + HO2 = H2O2` the Fortran program removes three HO2 per event. -/
theorem C13_false : ¬ C13_Statement := by
  intro h
  have hv : ∀ env, (exec .python env (writeLossGainPy (build sampleReactions).gen) (fun _ => 0)).isSome := by
    intro env
    rw [exec_isSome_iff]
    intro k rhs hm
    exact (C18_valid_partial sample_parses sample_reads (by decide +kernel) k rhs hm).2 env
  have := (C13_exact sample_parses 7 none hv).1 (fun env oP oF hP hF =>
    h sampleText _ sample_parses env 7 none oP oF hP hF) "HO2".toList 5 2 (by decide +kernel)
    (by decide +kernel)
  revert this; decide +kernel

example : extractMechanism badText = .ok ⟨build badReactions, 2⟩ ∧
    (∀ q ∈ badReactions, ∀ s ∈ names (q.reactants ++ q.products),
      (∀ c ∈ gainEntry q s, c = 1) ∧ ∀ c ∈ lossEntry q s, c = 1) :=
  ⟨bad_parses, by decide +kernel⟩

/-! ## C14 -/

/-- C14 in full: matrix times rate vector equals the generated tendency, species by species. -/
def C14_Statement : Prop :=
  ∀ (text : Str) (m : Mechanism), extractMechanism text = .ok m →
    ∀ (env : Env) (out : Nat → ℝ),
      exec .python env (writeLossGainPy m.tables.gen) (fun _ => 0) = some out →
      ∀ i, ∑ e ∈ Finset.range m.equations.toNat,
        (((sparseLossGain m.tables.gen).get? (i, e)).getD 0 : ℝ) * env.r e = out i

theorem fold_set_row (d : Dict Nat ℚ) (f : ℚ → ℚ) (hnd : d.keys.Nodup) (j : Nat) :
    ∀ (m : Dict (Nat × Nat) ℚ) (i e : Nat),
      (d.foldl (fun m es => m.set (j, es.1) (f es.2)) m).get? (i, e) =
        if i = j then ((d.get? e).map f).or (m.get? (i, e)) else m.get? (i, e) := by
  induction d with
  | nil => intro m i e; simp [Dict.get?]
  | cons p d ih =>
    intro m i e
    simp only [Dict.keys, List.map_cons, List.nodup_cons] at hnd
    rw [List.foldl_cons, ih hnd.2, Dict.get?_set, Dict.get?_cons]
    by_cases hi : i = j
    · subst hi
      simp only [if_true]
      by_cases he : p.1 = e
      · subst he
        have : Dict.get? d p.1 = none := (Dict.get?_eq_none_iff _ _).2 hnd.1
        simp [this]
      · have h2 : ¬ ((i, e) = (i, p.1)) := by rintro h; injection h with h1 h2; exact he h2.symm
        simp [he, h2]
    · have h2 : ¬ ((i, e) = (j, p.1)) := by rintro h; injection h with h1 h2; exact hi h1
      simp [hi, h2]

/-- Rows of one species. -/
def sparseStep (g : GenIn) (m : Dict (Nat × Nat) ℚ) (p : Str × Nat) : Dict (Nat × Nat) ℚ :=
  if p.1 ∈ excluded then m
  else
    let m := (g.loss.getD p.1 []).foldl (fun m es =>
      m.set (p.2, es.1) (if es.2 = 1 then -1 else -1 * es.2)) m
    (g.gain.getD p.1 []).foldl (fun m es =>
      m.set (p.2, es.1) (if es.2 = 1 then 1 else 1 * es.2)) m

theorem sparseStep_get (qs : List RawEqn) (m : Dict (Nat × Nat) ℚ) (p : Str × Nat) (i e : Nat) :
    (sparseStep (build qs).gen m p).get? (i, e) =
      if i = p.2 ∧ p.1 ∉ excluded then
        ((cell (build qs).gain p.1 e).or ((cell (build qs).loss p.1 e).map (fun c => -c))).or (m.get? (i, e))
      else m.get? (i, e) := by
  unfold sparseStep
  by_cases hx : p.1 ∈ excluded
  · simp [hx]
  · have f1 : ∀ c : ℚ, (if c = 1 then (-1 : ℚ) else -1 * c) = -c := by
      intro c; split
      · rename_i h; rw [h]
      · ring
    have f2 : ∀ c : ℚ, (if c = 1 then (1 : ℚ) else 1 * c) = c := by
      intro c; split
      · rename_i h; rw [h]
      · ring
    simp only [hx, if_false, f1, f2]
    show (((build qs).gain.getD p.1 []).foldl (fun m es => m.set (p.2, es.1) es.2)
      (((build qs).loss.getD p.1 []).foldl (fun m es => m.set (p.2, es.1) (-es.2)) m)).get? (i, e) = _
    rw [fold_set_row _ (fun c => c) (innerNodup_build_gain qs p.1),
      fold_set_row _ (fun c => -c) (innerNodup_build_loss qs p.1)]
    by_cases hi : i = p.2
    · simp only [hi, if_true, not_false_eq_true, and_self, Option.map_id', Option.or_assoc]
      rfl
    · simp [hi]

theorem sparse_fold (qs : List RawEqn) (s : Str) (i e : Nat) (hx : s ∉ excluded) (l : List (Str × Nat))
    (huniq : ∀ p ∈ l, p.2 = i → p.1 = s) : ∀ m : Dict (Nat × Nat) ℚ,
    (m.get? (i, e) = none ∨
      m.get? (i, e) = (cell (build qs).gain s e).or ((cell (build qs).loss s e).map (fun c => -c))) →
    ((∃ p ∈ l, p.2 = i) ∨
      m.get? (i, e) = (cell (build qs).gain s e).or ((cell (build qs).loss s e).map (fun c => -c))) →
    (l.foldl (sparseStep (build qs).gen) m).get? (i, e) =
      (cell (build qs).gain s e).or ((cell (build qs).loss s e).map (fun c => -c)) := by
  induction l with
  | nil => intro m _ h; simpa using h
  | cons p l ih =>
    intro m h0 h1
    rw [List.foldl_cons]
    have huniq' : ∀ p ∈ l, p.2 = i → p.1 = s := fun p hp => huniq p (List.mem_cons_of_mem _ hp)
    have hs := sparseStep_get qs m p i e
    by_cases hp : p.2 = i
    · have hps := huniq p (by simp) hp
      have : (sparseStep (build qs).gen m p).get? (i, e) =
          (cell (build qs).gain s e).or ((cell (build qs).loss s e).map (fun c => -c)) := by
        rw [hs, if_pos ⟨hp.symm, by rw [hps]; exact hx⟩, hps]
        rcases h0 with h0 | h0
        · rw [h0, Option.or_none]
        · rw [h0, Option.or_self]
      exact ih huniq' _ (.inr this) (.inr this)
    · have : (sparseStep (build qs).gen m p).get? (i, e) = m.get? (i, e) := by
        rw [hs, if_neg (fun h => hp h.1.symm)]
      apply ih huniq'
      · rw [this]; exact h0
      · rw [this]
        rcases h1 with ⟨p', hp', hpi⟩ | h1
        · rcases List.mem_cons.1 hp' with rfl | hp'
          · exact absurd hpi hp
          · exact .inl ⟨p', hp', hpi⟩
        · exact .inr h1

theorem sparse_fold_none (qs : List RawEqn) (i e : Nat) (l : List (Str × Nat))
    (hno : ∀ p ∈ l, p.2 = i → p.1 ∈ excluded) : ∀ m : Dict (Nat × Nat) ℚ, m.get? (i, e) = none →
    (l.foldl (sparseStep (build qs).gen) m).get? (i, e) = none := by
  induction l with
  | nil => intro m h; exact h
  | cons p l ih =>
    intro m h
    rw [List.foldl_cons]
    apply ih (fun p hp => hno p (List.mem_cons_of_mem _ hp))
    rw [sparseStep_get, if_neg]
    · exact h
    · rintro ⟨h1, h2⟩; exact h2 (hno p (by simp) h1.symm)

/-- The saved matrix, entry by entry. -/
theorem sparse_entry (qs : List RawEqn) {s : Str} {i : Nat} (hs : (build qs).index.get? s = some i)
    (hx : s ∉ excluded) (e : Nat) : (sparseLossGain (build qs).gen).get? (i, e) =
      (cell (build qs).gain s e).or ((cell (build qs).loss s e).map (fun c => -c)) := by
  have : sparseLossGain (build qs).gen = (build qs).index.foldl (sparseStep (build qs).gen) [] := rfl
  rw [this]
  apply sparse_fold qs s i e hx
  · intro p hp hpi
    have hp' : (p.1, i) ∈ (build qs).index := by rw [← hpi]; exact hp
    exact index_inj qs hp' ((index_mem_iff qs s i).2 hs)
  · exact .inl rfl
  · exact .inl ⟨(s, i), (index_mem_iff qs s i).2 hs, rfl⟩

theorem sparse_entry_none (qs : List RawEqn) {i : Nat}
    (hi : ∀ s, (build qs).index.get? s = some i → s ∈ excluded) (e : Nat) :
    (sparseLossGain (build qs).gen).get? (i, e) = none := by
  have : sparseLossGain (build qs).gen = (build qs).index.foldl (sparseStep (build qs).gen) [] := rfl
  rw [this]
  apply sparse_fold_none qs i e _ _ _ rfl
  intro p hp hpi
  apply hi
  rw [← index_mem_iff, ← hpi]; exact hp

/-- C14: the matrix agrees with the generated code for all rates if and only if no species is
recorded on both sides of a reaction with a non-zero loss. -/
theorem C14_exact {text : Str} {m : Mechanism} (h : extractMechanism text = .ok m)
    (hvalid : ∀ env, (exec .python env (writeLossGainPy m.tables.gen) (fun _ => 0)).isSome) :
    (∀ (env : Env) (out : Nat → ℝ),
      exec .python env (writeLossGainPy m.tables.gen) (fun _ => 0) = some out →
      ∀ i, ∑ e ∈ Finset.range m.equations.toNat,
        (((sparseLossGain m.tables.gen).get? (i, e)).getD 0 : ℝ) * env.r e = out i) ↔
    ∀ s i e c d, m.tables.index.get? s = some i → s ∉ heldConstant →
      cell m.tables.gain s e = some c → cell m.tables.loss s e = some d → d = 0 := by
  obtain ⟨qs, hreads, h2, h3⟩ := extract_reads h
  constructor
  · intro hall s i e c d hs hx hc hd
    by_cases he : e < m.equations.toNat
    · let env : Env := ⟨fun _ => 0, fun e' => if e' = e then 1 else 0⟩
      obtain ⟨out, hP⟩ := Option.isSome_iff_exists.1 (hvalid env)
      have h5 := hall env out hP i
      rw [C12_gain_minus_loss h hP hs hx] at h5
      simp only [env, mul_ite, mul_one, mul_zero, Finset.sum_ite_eq', Finset.mem_range, he, if_true] at h5
      unfold recorded at h5
      rw [hc, hd] at h5
      rw [h2] at hs hc hd h5
      rw [sparse_entry qs hs hx, hc] at h5
      simp only [Option.some_or, Option.getD_some] at h5
      have : (d : ℝ) = 0 := by linarith
      exact_mod_cast this
    · have hnone : qs[e]? = none := List.getElem?_eq_none_iff.2 (by omega)
      rw [h2, cell_build_gain, hnone] at hc
      simp at hc
  · intro hall env out hP i
    by_cases hi : ∃ s, m.tables.index.get? s = some i ∧ s ∉ heldConstant
    · obtain ⟨s, hs, hx⟩ := hi
      rw [C12_gain_minus_loss h hP hs hx]
      apply Finset.sum_congr rfl
      intro e _
      congr 1
      have hs' := hs
      have hall' := hall s i e
      rw [h2] at hs' hall' ⊢
      rw [sparse_entry qs hs' hx]
      unfold recorded
      cases hc : cell (build qs).gain s e with
      | none =>
        cases hd : cell (build qs).loss s e with
        | none => simp
        | some d => simp
      | some c =>
        cases hd : cell (build qs).loss s e with
        | none => simp
        | some d =>
          have := hall' c d hs' hx hc hd
          subst this; simp
    · have hi' : ∀ s, (build qs).index.get? s = some i → s ∈ excluded := by
        intro s hs
        by_contra hc
        exact hi ⟨s, by rw [h2]; exact hs, hc⟩
      rw [h2] at hP ⊢
      rw [untouchedPy hP hi']
      apply Finset.sum_eq_zero
      intro e _
      rw [sparse_entry_none qs hi']
      simp

/-- C14, the part that holds: mechanisms in which no reaction has a species on both sides. Missing:
reactions with a species on both sides, for which the saved matrix drops the loss. -/
theorem C14_matrix_partial {text : Str} {m : Mechanism} (h : extractMechanism text = .ok m)
    {qs : List RawEqn} (hq : Reads text m.equations.toNat qs)
    (hdisj : ∀ q ∈ qs, ∀ s ∈ names (chemReactants q), s ∉ names (chemProducts q))
    {env : Env} {out : Nat → ℝ}
    (hrun : exec .python env (writeLossGainPy m.tables.gen) (fun _ => 0) = some out) (i : Nat) :
    ∑ e ∈ Finset.range m.equations.toNat,
      (((sparseLossGain m.tables.gen).get? (i, e)).getD 0 : ℝ) * env.r e = out i := by
  have hv : ∀ env, (exec .python env (writeLossGainPy m.tables.gen) (fun _ => 0)).isSome := by
    intro env'
    rw [C18_valid_iff h, ← C18_valid_iff h env (fun _ => 0), hrun]; rfl
  refine (C14_exact h hv).2 ?_ env out hrun i
  intro s i e c d _ _ hc hd
  exfalso
  rw [cell_gain h hq] at hc
  rw [C05_loss_coefficients h hq] at hd
  cases he : qs[e]? with
  | none => rw [he] at hc; simp at hc
  | some q =>
    rw [he, Option.bind_some] at hc hd
    have h1 : s ∈ names (chemReactants q) := by
      by_contra hn; rw [if_neg hn] at hd; simp at hd
    apply hdisj q (List.mem_of_getElem? he) s h1
    rw [gainEntry_eq] at hc
    have h3 : s ∈ names (upTo (lastName q) (chemProducts q)).1 := by
      by_contra hn; rw [if_neg hn] at hc; simp at hc
    rw [← upTo_append (lastName q) (chemProducts q)]
    simp only [names, List.map_append, List.mem_append]
    exact .inl h3

/-- C14 does not hold: in `OH + CO = CO + HO2` the matrix says that CO is produced. -/
theorem C14_false : ¬ C14_Statement := by
  intro h
  have hv : ∀ env, (exec .python env (writeLossGainPy (build badReactions).gen) (fun _ => 0)).isSome := by
    intro env
    refine (C18_valid_iff bad_parses env _).2 ?_
    intro s i hi _
    obtain ⟨q, hq, hs⟩ := (indexed_iff badReactions s).1 ⟨i, hi⟩
    have hall : ∀ q ∈ badReactions, ∀ s ∈ occurrences q,
        (∃ e ∈ [0, 1], cell (build badReactions).gain s e ≠ none ∨ cell (build badReactions).loss s e ≠ none) := by
      decide +kernel
    obtain ⟨e, -, he⟩ := hall q hq s hs
    exact ⟨e, he⟩
  have := (C14_exact bad_parses hv).1 (fun env out hr => h _ _ bad_parses env out hr) "CO".toList 1 1 1 1
    (by decide +kernel) (by decide +kernel) (by decide +kernel) (by decide +kernel)
  revert this; decide

example : extractMechanism sampleText = .ok ⟨build sampleReactions, 3⟩ ∧
    Reads sampleText 3 sampleReactions ∧
    (∀ q ∈ sampleReactions, ∀ s ∈ names (chemReactants q), s ∉ names (chemProducts q)) ∧
    ∀ env, (exec .python env (writeLossGainPy (build sampleReactions).gen) (fun _ => 0)).isSome := by
  refine ⟨sample_parses, sample_reads, by decide +kernel, ?_⟩
  intro env
  rw [exec_isSome_iff]
  intro k rhs hm
  exact (C18_valid_partial sample_parses sample_reads (by decide +kernel) k rhs hm).2 env

/-! ## C15 -/

/-- C15: species held constant keep the value the array had before the call, which is zero in
dydt_func (line 109) and in the Fortran routine (line 2576), in both backends. -/
theorem C15_constant {text : Str} {m : Mechanism} (h : extractMechanism text = .ok m)
    {s : Str} {i : Nat} (hs : m.tables.index.get? s = some i) (hx : s ∈ heldConstant)
    (env : Env) (a : Nat → ℝ) :
    (∀ out, exec .python env (writeLossGainPy m.tables.gen) a = some out → out i = a i) ∧
    ∀ n cores out, exec .fortran env (writeLossGainF m.tables.gen n cores) a = some out → out i = a i := by
  obtain ⟨qs, -, h2, -⟩ := extract_reads h
  rw [h2] at hs ⊢
  have hi : ∀ s', (build qs).index.get? s' = some i → s' ∈ excluded := by
    intro s' hs'
    rw [index_inj qs ((index_mem_iff qs s' i).2 hs') ((index_mem_iff qs s i).2 hs)]
    exact hx
  exact ⟨fun out ho => untouchedPy ho hi, fun n cores out ho => untouchedF ho hi⟩

/-- C15: no line of either program assigns to the cell of a species held constant. -/
theorem C15_never_written {text : Str} {m : Mechanism} (h : extractMechanism text = .ok m)
    {s : Str} {i : Nat} (hs : m.tables.index.get? s = some i) (hx : s ∈ heldConstant) (n : Nat)
    (cores : Option Nat) :
    (∀ rhs, Line.asg i rhs ∉ writeLossGainPy m.tables.gen) ∧
    ∀ rhs, Line.asg (i + 1) rhs ∉ writeLossGainF m.tables.gen n cores := by
  obtain ⟨qs, -, h2, -⟩ := extract_reads h
  rw [h2] at hs ⊢
  have hi : ∀ s', (s', i) ∈ (build qs).index → s' ∈ excluded := by
    intro s' hs'
    rw [index_inj qs hs' ((index_mem_iff qs s i).2 hs)]
    exact hx
  constructor
  · intro rhs hm
    rw [mem_writeLossGainPy] at hm
    obtain ⟨s', hs', hx', -⟩ := hm
    exact hx' (hi s' hs')
  · intro rhs hm
    have hm' : Line.asg (i + 1) rhs ∈
        ((build qs).gen.index.map (fun p => [tendencyLineF (build qs).gen p])).flatten := by
      unfold writeLossGainF withOmp at hm
      cases cores with
      | none => exact hm
      | some c =>
        simp only [Option.map_some, List.mem_append, List.mem_flatten, List.mem_map] at hm
        rcases hm with ⟨l, ⟨p, hp, rfl⟩, hl⟩ | hm
        · rcases List.mem_append.1 hl with hl | hl
          · unfold ompBefore at hl
            split at hl <;> split at hl <;> simp at hl
          · rw [List.mem_flatten]
            exact ⟨p.1, (List.mem_zipIdx hp).2.2 ▸ List.getElem_mem _, hl⟩
        · simp at hm
    rw [mem_tendencyLinesF] at hm'
    obtain ⟨s', j, hs', hx', -, hj, -⟩ := hm'
    have : j = i := by omega
    subst this
    exact hx' (hi s' hs')

/-- A mechanism in which a bath gas is consumed and produced. -/
def bathText : Str := "{1.}O+O2=O3:K;{2.}OH+HO2=H2O+O2:K;".toList

def bathReactions : List RawEqn :=
  [{ reactants := [(1, "O".toList), (1, "O2".toList)], products := [(1, "O3".toList)], rate := "K".toList },
   { reactants := [(1, "OH".toList), (1, "HO2".toList)],
     products := [(1, "H2O".toList), (1, "O2".toList)], rate := "K".toList }]

theorem bath_parses :
    extractMechanism bathText = .ok { tables := build bathReactions, equations := 2 } := by
  rw [extract_ok_iff]
  refine ⟨"2.".toList, 2, bathReactions, ?_, by decide +kernel, ?_, rfl⟩
  · rw [labels_eq _ (not_mem_removeChar _ _)]; decide +kernel
  · rw [bodies_eq _ (not_mem_removeChar _ _)]; decide +kernel

example : extractMechanism bathText = .ok ⟨build bathReactions, 2⟩ ∧
    (build bathReactions).index.get? "O2".toList = some 1 ∧ "O2".toList ∈ heldConstant :=
  ⟨bath_parses, by decide +kernel, by decide +kernel⟩

/-! ## C16 -/

/-- Total weight of one side of a reaction. -/
def Spec.weight (w : Str → ℝ) (terms : List (ℚ × Str)) : ℝ :=
  (terms.map (fun p => (p.1 : ℝ) * w p.2)).sum

/-- A reaction that conserves the weight, as written. -/
def Spec.Balanced (w : Str → ℝ) (q : RawEqn) : Prop :=
  weight w (chemReactants q) = weight w (chemProducts q)

/-- C16 in full. -/
def C16_Statement : Prop :=
  ∀ (text : Str) (m : Mechanism) (qs : List RawEqn), extractMechanism text = .ok m →
    Reads text m.equations.toNat qs →
    ∀ w : Str → ℝ, (∀ q ∈ qs, Balanced w q) → (∀ s ∈ heldConstant, w s = 0) →
      ∀ (env : Env) (out : Nat → ℝ),
        exec .python env (writeLossGainPy m.tables.gen) (fun _ => 0) = some out →
        (m.tables.index.map (fun p => w p.1 * out p.2)).sum = 0

theorem sum_coef (w : Str → ℝ) (S : List Str) (hS : S.Nodup) (l : List (ℚ × Str))
    (hl : ∀ s ∈ names l, s ∈ S) :
    (S.map (fun s => w s * (coef l s : ℝ))).sum = weight w l := by
  induction l with
  | nil =>
    have : (S.map (fun s => w s * (coef [] s : ℝ))) = S.map (fun _ => (0 : ℝ)) := by
      apply List.map_congr_left; intro s _; simp
    rw [this]; simp [weight]
  | cons p l ih =>
    have h1 := ih (fun s hs => hl s (by simp only [names, List.map_cons, List.mem_cons]; exact .inr hs))
    have hp : p.2 ∈ S := hl p.2 (by simp [names])
    have : weight w (p :: l) = (p.1 : ℝ) * w p.2 + weight w l := by simp [weight]
    rw [this, ← h1]
    have h2 : (S.map (fun s => w s * (coef (p :: l) s : ℝ))) =
        S.map (fun s => (if p.2 = s then (p.1 : ℝ) * w p.2 else 0) + w s * (coef l s : ℝ)) := by
      apply List.map_congr_left
      intro s _
      rw [coef_cons]
      by_cases he : p.2 = s
      · subst he; simp; ring
      · simp [he]
    rw [h2, List.sum_map_add]
    congr 1
    clear h1 h2 ih hl this
    induction S with
    | nil => simp at hp
    | cons s S ihS =>
      rw [List.nodup_cons] at hS
      rw [List.map_cons, List.sum_cons]
      by_cases he : p.2 = s
      · rw [if_pos he]
        have : (S.map (fun s => if p.2 = s then (p.1 : ℝ) * w p.2 else 0)) = S.map (fun _ => (0 : ℝ)) := by
          apply List.map_congr_left
          intro t ht
          rw [if_neg]
          rintro h; apply hS.1; rw [← he, h]; exact ht
        rw [this]; simp
      · rw [if_neg he, zero_add]
        apply ihS hS.2
        rcases List.mem_cons.1 hp with h | h
        · exact absurd h he
        · exact h

/-- The rate of change of a weighted total: every reaction contributes what its products weigh more than
its reactants. -/
theorem weighted_rate {text : Str} {m : Mechanism} (h : extractMechanism text = .ok m)
    {qs : List RawEqn} (hq : Reads text m.equations.toNat qs) (hg : ∀ q ∈ qs, GainGood q)
    (w : Str → ℝ) (hconst : ∀ s ∈ heldConstant, w s = 0) {env : Env} {a out : Nat → ℝ}
    (hout : exec .python env (writeLossGainPy m.tables.gen) a = some out) :
    (m.tables.index.map (fun p => w p.1 * out p.2)).sum = (qs.zipIdx.map (fun e =>
      env.r e.2 * (weight w (chemProducts e.1) - weight w (chemReactants e.1)))).sum := by
  obtain ⟨h2, -⟩ := extract_tables h hq
  have hval : ∀ p ∈ m.tables.index, w p.1 * out p.2 = (qs.zipIdx.map (fun e =>
      env.r e.2 * (w p.1 * (coef (chemProducts e.1) p.1 : ℝ) - w p.1 * (coef (chemReactants e.1) p.1 : ℝ)))).sum := by
    intro p hp
    by_cases hx : p.1 ∈ heldConstant
    · rw [hconst _ hx]; simp
    · have hs : m.tables.index.get? p.1 = some p.2 := by
        rw [h2] at hp ⊢; exact (index_mem_iff qs p.1 p.2).1 hp
      rw [C12_written h hq hg hout hs hx, ← List.sum_map_mul_left]
      congr 1
      apply List.map_congr_left
      intro e _
      ring
  have hswap : ∀ (I : List (Str × Nat)) (E : List (RawEqn × Nat)) (F : (Str × Nat) → (RawEqn × Nat) → ℝ),
      (I.map (fun p => (E.map (F p)).sum)).sum = (E.map (fun e => (I.map (fun p => F p e)).sum)).sum := by
    intro I E F
    induction I with
    | nil => simp
    | cons p I ih => simp only [List.map_cons, List.sum_cons]; rw [ih, ← List.sum_map_add]
  rw [List.map_congr_left hval, hswap]
  congr 1
  apply List.map_congr_left
  intro e he
  rw [List.sum_map_mul_left]
  have hsub : ∀ (I : List (Str × Nat)) (F G : Str × Nat → ℝ),
      (I.map (fun p => F p - G p)).sum = (I.map F).sum - (I.map G).sum := by
    intro I F G
    induction I with
    | nil => simp
    | cons p I ih => simp only [List.map_cons, List.sum_cons]; rw [ih]; ring
  rw [hsub]
  have hqm : e.1 ∈ qs := by
    have := (List.mem_zipIdx he).2.2
    rw [this]; exact List.getElem_mem _
  have hS : ∀ terms : List (ℚ × Str), (∀ s ∈ names terms, s ∈ occurrences e.1) →
      (m.tables.index.map (fun p => w p.1 * (coef terms p.1 : ℝ))).sum = weight w terms := by
    intro terms ht
    have hi := spInv_build qs
    rw [← sum_coef w (registered qs) hi.nodup terms]
    · rw [h2, hi.index_eq]
      congr 1
      conv_rhs => rw [← zipIdx_keys (registered qs)]
      unfold Dict.keys
      rw [List.map_map]; rfl
    · intro s hs
      rw [mem_registered, allOccurrences, List.mem_flatMap]
      exact ⟨e.1, hqm, ht s hs⟩
  rw [hS (chemProducts e.1) (fun s hs => mem_occurrences_right hs),
    hS (chemReactants e.1) (fun s hs => mem_occurrences_left hs)]

/-- C16, the part that holds: mechanisms whose products are recorded correctly (C06). Missing:
mechanisms with reactions violating `GainGood`, whose recorded products do not balance. -/
theorem C16_conservation_partial {text : Str} {m : Mechanism} (h : extractMechanism text = .ok m)
    {qs : List RawEqn} (hq : Reads text m.equations.toNat qs) (hg : ∀ q ∈ qs, GainGood q)
    (w : Str → ℝ) (hbal : ∀ q ∈ qs, Balanced w q) (hconst : ∀ s ∈ heldConstant, w s = 0)
    (env : Env) (a : Nat → ℝ) :
    ∃ out, exec .python env (writeLossGainPy m.tables.gen) a = some out ∧
      (m.tables.index.map (fun p => w p.1 * out p.2)).sum = 0 := by
  have hsome : (exec .python env (writeLossGainPy m.tables.gen) a).isSome := by
    rw [exec_isSome_iff]
    intro k rhs hm
    exact (C18_valid_partial h hq hg k rhs hm).2 env
  obtain ⟨out, hout⟩ := Option.isSome_iff_exists.1 hsome
  refine ⟨out, hout, ?_⟩
  rw [weighted_rate h hq hg w hconst hout]
  have hzero : ∀ e ∈ qs.zipIdx, env.r e.2 *
      (weight w (chemProducts e.1) - weight w (chemReactants e.1)) = 0 := by
    intro e he
    have hqm : e.1 ∈ qs := by
      have := (List.mem_zipIdx he).2.2
      rw [this]; exact List.getElem_mem _
    rw [hbal e.1 hqm]
    ring
  rw [List.map_congr_left hzero]
  simp

/-- C16 does not hold for all mechanisms: `HCHO = CO + HO2 + HO2; OH + CO = CO + HO2` conserves
hydrogen, the generated tendencies do not. -/
theorem C16_false : ¬ C16_Statement := by
  intro h
  let w : Str → ℝ := fun s => if s = "HCHO".toList then 2 else if s = "HO2".toList then 1 else
    if s = "OH".toList then 1 else 0
  have wa : w "HCHO".toList = 2 := if_pos rfl
  have wb : w "CO".toList = 0 := by
    simp only [w]; rw [if_neg (by decide), if_neg (by decide), if_neg (by decide)]
  have wc : w "HO2".toList = 1 := by
    simp only [w]; rw [if_neg (by decide)]; exact if_pos trivial
  have wd : w "OH".toList = 1 := by
    simp only [w]; rw [if_neg (by decide), if_neg (by decide)]; exact if_pos trivial
  let env : Env := ⟨fun _ => 0, fun e => if e = 1 then 1 else 0⟩
  have hv : (exec .python env (writeLossGainPy (build badReactions).gen) (fun _ => 0)).isSome := by
    refine (C18_valid_iff bad_parses env _).2 ?_
    intro s i hi _
    obtain ⟨q, hq, hs⟩ := (indexed_iff badReactions s).1 ⟨i, hi⟩
    have hall : ∀ q ∈ badReactions, ∀ s ∈ occurrences q,
        (∃ e ∈ [0, 1], cell (build badReactions).gain s e ≠ none ∨ cell (build badReactions).loss s e ≠ none) := by
      decide +kernel
    obtain ⟨e, -, he⟩ := hall q hq s hs
    exact ⟨e, he⟩
  obtain ⟨out, hout⟩ := Option.isSome_iff_exists.1 hv
  have hsum := h badText _ badReactions bad_parses bad_reads w ?_ ?_ env out hout
  · have hidx : (build badReactions).index =
        [("HCHO".toList, 0), ("CO".toList, 1), ("HO2".toList, 2), ("OH".toList, 3)] := by decide +kernel
    have hval : ∀ s i, (build badReactions).index.get? s = some i → s ∉ heldConstant →
        out i = (recorded (build badReactions).gain s 1 : ℝ) - (recorded (build badReactions).loss s 1 : ℝ) := by
      intro s i hs hx
      rw [C12_gain_minus_loss bad_parses hout hs hx]
      simp [env]
    have v0 := hval "HCHO".toList 0 (by decide +kernel) (by decide +kernel)
    have v2 := hval "HO2".toList 2 (by decide +kernel) (by decide +kernel)
    have v3 := hval "OH".toList 3 (by decide +kernel) (by decide +kernel)
    rw [show recorded (build badReactions).gain "HCHO".toList 1 = 0 by decide +kernel,
      show recorded (build badReactions).loss "HCHO".toList 1 = 0 by decide +kernel] at v0
    rw [show recorded (build badReactions).gain "HO2".toList 1 = 0 by decide +kernel,
      show recorded (build badReactions).loss "HO2".toList 1 = 0 by decide +kernel] at v2
    rw [show recorded (build badReactions).gain "OH".toList 1 = 0 by decide +kernel,
      show recorded (build badReactions).loss "OH".toList 1 = 1 by decide +kernel] at v3
    dsimp only at hsum
    rw [hidx] at hsum
    simp only [List.map_cons, List.map_nil, List.sum_cons, List.sum_nil, v0, v2, v3, wa, wb, wc, wd] at hsum
    norm_num at hsum
  · intro q hq
    simp only [badReactions, List.mem_cons, List.not_mem_nil, or_false] at hq
    rcases hq with rfl | rfl
    · show weight w [(1, "HCHO".toList)] = weight w [(1, "CO".toList), (1, "HO2".toList), (1, "HO2".toList)]
      simp only [weight, List.map_cons, List.map_nil, List.sum_cons, List.sum_nil, wa, wb, wc]
      norm_num
    · show weight w [(1, "OH".toList), (1, "CO".toList)] = weight w [(1, "CO".toList), (1, "HO2".toList)]
      simp only [weight, List.map_cons, List.map_nil, List.sum_cons, List.sum_nil, wb, wc, wd]
      norm_num
  · intro s hs
    simp only [heldConstant, List.mem_cons, List.not_mem_nil, or_false] at hs
    rcases hs with rfl | rfl | rfl | rfl <;> simp only [w] <;>
      rw [if_neg (by decide), if_neg (by decide), if_neg (by decide)]

/-- Nitrogen is conserved by the sample mechanism, which meets the hypotheses of C16. -/
example : extractMechanism sampleText = .ok ⟨build sampleReactions, 3⟩ ∧
    Reads sampleText 3 sampleReactions ∧ (∀ q ∈ sampleReactions, GainGood q) ∧
    (∀ q ∈ sampleReactions,
      ((chemReactants q).map (fun p => p.1 * (if p.2 = "NO".toList ∨ p.2 = "NO2".toList then 1 else 0))).sum =
      ((chemProducts q).map (fun p => p.1 * (if p.2 = "NO".toList ∨ p.2 = "NO2".toList then 1 else 0))).sum) :=
  ⟨sample_parses, sample_reads, by decide +kernel, by decide +kernel⟩

/-! ## C17 -/

/-- The right-hand side of the ODE as assembled by `dydt_func` (ODE_solver.py lines 102–109, also
f2py/ODE_solver.py): reactant products on a zero array, multiplied by the rate coefficients `k`, and
passed to the tendency routine with a zero array. `none` if a generator raises or a generated file is
not a valid program. Simplified: the rate coefficients are an argument. -/
noncomputable def gasRhs (t : Tables) (equations : Nat) (k y : Nat → ℝ) : Option (Nat → ℝ) :=
  match writeReactantsPy t.gen equations with
  | .error _ => none
  | .ok P =>
    (exec .python ⟨y, fun _ => 0⟩ P (fun _ => 0)).bind (fun f =>
      exec .python ⟨y, fun e => f e * k e⟩ (writeLossGainPy t.gen) (fun _ => 0))

theorem coef_nonneg {l : List (ℚ × Str)} (hpos : ∀ p ∈ l, 0 < p.1) (s : Str) : 0 ≤ coef l s := by
  by_cases hs : s ∈ names l
  · exact (coef_pos hpos hs).le
  · rw [coef_of_not_mem hs]

theorem gainEntry_nonneg {q : RawEqn} (hpos : ∀ p ∈ chemProducts q, 0 < p.1) {s : Str} {c : ℚ}
    (h : gainEntry q s = some c) : 0 ≤ c := by
  rw [gainEntry_eq] at h
  have happ := upTo_append (lastName q) (chemProducts q)
  split at h
  · injection h with h
    subst h
    have h1 : ∀ p ∈ (upTo (lastName q) (chemProducts q)).1, 0 < p.1 := fun p hp =>
      hpos p (by rw [← happ]; exact List.mem_append_left _ hp)
    have h2 : ∀ p ∈ (upTo (lastName q) (chemProducts q)).2, 0 < p.1 := fun p hp =>
      hpos p (by rw [← happ]; exact List.mem_append_right _ hp)
    apply add_nonneg _ (coef_nonneg h2 s)
    unfold lastCoef
    cases hl : (((upTo (lastName q) (chemProducts q)).1.filter (fun p => p.2 = s)).getLast?) with
    | none => simp
    | some p =>
      have := List.mem_of_getLast? hl
      simpa using (h1 p (List.mem_filter.1 this).1).le
  · simp at h

/-- C17: with positive written coefficients, non-negative concentrations and non-negative rate
coefficients, the tendency of a species whose concentration is zero is not negative. -/
theorem C17_quasi_positive {text : Str} {m : Mechanism} (h : extractMechanism text = .ok m)
    {qs : List RawEqn} (hq : Reads text m.equations.toNat qs)
    (hpos : ∀ q ∈ qs, ∀ p ∈ chemReactants q ++ chemProducts q, 0 < p.1)
    {k y : Nat → ℝ} (hk : ∀ e, 0 ≤ k e) (hy : ∀ i, 0 ≤ y i) {out : Nat → ℝ}
    (hrun : gasRhs m.tables m.equations.toNat k y = some out) {i : Nat} (hi : y i = 0) : 0 ≤ out i := by
  obtain ⟨P, hP, hex⟩ := C10_value h hq
  have hH : Holds m (⟨y, fun _ => 0⟩ : Env).y (fun s => y (m.tables.index.getD s 0)) := by
    intro s i hi
    have : m.tables.index.getD s 0 = i := by unfold Dict.getD; rw [hi]; rfl
    simp only [this]
  obtain ⟨f, hf, hval, -⟩ := hex ⟨y, fun _ => 0⟩ _ (fun _ => 0) hH
  unfold gasRhs at hrun
  rw [hP] at hrun
  dsimp only at hrun
  rw [hf, Option.bind_some] at hrun
  obtain ⟨h2, h3⟩ := extract_tables h hq
  have hfnn : ∀ e q, qs[e]? = some q → 0 ≤ f e := by
    intro e q he
    rw [hval e q he]
    split
    · exact le_refl _
    · apply List.prod_nonneg
      intro x hx
      rw [List.mem_map] at hx
      obtain ⟨s, -, rfl⟩ := hx
      exact Real.rpow_nonneg (hy _) _
  by_cases hs : ∃ s, m.tables.index.get? s = some i ∧ s ∉ heldConstant
  · obtain ⟨s, hs, hx⟩ := hs
    rw [C12_gain_minus_loss h hrun hs hx]
    apply Finset.sum_nonneg
    intro e he
    have he' : e < qs.length := by rw [h3]; exact Finset.mem_range.1 he
    have hqe : qs[e]? = some qs[e] := List.getElem?_eq_getElem he'
    have hmem : qs[e] ∈ qs := List.getElem_mem he'
    have hfe := hfnn e _ hqe
    have hgain : 0 ≤ recorded m.tables.gain s e := by
      unfold recorded
      rw [cell_gain h hq, hqe, Option.bind_some]
      cases hc : gainEntry qs[e] s with
      | none => simp
      | some c => exact gainEntry_nonneg (fun p hp => hpos _ hmem p (List.mem_append_right _ hp)) hc
    have hgain' : (0 : ℝ) ≤ (recorded m.tables.gain s e : ℝ) := by exact_mod_cast hgain
    by_cases hr : s ∈ names (chemReactants qs[e])
    · have hne : chemReactants qs[e] ≠ [] := by
        intro hn; rw [hn] at hr; simp [names] at hr
      have hzero : f e = 0 := by
        rw [hval e _ hqe, if_neg hne]
        apply List.prod_eq_zero
        rw [List.mem_map]
        refine ⟨s, hr, ?_⟩
        have : m.tables.index.getD s 0 = i := by unfold Dict.getD; rw [hs]; rfl
        rw [this, hi]
        apply Real.zero_rpow
        have := coef_pos (fun p hp => hpos _ hmem p (List.mem_append_left _ hp)) hr
        have : (0 : ℝ) < (coef (chemReactants qs[e]) s : ℝ) := by exact_mod_cast this
        exact this.ne'
      dsimp only
      rw [hzero]; simp
    · have hloss : recorded m.tables.loss s e = 0 := by
        unfold recorded
        rw [C05_loss_coefficients h hq, hqe, Option.bind_some, if_neg hr]; rfl
      rw [hloss]
      simp only [Rat.cast_zero, sub_zero]
      exact mul_nonneg hgain' (mul_nonneg hfe (hk e))
  · have hi' : ∀ s, (build qs).index.get? s = some i → s ∈ excluded := by
      intro s hs'
      by_contra hc
      exact hs ⟨s, by rw [h2]; exact hs', hc⟩
    rw [h2] at hrun
    rw [untouchedPy hrun hi']

example : extractMechanism sampleText = .ok ⟨build sampleReactions, 3⟩ ∧
    Reads sampleText 3 sampleReactions ∧
    (∀ q ∈ sampleReactions, ∀ p ∈ chemReactants q ++ chemProducts q, 0 < p.1) ∧
    (∃ out, gasRhs (build sampleReactions) 3 (fun _ => 1) (fun i => if i = 5 then 0 else 1) = some out) := by
  refine ⟨sample_parses, sample_reads, by decide +kernel, ?_⟩
  obtain ⟨P, hP, hex⟩ := C10_value sample_parses sample_reads
  have hP' : writeReactantsPy (build sampleReactions).gen 3 = .ok P := hP
  unfold gasRhs
  rw [hP']
  dsimp only
  obtain ⟨f, hf, -⟩ := hex ⟨fun i => if i = 5 then 0 else 1, fun _ => 0⟩
    (fun s => (fun i => if i = 5 then 0 else 1) ((build sampleReactions).index.getD s 0)) (fun _ => 0) (by
      intro s i hi
      have hi' : (build sampleReactions).index.get? s = some i := hi
      have : (build sampleReactions).index.getD s 0 = i := by unfold Dict.getD; rw [hi']; rfl
      simp only [this])
  rw [hf, Option.bind_some]
  apply Option.isSome_iff_exists.1
  rw [exec_isSome_iff]
  intro k rhs hm
  exact (C18_valid_partial sample_parses sample_reads (by decide +kernel) k rhs hm).2 _

end PyBox
