import Verif.Sim.Rhs

/-!
# C55, C56: the functions handed to the ODE solver
-/

namespace PyBox

open Spec

namespace Spec

/-- Total concentration of the peroxy radicals the mechanism contains. -/
noncomputable def radicalSum (index : Dict Str Nat) (y : Nat → ℝ) : ℝ :=
  (peroxyRadicals.map (fun s => match index.get? s with
    | some i => y i
    | none => 0)).sum

/-- The rate law of species `s`: over all reactions, stoichiometric coefficient as written, times rate
coefficient, times mass action product. -/
noncomputable def rateLaw (qs : List RawEqn) (conc : Str → ℝ) (K : Nat → ℝ) (s : Str) : ℝ :=
  (qs.zipIdx.map (fun p => ((coef (chemProducts p.1) s : ℝ) - (coef (chemReactants p.1) s : ℝ)) *
    (K p.2 * massAction conc p.1))).sum

/-- The right-hand side is the kinetic system of the mechanism: for every state and time it is defined,
the tendency of a species is its rate law with the coefficients at the time of day and with the total
of the peroxy radicals, and species held constant have tendency zero. -/
def KineticRhs (m : Mechanism) (qs : List RawEqn) (rates : Rates) (start h2o temp : ℝ) : Prop :=
  ∀ (time : ℝ) (y : Nat → ℝ), ∃ out,
    dydtFunc m.tables m.equations.toNat (ro2Indices m.tables.index) rates start h2o temp time y
      = some out ∧
    ∀ s i, m.tables.index.get? s = some i → out i = if s ∈ heldConstant then 0 else
      rateLaw qs (concOf m.tables y)
        (rates (start + time) (radicalSum m.tables.index y) h2o temp) s

/-- A reaction the generators treat correctly: it names a reactant, names each once, and its products
are recorded. -/
structure Regular (q : RawEqn) : Prop where
  some : chemReactants q ≠ []
  once : (names (chemReactants q)).Nodup
  gain : GainGood q

end Spec

/-! ### The peroxy radical total -/

theorem peroxyRadicals_nodup : peroxyRadicals.Nodup :=
  List.Nodup.of_map (fun s => strCode s % 77677) (distinctFrom_nodup _ 0 (by decide +kernel)).1

theorem radicalSum_eq {text : Str} {m : Mechanism} (h : extractMechanism text = .ok m)
    (hn : ∀ s ∈ lostRadicals ++ damagedEntries, m.tables.index.get? s = none) (y : Nat → ℝ) :
    ((ro2Indices m.tables.index).map y).sum = radicalSum m.tables.index y := by
  have h1 : radicalSum m.tables.index y
      = ((peroxyRadicals.filterMap m.tables.index.get?).map y).sum := by
    unfold radicalSum
    generalize peroxyRadicals = l
    induction l with
    | nil => rfl
    | cons s l ih =>
      rw [List.map_cons, List.sum_cons, ih, List.filterMap_cons]
      cases m.tables.index.get? s <;> simp
  rw [h1]
  have hc := (C31_exact h).2 hn
  have hnd : (peroxyRadicals.filterMap m.tables.index.get?).Nodup := by
    refine List.Nodup.filterMap ?_ peroxyRadicals_nodup
    intro a b i ha hb
    exact index_injective h ha hb
  refine (List.Perm.map _ ((List.perm_ext_iff_of_nodup hc.1 hnd).2 fun i => ?_)).sum_eq
  rw [hc.2, List.mem_filterMap]

theorem ro2Total_some {indices : List Nat} (h : indices ≠ []) (y : Nat → ℝ) :
    ro2Total indices y = some (indices.map y).sum := if_neg h

theorem dydtFunc_eq {indices : List Nat} (h : indices ≠ []) (t : Tables) (n : Nat) (rates : Rates)
    (start h2o temp time : ℝ) (y : Nat → ℝ) :
    dydtFunc t n indices rates start h2o temp time y
      = gasRhs t n (rates (start + time) (indices.map y).sum h2o temp) y := by
  unfold dydtFunc
  rw [ro2Total_some h]
  rfl

/-! ## C55: the kinetic system -/

/-- C55 as stated. -/
def C55_Statement : Prop :=
  ∀ (text : Str) (m : Mechanism) (qs : List RawEqn), extractMechanism text = .ok m →
    Reads text m.equations.toNat qs → ∀ (rates : Rates) (start h2o temp : ℝ),
      KineticRhs m qs rates start h2o temp

/-- C55, what the code computes for every mechanism with a listed radical: recorded coefficients, each
occurrence of a reactant raised to its total coefficient, and the radicals of the saved list. -/
theorem C55_value {text : Str} {m : Mechanism} (h : extractMechanism text = .ok m)
    {qs : List RawEqn} (hq : Reads text m.equations.toNat qs) (rates : Rates)
    (start h2o temp time : ℝ) (y out : Nat → ℝ)
    (hrun : dydtFunc m.tables m.equations.toNat (ro2Indices m.tables.index) rates start h2o temp time y
      = some out) {s : Str} {i : Nat} (hs : m.tables.index.get? s = some i) :
    out i = if s ∈ heldConstant then 0 else
      ∑ e ∈ Finset.range qs.length, netRecorded m.tables s e *
        ((match qs[e]? with | some q => codeProduct q (concOf m.tables y) | none => 0) *
          rates (start + time) ((ro2Indices m.tables.index).map y).sum h2o temp e) := by
  have hne : ro2Indices m.tables.index ≠ [] := by
    intro hn
    unfold dydtFunc ro2Total at hrun
    rw [if_pos hn] at hrun
    cases hrun
  rw [dydtFunc_eq hne] at hrun
  by_cases hx : s ∈ heldConstant
  · rw [if_pos hx]
    obtain ⟨P, hP, hex⟩ := C10_value h hq
    unfold gasRhs at hrun
    rw [hP] at hrun
    dsimp only at hrun
    obtain ⟨f, hf, -⟩ := hex ⟨y, fun _ => 0⟩ (concOf m.tables y) (fun _ => 0) (concOf_holds m.tables y)
    rw [hf, Option.bind_some] at hrun
    obtain ⟨h2, -⟩ := extract_tables h hq
    rw [h2] at hrun hs
    exact untouchedPy hrun (fun s' hs' => by rw [index_inj' qs hs' hs]; exact hx)
  · rw [if_neg hx]
    exact gasRhs_value h hq hrun hs hx

/-- The right-hand side with given rate coefficients, for regular reactions. -/
theorem gasRhs_rateLaw {text : Str} {m : Mechanism} (h : extractMechanism text = .ok m)
    {qs : List RawEqn} (hq : Reads text m.equations.toNat qs) (hreg : ∀ q ∈ qs, Regular q) (K y : Nat → ℝ) :
    ∃ out, gasRhs m.tables m.equations.toNat K y = some out ∧
      ∀ s i, m.tables.index.get? s = some i → out i = if s ∈ heldConstant then 0 else
        rateLaw qs (concOf m.tables y) K s := by
  obtain ⟨P, hP, hex⟩ := C10_mass_action_partial h hq
  obtain ⟨f, hf, hval⟩ := hex ⟨y, fun _ => 0⟩ (concOf m.tables y) (fun _ => 0)
    (concOf_holds m.tables y)
  unfold gasRhs
  rw [hP]
  dsimp only
  rw [hf, Option.bind_some]
  have hsome : (exec .python ⟨y, fun e => f e * K e⟩ (writeLossGainPy m.tables.gen)
      (fun _ => 0)).isSome := by
    rw [exec_isSome_iff]
    intro k rhs hm
    exact (C18_valid_partial h hq (fun q hq => (hreg q hq).gain) k rhs hm).2 _
  obtain ⟨out, hout⟩ := Option.isSome_iff_exists.1 hsome
  refine ⟨out, hout, fun s i hs => ?_⟩
  by_cases hx : s ∈ heldConstant
  · rw [if_pos hx]
    obtain ⟨h2, -⟩ := extract_tables h hq
    rw [h2] at hout hs
    exact untouchedPy hout (fun s' hs' => by rw [index_inj' qs hs' hs]; exact hx)
  · rw [if_neg hx, C12_written h hq (fun q hq => (hreg q hq).gain) hout hs hx]
    unfold rateLaw
    congr 1
    refine List.map_congr_left fun p hp => ?_
    have hqe : qs[p.2]? = some p.1 := by
      have := List.mem_zipIdx hp
      rw [List.getElem?_eq_some_iff]
      exact ⟨by omega, by rw [this.2.2]; simp⟩
    have hr := hreg p.1 (List.mem_of_getElem? hqe)
    dsimp only
    rw [hval p.2 p.1 hqe hr.some hr.once]
    ring

/-- C55, the part that holds: mechanisms with at least one listed peroxy radical, without the names
that are misspelled in the list, and with regular reactions. Missing: reactions that repeat a reactant
or have only photons as reactants, or whose products are recorded wrongly, and mechanisms without
radicals. -/
theorem C55_kinetics_partial {text : Str} {m : Mechanism} (h : extractMechanism text = .ok m)
    {qs : List RawEqn} (hq : Reads text m.equations.toNat qs) (hreg : ∀ q ∈ qs, Regular q)
    (hrad : ∃ s ∈ ro2Names, (m.tables.index.get? s).isSome)
    (hn : ∀ s ∈ lostRadicals ++ damagedEntries, m.tables.index.get? s = none)
    (rates : Rates) (start h2o temp : ℝ) : KineticRhs m qs rates start h2o temp := by
  intro time y
  have hne : ro2Indices m.tables.index ≠ [] := by
    obtain ⟨s, hs, hg⟩ := hrad
    rw [ro2Indices_eq]
    intro he
    rw [List.filterMap_eq_nil_iff] at he
    rw [he s hs] at hg
    cases hg
  rw [dydtFunc_eq hne, radicalSum_eq h hn]
  exact gasRhs_rateLaw h hq hreg _ y

/-- Without a listed radical the function raises an error, whatever the state. -/
theorem C55_no_radicals {text : Str} {m : Mechanism} (_ : extractMechanism text = .ok m)
    (hno : ∀ s ∈ ro2Names, m.tables.index.get? s = none) (rates : Rates)
    (start h2o temp time : ℝ) (y : Nat → ℝ) :
    dydtFunc m.tables m.equations.toNat (ro2Indices m.tables.index) rates start h2o temp time y
      = none := by
  have : ro2Indices m.tables.index = [] := by
    rw [ro2Indices_eq, List.filterMap_eq_nil_iff]
    exact hno
  unfold dydtFunc ro2Total
  rw [if_pos this]
  rfl

def selfText : Str := "{1.}CH3O2+CH3O2=HCHO:K;".toList

def selfReactions : List RawEqn :=
  [{ reactants := [(1, "CH3O2".toList), (1, "CH3O2".toList)], products := [(1, "HCHO".toList)],
     rate := "K".toList }]

theorem self_parses :
    extractMechanism selfText = .ok { tables := build selfReactions, equations := 1 } := by
  rw [extract_ok_iff]
  refine ⟨"1.".toList, 1, selfReactions, ?_, by decide +kernel, ?_, rfl⟩
  · rw [labels_eq _ (not_mem_removeChar _ _)]; decide +kernel
  · rw [bodies_eq _ (not_mem_removeChar _ _)]; decide +kernel

theorem self_reads : Reads selfText 1 selfReactions := by
  unfold Reads bodyTexts; decide +kernel

/-- C55 does not hold: for `CH3O2 + CH3O2 = HCHO` the code has the fourth power of the concentration. -/
theorem C55_false : ¬ C55_Statement := by
  intro h
  have hs : (build selfReactions).index.get? "HCHO".toList = some 1 := by decide +kernel
  have hx : "HCHO".toList ∉ heldConstant := by decide +kernel
  obtain ⟨out, hrun, hval⟩ := h selfText _ selfReactions self_parses self_reads (fun _ _ _ _ _ => 1)
    0 0 0 0 (fun _ => 2)
  have h1 := hval _ _ hs
  rw [C55_value self_parses self_reads _ _ _ _ _ _ out hrun hs, if_neg hx, if_neg hx] at h1
  have hn : netRecorded (build selfReactions) "HCHO".toList 0 = 1 := by
    have h1 : recorded (build selfReactions).gain "HCHO".toList 0 = 1 := by decide +kernel
    have h2 : recorded (build selfReactions).loss "HCHO".toList 0 = 0 := by decide +kernel
    unfold netRecorded
    rw [h1, h2]; norm_num
  have hr : chemReactants selfReactions[0] ≠ [] := by decide +kernel
  have hnames : names (chemReactants selfReactions[0]) = ["CH3O2".toList, "CH3O2".toList] := by
    decide +kernel
  have hset : (names (chemReactants selfReactions[0])).toFinset = {"CH3O2".toList} := by
    decide +kernel
  have hc : coef (chemReactants selfReactions[0]) "CH3O2".toList = 2 := by decide +kernel
  have hp : coef (chemProducts selfReactions[0]) "HCHO".toList = 1 := by decide +kernel
  have hl : coef (chemReactants selfReactions[0]) "HCHO".toList = 0 := by decide +kernel
  have hz : selfReactions.zipIdx = [(selfReactions[0], 0)] := rfl
  have hone : concOf (build selfReactions) (fun _ => (2 : ℝ)) = fun _ => 2 := rfl
  have hlen : selfReactions.length = 1 := rfl
  have hget : selfReactions[0]? = some selfReactions[0] := rfl
  rw [hlen, Finset.sum_range_one, hget] at h1
  dsimp only at h1
  unfold rateLaw codeProduct massAction at h1
  rw [hz, List.map_singleton, List.sum_singleton] at h1
  dsimp only at h1
  rw [hn, if_neg hr, hset, hnames, Finset.prod_singleton, List.map_cons, List.map_singleton,
    List.prod_cons, List.prod_singleton, hc, hp, hl, hone] at h1
  norm_num at h1

def radicalText : Str := "{1.}CH3O2+NO=HCHO+NO2:2.30D-12*EXP(360/TEMP);{2.}NO2=NO+O:J(4);".toList

def radicalReactions : List RawEqn :=
  [{ reactants := [(1, "CH3O2".toList), (1, "NO".toList)],
     products := [(1, "HCHO".toList), (1, "NO2".toList)],
     rate := "2.30D-12*EXP(360/TEMP)".toList },
   { reactants := [(1, "NO2".toList)], products := [(1, "NO".toList), (1, "O".toList)],
     rate := "J(4)".toList }]

theorem radical_parses :
    extractMechanism radicalText = .ok { tables := build radicalReactions, equations := 2 } := by
  rw [extract_ok_iff]
  refine ⟨"2.".toList, 2, radicalReactions, ?_, by decide +kernel, ?_, rfl⟩
  · rw [labels_eq _ (not_mem_removeChar _ _)]; decide +kernel
  · rw [bodies_eq _ (not_mem_removeChar _ _)]; decide +kernel

theorem radical_reads : Reads radicalText 2 radicalReactions := by
  unfold Reads bodyTexts; decide +kernel

theorem radical_regular : ∀ q ∈ radicalReactions, Regular q := by
  have h : ∀ q ∈ radicalReactions, chemReactants q ≠ [] ∧ (names (chemReactants q)).Nodup ∧
      GainGood q := by decide +kernel
  exact fun q hq => ⟨(h q hq).1, (h q hq).2.1, (h q hq).2.2⟩

/-- The hypotheses of the correct case are met by two coupled reactions. -/
example : extractMechanism radicalText = .ok ⟨build radicalReactions, 2⟩ ∧
    Reads radicalText 2 radicalReactions ∧ (∀ q ∈ radicalReactions, Regular q) ∧
    (∃ s ∈ ro2Names, ((build radicalReactions).index.get? s).isSome) ∧
    ∀ s ∈ lostRadicals ++ damagedEntries, (build radicalReactions).index.get? s = none :=
  ⟨radical_parses, radical_reads, radical_regular, ⟨"CH3O2".toList, by decide +kernel⟩,
    by decide +kernel⟩

/-- A mechanism without radicals is accepted and cannot be run. -/
example : ∀ s ∈ ro2Names, (build sampleReactions).index.get? s = none := by decide +kernel

/-! ## C56: the Jacobian handed to the solver -/

/-- C56 as stated: the matrix handed to the solver is the derivative of the function handed to the
solver, for reactions whose terms are written correctly (C19). -/
def C56_Statement : Prop :=
  ∀ (text : Str) (m : Mechanism) (qs : List RawEqn), extractMechanism text = .ok m →
    Reads text m.equations.toNat qs → ∀ (ord : SetOrder), ord.Valid →
    ∀ P, writeJacobianPy m.tables.gen ord = .ok P →
    ∀ (rates : Rates) (start h2o temp time : ℝ),
      (∀ e, Differentiable ℝ (fun ro2 => rates (start + time) ro2 h2o temp e)) →
    ∀ (f : (Nat → ℝ) → Nat → ℝ) (J : (Nat → ℝ) → Nat × Nat → ℝ),
      (∀ y, dydtFunc m.tables m.equations.toNat (ro2Indices m.tables.index) rates start h2o temp time y
        = some (f y)) →
      (∀ y, jacFunc P (ro2Indices m.tables.index) rates start h2o temp time y = some (J y)) →
    ∀ s x i j, m.tables.index.get? s = some i → m.tables.index.get? x = some j → s ∉ heldConstant →
      (∀ e q, qs[e]? = some q → x ∈ names (chemReactants q) →
        (cell m.tables.gain s e ≠ none ∨ cell m.tables.loss s e ≠ none) →
        Spec.Differentiable m.tables q s x e) →
      ∀ y, HasDerivAt (fun v => f (Function.update y j v) i) (J y (i, j)) (y j)

theorem sum_update (l : List Nat) (y : Nat → ℝ) (j : Nat) (v : ℝ) :
    (l.map (Function.update y j v)).sum = (l.map y).sum + (l.count j : ℝ) * (v - y j) := by
  induction l with
  | nil => simp
  | cons a l ih =>
    rw [List.map_cons, List.sum_cons, ih, List.map_cons, List.sum_cons, List.count_cons]
    by_cases h : a = j
    · subst h; simp; ring
    · rw [Function.update_of_ne h]; simp [h]; ring

theorem hasDerivAt_affine {g : ℝ → ℝ} {d a : ℝ} (hg : HasDerivAt g d a) (c v₀ : ℝ) :
    HasDerivAt (fun v => g (a + c * (v - v₀))) (d * c) v₀ := by
  have hlin : HasDerivAt (fun v : ℝ => a + c * (v - v₀)) c v₀ := by
    have := (((hasDerivAt_id v₀).sub_const v₀).const_mul c).const_add a
    simpa using this
  have hg' : HasDerivAt g d (a + c * (v₀ - v₀)) := by simpa using hg
  exact HasDerivAt.comp v₀ hg' hlin

/-- The derivative of the right-hand side, with the dependence of the rate coefficients on the peroxy
radicals: the first sum is the derivative at fixed coefficients, the second comes from the
coefficients. -/
theorem C56_derivative {text : Str} {m : Mechanism} (h : extractMechanism text = .ok m)
    {qs : List RawEqn} (hq : Reads text m.equations.toNat qs) {rates : Rates}
    {start h2o temp time : ℝ} {f : (Nat → ℝ) → Nat → ℝ}
    (hf : ∀ y, dydtFunc m.tables m.equations.toNat (ro2Indices m.tables.index) rates start h2o temp
      time y = some (f y)) {s x : Str} {i j : Nat}
    (hs : m.tables.index.get? s = some i) (hxj : m.tables.index.get? x = some j)
    (hx : s ∉ heldConstant) (y : Nat → ℝ) {dk : Nat → ℝ}
    (hdk : ∀ e, HasDerivAt (fun ro2 => rates (start + time) ro2 h2o temp e) (dk e)
      ((ro2Indices m.tables.index).map y).sum)
    (hreg : ∀ e q, qs[e]? = some q → netRecorded m.tables s e ≠ 0 → x ∈ names (chemReactants q) →
      y j ≠ 0 ∨ 1 ≤ coef (chemReactants q) x) :
    HasDerivAt (fun v => f (Function.update y j v) i)
      (∑ e ∈ Finset.range qs.length, netRecorded m.tables s e *
        (match qs[e]? with | some q => trueDeriv q (concOf m.tables y) x | none => 0) *
          rates (start + time) ((ro2Indices m.tables.index).map y).sum h2o temp e +
       if x ∈ ro2Names then ∑ e ∈ Finset.range qs.length, netRecorded m.tables s e *
        (match qs[e]? with | some q => codeProduct q (concOf m.tables y) | none => 0) * dk e
       else 0) (y j) := by
  have hcount : ((ro2Indices m.tables.index).count j : ℝ) = if x ∈ ro2Names then 1 else 0 := by
    have hmem : j ∈ ro2Indices m.tables.index ↔ x ∈ ro2Names := by
      rw [ro2Indices_eq, List.mem_filterMap]
      constructor
      · rintro ⟨x', hx', hj⟩
        rw [index_injective h hj hxj] at hx'
        exact hx'
      · exact fun hx' => ⟨x, hx', hxj⟩
    by_cases hj : x ∈ ro2Names
    · rw [if_pos hj, List.count_eq_one_of_mem (C31_once h).1 (hmem.2 hj)]; norm_num
    · rw [if_neg hj, List.count_eq_zero_of_not_mem (fun hh => hj (hmem.1 hh))]; norm_num
  have hfun : (fun v => f (Function.update y j v) i) = fun v => ∑ e ∈ Finset.range qs.length,
      netRecorded m.tables s e *
        ((match qs[e]? with
          | some q => codeProduct q (concOf m.tables (Function.update y j v)) | none => 0) *
          rates (start + time) (((ro2Indices m.tables.index).map y).sum +
            ((ro2Indices m.tables.index).count j : ℝ) * (v - y j)) h2o temp e) := by
    funext v
    rw [C55_value h hq _ _ _ _ _ _ _ (hf _) hs, if_neg hx, sum_update]
  have hD : ∀ e ∈ Finset.range qs.length, HasDerivAt (fun v => netRecorded m.tables s e *
        ((match qs[e]? with
          | some q => codeProduct q (concOf m.tables (Function.update y j v)) | none => 0) *
          rates (start + time) (((ro2Indices m.tables.index).map y).sum +
            ((ro2Indices m.tables.index).count j : ℝ) * (v - y j)) h2o temp e))
      (netRecorded m.tables s e *
        (match qs[e]? with | some q => trueDeriv q (concOf m.tables y) x | none => 0) *
          rates (start + time) ((ro2Indices m.tables.index).map y).sum h2o temp e +
       (if x ∈ ro2Names then 1 else 0) * (netRecorded m.tables s e *
        (match qs[e]? with | some q => codeProduct q (concOf m.tables y) | none => 0) * dk e)) (y j) := by
    intro e he
    have hlt := Finset.mem_range.1 he
    have hqe : qs[e]? = some qs[e] := List.getElem?_eq_getElem hlt
    rw [hqe]
    dsimp only
    by_cases hn : netRecorded m.tables s e = 0
    · rw [hn]
      simp only [zero_mul, mul_zero, add_zero]
      exact hasDerivAt_const _ _
    · have hy0 : concOf m.tables y = concOf m.tables (Function.update y j (y j)) := by
        rw [Function.update_eq_self]
      obtain ⟨h2, -⟩ := extract_tables h hq
      have hprod : HasDerivAt (fun v => codeProduct qs[e] (concOf m.tables (Function.update y j v)))
          (trueDeriv qs[e] (concOf m.tables y) x) (y j) := by
        rw [hy0]
        apply codeProduct_hasDerivAt qs[e] x (fun v => concOf m.tables (Function.update y j v)) (y j)
        · intro v
          unfold concOf
          rw [getD_of_get? hxj, Function.update_self]
        · intro v n hnm hne
          obtain ⟨jn, hjn⟩ := index_of_reactant hqe hnm
          rw [← h2] at hjn
          have hjj : jn ≠ j := by
            intro hh
            subst hh
            rw [h2] at hjn hxj
            exact hne (index_inj' qs hjn hxj)
          dsimp only [concOf]
          rw [getD_of_get? hjn, Function.update_of_ne hjj, Function.update_of_ne hjj]
        · exact hreg e _ hqe hn
      have hrate : HasDerivAt (fun v => rates (start + time) (((ro2Indices m.tables.index).map y).sum +
            ((ro2Indices m.tables.index).count j : ℝ) * (v - y j)) h2o temp e)
          (dk e * ((ro2Indices m.tables.index).count j : ℝ)) (y j) := 
        hasDerivAt_affine (hdk e) _ _
      refine ((hprod.mul hrate).const_mul (netRecorded m.tables s e)).congr_deriv ?_
      rw [Function.update_eq_self, sub_self, mul_zero, add_zero, hcount]
      ring
  rw [hfun]
  refine (HasDerivAt.fun_sum hD).congr_deriv ?_
  rw [Finset.sum_add_distrib]
  congr 1
  by_cases hj : x ∈ ro2Names
  · simp [hj]
  · simp [hj]

/-- C56, exactly: where the terms are written correctly, the entry handed to the solver is the
derivative if and only if the rate coefficients' dependence on the peroxy radicals cancels: always for
columns of species that are not in the list of radicals, and otherwise when the sum over the reactions of net coefficient
times product times derivative of the rate coefficient vanishes. -/
theorem C56_exact {text : Str} {m : Mechanism} (h : extractMechanism text = .ok m)
    {qs : List RawEqn} (hq : Reads text m.equations.toNat qs) {ord : SetOrder} (ho : ord.Valid)
    {P : List (Line (Nat × Nat))} (hP : writeJacobianPy m.tables.gen ord = .ok P) {rates : Rates}
    {start h2o temp time : ℝ} {f : (Nat → ℝ) → Nat → ℝ}
    (hf : ∀ y, dydtFunc m.tables m.equations.toNat (ro2Indices m.tables.index) rates start h2o temp
      time y = some (f y)) {y : Nat → ℝ} {J : Nat × Nat → ℝ}
    (hJ : jacFunc P (ro2Indices m.tables.index) rates start h2o temp time y = some J)
    {s x : Str} {i j : Nat}
    (hs : m.tables.index.get? s = some i) (hxj : m.tables.index.get? x = some j)
    (hx : s ∉ heldConstant) {dk : Nat → ℝ}
    (hdk : ∀ e, HasDerivAt (fun ro2 => rates (start + time) ro2 h2o temp e) (dk e)
      ((ro2Indices m.tables.index).map y).sum)
    (hgood : ∀ e q, qs[e]? = some q → x ∈ names (chemReactants q) →
      (cell m.tables.gain s e ≠ none ∨ cell m.tables.loss s e ≠ none) →
      Spec.Differentiable m.tables q s x e) :
    HasDerivAt (fun v => f (Function.update y j v) i) (J (i, j)) (y j) ↔
      (x ∈ ro2Names → ∑ e ∈ Finset.range qs.length, netRecorded m.tables s e *
        (match qs[e]? with | some q => codeProduct q (concOf m.tables y) | none => 0) * dk e = 0) := by
  have hno : ∀ e, ¬ (cell m.tables.gain s e ≠ none ∨ cell m.tables.loss s e ≠ none) →
      netRecorded m.tables s e = 0 ∧ direction m.tables s e = 0 := by
    intro e hc
    push Not at hc
    unfold netRecorded direction recorded
    rw [hc.1, hc.2]; simp
  have hne : ro2Indices m.tables.index ≠ [] := by
    intro hn
    unfold jacFunc ro2Total at hJ
    rw [if_pos hn] at hJ
    cases hJ
  have hD := C56_derivative h hq hf hs hxj hx y hdk (by
    intro e q hqe hn hr
    right
    by_cases hc : cell m.tables.gain s e ≠ none ∨ cell m.tables.loss s e ≠ none
    · rcases (hgood e q hqe hr hc).power with hp | hp
      · rw [hp]
      · linarith
    · exact absurd (hno e hc).1 hn)
  have hJ' : exec .python ⟨y, rates (start + time) ((ro2Indices m.tables.index).map y).sum h2o temp⟩ P
      (fun _ => 0) = some J := by
    unfold jacFunc at hJ
    rw [ro2Total_some hne] at hJ
    exact hJ
  have hval := jac_entry_value h hq ho hP hJ' hs hxj hx
  have hfirst : J (i, j) = ∑ e ∈ Finset.range qs.length, netRecorded m.tables s e *
        (match qs[e]? with | some q => trueDeriv q (concOf m.tables y) x | none => 0) *
          rates (start + time) ((ro2Indices m.tables.index).map y).sum h2o temp e := by
    rw [hval]
    unfold jacobianValue
    apply Finset.sum_congr rfl
    intro e he
    have hlt := Finset.mem_range.1 he
    have hqe : qs[e]? = some qs[e] := List.getElem?_eq_getElem hlt
    rw [hqe]
    dsimp only
    by_cases hr : x ∈ names (chemReactants qs[e])
    · by_cases hc : cell m.tables.gain s e ≠ none ∨ cell m.tables.loss s e ≠ none
      · have hg := hgood e _ hqe hr hc
        rw [hg.unit, trueDeriv_eq hr hg.nodup hg.power]
      · rw [(hno e hc).1, (hno e hc).2]; simp
    · unfold writtenDeriv trueDeriv
      rw [if_neg hr, if_neg hr]; simp
  rw [← hfirst] at hD
  constructor
  · intro hh hr
    have := hD.unique hh
    rw [if_pos hr] at this
    linarith
  · intro hh
    refine hD.congr_deriv ?_
    by_cases hr : x ∈ ro2Names
    · rw [if_pos hr, hh hr, add_zero]
    · rw [if_neg hr, add_zero]

/-- C56, a case that holds: rate coefficients that do not depend on the peroxy radicals. Missing:
coefficients with RO2 in them, as many in the MCM. -/
theorem C56_jacobian_partial {text : Str} {m : Mechanism} (h : extractMechanism text = .ok m)
    {qs : List RawEqn} (hq : Reads text m.equations.toNat qs) {ord : SetOrder} (ho : ord.Valid)
    {P : List (Line (Nat × Nat))} (hP : writeJacobianPy m.tables.gen ord = .ok P) {rates : Rates}
    {start h2o temp time : ℝ}
    (hconst : ∀ ro2 ro2' e, rates (start + time) ro2 h2o temp e = rates (start + time) ro2' h2o temp e)
    {f : (Nat → ℝ) → Nat → ℝ}
    (hf : ∀ y, dydtFunc m.tables m.equations.toNat (ro2Indices m.tables.index) rates start h2o temp
      time y = some (f y)) {y : Nat → ℝ} {J : Nat × Nat → ℝ}
    (hJ : jacFunc P (ro2Indices m.tables.index) rates start h2o temp time y = some J)
    {s x : Str} {i j : Nat}
    (hs : m.tables.index.get? s = some i) (hxj : m.tables.index.get? x = some j)
    (hx : s ∉ heldConstant)
    (hgood : ∀ e q, qs[e]? = some q → x ∈ names (chemReactants q) →
      (cell m.tables.gain s e ≠ none ∨ cell m.tables.loss s e ≠ none) →
      Spec.Differentiable m.tables q s x e) :
    HasDerivAt (fun v => f (Function.update y j v) i) (J (i, j)) (y j) := by
  refine (C56_exact h hq ho hP hf hJ hs hxj hx (dk := fun _ => 0) (fun e => ?_) hgood).2 ?_
  · have : (fun ro2 => rates (start + time) ro2 h2o temp e)
        = fun _ => rates (start + time) 0 h2o temp e := funext fun r => hconst r 0 e
    rw [this]
    exact hasDerivAt_const _ _
  · intro _
    exact Finset.sum_eq_zero fun e _ => by ring

theorem radical_dydt (rates : Rates) (start h2o temp time : ℝ) : ∃ f : (Nat → ℝ) → Nat → ℝ,
    ∀ y, dydtFunc (build radicalReactions) 2 (ro2Indices (build radicalReactions).index) rates start h2o
      temp time y = some (f y) := by
  have := C55_kinetics_partial radical_parses radical_reads radical_regular
    ⟨"CH3O2".toList, by decide +kernel⟩ (by decide +kernel) rates start h2o temp time
  choose f hf using this
  exact ⟨f, fun y => (hf y).1⟩

theorem radical_jac (rates : Rates) (start h2o temp time : ℝ) :
    ∃ P, writeJacobianPy (build radicalReactions).gen keepOrder = .ok P ∧
      ∃ J : (Nat → ℝ) → Nat × Nat → ℝ, ∀ y,
        jacFunc P (ro2Indices (build radicalReactions).index) rates start h2o temp time y = some (J y) := by
  obtain ⟨P, hP, hrun⟩ := runPy radicalReactions keepOrder_valid
  refine ⟨P, hP, ?_⟩
  have hne : ro2Indices (build radicalReactions).index ≠ [] := by decide +kernel
  have : ∀ y, ∃ J, jacFunc P (ro2Indices (build radicalReactions).index) rates start h2o temp time y
      = some J := by
    intro y
    unfold jacFunc
    rw [ro2Total_some hne, Option.bind_some]
    exact (hrun ⟨y, _⟩ _ (fun _ => 0) (concOf_holds _ _)).imp fun o ho => ho.1
  choose J hJ using this
  exact ⟨J, hJ⟩

theorem radical_differentiable : ∀ e q, radicalReactions[e]? = some q →
    "CH3O2".toList ∈ names (chemReactants q) →
    (cell (build radicalReactions).gain "HCHO".toList e ≠ none ∨
      cell (build radicalReactions).loss "HCHO".toList e ≠ none) →
    Spec.Differentiable (build radicalReactions) q "HCHO".toList "CH3O2".toList e := by
  intro e q hq hr hc
  have he : e < 2 := (List.getElem?_eq_some_iff.1 hq).1
  have : e = 0 ∨ e = 1 := by omega
  rcases this with rfl | rfl
  · injection hq with hq
    subst hq
    refine ⟨by decide +kernel, ?_, by decide +kernel⟩
    have h1 : recorded (build radicalReactions).gain "HCHO".toList 0 = 1 := by decide +kernel
    have h2 : recorded (build radicalReactions).loss "HCHO".toList 0 = 0 := by decide +kernel
    have h3 : (cell (build radicalReactions).gain "HCHO".toList 0).isSome = true := by decide +kernel
    have h4 : (cell (build radicalReactions).loss "HCHO".toList 0).isSome = false := by decide +kernel
    unfold netRecorded direction
    rw [h1, h2, h3, h4]; simp
  · refine absurd hr ?_; injection hq with hq; subst hq; decide +kernel

/-- C56 does not hold: with a rate coefficient proportional to RO2 the matrix misses a term. -/
theorem C56_false : ¬ C56_Statement := by
  intro h
  let rates : Rates := fun _ ro2 _ _ _ => ro2
  obtain ⟨f, hf⟩ := radical_dydt rates 0 0 0 0
  obtain ⟨P, hP, J, hJ⟩ := radical_jac rates 0 0 0 0
  have hs : (build radicalReactions).index.get? "HCHO".toList = some 2 := by decide +kernel
  have hxj : (build radicalReactions).index.get? "CH3O2".toList = some 0 := by decide +kernel
  have hx : "HCHO".toList ∉ heldConstant := by decide +kernel
  have hd := h radicalText _ radicalReactions radical_parses radical_reads keepOrder keepOrder_valid P hP
    rates 0 0 0 0 (fun e => differentiable_id) f J hf hJ _ _ 2 0 hs hxj hx radical_differentiable
    (fun _ => 1)
  have := (C56_exact radical_parses radical_reads keepOrder_valid hP hf (hJ _) hs hxj hx
    (dk := fun _ => 1) (fun e => hasDerivAt_id _) radical_differentiable).1 hd (by decide +kernel)
  have h0 : netRecorded (build radicalReactions) "HCHO".toList 0 = 1 := by
    have h1 : recorded (build radicalReactions).gain "HCHO".toList 0 = 1 := by decide +kernel
    have h2 : recorded (build radicalReactions).loss "HCHO".toList 0 = 0 := by decide +kernel
    unfold netRecorded
    rw [h1, h2]; norm_num
  have h1 : netRecorded (build radicalReactions) "HCHO".toList 1 = 0 := by
    have h1 : recorded (build radicalReactions).gain "HCHO".toList 1 = 0 := by decide +kernel
    have h2 : recorded (build radicalReactions).loss "HCHO".toList 1 = 0 := by decide +kernel
    unfold netRecorded
    rw [h1, h2]; norm_num
  have hr : chemReactants radicalReactions[0] ≠ [] := by decide +kernel
  have hget : radicalReactions[0]? = some radicalReactions[0] := rfl
  have hone : concOf (build radicalReactions) (fun _ => (1 : ℝ)) = fun _ => 1 := rfl
  have hlen : radicalReactions.length = 2 := rfl
  rw [hlen, Finset.sum_range_succ, Finset.sum_range_one, hget, hone] at this
  dsimp only at this
  unfold codeProduct at this
  rw [h0, h1, if_neg hr] at this
  simp at this

/-- The hypotheses of the correct case are met by the same mechanism with constant coefficients. -/
example : (∃ f : (Nat → ℝ) → Nat → ℝ, ∀ y, dydtFunc (build radicalReactions) 2
      (ro2Indices (build radicalReactions).index) (fun _ _ _ _ _ => 1) 0 0 0 0 y = some (f y)) ∧
    (∃ P, writeJacobianPy (build radicalReactions).gen keepOrder = .ok P ∧
      ∃ J : (Nat → ℝ) → Nat × Nat → ℝ, ∀ y,
        jacFunc P (ro2Indices (build radicalReactions).index) (fun _ _ _ _ _ => 1) 0 0 0 0 y
          = some (J y)) ∧
    couples (build radicalReactions) radicalReactions "HCHO".toList "CH3O2".toList :=
  ⟨radical_dydt _ _ _ _ _, radical_jac _ _ _ _ _, ⟨0, _, rfl, by decide +kernel, by decide +kernel⟩⟩

end PyBox
