import Verif.Gen.Tend
import Mathlib.Algebra.BigOperators.Ring.Finset
import Mathlib.Algebra.Order.BigOperators.Group.List
import Mathlib.Tactic.Linarith

/-!
# C10, C11: reactant products
-/

namespace PyBox

open Spec

/-! ### The routine written for parser tables -/

/-- Factors written for reaction `e`. -/
def facsOf (qs : List RawEqn) (e : Nat) : List Fac :=
  match qs[e]? with
  | none => []
  | some q => (names (nonHv q.reactants)).map (fun n =>
      yFac ((build qs).index.getD n 0) (coef (nonHv q.reactants) n))

theorem chemReactants_eq (q : RawEqn) : chemReactants q = nonHv q.reactants := rfl
theorem chemProducts_eq (q : RawEqn) : chemProducts q = nonHv q.products := rfl

theorem lookup_index {qs : List RawEqn} {n : Str} {i : Nat} (h : (build qs).index.get? n = some i) :
    lookup (build qs).gen.index n = .ok i := by
  unfold lookup Tables.gen; rw [h]

theorem lossCoef_build {qs : List RawEqn} {q : RawEqn} {e : Nat} (hq : qs[e]? = some q) {n : Str}
    (hn : n ∈ names (nonHv q.reactants)) :
    lossCoef (build qs).gen n e = .ok (coef (nonHv q.reactants) n) := by
  have := cell_build_loss qs n e
  rw [hq, Option.bind_some, lossEntry, if_pos hn] at this
  unfold lossCoef lookup Tables.gen
  unfold cell at this
  dsimp only
  rw [this]

theorem reactantsOf_build (qs : List RawEqn) {q : RawEqn} {e : Nat} (hq : qs[e]? = some q) :
    reactantsOf (build qs).gen e = names (nonHv q.reactants) := by
  have := getD_build_reactants qs e
  rw [hq] at this
  unfold reactantsOf Tables.gen
  rw [this]
  simp only [Option.map_some, Option.getD_some, reactantItems_values]

theorem nonHv_ne {l : List (ℚ × Str)} {n : Str} (h : n ∈ names (nonHv l)) : n ≠ hv := by
  simp only [names, nonHv, List.mem_map, List.mem_filter] at h
  obtain ⟨p, ⟨-, h2⟩, rfl⟩ := h
  simpa using h2

theorem index_of_reactant {qs : List RawEqn} {q : RawEqn} {e : Nat} (hq : qs[e]? = some q) {n : Str}
    (hn : n ∈ names (nonHv q.reactants)) : ∃ i, (build qs).index.get? n = some i :=
  (indexed_iff qs n).2 ⟨q, List.mem_of_getElem? hq, mem_occurrences_left hn⟩

theorem writeReactantsPy_build (qs : List RawEqn) :
    writeReactantsPy (build qs).gen qs.length =
      .ok ((List.range qs.length).map (fun e => toLine e (prodToks (facsOf qs e)))) := by
  unfold writeReactantsPy
  apply mapM_ok_except
  intro e he
  have hlt : e < qs.length := List.mem_range.1 he
  have hq : qs[e]? = some qs[e] := List.getElem?_eq_getElem hlt
  rw [reactantsOf_build qs hq, foldlM_reactants_none _ _ (fun n =>
      yFac ((build qs).index.getD n 0) (coef (nonHv qs[e].reactants) n))]
  · unfold facsOf
    rw [hq]; rfl
  · intro n hn
    obtain ⟨i, hi⟩ := index_of_reactant hq hn
    refine ⟨nonHv_ne hn, _, i, lossCoef_build hq hn, lookup_index hi, ?_⟩
    have : (build qs).index.getD n 0 = i := by unfold Dict.getD; rw [hi]; rfl
    rw [this]

/-- Value of the factors of a reaction. -/
theorem facsOf_prod {qs : List RawEqn} {q : RawEqn} {e : Nat} (hq : qs[e]? = some q) (env : Env)
    (conc : Str → ℝ) (hy : ∀ s i, (build qs).index.get? s = some i → env.y i = conc s) :
    ((facsOf qs e).map (Fac.val env)).prod =
      ((names (nonHv q.reactants)).map (fun s => conc s ^ (coef (nonHv q.reactants) s : ℝ))).prod := by
  unfold facsOf
  rw [hq]
  dsimp only
  rw [List.map_map]
  congr 1
  apply List.map_congr_left
  intro n hn
  obtain ⟨i, hi⟩ := index_of_reactant hq hn
  have : (build qs).index.getD n 0 = i := by unfold Dict.getD; rw [hi]; rfl
  simp only [Function.comp_apply]
  rw [yFac_val, this, hy n i hi]

theorem evalRhs_prodToks (env : Env) (f : Fac) (fs : List Fac) :
    evalRhs .python env (.fac f :: mulToks fs) = some (((f :: fs).map (Fac.val env)).prod) := by
  unfold evalRhs
  dsimp only
  rw [evalExpr_prod]; rfl

theorem mem_reactantLines {qs : List RawEqn} {k : Nat} {rhs : List Tok}
    (h : Line.asg k rhs ∈ (List.range qs.length).map (fun e => toLine e (prodToks (facsOf qs e)))) :
    k < qs.length ∧ ∃ f fs, facsOf qs k = f :: fs ∧ rhs = .fac f :: mulToks fs := by
  rw [List.mem_map] at h
  obtain ⟨e, he, h⟩ := h
  cases hf : facsOf qs e with
  | nil => rw [hf] at h; cases h
  | cons f fs =>
    rw [hf] at h
    simp only [prodToks, toLine, Line.asg.injEq] at h
    obtain ⟨rfl, rfl⟩ := h
    exact ⟨List.mem_range.1 he, f, fs, hf, rfl⟩

theorem facsOf_eq_nil {qs : List RawEqn} {q : RawEqn} {e : Nat} (hq : qs[e]? = some q) :
    facsOf qs e = [] ↔ chemReactants q = [] := by
  unfold facsOf; rw [hq]; simp [names, chemReactants_eq]

/-- Everything the routine computes on parser tables. -/
theorem exec_reactants (qs : List RawEqn) (env : Env) (conc : Str → ℝ)
    (hy : ∀ s i, (build qs).index.get? s = some i → env.y i = conc s) (a : Nat → ℝ) :
    ∃ out, exec .python env ((List.range qs.length).map (fun e => toLine e (prodToks (facsOf qs e)))) a =
        some out ∧
      (∀ e q, qs[e]? = some q → out e = if chemReactants q = [] then a e else
        ((names (chemReactants q)).map (fun s => conc s ^ (coef (chemReactants q) s : ℝ))).prod) ∧
      ∀ e, qs.length ≤ e → out e = a e := by
  have hsome := (exec_isSome_iff .python env
    ((List.range qs.length).map (fun e => toLine e (prodToks (facsOf qs e)))) a).2 (by
      intro k rhs hm
      obtain ⟨-, f, fs, -, rfl⟩ := mem_reactantLines hm
      rw [evalRhs_prodToks]; rfl)
  obtain ⟨out, hout⟩ := Option.isSome_iff_exists.1 hsome
  refine ⟨out, hout, ?_, ?_⟩
  · intro e q hq
    by_cases hnil : chemReactants q = []
    · rw [if_pos hnil]
      apply exec_untouched .python env _ a out e hout
      intro k rhs hm hk
      have hk' : k = e := hk
      subst hk'
      obtain ⟨-, f, fs, hf, -⟩ := mem_reactantLines hm
      rw [(facsOf_eq_nil hq).2 hnil] at hf
      cases hf
    · rw [if_neg hnil]
      cases hf : facsOf qs e with
      | nil => exact absurd ((facsOf_eq_nil hq).1 hf) hnil
      | cons f fs =>
        refine exec_value .python env _ a out e _ hout ⟨e, .fac f :: mulToks fs, ?_, rfl⟩ ?_
        · rw [List.mem_map]
          exact ⟨e, List.mem_range.2 (List.getElem?_eq_some_iff.1 hq).1, by rw [hf]; rfl⟩
        · intro k rhs hm hk
          have hk' : k = e := hk
          subst hk'
          obtain ⟨-, f', fs', hf', rfl⟩ := mem_reactantLines hm
          rw [evalRhs_prodToks, ← hf', facsOf_prod hq env conc hy]
          rfl
  · intro e he
    apply exec_untouched .python env _ a out e hout
    intro k rhs hm hk
    have hk' : k = e := hk
    obtain ⟨h1, -⟩ := mem_reactantLines hm
    omega

/-! ## C10 -/

/-- Law of mass action: product over the distinct reactants of concentration to the power of the
total coefficient. -/
noncomputable def Spec.massAction (conc : Str → ℝ) (q : RawEqn) : ℝ :=
  ∏ s ∈ (names (chemReactants q)).toFinset, conc s ^ (coef (chemReactants q) s : ℝ)

/-- `y` holds the concentration of every species at the index the parser gave it. -/
def Spec.Holds (m : Mechanism) (y : Nat → ℝ) (conc : Str → ℝ) : Prop :=
  ∀ s i, m.tables.index.get? s = some i → y i = conc s

/-- C10 in full: the routine can be generated and run, and computes mass action. The array passed in
is full of zeros (ODE_solver.py line 102). -/
def C10_Statement : Prop :=
  ∀ (text : Str) (m : Mechanism) (qs : List RawEqn), extractMechanism text = .ok m →
    Reads text m.equations.toNat qs →
    ∃ P, writeReactantsPy m.tables.gen m.equations.toNat = .ok P ∧
      ∀ (env : Env) (conc : Str → ℝ), Holds m env.y conc →
        ∃ out, exec .python env P (fun _ => 0) = some out ∧
          ∀ e q, qs[e]? = some q → out e = massAction conc q

/-- C10, what the code computes for every mechanism: each *occurrence* of a reactant contributes the
power with the total coefficient; a reaction without chemical reactants is left alone. -/
theorem C10_value {text : Str} {m : Mechanism} (h : extractMechanism text = .ok m)
    {qs : List RawEqn} (hq : Reads text m.equations.toNat qs) :
    ∃ P, writeReactantsPy m.tables.gen m.equations.toNat = .ok P ∧
      ∀ (env : Env) (conc : Str → ℝ) (a : Nat → ℝ), Holds m env.y conc →
        ∃ out, exec .python env P a = some out ∧
          (∀ e q, qs[e]? = some q → out e = if chemReactants q = [] then a e else
            ((names (chemReactants q)).map (fun s => conc s ^ (coef (chemReactants q) s : ℝ))).prod) ∧
          ∀ e, m.equations.toNat ≤ e → out e = a e := by
  obtain ⟨h2, h3⟩ := extract_tables h hq
  rw [h2, ← h3]
  refine ⟨_, writeReactantsPy_build qs, ?_⟩
  intro env conc a hy
  unfold Holds at hy
  rw [h2] at hy
  exact exec_reactants qs env conc hy a

/-- C10, the part that holds: reactions that name each reactant once. Missing: reactions that repeat
a reactant (`A + A`), for which the code is wrong by `C10_exact`, and reactions with photons only,
whose factor stays zero. -/
theorem C10_mass_action_partial {text : Str} {m : Mechanism} (h : extractMechanism text = .ok m)
    {qs : List RawEqn} (hq : Reads text m.equations.toNat qs) :
    ∃ P, writeReactantsPy m.tables.gen m.equations.toNat = .ok P ∧
      ∀ (env : Env) (conc : Str → ℝ) (a : Nat → ℝ), Holds m env.y conc →
        ∃ out, exec .python env P a = some out ∧
          ∀ e q, qs[e]? = some q → chemReactants q ≠ [] → (names (chemReactants q)).Nodup →
            out e = massAction conc q := by
  obtain ⟨P, hP, hex⟩ := C10_value h hq
  refine ⟨P, hP, ?_⟩
  intro env conc a hy
  obtain ⟨out, hout, hval, -⟩ := hex env conc a hy
  refine ⟨out, hout, ?_⟩
  intro e q he hne hnd
  rw [hval e q he, if_neg hne, massAction, List.prod_toFinset _ hnd]

theorem coef_pos {l : List (ℚ × Str)} (hpos : ∀ p ∈ l, 0 < p.1) {s : Str} (hs : s ∈ names l) :
    0 < coef l s := by
  have hnn : ∀ (l : List (ℚ × Str)), (∀ p ∈ l, 0 < p.1) → 0 ≤ coef l s := by
    intro l hl
    unfold coef
    apply List.sum_nonneg
    intro x hx
    simp only [List.mem_map, List.mem_filter] at hx
    obtain ⟨p, ⟨hp, -⟩, rfl⟩ := hx
    exact (hl p hp).le
  induction l with
  | nil => simp [names] at hs
  | cons p l ih =>
    rw [coef_cons]
    have h0 := hnn l (fun p hp => hpos p (List.mem_cons_of_mem _ hp))
    by_cases he : p.2 = s
    · rw [if_pos he]
      have := hpos p (by simp)
      linarith
    · rw [if_neg he, zero_add]
      apply ih (fun p hp => hpos p (List.mem_cons_of_mem _ hp))
      simp only [names, List.map_cons, List.mem_cons] at hs
      rcases hs with rfl | hs
      · exact absurd rfl he
      · exact hs

/-- Sum over a list with repetitions is larger than over the set. -/
theorem sum_toFinset_lt {l : List Str} {f : Str → ℝ} (hf : ∀ s ∈ l, 0 < f s) (hnd : ¬ l.Nodup) :
    ∑ s ∈ l.toFinset, f s < (l.map f).sum := by
  have hle : ∀ l : List Str, (∀ s ∈ l, 0 < f s) → ∑ s ∈ l.toFinset, f s ≤ (l.map f).sum := by
    intro l
    induction l with
    | nil => intro _; simp
    | cons s l ih =>
      intro hf
      have h1 := ih (fun t ht => hf t (List.mem_cons_of_mem _ ht))
      have h2 := hf s (by simp)
      rw [List.toFinset_cons, List.map_cons, List.sum_cons]
      by_cases hm : s ∈ l.toFinset
      · rw [Finset.insert_eq_of_mem hm]; linarith
      · rw [Finset.sum_insert hm]; linarith
  induction l with
  | nil => simp at hnd
  | cons s l ih =>
    have h2 := hf s (by simp)
    have hf' : ∀ t ∈ l, 0 < f t := fun t ht => hf t (List.mem_cons_of_mem _ ht)
    rw [List.toFinset_cons, List.map_cons, List.sum_cons]
    by_cases hm : s ∈ l
    · rw [Finset.insert_eq_of_mem (by simpa using hm)]
      have := hle l hf'
      linarith
    · rw [Finset.sum_insert (by simpa using hm)]
      have : ¬ l.Nodup := fun hn => hnd (List.nodup_cons.2 ⟨hm, hn⟩)
      have := ih hf' this
      linarith

theorem list_prod_rpow_two (l : List Str) (f : Str → ℝ) :
    (l.map (fun s => (2 : ℝ) ^ f s)).prod = (2 : ℝ) ^ (l.map f).sum := by
  induction l with
  | nil => simp
  | cons s l ih => rw [List.map_cons, List.prod_cons, ih, List.map_cons, List.sum_cons,
      Real.rpow_add (by norm_num)]

/-- C10: for positive coefficients, "every reactant named once, and there is one" is exactly the
condition under which the routine computes mass action on all states. -/
theorem C10_exact {text : Str} {m : Mechanism} (h : extractMechanism text = .ok m)
    {qs : List RawEqn} (hq : Reads text m.equations.toNat qs) {P : List (Line Nat)}
    (hP : writeReactantsPy m.tables.gen m.equations.toNat = .ok P) {e : Nat} {q : RawEqn}
    (he : qs[e]? = some q) (hpos : ∀ p ∈ chemReactants q, 0 < p.1) :
    (∀ (env : Env) (conc : Str → ℝ) (out : Nat → ℝ), Holds m env.y conc →
        exec .python env P (fun _ => 0) = some out → out e = massAction conc q) ↔
      chemReactants q ≠ [] ∧ (names (chemReactants q)).Nodup := by
  constructor
  · intro hall
    obtain ⟨P', hP', hex⟩ := C10_value h hq
    rw [hP] at hP'
    injection hP' with hPP
    subst hPP
    have hy : Holds m (⟨fun _ => 2, fun _ => 0⟩ : Env).y (fun _ => 2) := fun _ _ _ => rfl
    obtain ⟨out, hout, hval, -⟩ := hex ⟨fun _ => 2, fun _ => 0⟩ (fun _ => 2) (fun _ => 0) hy
    have h1 := hall _ _ out hy hout
    rw [hval e q he] at h1
    by_cases hne : chemReactants q = []
    · rw [if_pos hne, massAction, hne] at h1
      simp [names] at h1
    · refine ⟨hne, ?_⟩
      by_contra hnd
      rw [if_neg hne, massAction, list_prod_rpow_two] at h1
      have h2 : ∏ s ∈ (names (chemReactants q)).toFinset, (2 : ℝ) ^ (coef (chemReactants q) s : ℝ) =
          (2 : ℝ) ^ (∑ s ∈ (names (chemReactants q)).toFinset, (coef (chemReactants q) s : ℝ)) := by
        rw [Real.rpow_sum_of_pos (by norm_num)]
      rw [h2] at h1
      have hlt := sum_toFinset_lt (l := names (chemReactants q))
        (f := fun s => (coef (chemReactants q) s : ℝ))
        (fun s hs => by exact_mod_cast coef_pos hpos hs) hnd
      have := Real.rpow_lt_rpow_of_exponent_lt (by norm_num : (1 : ℝ) < 2) hlt
      linarith
  · rintro ⟨hne, hnd⟩ env conc out hy hout
    obtain ⟨P', hP', hex⟩ := C10_mass_action_partial h hq
    rw [hP] at hP'
    injection hP' with hPP
    subst hPP
    obtain ⟨out', hout', hval⟩ := hex env conc (fun _ => 0) hy
    rw [hout] at hout'
    injection hout' with hoo
    subst hoo
    exact hval e q he hne hnd

/-- C10 does not hold: `HO2 + HO2 = H2O2` proceeds with the fourth power of HO2. -/
theorem C10_false : ¬ C10_Statement := by
  intro h
  obtain ⟨P, hP, hall⟩ := h sampleText _ sampleReactions sample_parses sample_reads
  have := (C10_exact sample_parses sample_reads hP (e := 2) (q := sampleReactions[2]) rfl
    (by decide +kernel)).1 (by
      intro env conc out hy hout
      obtain ⟨out', hout', hval⟩ := hall env conc hy
      rw [hout] at hout'
      injection hout' with hoo
      subst hoo
      exact hval 2 _ rfl)
  revert this; decide +kernel

/-- The hypotheses of C10 for the sample: reaction 0 is bimolecular with distinct reactants and
positive coefficients; concentrations can be anything. -/
example : extractMechanism sampleText = .ok ⟨build sampleReactions, 3⟩ ∧
    Reads sampleText 3 sampleReactions ∧
    chemReactants sampleReactions[0] ≠ [] ∧ (names (chemReactants sampleReactions[0])).Nodup ∧
    (names (chemReactants sampleReactions[0])).length = 2 ∧
    (∀ p ∈ chemReactants sampleReactions[0], 0 < p.1) ∧
    Holds ⟨build sampleReactions, 3⟩ (fun i => i + 1)
      (fun s => (((build sampleReactions).index.getD s 0 : Nat) : ℝ) + 1) := by
  refine ⟨sample_parses, sample_reads, by decide +kernel, by decide +kernel, by decide +kernel,
    by decide +kernel, ?_⟩
  intro s i hi
  have hi' : (build sampleReactions).index.get? s = some i := hi
  have : (build sampleReactions).index.getD s 0 = i := by unfold Dict.getD; rw [hi']; rfl
  dsimp only
  rw [this]

/-! ## C11 -/

theorem exec_congr_cells {κ : Type} [DecidableEq κ] [Subscript κ] (lang : Lang) (env : Env)
    (p : List (Line κ)) : ∀ (a b out : κ → ℝ), exec lang env p a = some out →
    ∃ out', exec lang env p b = some out' ∧
      ∀ k, (∃ k' rhs, Line.asg k' rhs ∈ p ∧ Subscript.offset lang k' = k) ∨ a k = b k → out k = out' k := by
  induction p with
  | nil =>
    intro a b out h
    simp only [exec, Option.some.injEq] at h
    subst h
    exact ⟨b, rfl, by simp⟩
  | cons l p ih =>
    intro a b out h
    cases l with
    | blank =>
      obtain ⟨o, h1, h2⟩ := ih a b out h
      exact ⟨o, h1, fun k hk => h2 k (by simpa using hk)⟩
    | omp d =>
      obtain ⟨o, h1, h2⟩ := ih a b out h
      exact ⟨o, h1, fun k hk => h2 k (by simpa using hk)⟩
    | asg k0 rhs =>
      simp only [exec] at h ⊢
      cases hv : evalRhs lang env rhs with
      | none => rw [hv] at h; simp at h
      | some v =>
        rw [hv] at h
        obtain ⟨o, h1, h2⟩ := ih _ (Function.update b (Subscript.offset lang k0) v) out h
        refine ⟨o, h1, fun k hk => h2 k ?_⟩
        by_cases he : k = Subscript.offset lang k0
        · subst he; right; simp
        · rcases hk with ⟨k', rhs', hm, hk'⟩ | hk
          · rcases List.mem_cons.1 hm with e | hm
            · injection e with e1 e2
              subst e1; exact absurd hk'.symm he
            · exact .inl ⟨k', rhs', hm, hk'⟩
          · right; rw [Function.update_of_ne he, Function.update_of_ne he, hk]

theorem cont_not_mem_mulToks (fs : List Fac) : Tok.cont ∉ mulToks fs := by
  simp [mulToks]

theorem foldlM_no_cont (g : GenIn) (e : Nat) (names : List Str) : ∀ (st st' : Option (List Tok)),
    (∀ ts, st = some ts → Tok.cont ∉ ts) → names.foldlM (reactantStepPy g e) st = .ok st' →
    ∀ ts, st' = some ts → Tok.cont ∉ ts := by
  induction names with
  | nil =>
    intro st st' h1 h2
    simp only [List.foldlM_nil, pure, Except.pure, Except.ok.injEq] at h2
    subst h2; exact h1
  | cons n ns ih =>
    intro st st' h1 h2
    rw [List.foldlM_cons] at h2
    cases hs : reactantStepPy g e st n with
    | error x => rw [hs] at h2; cases h2
    | ok st1 =>
      rw [hs] at h2
      refine ih st1 st' ?_ h2
      unfold reactantStepPy at hs
      by_cases hn : n = hv
      · simp only [hn, if_true, pure, Except.pure, Except.ok.injEq] at hs
        subst hs; exact h1
      · simp only [hn, if_false] at hs
        cases hl : lossCoef g n e with
        | error x => rw [hl] at hs; cases hs
        | ok s =>
          rw [hl] at hs
          cases hi : lookup g.index n with
          | error x => rw [hi] at hs; cases hs
          | ok i =>
            rw [hi] at hs
            cases st with
            | none =>
              simp only [bind, Except.bind, pure, Except.pure, Except.ok.injEq] at hs
              subst hs
              intro ts hts
              injection hts with hts
              subst hts; simp
            | some ts0 =>
              simp only [bind, Except.bind, pure, Except.pure, Except.ok.injEq] at hs
              subst hs
              intro ts hts
              injection hts with hts
              subst hts
              have := h1 ts0 rfl
              simp [this]

theorem writeReactantsPy_no_cont {g : GenIn} {n : Nat} {P : List (Line Nat)}
    (h : writeReactantsPy g n = .ok P) : ∀ k rhs, Line.asg k rhs ∈ P → Tok.cont ∉ rhs := by
  unfold writeReactantsPy at h
  revert P
  induction List.range n with
  | nil =>
    intro P h k rhs hm
    simp only [List.mapM_nil, pure, Except.pure, Except.ok.injEq] at h
    subst h; simp at hm
  | cons e es ih =>
    intro P h k rhs hm
    rw [List.mapM_cons] at h
    cases hf : (reactantsOf g e).foldlM (reactantStepPy g e) none with
    | error x => rw [hf] at h; cases h
    | ok l =>
      rw [hf] at h
      cases hr : es.mapM (fun e => do
          let l ← (reactantsOf g e).foldlM (reactantStepPy g e) none
          return toLine e l) with
      | error x => rw [hr] at h; cases h
      | ok ls =>
        rw [hr] at h
        simp only [bind, Except.bind, pure, Except.pure, Except.ok.injEq] at h
        subst h
        rcases List.mem_cons.1 hm with he | hm
        · cases l with
          | none => cases he
          | some ts =>
            injection he with _ he
            subst he
            exact foldlM_no_cont g e _ none _ (by simp) hf rhs rfl
        · exact ih hr k rhs hm

theorem sameLines_shift {P : List (Line Nat)} (h : ∀ k rhs, Line.asg k rhs ∈ P → Tok.cont ∉ rhs) :
    SameLines (P.map (fun l => [shiftLine l])).flatten P := by
  induction P with
  | nil => exact .nil
  | cons l P ih =>
    have ih' := ih (fun k rhs hm => h k rhs (List.mem_cons_of_mem _ hm))
    simp only [List.map_cons, List.flatten_cons, List.cons_append, List.nil_append]
    cases l with
    | blank => exact .blankL (.blankR ih')
    | omp d => exact .ompL d (.ompR d ih')
    | asg k rhs =>
      exact .asg _ _ _ _ (by simp) (map_shift_fortranOf rhs (h k rhs (by simp))) ih'

/-- C11: whatever tables are handed to the two generators, whatever the number of cores, the Fortran
routine is generated exactly when the Python one is, and run on the same concentrations and the same
initial array they produce the same array (or both are ill-formed). -/
theorem C11_same_programs (g : GenIn) (n : Nat) (cores : Option Nat) :
    (∀ x, writeReactantsPy g n = .error x ↔ writeReactantsF g n cores = .error x) ∧
    ∀ P, writeReactantsPy g n = .ok P → ∃ F, writeReactantsF g n cores = .ok F ∧
      ∀ (env : Env) (a : Nat → ℝ), exec .fortran env F a = exec .python env P a := by
  rw [writeReactantsF_eq]
  constructor
  · intro x
    cases writeReactantsPy g n with
    | error y => exact Iff.rfl
    | ok P => simp [Except.map]
  · intro P hP
    rw [hP]
    refine ⟨_, rfl, ?_⟩
    intro env a
    rw [exec_withOmp]
    exact SameLines.exec (sameLines_shift (writeReactantsPy_no_cont hP)) env a

/-- C11 on parsed mechanisms: for every reaction with a chemical reactant the two programs give the
same factor even when they start from different array contents (Fortran does not initialise its
output array, lines 2315–2318). -/
theorem C11_same_factors {text : Str} {m : Mechanism} (h : extractMechanism text = .ok m)
    {qs : List RawEqn} (hq : Reads text m.equations.toNat qs) (cores : Option Nat) :
    ∃ P F, writeReactantsPy m.tables.gen m.equations.toNat = .ok P ∧
      writeReactantsF m.tables.gen m.equations.toNat cores = .ok F ∧
      ∀ (env : Env) (a b : Nat → ℝ), ∃ outP outF, exec .python env P a = some outP ∧
        exec .fortran env F b = some outF ∧
        ∀ e q, qs[e]? = some q → chemReactants q ≠ [] → outP e = outF e := by
  obtain ⟨P, hP, hex⟩ := C10_value h hq
  obtain ⟨F, hF, hsame⟩ := (C11_same_programs m.tables.gen m.equations.toNat cores).2 P hP
  refine ⟨P, F, hP, hF, ?_⟩
  intro env a b
  obtain ⟨h2, h3⟩ := extract_tables h hq
  have hy : Holds m env.y (fun s => env.y (m.tables.index.getD s 0)) := by
    intro s i hi
    have : m.tables.index.getD s 0 = i := by unfold Dict.getD; rw [hi]; rfl
    simp only [this]
  obtain ⟨o1, ho1, hv1, -⟩ := hex env _ a hy
  obtain ⟨o2, ho2, hv2, -⟩ := hex env _ b hy
  refine ⟨o1, o2, ho1, by rw [hsame]; exact ho2, ?_⟩
  intro e q he hne
  rw [hv1 e q he, hv2 e q he, if_neg hne, if_neg hne]

/-- The limit of C11: the factor of a reaction whose only reactants are photons is not written by
either program, so in Fortran it is whatever the memory held. -/
theorem C11_photon_only {text : Str} {m : Mechanism} (h : extractMechanism text = .ok m)
    {qs : List RawEqn} (hq : Reads text m.equations.toNat qs) (cores : Option Nat) {e : Nat} {q : RawEqn}
    (he : qs[e]? = some q) (hnil : chemReactants q = []) :
    ∃ F, writeReactantsF m.tables.gen m.equations.toNat cores = .ok F ∧
      ∀ (env : Env) (b : Nat → ℝ), ∃ out, exec .fortran env F b = some out ∧ out e = b e := by
  obtain ⟨P, hP, hex⟩ := C10_value h hq
  obtain ⟨F, hF, hsame⟩ := (C11_same_programs m.tables.gen m.equations.toNat cores).2 P hP
  refine ⟨F, hF, ?_⟩
  intro env b
  have hy : Holds m env.y (fun s => env.y (m.tables.index.getD s 0)) := by
    intro s i hi
    have : m.tables.index.getD s 0 = i := by unfold Dict.getD; rw [hi]; rfl
    simp only [this]
  obtain ⟨o, ho, hv, -⟩ := hex env _ b hy
  refine ⟨o, by rw [hsame]; exact ho, ?_⟩
  rw [hv e q he, if_pos hnil]

/-- A mechanism with a photon-only reaction beside an ordinary one. -/
def photonText : Str := "{1.}hv=A:J;{2.}A+2B=C:K;".toList

def photonReactions : List RawEqn :=
  [{ reactants := [(1, "hv".toList)], products := [(1, "A".toList)], rate := "J".toList },
   { reactants := [(1, "A".toList), (2, "B".toList)], products := [(1, "C".toList)], rate := "K".toList }]

theorem photon_parses :
    extractMechanism photonText = .ok { tables := build photonReactions, equations := 2 } := by
  rw [extract_ok_iff]
  refine ⟨"2.".toList, 2, photonReactions, ?_, by decide +kernel, ?_, rfl⟩
  · rw [labels_eq _ (not_mem_removeChar _ _)]; decide +kernel
  · rw [bodies_eq _ (not_mem_removeChar _ _)]; decide +kernel

theorem photon_reads : Reads photonText 2 photonReactions := by
  unfold Reads bodyTexts; decide +kernel

example : extractMechanism photonText = .ok ⟨build photonReactions, 2⟩ ∧
    Reads photonText 2 photonReactions ∧ chemReactants photonReactions[0] = [] ∧
    chemReactants photonReactions[1] ≠ [] ∧ (names (chemReactants photonReactions[1])).Nodup :=
  ⟨photon_parses, photon_reads, by decide +kernel, by decide +kernel, by decide +kernel⟩

end PyBox
