import Verif.Props.Jacobian
import Mathlib.Analysis.SpecialFunctions.Pow.Real

/-!
# C84: reactions listed for each species, and the saved matrix of reactants
-/

namespace PyBox

open Spec

/-! ### Listings -/

/-- The numbers of the reactions in which a name occurs on one side, once for each occurrence, from number `e` on. -/
def Spec.listing (side : RawEqn → List (ℚ × Str)) (s : Str) (qs : List RawEqn) (e : Nat) : List Nat :=
  (qs.zipIdx e).flatMap fun qe => List.replicate ((names (side qe.1)).count s) qe.2

/-- A dictionary lists `l` for a name; no entry stands for the empty list. -/
def Spec.Lists (d : Dict Str (List Nat)) (s : Str) (l : List Nat) : Prop :=
  d.get? s = if l = [] then none else some l

theorem lists_getD {d : Dict Str (List Nat)} {s : Str} {l : List Nat} (h : Lists d s l) : d.getD s [] = l := by
  unfold Dict.getD
  rw [h]
  split <;> simp_all

theorem lists_hessAdd {d : Dict Str (List Nat)} {s : Str} {l : List Nat} (h : Lists d s l) (name : Str) (e : Nat) :
    Lists (hessAdd d name e) s (if name = s then l ++ [e] else l) := by
  unfold hessAdd Lists
  rw [Dict.get?_set]
  by_cases hn : name = s
  · subst hn
    rw [if_pos rfl, if_pos rfl, lists_getD h, if_neg (by simp)]
  · rw [if_neg (fun h' => hn h'.symm), if_neg hn]
    exact h

theorem registerSpecies_hess (name : Str) (t : Tables) :
    (registerSpecies name t).hessLoss = t.hessLoss ∧ (registerSpecies name t).hessGain = t.hessGain := by
  unfold registerSpecies
  split <;> exact ⟨rfl, rfl⟩

theorem reactants_hess (e : Nat) (s : Str) : ∀ (ts : List (ℚ × Str)) (st : Tables × Nat) (l g : List Nat),
    Lists st.1.hessLoss s l → Lists st.1.hessGain s g →
    Lists (ts.foldl (addReactant e) st).1.hessLoss s (l ++ List.replicate ((names (nonHv ts)).count s) e) ∧
    Lists (ts.foldl (addReactant e) st).1.hessGain s g := by
  intro ts
  induction ts with
  | nil => intro st l g h1 h2; exact ⟨by simpa [names, nonHv] using h1, h2⟩
  | cons t ts ih =>
    obtain ⟨c, name⟩ := t
    intro ⟨t, step⟩ l g h1 h2
    rw [List.foldl_cons]
    by_cases hn : name = hv
    · have e1 : addReactant e (t, step) (c, name) = (t, step + 1) := by simp [addReactant, hn]
      have e2 : nonHv ((c, name) :: ts) = nonHv ts := by simp [nonHv, hn]
      rw [e1, e2]
      exact ih _ _ _ h1 h2
    · have e2 : names (nonHv ((c, name) :: ts)) = name :: names (nonHv ts) := by simp [nonHv, hn, names]
      rw [e2, List.count_cons]
      have h1' : Lists (addReactant e (t, step) (c, name)).1.hessLoss s (if name = s then l ++ [e] else l) := by
        have := lists_hessAdd h1 name e
        simpa [addReactant, hn, registerSpecies_hess] using this
      have h2' : Lists (addReactant e (t, step) (c, name)).1.hessGain s g := by
        simpa [addReactant, hn, registerSpecies_hess] using h2
      obtain ⟨a, b⟩ := ih _ _ _ h1' h2'
      refine ⟨?_, b⟩
      convert a using 1
      by_cases hs : name = s
      · simp [hs, List.replicate_succ]
      · simp [hs]

theorem products_hess (e : Nat) (last s : Str) : ∀ (ts : List (ℚ × Str)) (t : Tables) (l g : List Nat),
    Lists t.hessLoss s l → Lists t.hessGain s g →
    Lists (ts.foldl (addProduct e last) t).hessLoss s l ∧
    Lists (ts.foldl (addProduct e last) t).hessGain s (g ++ List.replicate ((names (nonHv ts)).count s) e) := by
  intro ts
  induction ts with
  | nil => intro st l g h1 h2; exact ⟨h1, by simpa [names, nonHv] using h2⟩
  | cons x ts ih =>
    obtain ⟨c, name⟩ := x
    intro t l g h1 h2
    rw [List.foldl_cons]
    by_cases hn : name = hv
    · have e1 : addProduct e last t (c, name) = t := by simp [addProduct, hn]
      have e2 : nonHv ((c, name) :: ts) = nonHv ts := by simp [nonHv, hn]
      rw [e1, e2]
      exact ih _ _ _ h1 h2
    · have e2 : names (nonHv ((c, name) :: ts)) = name :: names (nonHv ts) := by simp [nonHv, hn, names]
      rw [e2, List.count_cons]
      have h1' : Lists (addProduct e last t (c, name)).hessLoss s l := by
        simpa [addProduct, hn, registerSpecies_hess] using h1
      have h2' : Lists (addProduct e last t (c, name)).hessGain s (if name = s then g ++ [e] else g) := by
        have := lists_hessAdd h2 name e
        simpa [addProduct, hn, registerSpecies_hess] using this
      obtain ⟨a, b⟩ := ih _ _ _ h1' h2'
      refine ⟨a, ?_⟩
      convert b using 1
      by_cases hs : name = s
      · simp [hs, List.replicate_succ]
      · simp [hs]

theorem build_hess (s : Str) : ∀ (qs : List RawEqn) (e : Nat) (t : Tables) (l g : List Nat),
    Lists t.hessLoss s l → Lists t.hessGain s g →
    Lists (buildFrom t e qs).hessLoss s (l ++ listing chemReactants s qs e) ∧
    Lists (buildFrom t e qs).hessGain s (g ++ listing chemProducts s qs e) := by
  intro qs
  induction qs with
  | nil => intro e t l g h1 h2; exact ⟨by simpa [listing, buildFrom] using h1, by simpa [listing, buildFrom] using h2⟩
  | cons q qs ih =>
    intro e t l g h1 h2
    unfold buildFrom
    obtain ⟨a1, a2⟩ := reactants_hess e s q.reactants ({ t with rate := t.rate.set e q.rate }, 0) l g h1 h2
    obtain ⟨b1, b2⟩ := products_hess e (lastReactant q) s q.products _ _ _ a1 a2
    obtain ⟨c1, c2⟩ := ih (e + 1) (addEqn t e q) _ _ b1 b2
    simp only [listing, List.zipIdx_cons, List.flatMap_cons, ← List.append_assoc] at c1 c2 ⊢
    exact ⟨c1, c2⟩

/-- C84: `species_hess_loss_data` and `species_hess_gain_data` list for every name the reactions that consume it and
those that produce it, once for each time it is written there, in the order of the file; names without such a reaction,
and photons, have no entry. -/
theorem C84_listings {text : Str} {m : Mechanism} (h : extractMechanism text = .ok m)
    {qs : List RawEqn} (hq : Reads text m.equations.toNat qs) (s : Str) :
    Lists m.tables.hessLoss s (listing chemReactants s qs 0) ∧ Lists m.tables.hessGain s (listing chemProducts s qs 0) := by
  obtain ⟨h2, -⟩ := extract_tables h hq
  rw [h2]
  have := build_hess s qs 0 {} [] [] rfl rfl
  simpa only [List.nil_append, build] using this

/-- In `sampleText` two species have more than one entry; one is consumed twice by the same reaction. -/
example : extractMechanism sampleText = .ok ⟨build sampleReactions, 3⟩ ∧ Reads sampleText 3 sampleReactions ∧
    (build sampleReactions).hessLoss.get? "HO2".toList = some [2, 2] ∧
    listing chemReactants "HO2".toList sampleReactions 0 = [2, 2] :=
  ⟨sample_parses, sample_reads, by decide +kernel, by decide +kernel⟩

/-! ### The saved matrix -/

/-- What the matrix holds for a reaction and a column. -/
def Spec.reactantEntry (index : Dict Str Nat) (qs : List RawEqn) (e i : Nat) (c : ℚ) : Prop :=
  ∃ q s, qs[e]? = some q ∧ s ∈ names (chemReactants q) ∧ index.get? s = some i ∧ c = coef (chemReactants q) s

theorem sparse_row {qs : List RawEqn} {q : RawEqn} {e : Nat} (hq : qs[e]? = some q) :
    ∀ (l : List Str), (∀ n ∈ l, n ∈ names (nonHv q.reactants)) → ∀ m : Dict (Nat × Nat) ℚ,
    ∃ m', l.foldlM (fun m name => do
        if name = hv then return m
        let stoich ← lossCoef (build qs).gen name e
        let i ← lookup (build qs).gen.index name
        return Dict.set m (e, i) stoich) m = Except.ok m' ∧
      ∀ a i, m'.get? (a, i) = (if a = e then
        (l.find? (fun n => (build qs).index.get? n = some i)).map (fun n => coef (nonHv q.reactants) n) else none).or
          (m.get? (a, i)) := by
  intro l
  induction l with
  | nil => intro _ m; exact ⟨m, rfl, fun a i => by simp⟩
  | cons n l ih =>
    intro hl m
    have hn := hl n (List.mem_cons_self ..)
    obtain ⟨j, hj⟩ := index_of_reactant hq hn
    obtain ⟨m', h1, h2⟩ := ih (fun n' h' => hl n' (List.mem_cons_of_mem _ h')) (m.set (e, j) (coef (nonHv q.reactants) n))
    refine ⟨m', ?_, ?_⟩
    · rw [List.foldlM_cons, if_neg (nonHv_ne hn), lossCoef_build hq hn, lookup_index hj]
      exact h1
    · intro a i
      rw [h2, Dict.get?_set, List.find?_cons]
      by_cases ha : a = e
      · subst ha
        by_cases hij : i = j
        · subst hij
          simp only [hj, decide_true, if_true, Option.map_some, Option.some_or]
          cases hf : l.find? (fun n => (build qs).index.get? n = some i) with
          | none => rfl
          | some n' =>
            have := List.find?_some hf
            rw [index_inj' qs hj (of_decide_eq_true this)]; rfl
        · have : ¬ (build qs).index.get? n = some i := by
            rw [hj]; intro hh; exact hij (Option.some.inj hh).symm
          simp only [this, decide_false, if_true, Prod.mk.injEq, true_and, hij, if_false]
      · simp [ha]

theorem sparse_rows (qs : List RawEqn) : ∀ (l : List Nat), (∀ e ∈ l, e < qs.length) → ∀ m : Dict (Nat × Nat) ℚ,
    ∃ m', l.foldlM (fun m e => (reactantsOf (build qs).gen e).foldlM (fun m name => do
        if name = hv then return m
        let stoich ← lossCoef (build qs).gen name e
        let i ← lookup (build qs).gen.index name
        return Dict.set m (e, i) stoich) m) m = Except.ok m' ∧
      ∀ e i c, m'.get? (e, i) = some c ↔ (e ∈ l ∧ reactantEntry (build qs).index qs e i c) ∨
        (¬ (e ∈ l ∧ ∃ c', reactantEntry (build qs).index qs e i c') ∧ m.get? (e, i) = some c) := by
  have row : ∀ e i (q : RawEqn), qs[e]? = some q → ∀ c,
      (((names (nonHv q.reactants)).find? (fun n => (build qs).index.get? n = some i)).map
        (fun n => coef (nonHv q.reactants) n)) = some c ↔ reactantEntry (build qs).index qs e i c := by
    intro e i q hq c
    unfold reactantEntry
    rw [Option.map_eq_some_iff]
    constructor
    · rintro ⟨n, hf, hc⟩
      exact ⟨q, n, hq, List.mem_of_find?_eq_some hf, by simpa using List.find?_some hf, hc.symm⟩
    · rintro ⟨q', s, hq', hs, hi, hc⟩
      rw [hq] at hq'
      obtain rfl := Option.some.inj hq'
      cases hf : (names (nonHv q.reactants)).find? (fun n => (build qs).index.get? n = some i) with
      | none =>
        rw [List.find?_eq_none] at hf
        exact absurd hi (by simpa using hf s hs)
      | some n =>
        have := List.find?_some hf
        exact ⟨n, rfl, by rw [index_inj' qs (of_decide_eq_true this) hi, hc, chemReactants_eq]⟩
  intro l
  induction l with
  | nil => intro _ m; exact ⟨m, rfl, fun e i c => by simp⟩
  | cons a l ih =>
    intro hl m
    have hlt : a < qs.length := hl a (List.mem_cons_self ..)
    have hq : qs[a]? = some qs[a] := List.getElem?_eq_getElem hlt
    obtain ⟨m1, h1, h2⟩ := sparse_row hq (reactantsOf (build qs).gen a)
      (by rw [reactantsOf_build qs hq]; exact fun n hn => hn) m
    obtain ⟨m2, h3, h4⟩ := ih (fun e he => hl e (List.mem_cons_of_mem _ he)) m1
    refine ⟨m2, ?_, ?_⟩
    · rw [List.foldlM_cons, h1]
      exact h3
    · intro e i c
      rw [h4, h2, reactantsOf_build qs hq]
      by_cases hea : e = a
      · subst hea
        rw [if_pos rfl]
        have hr := row e i _ hq
        cases hx : ((names (nonHv qs[e].reactants)).find? (fun n => (build qs).index.get? n = some i)).map
            (fun n => coef (nonHv qs[e].reactants) n) with
        | none =>
          rw [hx] at hr
          have hno : ∀ c, ¬ reactantEntry (build qs).index qs e i c := fun c hc => by
            have := (hr c).2 hc; cases this
          simp [hno]
        | some d =>
          rw [hx] at hr
          have hd := (hr d).1 rfl
          have hall : ∀ c, reactantEntry (build qs).index qs e i c ↔ d = c := fun c => by
            rw [← hr c, Option.some.injEq]
          simp only [hall, exists_eq', and_true, List.mem_cons_self, true_and, not_true_eq_false, false_and, or_false,
            Option.some_or, Option.some.injEq]
          tauto
      · rw [if_neg hea, Option.none_or]
        simp [hea]

/-- C84: the matrix saved next to the generated routines can be written; it holds, in the row of a reaction and the
column of a species, the total coefficient with which the reaction consumes the species, and nothing else. -/
theorem C84_matrix {text : Str} {m : Mechanism} (h : extractMechanism text = .ok m)
    {qs : List RawEqn} (hq : Reads text m.equations.toNat qs) :
    ∃ M, sparseReactants m.tables.gen m.equations.toNat = .ok M ∧
      ∀ e i c, M.get? (e, i) = some c ↔ reactantEntry m.tables.index qs e i c := by
  obtain ⟨h2, h3⟩ := extract_tables h hq
  rw [h2, ← h3]
  obtain ⟨M, h4, h5⟩ := sparse_rows qs (List.range qs.length) (fun e he => List.mem_range.1 he) []
  refine ⟨M, h4, fun e i c => ?_⟩
  rw [h5]
  simp only [Dict.get?_nil, reduceCtorEq, and_false, or_false, List.mem_range, and_iff_right_iff_imp]
  rintro ⟨q, s, hq', -⟩
  exact (List.getElem?_eq_some_iff.1 hq').1

/-- C84: the matrix times the logarithms of positive concentrations (the computation commented out at ODE_solver.py
line 125) gives the logarithm of mass action for every reaction, those with a repeated reactant included (compare
`C10_exact`). -/
theorem C84_mass_action {text : Str} {m : Mechanism} (h : extractMechanism text = .ok m)
    {qs : List RawEqn} (hq : Reads text m.equations.toNat qs) {M : Dict (Nat × Nat) ℚ}
    (hM : sparseReactants m.tables.gen m.equations.toNat = .ok M) {y : Nat → ℝ} {conc : Str → ℝ} (hy : Holds m y conc)
    (hpos : ∀ s, 0 < conc s) {e : Nat} {q : RawEqn} (he : qs[e]? = some q) :
    Real.exp (∑ i ∈ Finset.range m.tables.index.length, (M.getD (e, i) 0 : ℝ) * Real.log (y i)) = massAction conc q := by
  obtain ⟨M', hM', hent⟩ := C84_matrix h hq
  rw [hM] at hM'
  obtain rfl := Except.ok.inj hM'
  obtain ⟨h2, h3⟩ := extract_tables h hq
  unfold Holds at hy
  rw [h2] at hy hent ⊢
  have hidx : ∀ s ∈ names (chemReactants q), ∃ i, (build qs).index.get? s = some i ∧ i < (build qs).index.length := by
    intro s hs
    obtain ⟨i, hi⟩ := index_of_reactant he hs
    refine ⟨i, hi, ?_⟩
    have hinv := spInv_build qs
    rw [hinv.index_eq] at hi ⊢
    rw [zipIdx_get? _ hinv.nodup] at hi
    simpa using (List.getElem?_eq_some_iff.1 hi).1
  unfold massAction
  have : ∀ s ∈ (names (chemReactants q)).toFinset, conc s ^ (coef (chemReactants q) s : ℝ) =
      Real.exp (coef (chemReactants q) s * Real.log (conc s)) := by
    intro s _
    rw [Real.rpow_def_of_pos (hpos s), mul_comm]
  rw [Finset.prod_congr rfl this, ← Real.exp_sum]
  congr 1
  symm
  refine Finset.sum_bij_ne_zero (fun s _ _ => (build qs).index.getD s 0) ?_ ?_ ?_ ?_
  · intro s hs _
    obtain ⟨i, hi, hlt⟩ := hidx s (List.mem_toFinset.1 hs)
    rw [Dict.getD, hi]
    exact Finset.mem_range.2 hlt
  · intro s hs _ s' hs' _ hss
    obtain ⟨i, hi, -⟩ := hidx s (List.mem_toFinset.1 hs)
    obtain ⟨i', hi', -⟩ := hidx s' (List.mem_toFinset.1 hs')
    simp only [Dict.getD, hi, hi', Option.getD_some] at hss
    subst hss
    exact index_inj' qs hi hi'
  · intro i hi hne
    cases hx : M.get? (e, i) with
    | none => simp [Dict.getD, hx] at hne
    | some c =>
      obtain ⟨q', s, hq', hs, hsi, hc⟩ := (hent e i c).1 hx
      rw [he] at hq'
      obtain rfl := Option.some.inj hq'
      refine ⟨s, List.mem_toFinset.2 hs, ?_, by simp [Dict.getD, hsi]⟩
      rw [Dict.getD, hx, Option.getD_some, hc, hy s i hsi] at hne
      exact hne
  · intro s hs _
    obtain ⟨i, hi, -⟩ := hidx s (List.mem_toFinset.1 hs)
    have : M.get? (e, i) = some (coef (chemReactants q) s) :=
      (hent e i _).2 ⟨q, s, he, List.mem_toFinset.1 hs, hi, rfl⟩
    simp only [Dict.getD, hi, this, Option.getD_some]
    rw [hy s i hi]

/-- The third reaction of `sampleText` has a repeated reactant; its entry is the total coefficient. -/
example : ∃ M, sparseReactants (build sampleReactions).gen 3 = .ok M ∧ M.get? (2, 5) = some 2 ∧
    (build sampleReactions).index.get? "HO2".toList = some 5 ∧ ¬ (names (chemReactants sampleReactions[2])).Nodup := by
  obtain ⟨M, h1, h2⟩ := C84_matrix sample_parses sample_reads
  refine ⟨M, h1, (h2 2 5 2).2 ⟨_, "HO2".toList, rfl, ?_⟩, ?_, ?_⟩ <;> decide +kernel

end PyBox
