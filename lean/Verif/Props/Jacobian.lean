import Verif.Gen.Jac
import Verif.Props.Tendency
import Mathlib.Analysis.SpecialFunctions.Pow.Deriv

/-!
# C19–C22: the generated Jacobian
-/

namespace PyBox

open Spec

/-! ### Values -/

/-- What the generator writes for the derivative of the product of reaction `q` with respect to `x`:
each other distinct reactant with its power, and for `x` itself 1, `2*y`, `c*y**(c-1)` or, for
coefficients below two other than one, nothing. -/
noncomputable def Spec.writtenDeriv (q : RawEqn) (conc : Str → ℝ) (x : Str) : ℝ :=
  if x ∈ names (chemReactants q) then
    selfFactor (conc x) (coef (chemReactants q) x) *
      ∏ s ∈ (names (chemReactants q)).toFinset.erase x, conc s ^ (coef (chemReactants q) s : ℝ)
  else 0

/-- Sign with which reaction `e` enters the row of `s`: plus one if a gain is recorded, minus one if
a loss is recorded, zero if both or none. -/
def Spec.direction (t : Tables) (s : Str) (e : Nat) : ℝ :=
  (if (cell t.gain s e).isSome then 1 else 0) - (if (cell t.loss s e).isSome then 1 else 0)

/-- The matrix entry the generated code computes, from the reactions as written. -/
noncomputable def Spec.jacobianValue (t : Tables) (qs : List RawEqn) (conc : Str → ℝ) (k : Nat → ℝ)
    (s x : Str) : ℝ :=
  ∑ e ∈ Finset.range qs.length, direction t s e *
    (match qs[e]? with | some q => writtenDeriv q conc x | none => 0) * k e

/-- Reaction `e` changes `s` according to the tables and has `x` among its reactants. -/
def Spec.couples (t : Tables) (qs : List RawEqn) (s x : Str) : Prop :=
  ∃ e q, qs[e]? = some q ∧ (cell t.gain s e ≠ none ∨ cell t.loss s e ≠ none) ∧
    x ∈ names (chemReactants q)

theorem prod_ord {ord : SetOrder} (ho : ord.Valid) (l : List Str) (f : Str → ℝ) :
    ((ord l).map f).prod = ∏ s ∈ l.toFinset, f s := by
  rw [← List.prod_toFinset f (ho l).1]
  congr 1
  ext s
  rw [List.mem_toFinset, List.mem_toFinset]
  exact (ho l).2 s

theorem jacVal_build (qs : List RawEqn) {ord : SetOrder} (ho : ord.Valid) (env : Env) (conc : Str → ℝ)
    (hy : ∀ s i, (build qs).index.get? s = some i → env.y i = conc s) (x : Str) (e : Nat) :
    jacVal (build qs).gen ord env x e =
      (match qs[e]? with | some q => writtenDeriv q conc x | none => 0) * env.r e := by
  unfold jacVal
  cases hq : qs[e]? with
  | none =>
    rw [reactantsOf_none qs hq, if_neg]
    · simp
    · rw [ord_mem ho]; simp
  | some q =>
    rw [reactantsOf_build qs hq]
    dsimp only
    unfold writtenDeriv
    rw [chemReactants_eq]
    by_cases hx : x ∈ names (nonHv q.reactants)
    · rw [if_pos ((ord_mem ho).2 hx), if_pos hx, prod_ord ho]
      congr 1
      have hc : ∀ s ∈ names (nonHv q.reactants), ((build qs).gen.loss.getD s []).get? e =
          some (coef (nonHv q.reactants) s) := fun s hs => lookup_ok_iff.1 (lossCoef_build hq hs)
      have hv : ∀ s ∈ names (nonHv q.reactants), env.y ((build qs).gen.index.getD s 0) = conc s := by
        intro s hs
        obtain ⟨i, hi⟩ := index_of_reactant hq hs
        rw [getD_of_get? (show (build qs).gen.index.get? s = some i from hi)]
        exact hy s i hi
      rw [← Finset.mul_prod_erase _ _ (List.mem_toFinset.2 hx)]
      congr 1
      · rw [hc x hx, jacContribution, if_pos rfl, hv x hx]; rfl
      · apply Finset.prod_congr rfl
        intro s hs
        have hs' := List.mem_toFinset.1 (Finset.mem_of_mem_erase hs)
        rw [jacContribution, if_neg (Finset.ne_of_mem_erase hs), hv s hs', hc s hs']; rfl
    · rw [if_neg (fun hh => hx ((ord_mem ho).1 hh)), if_neg hx, zero_mul]

theorem sum_keys (ks : List Nat) (hnd : ks.Nodup) (n : Nat) (hlt : ∀ e ∈ ks, e < n) (f : Nat → ℝ) :
    (ks.map f).sum = ∑ e ∈ Finset.range n, (if e ∈ ks then 1 else 0) * f e := by
  rw [← List.sum_toFinset f hnd]
  have : ks.toFinset = (Finset.range n).filter (fun e => e ∈ ks) := by
    ext e
    rw [List.mem_toFinset, Finset.mem_filter, Finset.mem_range]
    exact ⟨fun h => ⟨hlt e h, h⟩, fun h => h.2⟩
  rw [this, Finset.sum_filter]
  apply Finset.sum_congr rfl
  intro e _
  split <;> simp

theorem mem_keys_cell (d : Dict Str (Dict Nat ℚ)) (s : Str) (e : Nat) :
    e ∈ (d.getD s []).keys ↔ (cell d s e).isSome := (Dict.get?_isSome_iff _ _).symm

/-- The entry, from the reactions. -/
theorem jacEntry_build (qs : List RawEqn) {ord : SetOrder} (ho : ord.Valid) (env : Env) (conc : Str → ℝ)
    (hy : ∀ s i, (build qs).index.get? s = some i → env.y i = conc s) (s x : Str) :
    jacEntry (build qs).gen ord env s x = jacobianValue (build qs) qs conc env.r s x := by
  unfold jacEntry jacobianValue
  have h1 : gainEqs (build qs).gen s = ((build qs).gain.getD s []).keys := rfl
  have h2 : lossEqs (build qs).gen s = ((build qs).loss.getD s []).keys := rfl
  rw [h1, h2, sum_keys _ (innerNodup_build_gain qs s) qs.length (keys_lt_gain qs s),
    sum_keys _ (innerNodup_build_loss qs s) qs.length (keys_lt_loss qs s), ← Finset.sum_sub_distrib]
  apply Finset.sum_congr rfl
  intro e _
  rw [jacVal_build qs ho env conc hy]
  unfold direction
  simp only [mem_keys_cell]
  ring

theorem mem_columns_build (qs : List RawEqn) {ord : SetOrder} (ho : ord.Valid) (s x : Str) :
    x ∈ jacColumns (build qs).gen ord s ↔ couples (build qs) qs s x := by
  rw [mem_jacColumns ho]
  unfold couples
  have h1 : ∀ e, e ∈ gainEqs (build qs).gen s ↔ cell (build qs).gain s e ≠ none := by
    intro e
    rw [← Option.isSome_iff_ne_none]; exact mem_keys_cell (build qs).gain s e
  have h2 : ∀ e, e ∈ lossEqs (build qs).gen s ↔ cell (build qs).loss s e ≠ none := by
    intro e
    rw [← Option.isSome_iff_ne_none]; exact mem_keys_cell (build qs).loss s e
  constructor
  · rintro ⟨e, he, hr⟩
    rw [h1, h2] at he
    cases hq : qs[e]? with
    | none => rw [reactantsOf_none qs hq] at hr; simp at hr
    | some q =>
      rw [reactantsOf_build qs hq] at hr
      exact ⟨e, q, hq, he.symm, hr⟩
  · rintro ⟨e, q, hq, he, hr⟩
    refine ⟨e, ?_, ?_⟩
    · rw [h1, h2]; exact he.symm
    · rw [reactantsOf_build qs hq]; exact hr

/-! ### Running the generated code -/

/-- An assignment of the Python Jacobian. -/
theorem mem_jacPy {qs : List RawEqn} {ord : SetOrder} (ho : ord.Valid) {P : List (Line (Nat × Nat))}
    (hP : writeJacobianPy (build qs).gen ord = .ok P) (k : Nat × Nat) (rhs : List Tok) :
    Line.asg k rhs ∈ P ↔ ∃ s x, (build qs).index.get? s = some k.1 ∧ (build qs).index.get? x = some k.2 ∧
      s ∉ excluded ∧ couples (build qs) qs s x ∧ rhs = jacRhsPy qs ord ho s x := by
  rw [writeJacobianPy_build qs ho] at hP
  injection hP with hP
  subst hP
  rw [List.mem_flatten]
  constructor
  · rintro ⟨l, hl, hm⟩
    rw [List.mem_map] at hl
    obtain ⟨p, hp, rfl⟩ := hl
    by_cases hx : p.1 ∈ excluded
    · rw [if_pos hx] at hm; simp at hm
    · rw [if_neg hx, List.mem_map] at hm
      obtain ⟨x, hxc, he⟩ := hm
      injection he with h1 h2
      subst h1; subst h2
      have hc := (mem_columns_build qs ho p.1 x).1 hxc
      obtain ⟨e, q, hq, -, hr⟩ := id hc
      obtain ⟨j, hj⟩ := index_of_reactant hq hr
      refine ⟨p.1, x, (index_mem_iff qs p.1 p.2).1 hp, ?_, hx, hc, rfl⟩
      dsimp only
      rw [getD_of_get? hj]; exact hj
  · rintro ⟨s, x, h1, h2, hx, hc, rfl⟩
    refine ⟨_, List.mem_map_of_mem ((index_mem_iff qs s k.1).2 h1), ?_⟩
    rw [if_neg hx, List.mem_map]
    exact ⟨x, (mem_columns_build qs ho s x).2 hc, by rw [getD_of_get? h2]⟩

theorem mem_withOmp {κ : Type} (breaks : Option (List Nat)) (groups : List (List (Line κ))) (k : κ)
    (rhs : List Tok) : Line.asg k rhs ∈ withOmp breaks groups ↔ Line.asg k rhs ∈ groups.flatten := by
  cases breaks with
  | none => rfl
  | some bs =>
    unfold withOmp
    dsimp only
    simp only [List.mem_append, List.mem_flatten, List.mem_map]
    constructor
    · rintro (⟨l, ⟨p, hp, rfl⟩, hl⟩ | hm)
      · rcases List.mem_append.1 hl with hl | hl
        · unfold ompBefore at hl
          split at hl <;> split at hl <;> simp at hl
        · exact ⟨p.1, (List.mem_zipIdx hp).2.2 ▸ List.getElem_mem _, hl⟩
      · simp at hm
    · rintro ⟨l, hl, hm⟩
      left
      obtain ⟨i, hi, rfl⟩ := List.getElem_of_mem hl
      refine ⟨_, ⟨(groups[i], i), ?_, rfl⟩, List.mem_append_right _ hm⟩
      rw [List.mem_zipIdx_iff_getElem?]
      exact List.getElem?_eq_getElem hi

/-- An assignment of the Fortran Jacobian. -/
theorem mem_jacF {qs : List RawEqn} {ord : SetOrder} (ho : ord.Valid) {n : Nat} {cores : Option Nat}
    {F : List (Line (Nat × Nat))} (hF : writeJacobianF (build qs).gen ord n cores = .ok F)
    (k : Nat × Nat) (rhs : List Tok) :
    Line.asg k rhs ∈ F ↔ ∃ s x i j, (build qs).index.get? s = some i ∧ (build qs).index.get? x = some j ∧
      k = (i + 1, j + 1) ∧ s ∉ excluded ∧ couples (build qs) qs s x ∧ rhs = jacRhsF qs ord ho s x := by
  rw [writeJacobianF_build qs ho] at hF
  injection hF with hF
  subst hF
  rw [mem_withOmp, List.mem_flatten]
  constructor
  · rintro ⟨l, hl, hm⟩
    rw [List.mem_map] at hl
    obtain ⟨p, hp, rfl⟩ := hl
    by_cases hx : p.1 ∈ excluded
    · rw [if_pos hx] at hm; simp at hm
    · rw [if_neg hx, List.mem_map] at hm
      obtain ⟨x, hxc, he⟩ := hm
      injection he with h1 h2
      subst h1; subst h2
      have hc := (mem_columns_build qs ho p.1 x).1 hxc
      obtain ⟨e, q, hq, -, hr⟩ := id hc
      obtain ⟨j, hj⟩ := index_of_reactant hq hr
      refine ⟨p.1, x, p.2, j, (index_mem_iff qs p.1 p.2).1 hp, hj, ?_, hx, hc, rfl⟩
      rw [getD_of_get? hj]
  · rintro ⟨s, x, i, j, h1, h2, rfl, hx, hc, rfl⟩
    refine ⟨_, List.mem_map_of_mem ((index_mem_iff qs s i).2 h1), ?_⟩
    rw [if_neg hx, List.mem_map]
    exact ⟨x, (mem_columns_build qs ho s x).2 hc, by rw [getD_of_get? h2]⟩

theorem index_inj' (qs : List RawEqn) {s s' : Str} {i : Nat} (h : (build qs).index.get? s = some i)
    (h' : (build qs).index.get? s' = some i) : s = s' :=
  index_inj qs ((index_mem_iff qs s i).2 h) ((index_mem_iff qs s' i).2 h')

/-- Full description of a matrix computed by a Jacobian program. -/
structure JacResult (qs : List RawEqn) (conc : Str → ℝ) (k : Nat → ℝ) (a out : Nat × Nat → ℝ) : Prop where
  written : ∀ s x i j, (build qs).index.get? s = some i → (build qs).index.get? x = some j →
    s ∉ heldConstant → couples (build qs) qs s x → out (i, j) = jacobianValue (build qs) qs conc k s x
  kept : ∀ i j, (∀ s x, (build qs).index.get? s = some i → (build qs).index.get? x = some j →
    s ∉ heldConstant → ¬ couples (build qs) qs s x) → out (i, j) = a (i, j)

theorem JacResult.unique {qs : List RawEqn} {conc : Str → ℝ} {k : Nat → ℝ} {a out out' : Nat × Nat → ℝ}
    (h : JacResult qs conc k a out) (h' : JacResult qs conc k a out') : out = out' := by
  funext ⟨i, j⟩
  by_cases hc : ∃ s x, (build qs).index.get? s = some i ∧ (build qs).index.get? x = some j ∧
      s ∉ heldConstant ∧ couples (build qs) qs s x
  · obtain ⟨s, x, h1, h2, h3, h4⟩ := hc
    rw [h.written s x i j h1 h2 h3 h4, h'.written s x i j h1 h2 h3 h4]
  · have : ∀ s x, (build qs).index.get? s = some i → (build qs).index.get? x = some j →
        s ∉ heldConstant → ¬ couples (build qs) qs s x :=
      fun s x h1 h2 h3 h4 => hc ⟨s, x, h1, h2, h3, h4⟩
    rw [h.kept i j this, h'.kept i j this]

theorem runPy (qs : List RawEqn) {ord : SetOrder} (ho : ord.Valid) :
    ∃ P, writeJacobianPy (build qs).gen ord = .ok P ∧
      ∀ (env : Env) (conc : Str → ℝ) (a : Nat × Nat → ℝ),
        (∀ s i, (build qs).index.get? s = some i → env.y i = conc s) →
        ∃ out, exec .python env P a = some out ∧ JacResult qs conc env.r a out := by
  refine ⟨_, writeJacobianPy_build qs ho, ?_⟩
  have hmem := mem_jacPy ho (writeJacobianPy_build qs ho)
  revert hmem
  generalize (((build qs).index.map (fun p =>
      if p.1 ∈ excluded then [] else (jacColumns (build qs).gen ord p.1).map (fun x =>
        Line.asg (p.2, (build qs).index.getD x 0) (jacRhsPy qs ord ho p.1 x)))).flatten) = P
  intro hmem env conc a hy
  have hval : ∀ s x, couples (build qs) qs s x → evalRhs .python env (jacRhsPy qs ord ho s x) =
      some (jacobianValue (build qs) qs conc env.r s x) := by
    intro s x hc
    rw [jacRhsPy_val qs ho ((mem_columns_build qs ho s x).2 hc), jacEntry_build qs ho env conc hy]
  have hsome : (exec .python env P a).isSome := by
    rw [exec_isSome_iff]
    intro k rhs hm
    obtain ⟨s, x, -, -, -, hc, rfl⟩ := (hmem k rhs).1 hm
    rw [hval s x hc]; rfl
  obtain ⟨out, hout⟩ := Option.isSome_iff_exists.1 hsome
  refine ⟨out, hout, ?_, ?_⟩
  · intro s x i j h1 h2 hx hc
    refine exec_value .python env P a out (i, j) _ hout
      ⟨(i, j), _, (hmem (i, j) _).2 ⟨s, x, h1, h2, hx, hc, rfl⟩, rfl⟩ ?_
    intro k rhs hm hk
    have hk' : k = (i, j) := hk
    subst hk'
    obtain ⟨s', x', h3, h4, -, -, rfl⟩ := (hmem (i, j) rhs).1 hm
    rw [index_inj' qs h3 h1, index_inj' qs h4 h2]
    exact hval s x hc
  · intro i j hno
    apply exec_untouched .python env P a out (i, j) hout
    intro k rhs hm hk
    have hk' : k = (i, j) := hk
    subst hk'
    obtain ⟨s, x, h1, h2, h3, h4, -⟩ := (hmem (i, j) rhs).1 hm
    exact hno s x h1 h2 h3 h4

theorem runF (qs : List RawEqn) {ord : SetOrder} (ho : ord.Valid) (n : Nat) (cores : Option Nat) :
    ∃ F, writeJacobianF (build qs).gen ord n cores = .ok F ∧
      ∀ (env : Env) (conc : Str → ℝ) (a : Nat × Nat → ℝ),
        (∀ s i, (build qs).index.get? s = some i → env.y i = conc s) →
        ∃ out, exec .fortran env F a = some out ∧ JacResult qs conc env.r a out := by
  have hF := writeJacobianF_build qs ho n cores
  revert hF
  generalize withOmp (cores.map (breakList n)) ((build qs).index.map (fun p =>
      if p.1 ∈ excluded then [] else (jacColumns (build qs).gen ord p.1).map (fun x =>
        Line.asg (p.2 + 1, (build qs).index.getD x 0 + 1) (jacRhsF qs ord ho p.1 x)))) = F
  intro hF
  refine ⟨F, hF, ?_⟩
  have hmem := mem_jacF ho hF
  intro env conc a hy
  have hval : ∀ s x, couples (build qs) qs s x → evalRhs .fortran env (jacRhsF qs ord ho s x) =
      some (jacobianValue (build qs) qs conc env.r s x) := by
    intro s x hc
    rw [jacRhsF_val qs ho ((mem_columns_build qs ho s x).2 hc), jacEntry_build qs ho env conc hy]
  have hsome : (exec .fortran env F a).isSome := by
    rw [exec_isSome_iff]
    intro k rhs hm
    obtain ⟨s, x, i, j, -, -, -, -, hc, rfl⟩ := (hmem k rhs).1 hm
    rw [hval s x hc]; rfl
  obtain ⟨out, hout⟩ := Option.isSome_iff_exists.1 hsome
  refine ⟨out, hout, ?_, ?_⟩
  · intro s x i j h1 h2 hx hc
    refine exec_value .fortran env F a out (i, j) _ hout
      ⟨(i + 1, j + 1), _, (hmem (i + 1, j + 1) _).2 ⟨s, x, i, j, h1, h2, rfl, hx, hc, rfl⟩, rfl⟩ ?_
    intro k rhs hm hk
    obtain ⟨s', x', i', j', h3, h4, rfl, -, -, rfl⟩ := (hmem k rhs).1 hm
    simp only [offset_fortran_pair, Nat.add_sub_cancel, Prod.mk.injEq] at hk
    obtain ⟨rfl, rfl⟩ := hk
    rw [index_inj' qs h3 h1, index_inj' qs h4 h2]
    exact hval s x hc
  · intro i j hno
    apply exec_untouched .fortran env F a out (i, j) hout
    intro k rhs hm hk
    obtain ⟨s, x, i', j', h1, h2, rfl, h3, h4, -⟩ := (hmem k rhs).1 hm
    simp only [offset_fortran_pair, Nat.add_sub_cancel, Prod.mk.injEq] at hk
    obtain ⟨rfl, rfl⟩ := hk
    exact hno s x h1 h2 h3 h4

/-- Concentrations by name for a given array. -/
noncomputable def concOf (t : Tables) (y : Nat → ℝ) : Str → ℝ := fun s => y (t.index.getD s 0)

theorem concOf_holds (t : Tables) (y : Nat → ℝ) (s : Str) (i : Nat) (h : t.index.get? s = some i) :
    y i = concOf t y s := by
  unfold concOf; rw [getD_of_get? h]

/-- A set order that keeps first occurrences, to show that valid orders exist. -/
def keepOrder : SetOrder := fun l => l.dedup

theorem keepOrder_valid : keepOrder.Valid := fun l => ⟨List.nodup_dedup l, fun _ => List.mem_dedup⟩

/-- Another valid order. -/
def reverseOrder : SetOrder := fun l => l.dedup.reverse

theorem reverseOrder_valid : reverseOrder.Valid :=
  fun l => ⟨List.nodup_reverse.2 (List.nodup_dedup l), fun _ => by simp [reverseOrder]⟩

example : keepOrder.Valid ∧ reverseOrder.Valid ∧
    keepOrder ["A".toList, "B".toList] ≠ reverseOrder ["A".toList, "B".toList] :=
  ⟨keepOrder_valid, reverseOrder_valid, by decide +kernel⟩

/-! ## C20, C21 -/

/-- C21: for any two iteration orders the generated Python Jacobians are valid programs and compute
the same matrix from the same concentrations, rate coefficients and initial matrix. -/
theorem C21_order_independent {text : Str} {m : Mechanism} (h : extractMechanism text = .ok m)
    {ord₁ ord₂ : SetOrder} (h₁ : ord₁.Valid) (h₂ : ord₂.Valid) :
    ∃ P₁ P₂, writeJacobianPy m.tables.gen ord₁ = .ok P₁ ∧ writeJacobianPy m.tables.gen ord₂ = .ok P₂ ∧
      ∀ (env : Env) (a : Nat × Nat → ℝ), ∃ out, exec .python env P₁ a = some out ∧
        exec .python env P₂ a = some out := by
  obtain ⟨qs, -, h2, -⟩ := extract_reads h
  rw [h2]
  obtain ⟨P₁, e1, r1⟩ := runPy qs h₁
  obtain ⟨P₂, e2, r2⟩ := runPy qs h₂
  refine ⟨P₁, P₂, e1, e2, ?_⟩
  intro env a
  have hy := concOf_holds (build qs) env.y
  obtain ⟨o1, x1, j1⟩ := r1 env _ a hy
  obtain ⟨o2, x2, j2⟩ := r2 env _ a hy
  exact ⟨o1, x1, by rw [x2, j1.unique j2]⟩

/-- C20: the Python and the Fortran Jacobian are valid programs that compute the same matrix, for any
iteration orders in the two generator runs and any number of cores. -/
theorem C20_same_matrix {text : Str} {m : Mechanism} (h : extractMechanism text = .ok m)
    {ord₁ ord₂ : SetOrder} (h₁ : ord₁.Valid) (h₂ : ord₂.Valid) (n : Nat) (cores : Option Nat) :
    ∃ P F, writeJacobianPy m.tables.gen ord₁ = .ok P ∧ writeJacobianF m.tables.gen ord₂ n cores = .ok F ∧
      ∀ (env : Env) (a : Nat × Nat → ℝ), ∃ out, exec .python env P a = some out ∧
        exec .fortran env F a = some out := by
  obtain ⟨qs, -, h2, -⟩ := extract_reads h
  rw [h2]
  obtain ⟨P, e1, r1⟩ := runPy qs h₁
  obtain ⟨F, e2, r2⟩ := runF qs h₂ n cores
  refine ⟨P, F, e1, e2, ?_⟩
  intro env a
  have hy := concOf_holds (build qs) env.y
  obtain ⟨o1, x1, j1⟩ := r1 env _ a hy
  obtain ⟨o2, x2, j2⟩ := r2 env _ a hy
  exact ⟨o1, x1, by rw [x2, j1.unique j2]⟩

example : extractMechanism sampleText = .ok ⟨build sampleReactions, 3⟩ ∧ keepOrder.Valid ∧
    reverseOrder.Valid := ⟨sample_parses, keepOrder_valid, reverseOrder_valid⟩

/-! ## C15 for the Jacobian -/

/-- C15: the rows of species held constant are not written by either Jacobian. -/
theorem C15_jacobian_rows {text : Str} {m : Mechanism} (h : extractMechanism text = .ok m)
    {ord : SetOrder} (ho : ord.Valid) {s : Str} {i : Nat} (hs : m.tables.index.get? s = some i)
    (hx : s ∈ heldConstant) (n : Nat) (cores : Option Nat) :
    ∃ P F, writeJacobianPy m.tables.gen ord = .ok P ∧ writeJacobianF m.tables.gen ord n cores = .ok F ∧
      (∀ j rhs, Line.asg (i, j) rhs ∉ P) ∧ ∀ j rhs, Line.asg (i + 1, j) rhs ∉ F := by
  obtain ⟨qs, -, h2, -⟩ := extract_reads h
  rw [h2] at hs ⊢
  obtain ⟨P, e1, -⟩ := runPy qs ho
  obtain ⟨F, e2, -⟩ := runF qs ho n cores
  refine ⟨P, F, e1, e2, ?_, ?_⟩
  · intro j rhs hm
    obtain ⟨s', x, h3, -, h4, -, -⟩ := (mem_jacPy ho e1 _ _).1 hm
    rw [index_inj' qs h3 hs] at h4
    exact h4 hx
  · intro j rhs hm
    obtain ⟨s', x, i', j', h3, -, h5, h4, -, -⟩ := (mem_jacF ho e2 _ _).1 hm
    injection h5 with h5 h6
    have : i' = i := by omega
    subst this
    rw [index_inj' qs h3 hs] at h4
    exact h4 hx

/-! ## C22 -/

/-- The right-hand side of the ODE, entry by entry. -/
theorem gasRhs_value {text : Str} {m : Mechanism} (h : extractMechanism text = .ok m)
    {qs : List RawEqn} (hq : Reads text m.equations.toNat qs) {k y out : Nat → ℝ}
    (hrun : gasRhs m.tables m.equations.toNat k y = some out) {s : Str} {i : Nat}
    (hs : m.tables.index.get? s = some i) (hx : s ∉ heldConstant) :
    out i = ∑ e ∈ Finset.range qs.length,
      ((recorded m.tables.gain s e : ℝ) - (recorded m.tables.loss s e : ℝ)) *
        ((match qs[e]? with
          | some q => if chemReactants q = [] then 0 else
              ((names (chemReactants q)).map (fun n =>
                concOf m.tables y n ^ (coef (chemReactants q) n : ℝ))).prod
          | none => 0) * k e) := by
  obtain ⟨P, hP, hex⟩ := C10_value h hq
  obtain ⟨f, hf, hval, -⟩ := hex ⟨y, fun _ => 0⟩ (concOf m.tables y) (fun _ => 0)
    (concOf_holds m.tables y)
  unfold gasRhs at hrun
  rw [hP] at hrun
  dsimp only at hrun
  rw [hf, Option.bind_some] at hrun
  obtain ⟨-, h3⟩ := extract_tables h hq
  rw [C12_gain_minus_loss h hrun hs hx, ← h3]
  apply Finset.sum_congr rfl
  intro e he
  have hlt := Finset.mem_range.1 he
  have hqe : qs[e]? = some qs[e] := List.getElem?_eq_getElem hlt
  rw [hqe]
  dsimp only
  rw [hval e _ hqe]

/-- Whether `gasRhs` is defined does not depend on the state. -/
theorem gasRhs_isSome {text : Str} {m : Mechanism} (h : extractMechanism text = .ok m)
    {qs : List RawEqn} (hq : Reads text m.equations.toNat qs) (k k' y y' : Nat → ℝ)
    (hs : (gasRhs m.tables m.equations.toNat k y).isSome) :
    (gasRhs m.tables m.equations.toNat k' y').isSome := by
  obtain ⟨P, hP, hex⟩ := C10_value h hq
  unfold gasRhs at hs ⊢
  rw [hP] at hs ⊢
  dsimp only at hs ⊢
  obtain ⟨f, hf, -⟩ := hex ⟨y, fun _ => 0⟩ (concOf m.tables y) (fun _ => 0) (concOf_holds m.tables y)
  obtain ⟨f', hf', -⟩ := hex ⟨y', fun _ => 0⟩ (concOf m.tables y') (fun _ => 0) (concOf_holds m.tables y')
  rw [hf, Option.bind_some, C18_valid_iff h] at hs
  rw [hf', Option.bind_some, C18_valid_iff h]
  exact hs

/-- C22: if the generated Jacobian (for any iteration order) has no assignment to the entry of
species `s` and variable `x`, then the tendency of `s` is the same whatever the concentration of
`x`. -/
theorem C22_sparsity_sound {text : Str} {m : Mechanism} (h : extractMechanism text = .ok m)
    {ord : SetOrder} (ho : ord.Valid) {P : List (Line (Nat × Nat))}
    (hP : writeJacobianPy m.tables.gen ord = .ok P) {s x : Str} {i j : Nat}
    (hs : m.tables.index.get? s = some i) (hxj : m.tables.index.get? x = some j)
    (hno : ∀ rhs, Line.asg (i, j) rhs ∉ P) (k y : Nat → ℝ) (v : ℝ) {out out' : Nat → ℝ}
    (hrun : gasRhs m.tables m.equations.toNat k y = some out)
    (hrun' : gasRhs m.tables m.equations.toNat k (Function.update y j v) = some out') :
    out i = out' i := by
  obtain ⟨qs, hq, h2, h3⟩ := extract_reads h
  by_cases hx : s ∈ heldConstant
  · -- held constant: both zero
    have hz : ∀ y o, gasRhs m.tables m.equations.toNat k y = some o → o i = 0 := by
      intro y o ho'
      unfold gasRhs at ho'
      cases hw : writeReactantsPy m.tables.gen m.equations.toNat with
      | error e => rw [hw] at ho'; cases ho'
      | ok R =>
        rw [hw] at ho'
        dsimp only at ho'
        rw [Option.bind_eq_some_iff] at ho'
        obtain ⟨f, -, hf⟩ := ho'
        exact (C15_constant h hs hx _ _).1 o hf
    rw [hz _ _ hrun, hz _ _ hrun']
  · have hnc : ¬ couples (build qs) qs s x := by
      intro hc
      rw [h2] at hP hs hxj
      exact hno _ ((mem_jacPy ho hP (i, j) _).2 ⟨s, x, hs, hxj, hx, hc, rfl⟩)
    rw [gasRhs_value h hq hrun hs hx, gasRhs_value h hq hrun' hs hx]
    apply Finset.sum_congr rfl
    intro e he
    have hlt := Finset.mem_range.1 he
    have hqe : qs[e]? = some qs[e] := List.getElem?_eq_getElem hlt
    rw [hqe]
    dsimp only
    by_cases hr : x ∈ names (chemReactants qs[e])
    · have : ¬ (cell (build qs).gain s e ≠ none ∨ cell (build qs).loss s e ≠ none) :=
        fun hc => hnc ⟨e, _, hqe, hc, hr⟩
      push Not at this
      have h0 : recorded m.tables.gain s e = 0 := by rw [h2]; unfold recorded; rw [this.1]; rfl
      have h1 : recorded m.tables.loss s e = 0 := by rw [h2]; unfold recorded; rw [this.2]; rfl
      rw [h0, h1]; simp
    · congr 2
      split
      · rfl
      · congr 1
        apply List.map_congr_left
        intro n hn
        congr 1
        unfold concOf
        have hne : n ≠ x := fun hh => hr (hh ▸ hn)
        obtain ⟨jn, hjn⟩ := index_of_reactant hqe hn
        rw [h2] at hxj ⊢
        rw [getD_of_get? hjn, Function.update_of_ne]
        intro hh
        subst hh
        exact hne (index_inj' qs hjn hxj)

/-- In the sample the entry of NO2 for HO2 is not written, and the tendencies can be evaluated. -/
example : extractMechanism sampleText = .ok ⟨build sampleReactions, 3⟩ ∧
    (∃ P, writeJacobianPy (build sampleReactions).gen keepOrder = .ok P ∧
      (build sampleReactions).index.get? "NO2".toList = some 2 ∧
      (build sampleReactions).index.get? "HO2".toList = some 5 ∧ ∀ rhs, Line.asg (2, 5) rhs ∉ P) := by
  refine ⟨sample_parses, ?_⟩
  obtain ⟨P, hP, -⟩ := runPy sampleReactions keepOrder_valid
  refine ⟨P, hP, by decide +kernel, by decide +kernel, ?_⟩
  intro rhs hm
  obtain ⟨s, x, h1, h2, -, hc, -⟩ := (mem_jacPy keepOrder_valid hP _ _).1 hm
  have hs : s = "NO2".toList := index_inj' sampleReactions h1 (by decide +kernel)
  have hx : x = "HO2".toList := index_inj' sampleReactions h2 (by decide +kernel)
  subst hs; subst hx
  obtain ⟨e, q, hq, hc, hr⟩ := hc
  have he : e < 3 := (List.getElem?_eq_some_iff.1 hq).1
  have : e = 0 ∨ e = 1 ∨ e = 2 := by omega
  rcases this with rfl | rfl | rfl
  · revert hr; injection hq with hq; subst hq; decide +kernel
  · revert hr; injection hq with hq; subst hq; decide +kernel
  · revert hc; decide +kernel

/-! ## C19 -/

/-- The derivative with respect to `x` of the product the generated reactant code computes for
reaction `q` (each reactant occurrence raised to the summed coefficient, see C10). -/
noncomputable def Spec.trueDeriv (q : RawEqn) (conc : Str → ℝ) (x : Str) : ℝ :=
  if x ∈ names (chemReactants q) then
    ((names (chemReactants q)).count x : ℝ) *
        (conc x ^ (coef (chemReactants q) x : ℝ)) ^ ((names (chemReactants q)).count x - 1) *
        ((coef (chemReactants q) x : ℝ) * conc x ^ ((coef (chemReactants q) x : ℝ) - 1)) *
      ∏ s ∈ (names (chemReactants q)).toFinset.erase x,
        (conc s ^ (coef (chemReactants q) s : ℝ)) ^ (names (chemReactants q)).count s
  else 0

/-- The product computed for a reaction. -/
noncomputable def Spec.codeProduct (q : RawEqn) (conc : Str → ℝ) : ℝ :=
  if chemReactants q = [] then 0 else
    ((names (chemReactants q)).map (fun n => conc n ^ (coef (chemReactants q) n : ℝ))).prod

theorem prod_map_count (l : List Str) (f : Str → ℝ) :
    (l.map f).prod = ∏ s ∈ l.toFinset, f s ^ l.count s := by
  rw [Finset.prod_list_map_count]
  apply Finset.prod_congr rfl
  intro s _
  congr 1
  unfold List.count
  congr 1
  funext a
  rw [Bool.eq_iff_iff]
  exact ⟨fun h => beq_iff_eq.2 (of_decide_eq_true h), fun h => decide_eq_true (beq_iff_eq.1 h)⟩

theorem codeProduct_hasDerivAt (q : RawEqn) (x : Str) (conc : ℝ → Str → ℝ) (v₀ : ℝ)
    (hx : ∀ v, conc v x = v) (hne : ∀ v, ∀ n ∈ names (chemReactants q), n ≠ x → conc v n = conc v₀ n)
    (hreg : x ∈ names (chemReactants q) → v₀ ≠ 0 ∨ 1 ≤ coef (chemReactants q) x) :
    HasDerivAt (fun v => codeProduct q (conc v)) (trueDeriv q (conc v₀) x) v₀ := by
  unfold codeProduct trueDeriv
  by_cases hr : x ∈ names (chemReactants q)
  · have hnil : chemReactants q ≠ [] := by
      intro hh; rw [hh] at hr; simp [names] at hr
    rw [if_pos hr]
    simp only [if_neg hnil]
    have hf : (fun v => ((names (chemReactants q)).map
        (fun n => conc v n ^ (coef (chemReactants q) n : ℝ))).prod) =
        fun v => (v ^ (coef (chemReactants q) x : ℝ)) ^ (names (chemReactants q)).count x *
          ∏ s ∈ (names (chemReactants q)).toFinset.erase x,
            (conc v₀ s ^ (coef (chemReactants q) s : ℝ)) ^ (names (chemReactants q)).count s := by
      funext v
      rw [prod_map_count, ← Finset.mul_prod_erase _ _ (List.mem_toFinset.2 hr), hx v]
      congr 1
      apply Finset.prod_congr rfl
      intro s hs
      rw [hne v s (List.mem_toFinset.1 (Finset.mem_of_mem_erase hs)) (Finset.ne_of_mem_erase hs)]
    rw [hf, hx v₀]
    apply HasDerivAt.mul_const
    apply HasDerivAt.pow
    apply Real.hasDerivAt_rpow_const
    rcases hreg hr with h | h
    · exact Or.inl h
    · right; exact_mod_cast h
  · rw [if_neg hr]
    have hf : (fun v => if chemReactants q = [] then (0 : ℝ) else ((names (chemReactants q)).map
        (fun n => conc v n ^ (coef (chemReactants q) n : ℝ))).prod) =
        fun _ => if chemReactants q = [] then (0 : ℝ) else ((names (chemReactants q)).map
        (fun n => conc v₀ n ^ (coef (chemReactants q) n : ℝ))).prod := by
      funext v
      congr 2
      apply List.map_congr_left
      intro n hn
      rw [hne v n hn (fun hh => hr (hh ▸ hn))]
    rw [hf]
    exact hasDerivAt_const _ _

/-- Net recorded change of `s` in reaction `e`. -/
noncomputable def Spec.netRecorded (t : Tables) (s : Str) (e : Nat) : ℝ :=
  (recorded t.gain s e : ℝ) - (recorded t.loss s e : ℝ)

/-- The tendency of `s`, as a function of the concentration of `x` alone, and its derivative. -/
theorem gasRhs_hasDerivAt {text : Str} {m : Mechanism} (h : extractMechanism text = .ok m)
    {qs : List RawEqn} (hq : Reads text m.equations.toNat qs) {k : Nat → ℝ} {f : (Nat → ℝ) → Nat → ℝ}
    (hf : ∀ y, gasRhs m.tables m.equations.toNat k y = some (f y)) {s x : Str} {i j : Nat}
    (hs : m.tables.index.get? s = some i) (hxj : m.tables.index.get? x = some j)
    (hx : s ∉ heldConstant) (y : Nat → ℝ)
    (hreg : ∀ e q, qs[e]? = some q → netRecorded m.tables s e ≠ 0 → x ∈ names (chemReactants q) →
      y j ≠ 0 ∨ 1 ≤ coef (chemReactants q) x) :
    HasDerivAt (fun v => f (Function.update y j v) i)
      (∑ e ∈ Finset.range qs.length, netRecorded m.tables s e *
        (match qs[e]? with | some q => trueDeriv q (concOf m.tables y) x | none => 0) * k e) (y j) := by
  have hfun : (fun v => f (Function.update y j v) i) = fun v => ∑ e ∈ Finset.range qs.length,
      netRecorded m.tables s e *
        ((match qs[e]? with
          | some q => codeProduct q (concOf m.tables (Function.update y j v)) | none => 0) * k e) := by
    funext v
    rw [gasRhs_value h hq (hf _) hs hx]
    rfl
  rw [hfun]
  apply HasDerivAt.fun_sum
  intro e he
  have hlt := Finset.mem_range.1 he
  have hqe : qs[e]? = some qs[e] := List.getElem?_eq_getElem hlt
  rw [hqe]
  dsimp only
  by_cases hn : netRecorded m.tables s e = 0
  · rw [hn]
    simp only [zero_mul]
    exact hasDerivAt_const _ _
  · rw [mul_assoc]
    apply HasDerivAt.const_mul
    apply HasDerivAt.mul_const
    have hy0 : concOf m.tables y = concOf m.tables (Function.update y j (y j)) := by
      rw [Function.update_eq_self]
    rw [hy0]
    obtain ⟨h2, -⟩ := extract_tables h hq
    apply codeProduct_hasDerivAt qs[e] x (fun v => concOf m.tables (Function.update y j v)) (y j)
    · intro v
      unfold concOf
      rw [getD_of_get? hxj, Function.update_self]
    · intro v n hnm hne
      obtain ⟨jn, hjn⟩ := index_of_reactant hqe hnm
      rw [← h2] at hjn
      have hjj : jn ≠ j := by
        intro hh
        subst hh
        rw [h2] at hjn hxj
        exact hne (index_inj' qs hjn hxj)
      dsimp only [concOf]
      rw [getD_of_get? hjn, Function.update_of_ne hjj, Function.update_of_ne hjj]
    · exact hreg e _ hqe hn

/-- C19 as stated: the generated Jacobian, run on a zero matrix, is the derivative of the generated
right-hand side. -/
def C19_Statement : Prop :=
  ∀ (text : Str) (m : Mechanism), extractMechanism text = .ok m → ∀ (ord : SetOrder), ord.Valid →
    ∀ P, writeJacobianPy m.tables.gen ord = .ok P → ∀ (k y : Nat → ℝ), (∀ i, 0 < y i) →
    ∀ (f : (Nat → ℝ) → Nat → ℝ), (∀ y, gasRhs m.tables m.equations.toNat k y = some (f y)) →
    ∀ out, exec .python ⟨y, k⟩ P (fun _ => 0) = some out →
    ∀ s x i j, m.tables.index.get? s = some i → m.tables.index.get? x = some j → s ∉ heldConstant →
      HasDerivAt (fun v => f (Function.update y j v) i) (out (i, j)) (y j)

/-- The entry computed from a zero matrix, whether or not it is written. -/
theorem jac_entry_value {text : Str} {m : Mechanism} (h : extractMechanism text = .ok m)
    {qs : List RawEqn} (hq : Reads text m.equations.toNat qs) {ord : SetOrder} (ho : ord.Valid)
    {P : List (Line (Nat × Nat))} (hP : writeJacobianPy m.tables.gen ord = .ok P) {k y : Nat → ℝ}
    {out : Nat × Nat → ℝ} (hrun : exec .python ⟨y, k⟩ P (fun _ => 0) = some out) {s x : Str} {i j : Nat}
    (hs : m.tables.index.get? s = some i) (hxj : m.tables.index.get? x = some j)
    (hx : s ∉ heldConstant) :
    out (i, j) = jacobianValue m.tables qs (concOf m.tables y) k s x := by
  obtain ⟨h2, -⟩ := extract_tables h hq
  rw [h2] at hP hs hxj ⊢
  obtain ⟨P', e1, r1⟩ := runPy qs ho
  rw [hP] at e1
  injection e1 with e1
  subst e1
  obtain ⟨o, x1, j1⟩ := r1 ⟨y, k⟩ _ (fun _ => 0) (concOf_holds (build qs) y)
  rw [hrun] at x1
  injection x1 with x1
  subst x1
  by_cases hc : couples (build qs) qs s x
  · exact j1.written s x i j hs hxj hx hc
  · rw [j1.kept i j]
    · symm
      unfold jacobianValue
      apply Finset.sum_eq_zero
      intro e he
      have hlt := Finset.mem_range.1 he
      have hqe : qs[e]? = some qs[e] := List.getElem?_eq_getElem hlt
      rw [hqe]
      dsimp only
      by_cases hr : x ∈ names (chemReactants qs[e])
      · have : ¬ (cell (build qs).gain s e ≠ none ∨ cell (build qs).loss s e ≠ none) :=
          fun hh => hc ⟨e, _, hqe, hh, hr⟩
        push Not at this
        unfold direction
        rw [this.1, this.2]; simp
      · unfold writtenDeriv
        rw [if_neg hr]; simp
    · intro s' x' h3 h4 _
      rw [index_inj' qs h3 hs, index_inj' qs h4 hxj]
      exact hc

/-- C19, exactly: at positive concentrations the generated entry is the derivative for all rate
coefficients if and only if, reaction by reaction, the sign written times the derivative written
equals the recorded net coefficient times the true derivative. -/
theorem C19_exact {text : Str} {m : Mechanism} (h : extractMechanism text = .ok m)
    {qs : List RawEqn} (hq : Reads text m.equations.toNat qs) {ord : SetOrder} (ho : ord.Valid)
    {P : List (Line (Nat × Nat))} (hP : writeJacobianPy m.tables.gen ord = .ok P)
    {f : (Nat → ℝ) → (Nat → ℝ) → Nat → ℝ}
    (hf : ∀ k y, gasRhs m.tables m.equations.toNat k y = some (f k y))
    {y : Nat → ℝ} {out : (Nat → ℝ) → Nat × Nat → ℝ}
    (hrun : ∀ k, exec .python ⟨y, k⟩ P (fun _ => 0) = some (out k)) {s x : Str} {i j : Nat}
    (hs : m.tables.index.get? s = some i) (hxj : m.tables.index.get? x = some j)
    (hx : s ∉ heldConstant) (hpos : 0 < y j) :
    (∀ k, HasDerivAt (fun v => f k (Function.update y j v) i) (out k (i, j)) (y j)) ↔
      ∀ e q, qs[e]? = some q →
        direction m.tables s e * writtenDeriv q (concOf m.tables y) x =
          netRecorded m.tables s e * trueDeriv q (concOf m.tables y) x := by
  have hD := fun k => gasRhs_hasDerivAt h hq (hf k) hs hxj hx y (fun _ _ _ _ _ => Or.inl hpos.ne')
  have hV := fun k => jac_entry_value h hq ho hP (hrun k) hs hxj hx
  constructor
  · intro hall e q hqe
    have hlt : e < qs.length := (List.getElem?_eq_some_iff.1 hqe).1
    have hu := (hall (fun n => if n = e then 1 else 0)).unique (hD _)
    rw [hV] at hu
    unfold jacobianValue at hu
    simp only [mul_ite, mul_one, mul_zero] at hu
    rw [Finset.sum_ite_eq_of_mem' _ _ _ (Finset.mem_range.2 hlt),
      Finset.sum_ite_eq_of_mem' _ _ _ (Finset.mem_range.2 hlt), hqe] at hu
    exact hu
  · intro hall k
    rw [hV k]
    convert hD k using 1
    unfold jacobianValue
    apply Finset.sum_congr rfl
    intro e he
    have hlt := Finset.mem_range.1 he
    have hqe : qs[e]? = some qs[e] := List.getElem?_eq_getElem hlt
    rw [hqe]
    dsimp only
    rw [hall e _ hqe]

/-- A reaction whose derivative with respect to `x` in the row of `s` is written correctly: no
reactant is repeated, `s` is recorded with coefficient one, and the coefficient of `x` is one or at
least two. -/
structure Spec.Differentiable (t : Tables) (q : RawEqn) (s x : Str) (e : Nat) : Prop where
  nodup : (names (chemReactants q)).Nodup
  unit : netRecorded t s e = direction t s e
  power : coef (chemReactants q) x = 1 ∨ 2 ≤ coef (chemReactants q) x

theorem trueDeriv_eq {q : RawEqn} {x : Str} (hr : x ∈ names (chemReactants q))
    (hnd : (names (chemReactants q)).Nodup)
    (hp : coef (chemReactants q) x = 1 ∨ 2 ≤ coef (chemReactants q) x) (conc : Str → ℝ) :
    trueDeriv q conc x = writtenDeriv q conc x := by
  unfold trueDeriv writtenDeriv
  rw [if_pos hr, if_pos hr]
  congr 1
  · rw [List.count_eq_one_of_mem hnd hr]
    simp only [Nat.cast_one, one_mul, Nat.sub_self, pow_zero]
    unfold selfFactor
    rcases hp with hp | hp
    · rw [hp, if_pos rfl]; simp
    · have h1 : coef (chemReactants q) x ≠ 1 := by intro hh; rw [hh] at hp; norm_num at hp
      rw [if_neg h1]
      by_cases h2 : coef (chemReactants q) x = 2
      · rw [if_pos h2, h2]
        norm_num
      · rw [if_neg h2, if_pos (lt_of_le_of_ne hp (Ne.symm h2))]
        push_cast; rfl
  · apply Finset.prod_congr rfl
    intro s hs
    rw [List.count_eq_one_of_mem hnd (List.mem_toFinset.1 (Finset.mem_of_mem_erase hs)), pow_one]

/-- C19, correct case: if every reaction that involves `x` and changes `s` is of the form above, the
generated entry is the derivative, at any concentrations. -/
theorem C19_derivative_partial {text : Str} {m : Mechanism} (h : extractMechanism text = .ok m)
    {qs : List RawEqn} (hq : Reads text m.equations.toNat qs) {ord : SetOrder} (ho : ord.Valid)
    {P : List (Line (Nat × Nat))} (hP : writeJacobianPy m.tables.gen ord = .ok P)
    {k y : Nat → ℝ} {f : (Nat → ℝ) → Nat → ℝ}
    (hf : ∀ y, gasRhs m.tables m.equations.toNat k y = some (f y)) {out : Nat × Nat → ℝ}
    (hrun : exec .python ⟨y, k⟩ P (fun _ => 0) = some out) {s x : Str} {i j : Nat}
    (hs : m.tables.index.get? s = some i) (hxj : m.tables.index.get? x = some j)
    (hx : s ∉ heldConstant)
    (hgood : ∀ e q, qs[e]? = some q → x ∈ names (chemReactants q) →
      (cell m.tables.gain s e ≠ none ∨ cell m.tables.loss s e ≠ none) →
      Spec.Differentiable m.tables q s x e) :
    HasDerivAt (fun v => f (Function.update y j v) i) (out (i, j)) (y j) := by
  have hno : ∀ e, ¬ (cell m.tables.gain s e ≠ none ∨ cell m.tables.loss s e ≠ none) →
      netRecorded m.tables s e = 0 ∧ direction m.tables s e = 0 := by
    intro e hc
    push Not at hc
    unfold netRecorded direction recorded
    rw [hc.1, hc.2]; simp
  have hD := gasRhs_hasDerivAt h hq hf hs hxj hx y (by
    intro e q hqe hn hr
    right
    by_cases hc : cell m.tables.gain s e ≠ none ∨ cell m.tables.loss s e ≠ none
    · rcases (hgood e q hqe hr hc).power with hp | hp
      · rw [hp]
      · linarith
    · exact absurd (hno e hc).1 hn)
  rw [jac_entry_value h hq ho hP hrun hs hxj hx]
  convert hD using 1
  unfold jacobianValue
  apply Finset.sum_congr rfl
  intro e he
  have hlt := Finset.mem_range.1 he
  have hqe : qs[e]? = some qs[e] := List.getElem?_eq_getElem hlt
  rw [hqe]
  dsimp only
  by_cases hr : x ∈ names (chemReactants qs[e])
  · by_cases hc : cell m.tables.gain s e ≠ none ∨ cell m.tables.loss s e ≠ none
    · have hg := hgood e _ hqe hr hc
      rw [hg.unit, trueDeriv_eq hr hg.nodup hg.power]
    · rw [(hno e hc).1, (hno e hc).2]; simp
  · unfold writtenDeriv trueDeriv
    rw [if_neg hr, if_neg hr]; simp

theorem sample_gasRhs : ∃ f : (Nat → ℝ) → (Nat → ℝ) → Nat → ℝ,
    ∀ k y, gasRhs (build sampleReactions) 3 k y = some (f k y) := by
  have hall : ∀ k y, (gasRhs (build sampleReactions) 3 k y).isSome := by
    intro k y
    obtain ⟨R, hR, hex⟩ := C10_value sample_parses sample_reads
    obtain ⟨g, hg, -⟩ := hex ⟨y, fun _ => 0⟩ _ (fun _ => 0) (concOf_holds _ y)
    have hR' : writeReactantsPy (build sampleReactions).gen 3 = .ok R := hR
    unfold gasRhs
    rw [hR']
    dsimp only
    rw [hg, Option.bind_some]
    refine (C18_valid_iff sample_parses _ _).2 ?_
    intro s i hs hx
    have hk : (build sampleReactions).index.get? s ≠ none := by
      intro hh; rw [show (Mechanism.tables ⟨build sampleReactions, 3⟩) = build sampleReactions from rfl, hh] at hs
      cases hs
    have hm : s ∈ (build sampleReactions).index.keys :=
      (Dict.get?_isSome_iff _ _).1 (Option.isSome_iff_ne_none.2 hk)
    have : ∀ s ∈ (build sampleReactions).index.keys, s ∉ heldConstant →
        ∃ e, e < 3 ∧ (cell (build sampleReactions).gain s e ≠ none ∨
          cell (build sampleReactions).loss s e ≠ none) := by decide +kernel
    obtain ⟨e, -, he⟩ := this s hm hx
    exact ⟨e, he⟩
  exact ⟨fun k y => (gasRhs (build sampleReactions) 3 k y).get (hall k y), fun k y => by simp⟩

/-- The generated derivative of `HO2 + HO2 = H2O2` is wrong. -/
theorem C19_false : ¬ C19_Statement := by
  intro h
  obtain ⟨f, hf⟩ := sample_gasRhs
  obtain ⟨P, hP, hrun⟩ := runPy sampleReactions keepOrder_valid
  have hs : (build sampleReactions).index.get? "HO2".toList = some 5 := by decide +kernel
  have hx : "HO2".toList ∉ heldConstant := by decide +kernel
  have hex : ∀ k : Nat → ℝ, ∃ out, exec .python ⟨fun _ => 1, k⟩ P (fun _ => 0) = some out :=
    fun k => (hrun ⟨fun _ => 1, k⟩ _ (fun _ => 0) (concOf_holds _ _)).imp fun o ho => ho.1
  choose out hout using hex
  have := (C19_exact sample_parses sample_reads keepOrder_valid hP hf hout hs hs hx one_pos).1
    (fun k => h _ _ sample_parses _ keepOrder_valid P hP k (fun _ => 1) (fun _ => one_pos) (f k)
      (hf k) (out k) (hout k) _ _ 5 5 hs hs hx) 2 sampleReactions[2] rfl
  have hd : direction (build sampleReactions) "HO2".toList 2 = -1 := by
    have h1 : (cell (build sampleReactions).gain "HO2".toList 2).isSome = false := by decide +kernel
    have h2 : (cell (build sampleReactions).loss "HO2".toList 2).isSome = true := by decide +kernel
    unfold direction
    rw [h1, h2]; simp
  have hn : netRecorded (build sampleReactions) "HO2".toList 2 = -2 := by
    have h1 : recorded (build sampleReactions).gain "HO2".toList 2 = 0 := by decide +kernel
    have h2 : recorded (build sampleReactions).loss "HO2".toList 2 = 2 := by decide +kernel
    unfold netRecorded
    rw [h1, h2]; norm_num
  have hr : "HO2".toList ∈ names (chemReactants sampleReactions[2]) := by decide +kernel
  have hc : coef (chemReactants sampleReactions[2]) "HO2".toList = 2 := by decide +kernel
  have hcnt : (names (chemReactants sampleReactions[2])).count "HO2".toList = 2 := by decide +kernel
  have hone : concOf (build sampleReactions) (fun _ => (1 : ℝ)) = fun _ => 1 := rfl
  have hd' : direction (Mechanism.tables ⟨build sampleReactions, 3⟩) "HO2".toList 2 = -1 := hd
  have hn' : netRecorded (Mechanism.tables ⟨build sampleReactions, 3⟩) "HO2".toList 2 = -2 := hn
  rw [hd', hn', show (Mechanism.tables ⟨build sampleReactions, 3⟩) = build sampleReactions from rfl,
    hone] at this
  unfold writtenDeriv trueDeriv at this
  rw [if_pos hr, if_pos hr, hc, hcnt] at this
  simp only [Real.one_rpow, one_pow, Finset.prod_const_one] at this
  unfold selfFactor at this
  norm_num at this

/-- The hypotheses of the correct case hold for NO and O3 in the sample. -/
example : Reads sampleText 3 sampleReactions ∧ (∃ P, writeJacobianPy (build sampleReactions).gen keepOrder = .ok P) ∧
    (∃ f : (Nat → ℝ) → (Nat → ℝ) → Nat → ℝ, ∀ k y, gasRhs (build sampleReactions) 3 k y = some (f k y)) ∧
    (build sampleReactions).index.get? "NO".toList = some 0 ∧
    (build sampleReactions).index.get? "O3".toList = some 1 ∧ "NO".toList ∉ heldConstant ∧
    couples (build sampleReactions) sampleReactions "NO".toList "O3".toList ∧
    ∀ e q, sampleReactions[e]? = some q → "O3".toList ∈ names (chemReactants q) →
      (cell (build sampleReactions).gain "NO".toList e ≠ none ∨
        cell (build sampleReactions).loss "NO".toList e ≠ none) →
      Spec.Differentiable (build sampleReactions) q "NO".toList "O3".toList e := by
  refine ⟨sample_reads, ?_, sample_gasRhs, by decide +kernel, by decide +kernel, by decide +kernel,
    ⟨0, _, rfl, by decide +kernel, by decide +kernel⟩, ?_⟩
  · obtain ⟨P, hP, -⟩ := runPy sampleReactions keepOrder_valid
    exact ⟨P, hP⟩
  · intro e q hq hr hc
    have he : e < 3 := (List.getElem?_eq_some_iff.1 hq).1
    have : e = 0 ∨ e = 1 ∨ e = 2 := by omega
    rcases this with rfl | rfl | rfl
    · injection hq with hq
      subst hq
      refine ⟨by decide +kernel, ?_, by decide +kernel⟩
      have h1 : recorded (build sampleReactions).gain "NO".toList 0 = 0 := by decide +kernel
      have h2 : recorded (build sampleReactions).loss "NO".toList 0 = 1 := by decide +kernel
      have h3 : (cell (build sampleReactions).gain "NO".toList 0).isSome = false := by decide +kernel
      have h4 : (cell (build sampleReactions).loss "NO".toList 0).isSome = true := by decide +kernel
      unfold netRecorded direction
      rw [h1, h2, h3, h4]; simp
    · refine absurd hr ?_; injection hq with hq; subst hq; decide +kernel
    · refine absurd hr ?_; injection hq with hq; subst hq; decide +kernel

end PyBox
