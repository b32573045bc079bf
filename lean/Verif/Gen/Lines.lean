import Verif.Gen.Eval
import Verif.Parse.Species
import Verif.Parse.Tables

/-!
# Shape of the generated lines
-/

namespace PyBox

/-! ### Folding in `Except` -/

theorem foldlM_map_except {α σ τ : Type} (f : σ → α → Except PyErr σ) (f' : τ → α → Except PyErr τ)
    (φ : σ → τ) (h : ∀ s a, f' (φ s) a = (f s a).map φ) (l : List α) : ∀ s,
    l.foldlM f' (φ s) = (l.foldlM f s).map φ := by
  induction l with
  | nil => intro s; rfl
  | cons a l ih =>
    intro s
    rw [List.foldlM_cons, List.foldlM_cons, h]
    cases hf : f s a with
    | error e => rfl
    | ok v => exact ih v

theorem mapM_map_except {α β γ : Type} (f : α → Except PyErr β) (f' : α → Except PyErr γ)
    (φ : β → γ) (l : List α) (h : ∀ a ∈ l, f' a = (f a).map φ) :
    l.mapM f' = (l.mapM f).map (List.map φ) := by
  induction l with
  | nil => rfl
  | cons a l ih =>
    rw [List.mapM_cons, List.mapM_cons, h a (by simp), ih (fun b hb => h b (List.mem_cons_of_mem _ hb))]
    cases hf : f a with
    | error e => rfl
    | ok v =>
      cases hl : l.mapM f with
      | error e => rfl
      | ok vs => rfl

theorem mapM_ok_except {α β : Type} (f : α → Except PyErr β) (g : α → β) (l : List α)
    (h : ∀ a ∈ l, f a = .ok (g a)) : l.mapM f = .ok (l.map g) := by
  induction l with
  | nil => rfl
  | cons a l ih =>
    rw [List.mapM_cons, h a (by simp), ih (fun b hb => h b (List.mem_cons_of_mem _ hb))]
    rfl

/-! ### Reactant lines -/

def shiftLine : Line Nat → Line Nat
  | .blank => .blank
  | .asg k ts => .asg (k + 1) (ts.map Tok.shift)
  | .omp d => .omp d

theorem yFac_shift (i : Nat) (s : ℚ) : (yFac i s).shift = yFac (i + 1) s := by
  unfold yFac; split <;> rfl

theorem reactantStepF_eq (g : GenIn) (e : Nat) (st : Option (List Tok)) (name : Str) :
    reactantStepF g e (st.map (List.map Tok.shift)) name =
      (reactantStepPy g e st name).map (Option.map (List.map Tok.shift)) := by
  unfold reactantStepF reactantStepPy
  by_cases h : name = hv
  · simp [h, pure, Except.pure, Except.map]
  · simp only [h, if_false]
    cases lossCoef g name e with
    | error x => rfl
    | ok s =>
      cases lookup g.index name with
      | error x => rfl
      | ok i =>
        cases st with
        | none =>
          simp only [bind, Except.bind, Option.map_none, pure, Except.pure, Except.map, Option.map_some,
            List.map_cons, List.map_nil, Tok.shift, yFac_shift]
        | some ts =>
          simp only [bind, Except.bind, pure, Except.pure, Except.map, Option.map_some, List.map_append,
            List.map_cons, List.map_nil, Tok.shift, yFac_shift]

/-- The Fortran routine is the Python routine, shifted, with directives. -/
theorem writeReactantsF_eq (g : GenIn) (n : Nat) (cores : Option Nat) :
    writeReactantsF g n cores = (writeReactantsPy g n).map (fun ls =>
      withOmp (cores.map (breakList n)) (ls.map (fun l => [shiftLine l]))) := by
  unfold writeReactantsF writeReactantsPy
  rw [mapM_map_except _ _ (fun l => [shiftLine l]) _ (fun e _ => ?_)]
  rotate_left
  · exact fun e => do
      let l ← (reactantsOf g e).foldlM (reactantStepPy g e) none
      return toLine e l
  · have := foldlM_map_except (reactantStepPy g e) (reactantStepF g e) (Option.map (List.map Tok.shift))
      (reactantStepF_eq g e) (reactantsOf g e) none
    rw [Option.map_none] at this
    rw [this]
    cases (reactantsOf g e).foldlM (reactantStepPy g e) none with
    | error x => rfl
    | ok l => cases l <;> rfl
  · cases (List.range n).mapM (fun e => do
        let l ← (reactantsOf g e).foldlM (reactantStepPy g e) none
        return toLine e l) with
    | error x => rfl
    | ok ls => rfl

theorem map_shift_fortranOf (ts : List Tok) (h : Tok.cont ∉ ts) : FortranOf (ts.map Tok.shift) ts := by
  unfold FortranOf
  rw [List.filter_eq_self]
  intro t ht
  rw [List.mem_map] at ht
  obtain ⟨u, hu, rfl⟩ := ht
  have : u ≠ .cont := by rintro rfl; exact h hu
  have : u.shift ≠ .cont := by cases u <;> simp_all [Tok.shift]
  simp [this]

/-- Factor written for a reactant. -/
theorem foldlM_reactants_some (g : GenIn) (e : Nat) (f : Str → Fac) (names : List Str)
    (h : ∀ n ∈ names, n ≠ hv ∧ ∃ s i, lossCoef g n e = .ok s ∧ lookup g.index n = .ok i ∧ f n = yFac i s) :
    ∀ ts, names.foldlM (reactantStepPy g e) (some ts) = .ok (some (ts ++ mulToks (names.map f))) := by
  induction names with
  | nil => intro ts; simp [mulToks, pure, Except.pure]
  | cons n ns ih =>
    intro ts
    obtain ⟨h1, s, i, h2, h3, h4⟩ := h n (by simp)
    have hstep : reactantStepPy g e (some ts) n = .ok (some (ts ++ [.mul, .fac (f n)])) := by
      unfold reactantStepPy
      simp [h1, h2, h3, h4, bind, Except.bind, pure, Except.pure]
    rw [List.foldlM_cons, hstep]
    have := ih (fun m hm => h m (List.mem_cons_of_mem _ hm)) (ts ++ [.mul, .fac (f n)])
    simp only [bind, Except.bind]
    rw [this]
    simp [mulToks]

/-- Tokens of an unsigned product; `none` for the empty product. -/
def prodToks : List Fac → Option (List Tok)
  | [] => none
  | f :: fs => some (.fac f :: mulToks fs)

theorem foldlM_reactants_none (g : GenIn) (e : Nat) (f : Str → Fac) (names : List Str)
    (h : ∀ n ∈ names, n ≠ hv ∧ ∃ s i, lossCoef g n e = .ok s ∧ lookup g.index n = .ok i ∧ f n = yFac i s) :
    names.foldlM (reactantStepPy g e) none = .ok (prodToks (names.map f)) := by
  cases names with
  | nil => rfl
  | cons n ns =>
    obtain ⟨h1, s, i, h2, h3, h4⟩ := h n (by simp)
    have hstep : reactantStepPy g e none n = .ok (some [.fac (f n)]) := by
      unfold reactantStepPy
      simp [h1, h2, h3, h4, bind, Except.bind, pure, Except.pure]
    rw [List.foldlM_cons, hstep]
    simp only [bind, Except.bind]
    rw [foldlM_reactants_some g e f ns (fun m hm => h m (List.mem_cons_of_mem _ hm))]
    simp [prodToks]

theorem yFac_val (env : Env) (i : Nat) (s : ℚ) : (yFac i s).val env = env.y i ^ (s : ℝ) := by
  unfold yFac
  split
  · rename_i h; simp [Fac.val, h]
  · rfl

/-! ### Tendency lines -/

def stoichFac (s : ℚ) : List Fac := if s = 1 then [] else [.num s]

theorem timesStoich_eq (s : ℚ) : timesStoich s = mulToks (stoichFac s) := by
  unfold timesStoich stoichFac; split <;> rfl

def lossTermsRest (d : Dict Nat ℚ) : List Term := d.map (fun p => ⟨true, .r p.1, stoichFac p.2⟩)

def lossTerms : Dict Nat ℚ → List Term
  | [] => []
  | p :: d => ⟨true, .num 1, .r p.1 :: stoichFac p.2⟩ :: lossTermsRest d

def gainTerms (d : Dict Nat ℚ) : List Term := d.map (fun p => ⟨false, .r p.1, stoichFac p.2⟩)

theorem lossToksPy_false (d : Dict Nat ℚ) : lossToksPy false d = sumToks (lossTermsRest d) := by
  induction d with
  | nil => rfl
  | cons p d ih =>
    obtain ⟨e, s⟩ := p
    rw [lossToksPy, ih, timesStoich_eq]
    simp [lossTermsRest, sumToks, Term.toks]

theorem lossToksPy_true (d : Dict Nat ℚ) : lossToksPy true d = sumToks (lossTerms d) := by
  cases d with
  | nil => rfl
  | cons p d =>
    obtain ⟨e, s⟩ := p
    rw [lossToksPy, lossToksPy_false, timesStoich_eq]
    simp [lossTerms, sumToks, Term.toks, mulToks]

theorem gainToksPy_eq (d : Dict Nat ℚ) : gainToksPy d = sumToks (gainTerms d) := by
  induction d with
  | nil => rfl
  | cons p d ih =>
    obtain ⟨e, s⟩ := p
    rw [gainToksPy, ih, timesStoich_eq]
    simp [gainTerms, sumToks, Term.toks]

/-- `Σ s·r[e]` over the entries of a coefficient table. -/
noncomputable def rateSum (env : Env) (d : Dict Nat ℚ) : ℝ := (d.map (fun p => (p.2 : ℝ) * env.r p.1)).sum

theorem stoichFac_prod (env : Env) (s : ℚ) : ((stoichFac s).map (Fac.val env)).prod = (s : ℝ) := by
  unfold stoichFac
  split
  · rename_i h; simp [h]
  · simp [Fac.val]

theorem gainTerms_sum (env : Env) (d : Dict Nat ℚ) :
    ((gainTerms d).map (Term.val env)).sum = rateSum env d := by
  unfold gainTerms rateSum
  rw [List.map_map]
  congr 1
  apply List.map_congr_left
  intro p _
  simp only [Function.comp_apply, Term.val, stoichFac_prod, Fac.val, Bool.false_eq_true, if_false]
  ring

theorem lossTermsRest_sum (env : Env) (d : Dict Nat ℚ) :
    ((lossTermsRest d).map (Term.val env)).sum = -rateSum env d := by
  unfold lossTermsRest rateSum
  rw [List.map_map]
  induction d with
  | nil => simp
  | cons p d ih =>
    rw [List.map_cons, List.sum_cons, ih, List.map_cons, List.sum_cons]
    simp only [Function.comp_apply, Term.val, stoichFac_prod, Fac.val, if_true]
    ring

theorem lossTerms_sum (env : Env) (d : Dict Nat ℚ) :
    ((lossTerms d).map (Term.val env)).sum = -rateSum env d := by
  cases d with
  | nil => simp [lossTerms, rateSum]
  | cons p d =>
    rw [lossTerms, List.map_cons, List.sum_cons, lossTermsRest_sum]
    unfold rateSum
    rw [List.map_cons, List.sum_cons]
    simp only [Term.val, List.map_cons, List.prod_cons, stoichFac_prod, Fac.val, if_true]
    push_cast; ring

theorem lossTerms_eq_nil (d : Dict Nat ℚ) : lossTerms d = [] ↔ d = [] := by
  cases d <;> simp [lossTerms]

theorem gainTerms_eq_nil (d : Dict Nat ℚ) : gainTerms d = [] ↔ d = [] := by
  simp [gainTerms]

/-- Value of a Python tendency line. -/
theorem evalRhs_tendencyPy (env : Env) (l k : Dict Nat ℚ) :
    evalRhs .python env (lossToksPy true l ++ gainToksPy k) =
      if l = [] ∧ k = [] then none else some (rateSum env k - rateSum env l) := by
  unfold evalRhs
  dsimp only
  rw [lossToksPy_true, gainToksPy_eq, ← sumToks_append]
  by_cases h : l = [] ∧ k = []
  · rw [if_pos h, h.1, h.2]; rfl
  · rw [if_neg h, evalExpr_sum, List.map_append, List.sum_append, lossTerms_sum, gainTerms_sum]
    · congr 1; ring
    · rw [Ne, List.append_eq_nil_iff, lossTerms_eq_nil, gainTerms_eq_nil]; exact h

/-- The coefficient the Fortran writer uses (lines 2604, 2610, 2627, 2633). -/
def fortranCoef (s : ℚ) : ℚ := if s = 1 then 1 else s + 1

def fortranDict (d : Dict Nat ℚ) : Dict Nat ℚ := d.map (fun p => (p.1, fortranCoef p.2))

theorem fortranStoich (s : ℚ) :
    (if s = 1 then [] else [Tok.mul, Tok.fac (.num (s + 1))]) = mulToks (if s = 1 then [] else [.num (s + 1)]) := by
  split <;> rfl

def fStoichFac (s : ℚ) : List Fac := if s = 1 then [] else [.num (s + 1)]

def fLossTermsRest (d : Dict Nat ℚ) : List Term := d.map (fun p => ⟨true, .r (p.1 + 1), fStoichFac p.2⟩)

def fLossTerms : Dict Nat ℚ → List Term
  | [] => []
  | p :: d => ⟨true, .num 1, .r (p.1 + 1) :: fStoichFac p.2⟩ :: fLossTermsRest d

def fGainTerms (d : Dict Nat ℚ) : List Term := d.map (fun p => ⟨false, .r (p.1 + 1), fStoichFac p.2⟩)

def dropCont (ts : List Tok) : List Tok := ts.filter (fun t => !decide (t = .cont))

theorem dropCont_append (a b : List Tok) : dropCont (a ++ b) = dropCont a ++ dropCont b := by
  simp [dropCont]

theorem dropCont_contBefore (limit flag : Nat) : dropCont (contBefore limit flag).1 = [] := by
  unfold contBefore; split <;> rfl

theorem dropCont_mulToks (fs : List Fac) : dropCont (mulToks fs) = mulToks fs := by
  induction fs with
  | nil => rfl
  | cons f fs ih =>
    have : mulToks (f :: fs) = [.mul, .fac f] ++ mulToks fs := by simp [mulToks]
    rw [this, dropCont_append, ih]; rfl

theorem lossToksF_false (d : Dict Nat ℚ) : ∀ flag,
    dropCont (lossToksF false flag d).1 = sumToks (fLossTermsRest d) := by
  induction d with
  | nil => intro flag; rfl
  | cons p d ih =>
    intro flag
    obtain ⟨e, s⟩ := p
    rw [lossToksF]
    dsimp only
    rw [dropCont_append, dropCont_append, dropCont_append, dropCont_contBefore, ih, fortranStoich,
      dropCont_mulToks]
    simp [fLossTermsRest, sumToks, Term.toks, dropCont, fStoichFac]

theorem lossToksF_true (d : Dict Nat ℚ) (flag : Nat) :
    dropCont (lossToksF true flag d).1 = sumToks (fLossTerms d) := by
  cases d with
  | nil => rfl
  | cons p d =>
    obtain ⟨e, s⟩ := p
    rw [lossToksF]
    dsimp only
    rw [dropCont_append, dropCont_append, dropCont_append, dropCont_contBefore, lossToksF_false,
      fortranStoich, dropCont_mulToks]
    simp [fLossTerms, sumToks, Term.toks, dropCont, fStoichFac, mulToks]

theorem gainToksF_eq (d : Dict Nat ℚ) : ∀ flag, dropCont (gainToksF flag d) = sumToks (fGainTerms d) := by
  induction d with
  | nil => intro flag; rfl
  | cons p d ih =>
    intro flag
    obtain ⟨e, s⟩ := p
    rw [gainToksF]
    rw [dropCont_append, dropCont_append, dropCont_append, dropCont_contBefore, ih, fortranStoich,
      dropCont_mulToks]
    simp [fGainTerms, sumToks, Term.toks, dropCont, fStoichFac]

theorem fStoichFac_prod (env : Env) (s : ℚ) :
    ((fStoichFac s).map (Fac.val env)).prod = (fortranCoef s : ℝ) := by
  unfold fStoichFac fortranCoef
  split
  · simp
  · simp [Fac.val]

theorem fGainTerms_sum (env : Env) (d : Dict Nat ℚ) :
    ((fGainTerms d).map (Term.val env.shift)).sum = rateSum env (fortranDict d) := by
  unfold fGainTerms rateSum fortranDict
  rw [List.map_map, List.map_map]
  congr 1
  apply List.map_congr_left
  intro p _
  simp only [Function.comp_apply, Term.val, fStoichFac_prod, Fac.val, Bool.false_eq_true, if_false,
    Env.shift, Nat.add_sub_cancel]
  ring

theorem fLossTermsRest_sum (env : Env) (d : Dict Nat ℚ) :
    ((fLossTermsRest d).map (Term.val env.shift)).sum = -rateSum env (fortranDict d) := by
  unfold fLossTermsRest rateSum fortranDict
  rw [List.map_map, List.map_map]
  induction d with
  | nil => simp
  | cons p d ih =>
    rw [List.map_cons, List.sum_cons, ih, List.map_cons, List.sum_cons]
    simp only [Function.comp_apply, Term.val, fStoichFac_prod, Fac.val, if_true, Env.shift,
      Nat.add_sub_cancel]
    ring

theorem fLossTerms_sum (env : Env) (d : Dict Nat ℚ) :
    ((fLossTerms d).map (Term.val env.shift)).sum = -rateSum env (fortranDict d) := by
  cases d with
  | nil => simp [fLossTerms, rateSum, fortranDict]
  | cons p d =>
    rw [fLossTerms, List.map_cons, List.sum_cons, fLossTermsRest_sum]
    unfold rateSum fortranDict
    rw [List.map_cons, List.map_cons, List.sum_cons]
    simp only [Term.val, List.map_cons, List.prod_cons, fStoichFac_prod, Fac.val, if_true, Env.shift,
      Nat.add_sub_cancel]
    push_cast; ring

/-- Value of a Fortran tendency line. -/
theorem evalRhs_tendencyF (env : Env) (flag : Nat) (l k : Dict Nat ℚ) :
    evalRhs .fortran env ((lossToksF true flag l).1 ++ gainToksF (lossToksF true flag l).2 k) =
      if l = [] ∧ k = [] then none
      else some (rateSum env (fortranDict k) - rateSum env (fortranDict l)) := by
  unfold evalRhs
  dsimp only
  have : ∀ ts : List Tok, ts.filter (fun t => !decide (t = .cont)) = dropCont ts := fun _ => rfl
  rw [this, dropCont_append, lossToksF_true, gainToksF_eq, ← sumToks_append]
  by_cases h : l = [] ∧ k = []
  · rw [if_pos h, h.1, h.2]; rfl
  · rw [if_neg h, evalExpr_sum, List.map_append, List.sum_append, fLossTerms_sum, fGainTerms_sum]
    · congr 1; ring
    · rw [Ne, List.append_eq_nil_iff]
      intro h2
      apply h
      constructor
      · cases l with
        | nil => rfl
        | cons p l => simp [fLossTerms] at h2
      · cases k with
        | nil => rfl
        | cons p k => simp [fGainTerms] at h2

/-! ### Sums over a coefficient table -/

/-- The sum over the entries of a table is the sum over all reactions of the looked-up
coefficient. -/
theorem rateSum_eq (env : Env) (d : Dict Nat ℚ) (n : Nat) (hnd : d.keys.Nodup)
    (hlt : ∀ e ∈ d.keys, e < n) :
    rateSum env d = ∑ e ∈ Finset.range n, (((d.get? e).getD 0 : ℚ) : ℝ) * env.r e := by
  induction d with
  | nil => simp [rateSum, Dict.get?]
  | cons p d ih =>
    obtain ⟨e0, s⟩ := p
    simp only [Dict.keys, List.map_cons, List.nodup_cons] at hnd
    have ih' := ih hnd.2 (fun e he => hlt e (by
      simp only [Dict.keys, List.map_cons, List.mem_cons]; exact .inr he))
    have hget : ∀ e, Dict.get? ((e0, s) :: d) e = if e = e0 then some s else Dict.get? d e := by
      intro e
      simp only [Dict.get?]
      by_cases h : e0 = e
      · simp [h]
      · simp [h, Ne.symm h]
    have he0 : e0 ∈ Finset.range n := by
      rw [Finset.mem_range]
      exact hlt e0 (by simp [Dict.keys])
    have hnone : Dict.get? d e0 = none := by
      rw [Dict.get?_eq_none_iff]; exact hnd.1
    have : rateSum env ((e0, s) :: d) = (s : ℝ) * env.r e0 + rateSum env d := by
      simp [rateSum]
    rw [this, ih']
    rw [← Finset.add_sum_erase _ _ he0]
    rw [← Finset.add_sum_erase (a := e0) _ _ he0]
    rw [hget e0, if_pos rfl, hnone]
    have : ∀ e ∈ (Finset.range n).erase e0,
        (((Dict.get? ((e0, s) :: d) e).getD 0 : ℚ) : ℝ) * env.r e =
          (((Dict.get? d e).getD 0 : ℚ) : ℝ) * env.r e := by
      intro e he
      rw [hget e, if_neg (Finset.ne_of_mem_erase he)]
    rw [Finset.sum_congr rfl this]
    simp

end PyBox
