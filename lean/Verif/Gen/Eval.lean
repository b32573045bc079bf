import Verif.Gen.Model
import Mathlib.Algebra.BigOperators.Group.List.Basic
import Mathlib.Algebra.BigOperators.Group.Finset.Basic
import Mathlib.Tactic.Ring

/-!
# Evaluation lemmas for generated programs
-/

namespace PyBox

/-- A signed product. -/
structure Term where
  neg : Bool
  hd : Fac
  tl : List Fac

/-- `*f1*f2…` -/
def mulToks (fs : List Fac) : List Tok := fs.flatMap (fun f => [.mul, .fac f])

def Term.toks (t : Term) : List Tok := (if t.neg then .minus else .plus) :: .fac t.hd :: mulToks t.tl

noncomputable def Term.val (env : Env) (t : Term) : ℝ :=
  (if t.neg then -t.hd.val env else t.hd.val env) * (t.tl.map (Fac.val env)).prod

/-- Tokens of a signed sum. -/
def sumToks (ts : List Term) : List Tok := ts.flatMap Term.toks

theorem evalTail_mul (env : Env) (fs : List Fac) : ∀ (acc prod : ℝ) (rest : List Tok),
    evalTail env acc prod (mulToks fs ++ rest) =
      evalTail env acc (prod * (fs.map (Fac.val env)).prod) rest := by
  induction fs with
  | nil => intro acc prod rest; simp [mulToks]
  | cons f fs ih =>
    intro acc prod rest
    have : mulToks (f :: fs) ++ rest = .mul :: .fac f :: (mulToks fs ++ rest) := by
      simp [mulToks]
    rw [this, evalTail, ih, List.map_cons, List.prod_cons, mul_assoc]

theorem evalTail_term (env : Env) (t : Term) (acc prod : ℝ) (rest : List Tok) :
    evalTail env acc prod (t.toks ++ rest) = evalTail env (acc + prod) (t.val env) rest := by
  obtain ⟨neg, hd, tl⟩ := t
  cases neg
  · simp only [Term.toks, List.cons_append, Bool.false_eq_true, if_false]
    rw [evalTail, evalTail_mul]; rfl
  · simp only [Term.toks, List.cons_append, if_true]
    rw [evalTail, evalTail_mul]; rfl

theorem evalTail_sum (env : Env) (ts : List Term) : ∀ (acc prod : ℝ),
    evalTail env acc prod (sumToks ts) = some (acc + prod + (ts.map (Term.val env)).sum) := by
  induction ts with
  | nil => intro acc prod; simp [sumToks, evalTail]
  | cons t ts ih =>
    intro acc prod
    have : sumToks (t :: ts) = t.toks ++ sumToks ts := by simp [sumToks]
    rw [this, evalTail_term, ih, List.map_cons, List.sum_cons]
    congr 1; ring

theorem evalExpr_term (env : Env) (t : Term) (rest : List Tok) :
    evalExpr env (t.toks ++ rest) = evalTail env 0 (t.val env) rest := by
  obtain ⟨neg, hd, tl⟩ := t
  cases neg
  · simp only [Term.toks, List.cons_append, Bool.false_eq_true, if_false]
    rw [evalExpr, evalTail_mul]; rfl
  · simp only [Term.toks, List.cons_append, if_true]
    rw [evalExpr, evalTail_mul]; rfl

/-- A non-empty signed sum evaluates to the sum of its terms. -/
theorem evalExpr_sum (env : Env) (ts : List Term) (h : ts ≠ []) :
    evalExpr env (sumToks ts) = some ((ts.map (Term.val env)).sum) := by
  cases ts with
  | nil => exact absurd rfl h
  | cons t ts =>
    have : sumToks (t :: ts) = t.toks ++ sumToks ts := by simp [sumToks]
    rw [this, evalExpr_term, evalTail_sum]
    simp

/-- An empty right-hand side is a syntax error. -/
theorem evalExpr_nil (env : Env) : evalExpr env [] = none := rfl

/-- A product without sign. -/
theorem evalExpr_prod (env : Env) (f : Fac) (fs : List Fac) :
    evalExpr env (.fac f :: mulToks fs) = some (f.val env * (fs.map (Fac.val env)).prod) := by
  rw [evalExpr]
  have := evalTail_mul env fs 0 (f.val env) []
  rw [List.append_nil] at this
  rw [this, evalTail, zero_add]

theorem sumToks_append (a b : List Term) : sumToks (a ++ b) = sumToks a ++ sumToks b := by
  simp [sumToks]

theorem sumToks_cons (a : Term) (b : List Term) : sumToks (a :: b) = a.toks ++ sumToks b := by
  simp [sumToks]

/-! ### Fortran: shifted subscripts and continuations -/

def Fac.shift : Fac → Fac
  | .y i => .y (i + 1)
  | .ypow i s => .ypow (i + 1) s
  | .r e => .r (e + 1)
  | .num q => .num q

def Tok.shift : Tok → Tok
  | .fac f => .fac f.shift
  | t => t

theorem Fac.val_shift (env : Env) (f : Fac) : f.shift.val env.shift = f.val env := by
  cases f <;> simp [Fac.shift, Fac.val, Env.shift]

theorem evalTail_shift (env : Env) : ∀ (ts : List Tok) (acc prod : ℝ),
    evalTail env.shift acc prod (ts.map Tok.shift) = evalTail env acc prod ts
  | [], acc, prod => rfl
  | [t], acc, prod => by cases t <;> rfl
  | t :: u :: ts, acc, prod => by
    cases u with
    | fac f =>
      have ih := evalTail_shift env ts
      cases t <;> simp only [List.map_cons, Tok.shift, evalTail, Fac.val_shift, ih]
    | _ => cases t <;> rfl

theorem evalExpr_shift (env : Env) (ts : List Tok) :
    evalExpr env.shift (ts.map Tok.shift) = evalExpr env ts := by
  match ts with
  | [] => rfl
  | [.fac f] => simp [evalExpr, Tok.shift, evalTail, Fac.val_shift]
  | .fac f :: t :: ts =>
    simp only [List.map_cons, Tok.shift, evalExpr, Fac.val_shift]
    exact evalTail_shift env (t :: ts) _ _
  | [.plus] => rfl
  | [.minus] => rfl
  | .plus :: .fac f :: ts =>
    simp only [List.map_cons, Tok.shift, evalExpr, Fac.val_shift]; exact evalTail_shift env ts _ _
  | .minus :: .fac f :: ts =>
    simp only [List.map_cons, Tok.shift, evalExpr, Fac.val_shift]; exact evalTail_shift env ts _ _
  | .plus :: .plus :: ts => rfl
  | .plus :: .minus :: ts => rfl
  | .plus :: .mul :: ts => rfl
  | .plus :: .cont :: ts => rfl
  | .minus :: .plus :: ts => rfl
  | .minus :: .minus :: ts => rfl
  | .minus :: .mul :: ts => rfl
  | .minus :: .cont :: ts => rfl
  | .mul :: ts => rfl
  | .cont :: ts => rfl

/-- The Fortran token list is the Python one with subscripts shifted and continuations inserted. -/
def FortranOf (f p : List Tok) : Prop := f.filter (fun t => !decide (t = .cont)) = p.map Tok.shift

theorem evalRhs_fortranOf {f p : List Tok} (h : FortranOf f p) (env : Env) :
    evalRhs .fortran env f = evalRhs .python env p := by
  unfold evalRhs
  dsimp only
  rw [h, evalExpr_shift]

theorem FortranOf.nil : FortranOf [] [] := rfl

theorem FortranOf.append {f p f' p' : List Tok} (h : FortranOf f p) (h' : FortranOf f' p') :
    FortranOf (f ++ f') (p ++ p') := by
  unfold FortranOf at *
  rw [List.filter_append, h, h', List.map_append]

theorem FortranOf.cons {f p : List Tok} (h : FortranOf f p) (t : Tok) (ht : t ≠ .cont) :
    FortranOf (t.shift :: f) (t :: p) := by
  unfold FortranOf at *
  have : t.shift ≠ .cont := by cases t <;> simp_all [Tok.shift]
  rw [List.filter_cons_of_pos (by simpa using this), h, List.map_cons]

theorem FortranOf.cont {f p : List Tok} (h : FortranOf f p) : FortranOf (.cont :: f) p := by
  unfold FortranOf at *
  rw [List.filter_cons_of_neg (by simp), h]

/-! ### Executing a routine body -/

section exec
variable {κ : Type} [DecidableEq κ] [Subscript κ]

theorem exec_append (lang : Lang) (env : Env) (p q : List (Line κ)) : ∀ a,
    exec lang env (p ++ q) a = (exec lang env p a).bind (exec lang env q) := by
  induction p with
  | nil => intro a; rfl
  | cons l p ih =>
    intro a
    cases l with
    | blank => exact ih a
    | omp d => exact ih a
    | asg k rhs =>
      simp only [List.cons_append, exec]
      cases evalRhs lang env rhs with
      | none => rfl
      | some v => exact ih _

/-- The program runs exactly when every right-hand side is an expression. -/
theorem exec_isSome_iff (lang : Lang) (env : Env) (p : List (Line κ)) : ∀ a,
    (exec lang env p a).isSome ↔ ∀ k rhs, Line.asg k rhs ∈ p → (evalRhs lang env rhs).isSome := by
  induction p with
  | nil => intro a; simp [exec]
  | cons l p ih =>
    intro a
    cases l with
    | blank => rw [exec, ih]; simp
    | omp d => rw [exec, ih]; simp
    | asg k rhs =>
      rw [exec]
      cases hv : evalRhs lang env rhs with
      | none =>
        simp only [Option.isSome_none, Bool.false_eq_true, false_iff]
        intro hall
        have := hall k rhs (by simp)
        rw [hv] at this; cases this
      | some v =>
        dsimp only
        rw [ih]
        constructor
        · intro hall k' rhs' hm
          rcases List.mem_cons.1 hm with e | hm
          · injection e with e1 e2; subst e2; rw [hv]; rfl
          · exact hall k' rhs' hm
        · intro hall k' rhs' hm
          exact hall k' rhs' (List.mem_cons_of_mem _ hm)

theorem exec_untouched (lang : Lang) (env : Env) (p : List (Line κ)) : ∀ (a out : κ → ℝ) (k : κ),
    exec lang env p a = some out → (∀ k' rhs, Line.asg k' rhs ∈ p → Subscript.offset lang k' ≠ k) →
    out k = a k := by
  induction p with
  | nil => intro a out k h _; simp only [exec, Option.some.injEq] at h; rw [h]
  | cons l p ih =>
    intro a out k h hne
    have hne' : ∀ k' rhs, Line.asg k' rhs ∈ p → Subscript.offset lang k' ≠ k :=
      fun k' rhs hm => hne k' rhs (List.mem_cons_of_mem _ hm)
    cases l with
    | blank => exact ih a out k h hne'
    | omp d => exact ih a out k h hne'
    | asg k' rhs =>
      rw [exec] at h
      cases hv : evalRhs lang env rhs with
      | none => rw [hv] at h; simp at h
      | some v =>
        rw [hv] at h
        rw [ih _ out k h hne', Function.update_of_ne (fun e => hne k' rhs (by simp) e.symm)]

/-- If all assignments to a cell have the same right-hand side value, that is its final value. -/
theorem exec_value (lang : Lang) (env : Env) (p : List (Line κ)) : ∀ (a out : κ → ℝ) (k : κ) (v : ℝ),
    exec lang env p a = some out → (∃ k' rhs, Line.asg k' rhs ∈ p ∧ Subscript.offset lang k' = k) →
    (∀ k' rhs, Line.asg k' rhs ∈ p → Subscript.offset lang k' = k → evalRhs lang env rhs = some v) →
    out k = v := by
  induction p with
  | nil => intro a out k v _ h; simp at h
  | cons l p ih =>
    intro a out k v h hex hall
    have hall' : ∀ k' rhs, Line.asg k' rhs ∈ p → Subscript.offset lang k' = k →
        evalRhs lang env rhs = some v := fun k' rhs hm => hall k' rhs (List.mem_cons_of_mem _ hm)
    cases l with
    | blank => exact ih a out k v h (by simpa using hex) hall'
    | omp d => exact ih a out k v h (by simpa using hex) hall'
    | asg k' rhs =>
      rw [exec] at h
      cases hv : evalRhs lang env rhs with
      | none => rw [hv] at h; simp at h
      | some w =>
        rw [hv] at h
        by_cases hp : ∃ k' rhs, Line.asg k' rhs ∈ p ∧ Subscript.offset lang k' = k
        · exact ih _ out k v h hp hall'
        · rw [exec_untouched lang env p _ out k h (by
            intro k2 rhs2 hm he; exact hp ⟨k2, rhs2, hm, he⟩)]
          obtain ⟨k2, rhs2, hm, he⟩ := hex
          rcases List.mem_cons.1 hm with e | hm
          · injection e with e1 e2
            subst e1; subst e2
            rw [← he, Function.update_self]
            have := hall k2 rhs2 (by simp) he
            rw [hv] at this
            injection this
          · exact absurd ⟨k2, rhs2, hm, he⟩ hp

/-- Two programs that correspond line by line compute the same array. -/
inductive SameLines : List (Line κ) → List (Line κ) → Prop where
  | nil : SameLines [] []
  | blankL {f p} : SameLines f p → SameLines (.blank :: f) p
  | blankR {f p} : SameLines f p → SameLines f (.blank :: p)
  | ompL {f p} (d) : SameLines f p → SameLines (.omp d :: f) p
  | ompR {f p} (d) : SameLines f p → SameLines f (.omp d :: p)
  | asg {f p} (k k' rhs rhs') : Subscript.offset .fortran k = Subscript.offset .python k' →
      FortranOf rhs rhs' → SameLines f p → SameLines (.asg k rhs :: f) (.asg k' rhs' :: p)

theorem SameLines.exec {f p : List (Line κ)} (h : SameLines f p) (env : Env) : ∀ a,
    exec .fortran env f a = exec .python env p a := by
  induction h with
  | nil => intro a; rfl
  | blankL _ ih => intro a; exact ih a
  | blankR _ ih => intro a; exact ih a
  | ompL _ _ ih => intro a; exact ih a
  | ompR _ _ ih => intro a; exact ih a
  | asg k k' rhs rhs' hk hr _ ih =>
    intro a
    simp only [PyBox.exec]
    rw [evalRhs_fortranOf hr, hk]
    cases evalRhs .python env rhs' with
    | none => rfl
    | some v => exact ih _

omit [DecidableEq κ] in
theorem SameLines.append {f p f' p' : List (Line κ)} (h : SameLines f p) (h' : SameLines f' p') :
    SameLines (f ++ f') (p ++ p') := by
  induction h with
  | nil => exact h'
  | blankL _ ih => exact .blankL ih
  | blankR _ ih => exact .blankR ih
  | ompL d _ ih => exact .ompL d ih
  | ompR d _ ih => exact .ompR d ih
  | asg k k' rhs rhs' hk hr _ ih => exact .asg k k' rhs rhs' hk hr ih

/-- Directives do not matter for a serial run. -/
theorem exec_withOmp (lang : Lang) (env : Env) (breaks : Option (List Nat))
    (groups : List (List (Line κ))) (a : κ → ℝ) :
    exec lang env (withOmp breaks groups) a = exec lang env groups.flatten a := by
  cases breaks with
  | none => rfl
  | some bs =>
    unfold withOmp
    dsimp only
    have hdir : ∀ (k : Nat) (rest : List (Line κ)) (a : κ → ℝ),
        exec lang env (ompBefore bs k ++ rest) a = exec lang env rest a := by
      intro k rest a
      unfold ompBefore
      split <;> split <;> rfl
    have hgen : ∀ (gs : List (List (Line κ))) (n : Nat) (rest : List (Line κ)) (a : κ → ℝ),
        exec lang env (((gs.zipIdx n).map (fun gi => ompBefore bs gi.2 ++ gi.1)).flatten ++ rest) a =
          exec lang env (gs.flatten ++ rest) a := by
      intro gs
      induction gs with
      | nil => intros; rfl
      | cons g gs ih =>
        intro n rest a
        simp only [List.zipIdx_cons, List.map_cons, List.flatten_cons, List.append_assoc]
        rw [hdir, exec_append, exec_append]
        congr 1
        funext b
        exact ih _ _ _
    rw [hgen, exec_append]
    cases exec lang env groups.flatten a <;> rfl

end exec

/-- Array subscripts. -/
@[simp] theorem offset_python_nat (k : Nat) : Subscript.offset Lang.python k = k := rfl
@[simp] theorem offset_fortran_nat (k : Nat) : Subscript.offset Lang.fortran k = k - 1 := rfl
@[simp] theorem offset_python_pair (k : Nat × Nat) : Subscript.offset Lang.python k = k := rfl
@[simp] theorem offset_fortran_pair (k : Nat × Nat) :
    Subscript.offset Lang.fortran k = (k.1 - 1, k.2 - 1) := rfl

end PyBox
