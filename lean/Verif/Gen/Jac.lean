import Verif.Props.Reactants

/-!
# Shape and value of the generated Jacobian
-/

namespace PyBox

open Spec

/-! ### One term -/

/-- Environment in which subscripts are shifted by `off`. -/
structure Shifted (env : Env) (off : Nat) (env' : Env) : Prop where
  y : ∀ i, env'.y (i + off) = env.y i
  r : ∀ e, env'.r (e + off) = env.r e

theorem shifted_zero (env : Env) : Shifted env 0 env := ⟨fun _ => rfl, fun _ => rfl⟩

theorem shifted_one (env : Env) : Shifted env 1 env.shift :=
  ⟨fun i => by simp [Env.shift], fun e => by simp [Env.shift]⟩

/-- What the generator multiplies by for the variable itself. -/
noncomputable def selfFactor (y : ℝ) (sf : ℚ) : ℝ :=
  if sf = 1 then 1 else if sf = 2 then 2 * y else if 2 < sf then (sf : ℝ) * y ^ ((sf - 1 : ℚ) : ℝ) else 1

/-- The partial product written so far has value `v`. -/
def JacSt (env' : Env) (sign : Tok) (st : Option (List Tok)) (v : ℝ) : Prop :=
  (st = none ∧ v = 1) ∨
  ∃ hd tl, st = some (sign :: .fac hd :: mulToks tl) ∧
    hd.val env' * (tl.map (Fac.val env')).prod = v

theorem mulToks_append (a b : List Fac) : mulToks (a ++ b) = mulToks a ++ mulToks b := by
  simp [mulToks]

theorem mulToks_cons (a : Fac) (b : List Fac) : mulToks (a :: b) = .mul :: .fac a :: mulToks b := by
  simp [mulToks]

/-- Value contributed by one reactant name. -/
noncomputable def jacContribution (g : GenIn) (env : Env) (x : Str) (e : Nat) (sf : ℚ) (r2 : Str) : ℝ :=
  if r2 = x then selfFactor (env.y (g.index.getD r2 0)) sf
  else env.y (g.index.getD r2 0) ^ (((g.loss.getD r2 []).get? e).getD 0 : ℝ)

theorem lookup_ok_iff {α β : Type} [DecidableEq α] {d : Dict α β} {k : α} {v : β} :
    lookup d k = .ok v ↔ d.get? k = some v := by
  unfold lookup
  cases d.get? k <;> simp

theorem getD_of_get? {α β : Type} [DecidableEq α] {d : Dict α β} {k : α} {v w : β} (h : d.get? k = some v) :
    d.getD k w = v := by unfold Dict.getD; rw [h]; rfl

theorem jacFactor_step {g : GenIn} {env env' : Env} {off : Nat} (hsh : Shifted env off env') (sign : Tok)
    {x : Str} {e : Nat} {sf : ℚ} {r2 : Str} {i : Nat} {c : ℚ} (hne : r2 ≠ hv)
    (hi : g.index.get? r2 = some i) (hc : (g.loss.getD r2 []).get? e = some c)
    {st : Option (List Tok)} {v : ℝ} (hst : JacSt env' sign st v) :
    ∃ st', jacFactor g off sign x e sf st r2 = .ok st' ∧
      JacSt env' sign st' (v * jacContribution g env x e sf r2) := by
  have hlk : lookup g.index r2 = .ok i := lookup_ok_iff.2 hi
  have hlc : lossCoef g r2 e = .ok c := lookup_ok_iff.2 hc
  have hgi : g.index.getD r2 0 = i := getD_of_get? hi
  unfold jacFactor jacContribution
  rw [if_neg hne, hgi]
  by_cases hx : r2 = x
  · rw [if_pos hx, if_pos hx]
    unfold selfFactor
    by_cases h1 : sf = 1
    · rw [if_pos h1, if_pos h1]; exact ⟨st, rfl, by rw [mul_one]; exact hst⟩
    · rw [if_neg h1, if_neg h1, hlk]
      simp only [bind, Except.bind]
      by_cases h2 : sf = 2
      · rw [if_pos h2, if_pos h2]
        subst h2
        rcases hst with ⟨rfl, rfl⟩ | ⟨hd, tl, rfl, hv⟩
        · refine ⟨_, rfl, .inr ⟨.num 2, [.y (i + off)], by simp [mulToks], ?_⟩⟩
          simp [Fac.val, hsh.y]
        · refine ⟨_, rfl, .inr ⟨hd, tl ++ [.num 2, .y (i + off)], by simp [mulToks], ?_⟩⟩
          rw [List.map_append, List.prod_append, ← mul_assoc, hv]
          simp [Fac.val, hsh.y]
      · rw [if_neg h2, if_neg h2]
        by_cases h3 : 2 < sf
        · have h3' : sf > 2 := h3
          rw [if_pos h3', if_pos h3]
          rcases hst with ⟨rfl, rfl⟩ | ⟨hd, tl, rfl, hv⟩
          · refine ⟨_, rfl, .inr ⟨.num sf, [.ypow (i + off) (sf - 1)], by simp [mulToks], ?_⟩⟩
            simp [Fac.val, hsh.y]
          · refine ⟨_, rfl, .inr ⟨hd, tl ++ [.num sf, .ypow (i + off) (sf - 1)], by simp [mulToks], ?_⟩⟩
            rw [List.map_append, List.prod_append, ← mul_assoc, hv]
            simp [Fac.val, hsh.y]
        · have h3' : ¬ sf > 2 := h3
          rw [if_neg h3', if_neg h3]
          exact ⟨st, rfl, by rw [mul_one]; exact hst⟩
  · rw [if_neg hx, if_neg hx, hlc, hlk, hc]
    simp only [bind, Except.bind, Option.getD_some]
    rcases hst with ⟨rfl, rfl⟩ | ⟨hd, tl, rfl, hv⟩
    · refine ⟨_, rfl, .inr ⟨.num 1, [yFac (i + off) c], by simp [mulToks], ?_⟩⟩
      have h1 : (Fac.num 1).val env' = 1 := by simp [Fac.val]
      rw [h1, List.map_cons, List.map_nil, List.prod_singleton, yFac_val, hsh.y]
    · refine ⟨_, rfl, .inr ⟨hd, tl ++ [yFac (i + off) c], by simp [mulToks], ?_⟩⟩
      rw [List.map_append, List.prod_append, ← mul_assoc, hv]
      simp [yFac_val, hsh.y]

theorem jacFactor_fold {g : GenIn} {env env' : Env} {off : Nat} (hsh : Shifted env off env') (sign : Tok)
    {x : Str} {e : Nat} {sf : ℚ} (L : List Str)
    (hL : ∀ r ∈ L, r ≠ hv ∧ (∃ i, g.index.get? r = some i) ∧ ∃ c, (g.loss.getD r []).get? e = some c) :
    ∀ (st : Option (List Tok)) (v : ℝ), JacSt env' sign st v →
      ∃ st', L.foldlM (jacFactor g off sign x e sf) st = .ok st' ∧
        JacSt env' sign st' (v * (L.map (jacContribution g env x e sf)).prod) := by
  induction L with
  | nil => intro st v h; exact ⟨st, rfl, by simpa using h⟩
  | cons r L ih =>
    intro st v h
    obtain ⟨h1, ⟨i, hi⟩, c, hc⟩ := hL r (by simp)
    obtain ⟨st1, hs1, hv1⟩ := jacFactor_step hsh sign (x := x) (sf := sf) h1 hi hc h
    obtain ⟨st2, hs2, hv2⟩ := ih (fun r hr => hL r (List.mem_cons_of_mem _ hr)) st1 _ hv1
    refine ⟨st2, ?_, ?_⟩
    · rw [List.foldlM_cons, hs1]; exact hs2
    · rw [List.map_cons, List.prod_cons, ← mul_assoc]; exact hv2

/-- The sign token of a term. -/
def signTok (neg : Bool) : Tok := if neg then .minus else .plus

/-- One term of a Jacobian entry. -/
theorem jacTerm_ok {g : GenIn} {env env' : Env} {off : Nat} (hsh : Shifted env off env') (ord : SetOrder)
    (neg : Bool) {x : Str} {e : Nat} {sf : ℚ} (hx : (g.loss.getD x []).get? e = some sf)
    (hL : ∀ r ∈ ord (reactantsOf g e),
      r ≠ hv ∧ (∃ i, g.index.get? r = some i) ∧ ∃ c, (g.loss.getD r []).get? e = some c) :
    ∃ t : Term, t.neg = neg ∧ jacTerm g ord off (signTok neg) x e = .ok t.toks ∧
      t.val env' = (if neg then -1 else 1) *
        ((ord (reactantsOf g e)).map (jacContribution g env x e sf)).prod * env.r e := by
  obtain ⟨st, hst, hv⟩ := jacFactor_fold hsh (signTok neg) (x := x) (sf := sf)
    (ord (reactantsOf g e)) hL none 1 (.inl ⟨rfl, rfl⟩)
  have hlc : lossCoef g x e = .ok sf := lookup_ok_iff.2 hx
  unfold jacTerm
  rw [hlc]
  simp only [bind, Except.bind]
  rw [hst]
  rw [one_mul] at hv
  rcases hv with ⟨rfl, h1⟩ | ⟨hd, tl, rfl, h1⟩
  · refine ⟨⟨neg, .num 1, [.r (e + off)]⟩, rfl, rfl, ?_⟩
    rw [h1]
    cases neg <;> simp [Term.val, Fac.val, hsh.r]
  · refine ⟨⟨neg, hd, tl ++ [.r (e + off)]⟩, rfl, ?_, ?_⟩
    · simp [Term.toks, mulToks, pure, Except.pure, signTok]
    · rw [← h1]
      cases neg <;> simp [Term.val, Fac.val, hsh.r, mul_assoc]

/-! ### Sums of terms -/

theorem dropCont_toks (t : Term) : dropCont t.toks = t.toks := by
  unfold Term.toks
  have : (if t.neg then Tok.minus else .plus) :: .fac t.hd :: mulToks t.tl =
      [(if t.neg then Tok.minus else .plus), .fac t.hd] ++ mulToks t.tl := rfl
  rw [this, dropCont_append, dropCont_mulToks]
  congr 1
  cases t.neg <;> rfl

/-- Everything needed to write the terms of the equations in `es`. -/
def JacReady (g : GenIn) (ord : SetOrder) (es : List Nat) : Prop :=
  ∀ e ∈ es, (∀ r ∈ ord (reactantsOf g e),
    r ≠ hv ∧ (∃ i, g.index.get? r = some i) ∧ ∃ c, (g.loss.getD r []).get? e = some c)

/-- Value of the term for equation `e`, without sign. -/
noncomputable def jacVal (g : GenIn) (ord : SetOrder) (env : Env) (x : Str) (e : Nat) : ℝ :=
  if x ∈ ord (reactantsOf g e) then
    ((ord (reactantsOf g e)).map
      (jacContribution g env x e (((g.loss.getD x []).get? e).getD 0))).prod * env.r e
  else 0

theorem jacTermsPy_ok {g : GenIn} {ord : SetOrder} (env : Env) (neg : Bool) (x : Str) (es : List Nat)
    (h : JacReady g ord es) :
    ∃ ts : List Term, jacTermsPy g ord (signTok neg) x es = .ok (sumToks ts) ∧
      (ts.map (Term.val env)).sum = (if neg then -1 else 1) * (es.map (jacVal g ord env x)).sum ∧
      (ts = [] ↔ ∀ e ∈ es, x ∉ ord (reactantsOf g e)) := by
  induction es with
  | nil => exact ⟨[], rfl, by simp, by simp⟩
  | cons e es ih =>
    obtain ⟨ts, h1, h2, h3⟩ := ih (fun e he => h e (List.mem_cons_of_mem _ he))
    by_cases hx : x ∈ ord (reactantsOf g e)
    · have hr := h e (by simp)
      obtain ⟨-, -, sf, hsf⟩ := hr x hx
      obtain ⟨t, -, ht, hv⟩ := jacTerm_ok (shifted_zero env) ord neg hsf hr
      refine ⟨t :: ts, ?_, ?_, ?_⟩
      · rw [jacTermsPy, if_pos hx, ht, h1, sumToks_cons]; rfl
      · rw [List.map_cons, List.sum_cons, h2, hv, List.map_cons, List.sum_cons, jacVal, if_pos hx, hsf]
        simp only [Option.getD_some]; ring
      · simp [hx]
    · refine ⟨ts, ?_, ?_, ?_⟩
      · rw [jacTermsPy, if_neg hx, h1]
      · rw [h2, List.map_cons, List.sum_cons, jacVal, if_neg hx, zero_add]
      · rw [h3]; simp [hx]

theorem jacTermsF_ok {g : GenIn} {ord : SetOrder} (env : Env) (neg : Bool) (x : Str) (es : List Nat)
    (h : JacReady g ord es) :
    ∃ ts : List Term, (∀ flag, ∃ r, jacTermsF g ord (signTok neg) x flag es = .ok r ∧
        dropCont r.1 = sumToks ts) ∧
      (ts.map (Term.val env.shift)).sum = (if neg then -1 else 1) * (es.map (jacVal g ord env x)).sum ∧
      (ts = [] ↔ ∀ e ∈ es, x ∉ ord (reactantsOf g e)) := by
  induction es with
  | nil => exact ⟨[], fun flag => ⟨([], flag), rfl, rfl⟩, by simp, by simp⟩
  | cons e es ih =>
    obtain ⟨ts, h1, h2, h3⟩ := ih (fun e he => h e (List.mem_cons_of_mem _ he))
    by_cases hx : x ∈ ord (reactantsOf g e)
    · have hr := h e (by simp)
      obtain ⟨-, -, sf, hsf⟩ := hr x hx
      obtain ⟨t, -, ht, hv⟩ := jacTerm_ok (shifted_one env) ord neg hsf hr
      refine ⟨t :: ts, ?_, ?_, ?_⟩
      · intro flag
        obtain ⟨r, hr1, hr2⟩ := h1 ((contBefore 3 flag).2 + 1)
        refine ⟨((contBefore 3 flag).1 ++ t.toks ++ r.1, r.2), ?_, ?_⟩
        · rw [jacTermsF, if_pos hx, ht]
          simp only [bind, Except.bind, hr1]; rfl
        · dsimp only
          rw [dropCont_append, dropCont_append, dropCont_contBefore, dropCont_toks, hr2, sumToks_cons]
          rfl
      · rw [List.map_cons, List.sum_cons, h2, hv, List.map_cons, List.sum_cons, jacVal, if_pos hx, hsf]
        simp only [Option.getD_some]; ring
      · simp [hx]
    · refine ⟨ts, ?_, ?_, ?_⟩
      · intro flag
        obtain ⟨r, hr1, hr2⟩ := h1 flag
        exact ⟨r, by rw [jacTermsF, if_neg hx, hr1], hr2⟩
      · rw [h2, List.map_cons, List.sum_cons, jacVal, if_neg hx, zero_add]
      · rw [h3]; simp [hx]

/-! ### On parser tables -/

theorem ord_mem {ord : SetOrder} (ho : ord.Valid) {l : List Str} {x : Str} : x ∈ ord l ↔ x ∈ l :=
  (ho l).2 x

theorem reactantsOf_none (qs : List RawEqn) {e : Nat} (h : qs[e]? = none) :
    reactantsOf (build qs).gen e = [] := by
  have := getD_build_reactants qs e
  rw [h] at this
  unfold reactantsOf Tables.gen
  rw [this]; rfl

theorem jacReady_build (qs : List RawEqn) {ord : SetOrder} (ho : ord.Valid) (es : List Nat) :
    JacReady (build qs).gen ord es := by
  intro e _ r hr
  rw [ord_mem ho] at hr
  cases hq : qs[e]? with
  | none => rw [reactantsOf_none qs hq] at hr; simp at hr
  | some q =>
    rw [reactantsOf_build qs hq] at hr
    refine ⟨nonHv_ne hr, index_of_reactant hq hr, ?_⟩
    exact ⟨_, lookup_ok_iff.1 (lossCoef_build hq hr)⟩

/-- Entry of the Jacobian for species `s` and variable `x` as the generator computes it. -/
noncomputable def jacEntry (g : GenIn) (ord : SetOrder) (env : Env) (s x : Str) : ℝ :=
  ((gainEqs g s).map (jacVal g ord env x)).sum - ((lossEqs g s).map (jacVal g ord env x)).sum

theorem mem_jacColumns {g : GenIn} {ord : SetOrder} (ho : ord.Valid) {s x : Str} :
    x ∈ jacColumns g ord s ↔ ∃ e, (e ∈ lossEqs g s ∨ e ∈ gainEqs g s) ∧ x ∈ reactantsOf g e := by
  unfold jacColumns
  rw [ord_mem ho, List.mem_append, ord_mem ho, ord_mem ho, List.mem_flatMap, List.mem_flatMap]
  constructor
  · rintro (⟨e, h1, h2⟩ | ⟨e, h1, h2⟩)
    · exact ⟨e, .inl h1, h2⟩
    · exact ⟨e, .inr h1, h2⟩
  · rintro ⟨e, h1 | h1, h2⟩
    · exact .inl ⟨e, h1, h2⟩
    · exact .inr ⟨e, h1, h2⟩

/-- Python line for one entry. -/
theorem jacLinePy_ok (qs : List RawEqn) {ord : SetOrder} (ho : ord.Valid) (s x : Str)
    (hx : x ∈ jacColumns (build qs).gen ord s) :
    ∃ rhs, (∀ i, (do
        let j ← lookup (build qs).gen.index x
        let l ← jacTermsPy (build qs).gen ord .minus x (lossEqs (build qs).gen s)
        let k ← jacTermsPy (build qs).gen ord .plus x (gainEqs (build qs).gen s)
        return Line.asg (i, j) (l ++ k)) =
        (Except.ok (Line.asg (i, (build qs).index.getD x 0) rhs) : Except PyErr (Line (Nat × Nat)))) ∧
      ∀ env, evalRhs .python env rhs = some (jacEntry (build qs).gen ord env s x) := by
  have hidx : ∃ j, (build qs).index.get? x = some j := by
    obtain ⟨e, -, hr⟩ := (mem_jacColumns ho).1 hx
    cases hq : qs[e]? with
    | none => rw [reactantsOf_none qs hq] at hr; simp at hr
    | some q => rw [reactantsOf_build qs hq] at hr; exact index_of_reactant hq hr
  obtain ⟨j, hj⟩ := hidx
  have hlk : lookup (build qs).gen.index x = .ok j := lookup_ok_iff.2 hj
  -- the token lists do not depend on the environment
  have env0 : Env := ⟨fun _ => 0, fun _ => 0⟩
  obtain ⟨ts0, hl0, -, -⟩ := jacTermsPy_ok env0 true x (lossEqs (build qs).gen s) (jacReady_build qs ho _)
  obtain ⟨us0, hk0, -, -⟩ := jacTermsPy_ok env0 false x (gainEqs (build qs).gen s) (jacReady_build qs ho _)
  refine ⟨sumToks ts0 ++ sumToks us0, ?_, ?_⟩
  · intro i
    have hl0' : jacTermsPy (build qs).gen ord .minus x (lossEqs (build qs).gen s) = .ok (sumToks ts0) := hl0
    have hk0' : jacTermsPy (build qs).gen ord .plus x (gainEqs (build qs).gen s) = .ok (sumToks us0) := hk0
    rw [hlk, hl0', hk0', getD_of_get? hj]; rfl
  · intro env
    obtain ⟨ts, hl, hlv, hln⟩ := jacTermsPy_ok env true x (lossEqs (build qs).gen s) (jacReady_build qs ho _)
    obtain ⟨us, hk, hkv, hkn⟩ := jacTermsPy_ok env false x (gainEqs (build qs).gen s) (jacReady_build qs ho _)
    rw [hl0] at hl
    rw [hk0] at hk
    injection hl with hl
    injection hk with hk
    rw [hl, hk, ← sumToks_append]
    unfold evalRhs
    dsimp only
    rw [evalExpr_sum]
    · rw [List.map_append, List.sum_append, hlv, hkv]
      simp only [if_true, Bool.false_eq_true, if_false]
      unfold jacEntry
      congr 1; ring
    · rw [Ne, List.append_eq_nil_iff, hln, hkn]
      rintro ⟨h1, h2⟩
      obtain ⟨e, he | he, hr⟩ := (mem_jacColumns ho).1 hx
      · exact h1 e he ((ord_mem ho).2 hr)
      · exact h2 e he ((ord_mem ho).2 hr)

/-- Fortran line for one entry. -/
theorem jacLineF_ok (qs : List RawEqn) {ord : SetOrder} (ho : ord.Valid) (s x : Str)
    (hx : x ∈ jacColumns (build qs).gen ord s) :
    ∃ rhs, (∀ i, (do
        let j ← lookup (build qs).gen.index x
        let l ← jacTermsF (build qs).gen ord .minus x 0 (lossEqs (build qs).gen s)
        let k ← jacTermsF (build qs).gen ord .plus x l.2 (gainEqs (build qs).gen s)
        return Line.asg (i + 1, j + 1) (l.1 ++ k.1)) =
        (Except.ok (Line.asg (i + 1, (build qs).index.getD x 0 + 1) rhs) : Except PyErr (Line (Nat × Nat)))) ∧
      ∀ env, evalRhs .fortran env rhs = some (jacEntry (build qs).gen ord env s x) := by
  have hidx : ∃ j, (build qs).index.get? x = some j := by
    obtain ⟨e, -, hr⟩ := (mem_jacColumns ho).1 hx
    cases hq : qs[e]? with
    | none => rw [reactantsOf_none qs hq] at hr; simp at hr
    | some q => rw [reactantsOf_build qs hq] at hr; exact index_of_reactant hq hr
  obtain ⟨j, hj⟩ := hidx
  have hlk : lookup (build qs).gen.index x = .ok j := lookup_ok_iff.2 hj
  have env0 : Env := ⟨fun _ => 0, fun _ => 0⟩
  obtain ⟨ts0, hl0, -, -⟩ := jacTermsF_ok env0 true x (lossEqs (build qs).gen s) (jacReady_build qs ho _)
  obtain ⟨us0, hk0, -, -⟩ := jacTermsF_ok env0 false x (gainEqs (build qs).gen s) (jacReady_build qs ho _)
  obtain ⟨r, hr, hrd⟩ := hl0 0
  obtain ⟨r2, hr2, hrd2⟩ := hk0 r.2
  refine ⟨r.1 ++ r2.1, ?_, ?_⟩
  · intro i
    have hr' : jacTermsF (build qs).gen ord .minus x 0 (lossEqs (build qs).gen s) = .ok r := hr
    have hr2' : jacTermsF (build qs).gen ord .plus x r.2 (gainEqs (build qs).gen s) = .ok r2 := hr2
    rw [hlk, hr']
    simp only [bind, Except.bind]
    rw [hr2', getD_of_get? hj]; rfl
  · intro env
    obtain ⟨ts, hl, hlv, hln⟩ := jacTermsF_ok env true x (lossEqs (build qs).gen s) (jacReady_build qs ho _)
    obtain ⟨us, hk, hkv, hkn⟩ := jacTermsF_ok env false x (gainEqs (build qs).gen s) (jacReady_build qs ho _)
    obtain ⟨r', h1, h2⟩ := hl 0
    obtain ⟨r2', h3, h4⟩ := hk r.2
    rw [hr] at h1
    rw [hr2] at h3
    injection h1 with h1
    injection h3 with h3
    subst h1; subst h3
    unfold evalRhs
    dsimp only
    have : ∀ ts : List Tok, ts.filter (fun t => !decide (t = .cont)) = dropCont ts := fun _ => rfl
    rw [this, dropCont_append, h2, h4, ← sumToks_append, evalExpr_sum]
    · rw [List.map_append, List.sum_append, hlv, hkv]
      simp only [if_true, Bool.false_eq_true, if_false]
      unfold jacEntry
      congr 1; ring
    · rw [Ne, List.append_eq_nil_iff, hln, hkn]
      rintro ⟨h1, h2⟩
      obtain ⟨e, he | he, hr⟩ := (mem_jacColumns ho).1 hx
      · exact h1 e he ((ord_mem ho).2 hr)
      · exact h2 e he ((ord_mem ho).2 hr)

open Classical in
/-- Right-hand side of a Python entry. -/
noncomputable def jacRhsPy (qs : List RawEqn) (ord : SetOrder) (ho : ord.Valid) (s x : Str) : List Tok :=
  if h : x ∈ jacColumns (build qs).gen ord s then (jacLinePy_ok qs ho s x h).choose else []

open Classical in
/-- Right-hand side of a Fortran entry. -/
noncomputable def jacRhsF (qs : List RawEqn) (ord : SetOrder) (ho : ord.Valid) (s x : Str) : List Tok :=
  if h : x ∈ jacColumns (build qs).gen ord s then (jacLineF_ok qs ho s x h).choose else []

open Classical in
/-- The Python Jacobian on parser tables. -/
theorem writeJacobianPy_build (qs : List RawEqn) {ord : SetOrder} (ho : ord.Valid) :
    writeJacobianPy (build qs).gen ord = .ok (((build qs).index.map (fun p =>
      if p.1 ∈ excluded then [] else (jacColumns (build qs).gen ord p.1).map (fun x =>
        Line.asg (p.2, (build qs).index.getD x 0) (jacRhsPy qs ord ho p.1 x)))).flatten) := by
  unfold writeJacobianPy
  have : (build qs).gen.index.mapM (jacLinesPy (build qs).gen ord) =
      .ok ((build qs).index.map (fun p =>
      if p.1 ∈ excluded then [] else (jacColumns (build qs).gen ord p.1).map (fun x =>
        Line.asg (p.2, (build qs).index.getD x 0) (jacRhsPy qs ord ho p.1 x)))) := by
    apply mapM_ok_except
    intro p _
    unfold jacLinesPy
    by_cases hx : p.1 ∈ excluded
    · rw [if_pos hx, if_pos hx]
    · rw [if_neg hx, if_neg hx]
      apply mapM_ok_except
      intro x hxc
      have := (jacLinePy_ok qs ho p.1 x hxc).choose_spec.1 p.2
      rw [this]
      unfold jacRhsPy
      rw [dif_pos hxc]
  rw [this]; rfl

open Classical in
/-- The Fortran Jacobian on parser tables. -/
theorem writeJacobianF_build (qs : List RawEqn) {ord : SetOrder} (ho : ord.Valid) (n : Nat)
    (cores : Option Nat) :
    writeJacobianF (build qs).gen ord n cores = .ok (withOmp (cores.map (breakList n))
      ((build qs).index.map (fun p =>
      if p.1 ∈ excluded then [] else (jacColumns (build qs).gen ord p.1).map (fun x =>
        Line.asg (p.2 + 1, (build qs).index.getD x 0 + 1) (jacRhsF qs ord ho p.1 x))))) := by
  unfold writeJacobianF
  have : (build qs).gen.index.mapM (jacLinesF (build qs).gen ord) =
      .ok ((build qs).index.map (fun p =>
      if p.1 ∈ excluded then [] else (jacColumns (build qs).gen ord p.1).map (fun x =>
        Line.asg (p.2 + 1, (build qs).index.getD x 0 + 1) (jacRhsF qs ord ho p.1 x)))) := by
    apply mapM_ok_except
    intro p _
    unfold jacLinesF
    by_cases hx : p.1 ∈ excluded
    · rw [if_pos hx, if_pos hx]
    · rw [if_neg hx, if_neg hx]
      apply mapM_ok_except
      intro x hxc
      have := (jacLineF_ok qs ho p.1 x hxc).choose_spec.1 p.2
      rw [this]
      unfold jacRhsF
      rw [dif_pos hxc]
  rw [this]; rfl

theorem jacRhsPy_val (qs : List RawEqn) {ord : SetOrder} (ho : ord.Valid) {s x : Str}
    (hx : x ∈ jacColumns (build qs).gen ord s) (env : Env) :
    evalRhs .python env (jacRhsPy qs ord ho s x) = some (jacEntry (build qs).gen ord env s x) := by
  unfold jacRhsPy
  rw [dif_pos hx]
  exact (jacLinePy_ok qs ho s x hx).choose_spec.2 env

theorem jacRhsF_val (qs : List RawEqn) {ord : SetOrder} (ho : ord.Valid) {s x : Str}
    (hx : x ∈ jacColumns (build qs).gen ord s) (env : Env) :
    evalRhs .fortran env (jacRhsF qs ord ho s x) = some (jacEntry (build qs).gen ord env s x) := by
  unfold jacRhsF
  rw [dif_pos hx]
  exact (jacLineF_ok qs ho s x hx).choose_spec.2 env

end PyBox
