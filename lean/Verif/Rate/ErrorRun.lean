import Verif.Rate.ErrorOps

/-!
# The analysis of rounding errors: expressions and programs
-/

namespace PyBox
namespace Rl

open Real

/-- What is known about the variables. -/
abbrev ErrSt := List (Var × Err)

def ErrSt.get : ErrSt → Var → Err
  | [], _ => .top
  | p :: s, v => if p.1 = v then p.2 else ErrSt.get s v

def forceStr {α : Type} : Str → (Str → α) → α
  | [], k => k []
  | c :: s, k => forceNat c.toNat fun n => forceStr s fun s => k (Char.ofNat n :: s)

def forceVar {α : Type} (v : Var) (k : Var → α) : α :=
  forceStr v.name fun n =>
    match v.idx with
    | none => k ⟨n, none⟩
    | some i => forceNat i fun i => k ⟨n, some i⟩

theorem forceStr_eq {α : Type} : ∀ (s : Str) (k : Str → α), forceStr s k = k s
  | [], _ => rfl
  | c :: s, k => by rw [forceStr, forceNat_eq, forceStr_eq s, Char.ofNat_toNat]

theorem forceVar_eq {α : Type} (v : Var) (k : Var → α) : forceVar v k = k v := by
  obtain ⟨n, i⟩ := v
  unfold forceVar
  rw [forceStr_eq]
  cases i with
  | none => rfl
  | some i => exact forceNat_eq i _

def forceKind {α : Type} (k : Kind) (c : Kind → α) : α :=
  match k with
  | .int => c .int
  | .real .single => c (.real .single)
  | .real .double => c (.real .double)

def forceOp {α : Type} (o : Op) (c : Op → α) : α :=
  match o with
  | .add => c .add
  | .sub => c .sub
  | .mul => c .mul
  | .div => c .div
  | .pow => c .pow

def forceFn {α : Type} (f : Fn) (c : Fn → α) : α :=
  match f with
  | .exp => c .exp
  | .log10 => c .log10
  | .log => c .log
  | .abs => c .abs
  | .sqrt => c .sqrt
  | .cos => c .cos
  | .sin => c .sin
  | .arccos => c .arccos
  | .arctan => c .arctan
  | .trunc => c .trunc
  | .floor => c .floor

def forceEx {α : Type} : KEx → (KEx → α) → α
  | .num q k, c => forceRat q fun q => forceKind k fun k => c (.num q k)
  | .var v, c => forceVar v fun v => c (.var v)
  | .neg a, c => forceEx a fun a => c (.neg a)
  | .bin o a b, c => forceOp o fun o => forceEx a fun a => forceEx b fun b => c (.bin o a b)
  | .call f a, c => forceFn f fun f => forceEx a fun a => c (.call f a)

theorem forceEx_eq {α : Type} (e : KEx) : ∀ c : KEx → α, forceEx e c = c e := by
  induction e with
  | num q k =>
    intro c
    rw [forceEx, forceRat_eq]
    rcases k with - | p
    · rfl
    · cases p <;> rfl
  | var v => intro c; rw [forceEx, forceVar_eq]
  | neg a ih => intro c; rw [forceEx, ih]
  | bin o a b iha ihb => intro c; rw [forceEx]; cases o <;> simp only [forceOp, iha, ihb]
  | call f a ih => intro c; rw [forceEx]; cases f <;> simp only [forceFn, ih]

def ErrSt.Sound (s : ErrSt) (env env' : Vals) : Prop := ∀ v, (s.get v).holds (env v) (env' v)

/-- An operand after its conversion. -/
def convErr (k : SK) (i : Err) : Err :=
  match k with
  | .const z => if |z| ≤ 16777216 then i else .top
  | .whole => .top
  | .real _ => i

def errOf (s : ErrSt) : KEx → Err
  | .num q .int => exactNum q
  | .num q (.real p) => if isExact p q then exactNum q else forceErr (finish p (exactNum q)) tidy
  | .var v => forceVar v fun v => s.get v
  | .neg a => negErr (errOf s a)
  | .bin o a b =>
    match kindOf a, kindOf b with
    | some ka, some kb =>
      match skCommon ka kb with
      | some p =>
        forceErr (convErr ka (errOf s a)) fun i => forceErr (convErr kb (errOf s b)) fun j =>
          forceErr (opErr o i j) fun k => forceErr (finish p k) tidy
      | none => .top
    | _, _ => .top
  | .call f a =>
    match kindOf a with
    | some (.real p) =>
      if f.floating then forceErr (errOf s a) fun i => forceErr (fnErr f i) fun k => forceErr (finish p k) tidy
      else .top
    | _ => .top

theorem convert_err {k : SK} {i : Err} {p : Prec} {v : KVal} {x y : ℝ} (hk : k.Match v) (h : i.holds x v.toReal)
    (hc : Convert ieee p v y) : (convErr k i).holds x y := by
  cases k with
  | const z =>
    obtain rfl : v = .int z := hk
    show (if |z| ≤ 16777216 then i else Err.top).holds x y
    split
    · rename_i hz
      have : y = z := hc.2 (hz.trans (by cases p <;> decide))
      rw [this]
      exact h
    · exact Err.top_holds _ _
  | whole => exact Err.top_holds _ _
  | real q =>
    obtain ⟨w, rfl⟩ := hk
    have : y = w := hc
    rw [this]
    exact h

theorem convertRight_err {k : SK} {i : Err} {p : Prec} {o : Op} {v : KVal} {x y : ℝ} (hk : k.Match v)
    (h : i.holds x v.toReal) (hc : ConvertRight ieee p o v y) : (convErr k i).holds x y := by
  cases o with
  | pow =>
    cases v with
    | int z =>
      have hy : y = z := hc
      cases k with
      | const z' =>
        show (if |z'| ≤ 16777216 then i else Err.top).holds x y
        split
        · rw [hy]; exact h
        · exact Err.top_holds _ _
      | whole => exact Err.top_holds _ _
      | real q => obtain ⟨w, hw⟩ := hk; cases hw
    | real q w => exact convert_err (p := p) hk h hc
  | add => cases v <;> exact convert_err (p := p) hk h hc
  | sub => cases v <;> exact convert_err (p := p) hk h hc
  | mul => cases v <;> exact convert_err (p := p) hk h hc
  | div => cases v <;> exact convert_err (p := p) hk h hc

/-- What the analysis finds is true. -/
theorem errOf_holds {s : ErrSt} {env env' : Vals} (hs : s.Sound env env') : ∀ {e : KEx} {r : KVal},
    Ev ieee env' e r → (errOf s e).holds (e.erase.val env) r.toReal := by
  intro e
  induction e with
  | num q kd =>
    intro r h
    cases h with
    | @int _ z hq hf =>
      have : ((q : ℚ) : ℝ) = KVal.toReal (.int z) := by rw [hq]; simp [KVal.toReal]
      rw [← this]
      exact exactNum_holds q
    | lit hr hex =>
      rw [errOf]
      split
      · rename_i hi
        have := hex (isExact_exact hi)
        simp only [KVal.toReal]
        rw [this]
        exact exactNum_holds q
      · rw [forceErr_eq]; exact tidy_holds (finish_holds (exactNum_holds q) hr)
  | var v => intro r h; cases h; rw [errOf, forceVar_eq]; exact hs v
  | neg a ih =>
    intro r h
    rw [errOf]
    cases h with
    | negInt h _ =>
      have := negErr_holds (ih h)
      simp only [KVal.toReal] at this ⊢
      push_cast
      exact this
    | negReal h => exact negErr_holds (ih h)
  | bin o a b iha ihb =>
    intro r h
    rw [errOf]
    split
    · rename_i ka kb hka hkb
      split
      · rename_i p hp
        rw [erase_bin]
        simp only [forceErr_eq]
        cases h with
        | binInt h1 h2 =>
          have := match_common (kind_sound hka h1) (kind_sound hkb h2)
          rw [hp] at this
          cases this
        | binReal h1 h2 h3 h4 h5 h6 h7 =>
          have m1 := kind_sound hka h1
          have m2 := kind_sound hkb h2
          have := match_common m1 m2
          rw [hp, h3] at this
          obtain rfl := Option.some.inj this
          exact tidy_holds (finish_holds (opErr_holds o (convert_err m1 (iha h1) h4)
            (convertRight_err m2 (ihb h2) h5)) h7)
      · exact Err.top_holds _ _
    · exact Err.top_holds _ _
  | call f a ih =>
    intro r h
    rw [errOf]
    split
    · rename_i p hk
      split
      · rename_i hf
        simp only [forceErr_eq]
        cases h with
        | call _ h1 h2 h3 =>
          obtain ⟨w, hw⟩ := kind_sound hk h1
          cases hw
          exact tidy_holds (finish_holds (fnErr_holds f (ih h1)) h3)
        | absInt h1 =>
          obtain ⟨w, hw⟩ := kind_sound hk h1
          cases hw
        | floor h1 => cases hf
        | trunc h1 => cases hf
      · exact Err.top_holds _ _
    · exact Err.top_holds _ _

/-! ### Programs -/

theorem sound_update {s : ErrSt} {env env' : Vals} (h : s.Sound env env') (v : Var) {i : Err} {x y : ℝ}
    (hi : i.holds x y) : ErrSt.Sound ((v, i) :: s) (Function.update env v x) (Function.update env' v y) := by
  intro w
  rw [ErrSt.get]
  by_cases hv : v = w
  · subst hv
    rw [if_pos rfl, Function.update_self, Function.update_self]
    exact hi
  · rw [if_neg hv, Function.update_of_ne (Ne.symm hv), Function.update_of_ne (Ne.symm hv)]
    exact h w

/-- Forget what is known about some variables. -/
def forget (l : List Var) (s : ErrSt) : ErrSt := l.map (fun v => (v, Err.top)) ++ s

theorem get_forget (l : List Var) (s : ErrSt) (v : Var) :
    (forget l s).get v = if v ∈ l then .top else s.get v := by
  induction l with
  | nil => rfl
  | cons a l ih =>
    show ErrSt.get ((a, Err.top) :: forget l s) v = _
    rw [ErrSt.get, ih]
    by_cases h : a = v
    · simp [h]
    · have : v ≠ a := Ne.symm h
      simp [h, this]

def errStmt (s : ErrSt) : KStmt → ErrSt
  | .asg v e => (v, errOf s e) :: s
  | .ifLe _ _ t e => forget (t.map Prod.fst ++ e.map Prod.fst) s

def errRun (s : ErrSt) (p : List KStmt) : ErrSt := p.foldl errStmt s

theorem evAsgs_other : ∀ {l : List (Var × KEx)} {R : Rounding} {env env' : Vals}, EvAsgs R env l env' → ∀ v,
    v ∉ l.map Prod.fst → env' v = env v := by
  intro l
  induction l with
  | nil => intro R env env' h v _; cases h; rfl
  | cons p l ih =>
    intro R env env' h v hv
    cases h with
    | cons h1 h2 =>
      rw [List.map_cons, List.mem_cons, not_or] at hv
      rw [ih h2 v hv.2, Function.update_of_ne hv.1]

theorem runAsgs_other : ∀ (l : List (Var × KEx)) (env : Vals) (v : Var), v ∉ l.map Prod.fst →
    runAsgs env (l.map eraseAsg) v = env v
  | [], _, _, _ => rfl
  | p :: l, env, v, hv => by
    rw [List.map_cons, List.mem_cons, not_or] at hv
    show runAsgs (Function.update env p.1 (p.2.erase.val env)) (l.map eraseAsg) v = env v
    rw [runAsgs_other l _ v hv.2, Function.update_of_ne hv.1]

theorem errStmt_sound {s : ErrSt} {env env' out : Vals} (h : s.Sound env env') {st : KStmt}
    (he : EvStmt ieee env' st out) : (errStmt s st).Sound (st.erase.run env) out := by
  cases he with
  | asg h1 => exact sound_update h _ (errOf_holds h h1)
  | @yes _ a b t e _ _ h1 h2 h3 h4 =>
    intro v
    show ((forget (t.map Prod.fst ++ e.map Prod.fst) s).get v).holds _ _
    rw [get_forget]
    split
    · exact Err.top_holds _ _
    · rename_i hv
      rw [List.mem_append, not_or] at hv
      rw [evAsgs_other h4 v hv.1, KStmt.erase, Stmt.run]
      split
      · rw [runAsgs_other t env v hv.1]; exact h v
      · rw [runAsgs_other e env v hv.2]; exact h v
  | @no _ a b t e _ _ h1 h2 h3 h4 =>
    intro v
    show ((forget (t.map Prod.fst ++ e.map Prod.fst) s).get v).holds _ _
    rw [get_forget]
    split
    · exact Err.top_holds _ _
    · rename_i hv
      rw [List.mem_append, not_or] at hv
      rw [evAsgs_other h4 v hv.2, KStmt.erase, Stmt.run]
      split
      · rw [runAsgs_other t env v hv.1]; exact h v
      · rw [runAsgs_other e env v hv.2]; exact h v

theorem errRun_sound : ∀ {p : List KStmt} {s : ErrSt} {env env' out : Vals}, s.Sound env env' →
    EvRun ieee env' p out → (errRun s p).Sound (run env (p.map KStmt.erase)) out := by
  intro p
  induction p with
  | nil => intro s env env' out h he; cases he; exact h
  | cons st p ih =>
    intro s env env' out h he
    cases he with
    | cons h1 h2 => exact ih (errStmt_sound h h1) h2

/-! ### Programs, with the results given -/

/-- The first says at least as much as the second. -/
def weaker (i j : Err) : Bool :=
  (match j.ratio, i.ratio with
    | none, _ => true
    | some e, some e' => decide (e' ≤ e)
    | some _, none => false) &&
  (match j.logs, i.logs with
    | none, _ => true
    | some p, some q => decide (p.1 ≤ q.1 ∧ q.2 ≤ p.2)
    | some _, none => false) &&
  (match j.range, i.range with
    | none, _ => true
    | some p, some q => decide (p.1 ≤ q.1 ∧ q.2.1 ≤ p.2.1 ∧ q.2.2 ≤ p.2.2)
    | some _, none => false)

theorem weaker_holds {i j : Err} (h : weaker i j = true) {x y : ℝ} (hi : i.holds x y) : j.holds x y := by
  unfold weaker at h
  rw [Bool.and_eq_true, Bool.and_eq_true] at h
  obtain ⟨⟨h1, h2⟩, h3⟩ := h
  have k1 := hi.ratio
  have k2 := hi.logs
  have k3 := hi.range
  refine ⟨?_, ?_, ?_⟩
  · split at h1
    · rename_i a; rw [a]; trivial
    · rename_i e e' a b
      rw [b] at k1
      rw [a]
      exact Ratio.mono k1 (by exact_mod_cast of_decide_eq_true h1)
    · cases h1
  · split at h2
    · rename_i a; rw [a]; trivial
    · rename_i p q a b
      rw [b] at k2
      rw [a]
      have k2 : LogIn q.1 q.2 x := k2
      obtain ⟨g1, g2⟩ := of_decide_eq_true h2
      exact ⟨k2.1, le_trans (by exact_mod_cast g1) k2.2.1, k2.2.2.trans (by exact_mod_cast g2)⟩
    · cases h2
  · split at h3
    · rename_i a; rw [a]; trivial
    · rename_i p q a b
      rw [b] at k3
      rw [a]
      have k3 : Off q.1 q.2.1 q.2.2 x y := k3
      obtain ⟨g1, g2, g3⟩ := of_decide_eq_true h3
      exact ⟨le_trans (by exact_mod_cast g1) k3.1, k3.2.1.trans (by exact_mod_cast g2),
        k3.2.2.trans (by exact_mod_cast g3)⟩
    · cases h3

/-- The state after a program, if the analysis confirms what is said of the variables assigned. -/
def checkRun : List (Var × Err) → List KStmt → ErrSt → Option ErrSt
  | _, [], s => some s
  | h :: hs, .asg v e :: p, s =>
    if decide (v = h.1) && forceEx e (fun e => forceErr (errOf s e) (fun i => weaker i h.2)) then checkRun hs p (h :: s) else none
  | [], .asg _ _ :: _, _ => none
  | hs, .ifLe _ _ t e :: p, s => checkRun hs p (forget (t.map Prod.fst ++ e.map Prod.fst) s)

theorem checkRun_sound : ∀ {p : List KStmt} {hs : List (Var × Err)} {s s' : ErrSt} {env env' out : Vals},
    checkRun hs p s = some s' → s.Sound env env' → EvRun ieee env' p out →
    s'.Sound (run env (p.map KStmt.erase)) out := by
  intro p
  induction p with
  | nil =>
    intro hs s s' env env' out hc h he
    cases he
    rw [checkRun, Option.some.injEq] at hc
    rw [← hc]
    exact h
  | cons st p ih =>
    intro hs s s' env env' out hc h he
    cases he with
    | cons h1 h2 =>
      cases st with
      | asg v e =>
        cases hs with
        | nil => rw [checkRun] at hc; cases hc
        | cons g hs =>
          rw [checkRun] at hc
          split at hc
          · rename_i hg
            rw [Bool.and_eq_true, decide_eq_true_eq, forceEx_eq, forceErr_eq] at hg
            obtain ⟨rfl, hw⟩ := hg
            refine ih hc ?_ h2
            cases h1 with
            | asg h1 => exact sound_update h _ (weaker_holds hw (errOf_holds h h1))
          · cases hc
      | ifLe a b t e =>
        rw [checkRun] at hc
        exact ih hc (errStmt_sound h h1) h2

/-- The analysis gives an expression an error of no more than `e`. -/
def smallRatio (s : ErrSt) (e : ℚ) (x : KEx) : Bool :=
  forceEx x fun x =>
    match (errOf s x).ratio with
    | some d => decide (d ≤ e)
    | none => false

theorem smallRatio_iff {s : ErrSt} {e : ℚ} {x : KEx} : smallRatio s e x = true ↔
    ∃ d, (errOf s x).ratio = some d ∧ d ≤ e := by
  unfold smallRatio
  rw [forceEx_eq]
  cases (errOf s x).ratio <;> simp

end Rl
end PyBox
