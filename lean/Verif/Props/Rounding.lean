import Verif.Rate.FactsErrors
import Verif.Props.Kinds

/-!
# C83: rate coefficients in single and double precision
-/

namespace PyBox

open Rl

/-! ### Specification -/

namespace Spec

/-- `y` differs from `x`, which is not negative, by at most the factor `exp e`, up or down. -/
def WithinFactor (e x y : ℝ) : Prop := 0 ≤ x ∧ x * Real.exp (-e) ≤ y ∧ y ≤ x * Real.exp e

/-- The names of rate coefficients that do not depend on the time. -/
def steadyCoefficients : List String :=
  ["KRO2NO", "KRO2HO2", "KAPHO2", "KAPNO", "KRO2NO3", "KNO3AL", "KDEC", "KROSEC", "KALKOXY", "KALKPXY", "KROPRIM",
   "KCH3O2", "K298CH3O2", "K14ISOM1", "KFPAN", "KBPAN", "KBPPN", "KMT01", "KMT02", "KMT03", "KMT04", "KMT05", "KMT06",
   "KMT07", "KMT08", "KMT09", "KMT10", "KMT11", "KMT12", "KMT13", "KMT14", "KMT15", "KMT16", "KMT17", "KMT18"]

/-- The analysis of rounding errors gives a rate text no more than the error `e`. -/
def SmallErrors (e : ℚ) (s : Str) : Prop :=
  ∀ x, kRead s = some x → ∃ d, (errOf knownErrors x).ratio = some d ∧ d ≤ e

end Spec

open Spec

attribute [local irreducible] kRateProgram rateProgram knownErrors

theorem startErrors_sound {T t r h2o : ℝ} (junk : Vals) (h1 : 200 ≤ T) (h2 : T ≤ 330) (hr : 0 ≤ r) (hh : 0 ≤ h2o) :
    startErrors.Sound (ambient .fortran T t r h2o junk) (ambient .fortran T t r h2o junk) := by
  intro v
  unfold startErrors
  rw [ErrSt.get]
  split
  · rename_i hv
    have : (⟨chars% "temp", none⟩ : Var) = Backend.fortran.var "temp" := by decide
    rw [← hv]
    dsimp only
    rw [this, ambient_temp]
    have hT : 0 < T := by linarith
    refine ⟨?_, ⟨hT, ?_, ?_⟩, ?_, ?_, ?_⟩
    · exact ⟨by norm_num, hT.le, by norm_num, by norm_num⟩
    · refine le_trans ?_ (Real.log_le_log (by norm_num) h1)
      have := (log_rat (q := 200) (by norm_num)).1
      refine le_trans ?_ (by exact_mod_cast this)
      have hq : (5.285 : ℚ) ≤ logLo 200 := by decide +kernel
      exact_mod_cast hq
    · refine le_trans (Real.log_le_log hT h2) ?_
      have := (log_rat (q := 330) (by norm_num)).2
      refine le_trans (by exact_mod_cast this) ?_
      have hq : logHi 330 ≤ (5.806 : ℚ) := by decide +kernel
      exact_mod_cast hq
    · show ((200 : ℚ) : ℝ) ≤ T
      push_cast; exact h1
    · show T ≤ ((330 : ℚ) : ℝ)
      push_cast; exact h2
    · simp
  · rw [ErrSt.get]
    split
    · rename_i hv
      have : (⟨chars% "h2o", none⟩ : Var) = Backend.fortran.var "H2O" := by decide
      rw [← hv]
      dsimp only
      rw [this, ambient_H2O]
      exact ⟨⟨by norm_num, hh, by norm_num, by norm_num⟩, trivial, trivial⟩
    · rw [ErrSt.get]
      split
      · rename_i hv
        have : (⟨chars% "ro2", none⟩ : Var) = Backend.fortran.var "RO2" := by decide
        rw [← hv]
        dsimp only
        rw [this, ambient_RO2]
        exact ⟨⟨by norm_num, hr, by norm_num, by norm_num⟩, trivial, trivial⟩
      · exact Err.top_holds _ _

/-- What the analysis finds about the fixed part. -/
theorem fixed_errors {T t r h2o : ℝ} {junk env : Vals} (h1 : 200 ≤ T) (h2 : T ≤ 330) (hr : 0 ≤ r) (hh : 0 ≤ h2o)
    (h : EvRun ieee (ambient .fortran T t r h2o junk) kRateProgram env) :
    knownErrors.Sound (run (ambient .fortran T t r h2o junk) (rateProgram .fortran)) env := by
  have := checkRun_sound facts_errors (startErrors_sound (t := t) junk h1 h2 hr hh) h
  rw [kRate_reads.2] at this
  exact this

theorem ratio_within {e x y : ℝ} (h : Ratio e x y) : WithinFactor e x y := h.2

theorem within_mono {e e' x y : ℝ} (h : WithinFactor e x y) (he : e ≤ e') : WithinFactor e' x y :=
  ⟨h.1, (mul_le_mul_of_nonneg_left (Real.exp_le_exp.2 (by linarith)) h.1).trans h.2.1,
    h.2.2.trans (mul_le_mul_of_nonneg_left (Real.exp_le_exp.2 he) h.1)⟩

theorem steady_ratios : ∀ s ∈ steadyCoefficients,
    (match (ErrSt.get knownErrors (Backend.fortran.var s)).ratio with
      | some d => decide (d ≤ 16 / 1000000)
      | none => false) = true := by decide +kernel

/-- **C83** (the generic coefficients): with the literals and operations of single and double precision the Fortran
file has written, every generic rate coefficient is within a factor `exp (±1.6e-5)` of its value in real numbers. -/
theorem C83_coefficients {T t r h2o : ℝ} {junk env : Vals} (h1 : 200 ≤ T) (h2 : T ≤ 330) (hr : 0 ≤ r) (hh : 0 ≤ h2o)
    (h : EvRun ieee (ambient .fortran T t r h2o junk) kRateProgram env) {s : String} (hs : s ∈ steadyCoefficients) :
    WithinFactor 1.6e-5 (run (ambient .fortran T t r h2o junk) (rateProgram .fortran) (Backend.fortran.var s))
      (env (Backend.fortran.var s)) := by
  have hk := (fixed_errors h1 h2 hr hh h (Backend.fortran.var s)).ratio
  have hd := steady_ratios s hs
  split at hd
  · rename_i d hd'
    rw [hd'] at hk
    refine within_mono (ratio_within hk) ?_
    have : (d : ℝ) ≤ ((16 / 1000000 : ℚ) : ℝ) := by exact_mod_cast of_decide_eq_true hd
    refine this.trans (le_of_eq ?_)
    norm_num
  · cases hd

/-! ### Rate texts -/

theorem evRun_other {R : Rounding} {b : Backend} : ∀ {l : List (Nat × KEx)} {env out : Vals},
    EvRun R env (l.map (fun p => .asg (b.rateVar p.1) p.2)) out →
    ∀ v, (∀ p ∈ l, v ≠ b.rateVar p.1) → out v = env v := by
  intro l
  induction l with
  | nil => intro env out h v _; cases h; rfl
  | cons a l ih =>
    intro env out h v hv
    cases h with
    | cons h1 h2 =>
      cases h1
      rw [ih h2 v (fun p hp => hv p (List.mem_cons_of_mem _ hp)), Function.update_of_ne (hv a (List.mem_cons_self ..))]

/-- The texts of a file, one after the other. -/
theorem evRates {s : ErrSt} (hs : ∀ k, s.get (Backend.fortran.rateVar k) = .top) {env : Vals} :
    ∀ {l : List (Nat × KEx)} {env' out : Vals}, (l.map Prod.fst).Nodup → s.Sound env env' →
    EvRun ieee env' (l.map (fun p => .asg (Backend.fortran.rateVar p.1) p.2)) out →
    ∀ p ∈ l, (errOf s p.2).holds (p.2.erase.val env) (out (Backend.fortran.rateVar p.1)) := by
  intro l
  induction l with
  | nil => intro env' out _ _ _ p hp; cases hp
  | cons a l ih =>
    intro env' out hnd hsd h p hp
    rw [List.map_cons, List.nodup_cons] at hnd
    cases h with
    | cons h1 h2 =>
      cases h1 with
      | asg h1 =>
        rcases List.mem_cons.1 hp with rfl | hp
        · rw [evRun_other h2 _ (fun q hq he => hnd.1 (List.mem_map.2 ⟨q, hq, (rateVar_inj _ he).symm⟩)),
            Function.update_self]
          exact errOf_holds hsd h1
        · refine ih hnd.2 ?_ h2 p hp
          intro v
          by_cases hv : v = Backend.fortran.rateVar a.1
          · rw [hv, hs]; exact Err.top_holds _ _
          · rw [Function.update_of_ne hv]; exact hsd v

theorem get_noName {n : Str} : ∀ (s : ErrSt), (∀ p ∈ s, p.1.name ≠ n) → ∀ i, s.get ⟨n, i⟩ = .top
  | [], _, _ => rfl
  | p :: s, h, i => by
    rw [ErrSt.get, if_neg (fun he => h p (List.mem_cons_self ..) (by rw [he]))]
    exact get_noName s (fun q hq => h q (List.mem_cons_of_mem _ hq)) i

theorem knownErrors_rates (k : Nat) : knownErrors.get (Backend.fortran.rateVar k) = .top := by
  have h : knownErrors.all (fun p => decide (p.1.name ≠ Backend.fortran.name "rate_values".toList)) = true := by
    decide +kernel
  exact get_noName _ (fun p hp => of_decide_eq_true (List.all_eq_true.1 h p hp)) _

/-- What the analysis finds about a reaction of a file. -/
theorem file_errors {text : Str} {m : Mechanism} (h : extractMechanism text = .ok m)
    {qs : List RawEqn} (hq : Reads text m.equations.toNat qs) {cores : Option Nat} {times : Nat}
    (hread : ReadableRates .fortran ((convertOf .fortran)^[times]) qs) {p : List KStmt}
    (hp : kProgram (ratesFile .fortran cores ((convertTable (convertOf .fortran))^[times] m.tables.rate)) = some p)
    {T t r h2o : ℝ} {junk env : Vals}
    (hrun : EvRun ieee (ambient .fortran T t r h2o junk) p env) :
    ∃ mid, EvRun ieee (ambient .fortran T t r h2o junk) kRateProgram mid ∧
      ∀ s : ErrSt, (∀ k, s.get (Backend.fortran.rateVar k) = .top) →
        s.Sound (run (ambient .fortran T t r h2o junk) (rateProgram .fortran)) mid →
      ∀ (k : Nat) q, qs[k]? = some q → ∃ x, kRead ((convertOf .fortran)^[times] q.rate) = some x ∧
        (errOf s x).holds (x.erase.val (conditions .fortran T t r h2o)) (env (Backend.fortran.rateVar k)) := by
  obtain ⟨l, h1, h2, h3⟩ := kRate_file h hq cores hread
  rw [hp] at h1
  rw [Option.some.inj h1] at hrun
  obtain ⟨mid, hm, hl⟩ := evRun_append.1 hrun
  refine ⟨mid, hm, fun s hs hsd k q hk => ?_⟩
  have hlt : k ∈ l.map Prod.fst := by
    rw [h2, List.mem_range]
    exact (List.getElem?_eq_some_iff.1 hk).1
  obtain ⟨⟨k', x⟩, hmem, rfl⟩ := List.mem_map.1 hlt
  obtain ⟨hlike, q', hk', hx⟩ := h3 _ hmem
  obtain rfl : q' = q := Option.some.inj (hk'.symm.trans hk)
  refine ⟨x, hx, ?_⟩
  have := evRates hs (by rw [h2]; exact List.nodup_range) hsd hl _ hmem
  rw [Ex.val_congr _ fun v hv => program_conditions (b := .fortran) (by decide) T t r h2o junk
    (rateLike_vars hlike v hv)] at this
  exact this

/-- **C83**: the coefficient the Fortran file gives a reaction, computed in single and double precision, is within a
factor `exp (±e)` of the value of its rate expression in real numbers, if the analysis gives its text an error of no
more than `e`. -/
theorem C83_rates {text : Str} {m : Mechanism} (h : extractMechanism text = .ok m)
    {qs : List RawEqn} (hq : Reads text m.equations.toNat qs) {cores : Option Nat} {times : Nat}
    (hread : ReadableRates .fortran ((convertOf .fortran)^[times]) qs) {p : List KStmt}
    (hp : kProgram (ratesFile .fortran cores ((convertTable (convertOf .fortran))^[times] m.tables.rate)) = some p)
    {T t r h2o : ℝ} {junk env : Vals} (h1 : 200 ≤ T) (h2 : T ≤ 330) (hr : 0 ≤ r) (hh : 0 ≤ h2o)
    (hrun : EvRun ieee (ambient .fortran T t r h2o junk) p env) {k : Nat} {q : RawEqn} (hk : qs[k]? = some q)
    {x : Ex} (hx : readExpr .fortran ((convertOf .fortran)^[times] q.rate) = some x) {e : ℚ}
    (he : SmallErrors e ((convertOf .fortran)^[times] q.rate)) :
    WithinFactor e (x.val (conditions .fortran T t r h2o)) (env (Backend.fortran.rateVar k)) := by
  obtain ⟨mid, hm, hf⟩ := file_errors h hq hread hp hrun
  obtain ⟨y, hy, hold⟩ := hf _ knownErrors_rates (fixed_errors h1 h2 hr hh hm) k q hk
  obtain ⟨d, hd, hde⟩ := he y hy
  rw [← kRead_erase, hy, Option.map_some, Option.some.injEq] at hx
  have := hold.ratio
  rw [hd, hx] at this
  exact within_mono (ratio_within this) (by exact_mod_cast hde)

/-- A rate text of the shipped mechanisms with a small error. -/
theorem panText_small : SmallErrors 1.6e-5 ((convertOf .fortran)^[2] "KBPAN*0.67".toList) := by
  have h : (kRead ((convertOf .fortran)^[2] "KBPAN*0.67".toList)).map (smallRatio knownErrors 1.6e-5) =
      some true := by decide +kernel
  intro x hx
  rw [hx, Option.map_some] at h
  exact smallRatio_iff.1 (Option.some.inj h)

theorem radicalRate_read : kRead ((convertOf .fortran)^[2] "2.30D-12*EXP(360/TEMP)".toList) =
    some (.bin .mul (.num (23 / 10000000000000) (.real .single))
      (.call .exp (.bin .div (.num 360 .int) (.var ⟨chars% "temp", none⟩)))) := by decide +kernel

theorem radicalRate_small : SmallErrors 1e-6 ((convertOf .fortran)^[2] "2.30D-12*EXP(360/TEMP)".toList) := by
  intro x hx
  rw [radicalRate_read] at hx
  obtain rfl := Option.some.inj hx
  exact smallRatio_iff.1 (by decide +kernel)

/-- The first reaction of `radicalText`, whose literals become single precision; the file runs. -/
example (junk : Vals) : ∃ p x, kProgram (ratesFile .fortran (some 2)
      ((convertTable (convertOf .fortran))^[2] (build radicalReactions).rate)) = some p ∧
    readExpr .fortran ((convertOf .fortran)^[2] "2.30D-12*EXP(360/TEMP)".toList) = some x ∧
    (∃ env, EvRun ieee (ambient .fortran 298.15 43200 0 0 junk) p env) ∧
    ∀ env, EvRun ieee (ambient .fortran 298.15 43200 0 0 junk) p env →
      WithinFactor 1e-6 (x.val (conditions .fortran 298.15 43200 0 0)) (env (Backend.fortran.rateVar 0)) := by
  obtain ⟨-, c2, -⟩ := radical_rates
  obtain ⟨f1, f2⟩ := rateTextCheck_reads c2
  obtain ⟨l, hp, -⟩ := kRate_file radical_parses radical_reads (some 2) f1
  obtain ⟨env, henv⟩ := C82_runs radical_parses radical_reads f1 f2 radical_kinds hp (T := 298.15) (t := 43200)
    (r := 0) (h2o := 0) (by norm_num) le_rfl le_rfl (by norm_num) junk
  obtain ⟨x, hx, -⟩ := f1 _ (List.mem_cons_self ..)
  refine ⟨_, x, hp, hx, ⟨env, henv.mono fun p x y => exactly_ieee⟩, fun env' hrun => ?_⟩
  have := C83_rates radical_parses radical_reads f1 hp (T := 298.15) (t := 43200) (r := 0) (h2o := 0) (by norm_num)
    (by norm_num) le_rfl le_rfl hrun (k := 0) rfl hx radicalRate_small
  have he : ((1e-6 : ℚ) : ℝ) = 1e-6 := by norm_num
  rw [← he]
  exact this

end PyBox
