import Verif.Rate.Mixed
import Verif.Props.RoundingSun

/-!
# C85: rates with photolysis coefficients
-/

namespace PyBox

open Rl

namespace Spec

/-- What C85 says about the photolysis coefficients. -/
def sunTable : AbsSt := photolysisTable.map fun r => (Backend.fortran.slot r.1, 4e-5 * r.2.1)

/-- The analysis gives a rate text no more than the relative error `e` and the absolute error `d`. -/
def SmallMixed (e d : ℚ) (s : Str) : Prop :=
  ∀ x, kRead s = some x → ∃ p, mixOf knownErrors sunTable x = some p ∧ p.1 ≤ e ∧ p.2 ≤ d

end Spec

open Spec

attribute [local irreducible] kRateProgram rateProgram knownErrors

/-- Each text of a file is evaluated with the values the fixed part left. -/
theorem texts_run {R : Rounding} {b : Backend} : ∀ {l : List (Nat × KEx)} {env out : Vals}, (l.map Prod.fst).Nodup →
    EvRun R env (l.map (fun p => .asg (b.rateVar p.1) p.2)) out →
    ∀ p ∈ l, ∃ (mid : Vals) (r : KVal), (∀ v, (∀ k, v ≠ b.rateVar k) → mid v = env v) ∧
      Ev R mid p.2 r ∧ out (b.rateVar p.1) = r.toReal := by
  intro l
  induction l with
  | nil => intro env out _ _ p hp; cases hp
  | cons a l ih =>
    intro env out hnd h p hp
    rw [List.map_cons, List.nodup_cons] at hnd
    cases h with
    | cons h1 h2 =>
      cases h1 with
      | @asg _ _ r h1 =>
        rcases List.mem_cons.1 hp with rfl | hp
        · refine ⟨env, r, fun _ _ => rfl, h1, ?_⟩
          rw [evRun_other h2 _ (fun q hq he => hnd.1 (List.mem_map.2 ⟨q, hq, (rateVar_inj _ he).symm⟩)),
            Function.update_self]
        · obtain ⟨mid, r', e1, e2, e3⟩ := ih hnd.2 h2 p hp
          exact ⟨mid, r', fun v hv => by rw [e1 v hv, Function.update_of_ne (hv _)], e2, e3⟩

theorem absGet_mem : ∀ {a : AbsSt} {v : Var} {d : ℚ}, a.get v = some d → (v, d) ∈ a
  | [], _, _, h => by cases h
  | p :: a, v, d, h => by
    rw [AbsSt.get] at h
    split at h
    · rename_i hv
      rw [← hv, ← Option.some.inj h]
      exact List.mem_cons_self ..
    · exact List.mem_cons_of_mem _ (absGet_mem h)

theorem sun_sound {T t r h2o : ℝ} {junk env : Vals} (ht : 0 ≤ t) (ht' : t ≤ 1000000000)
    (h : EvRun ieee (ambient .fortran T t r h2o junk) kRateProgram env) :
    sunTable.Sound (run (ambient .fortran T t r h2o junk) (rateProgram .fortran)) env := by
  intro v d hv
  obtain ⟨⟨k, l, m, n⟩, hrow, he⟩ := List.mem_map.1 (absGet_mem hv)
  cases he
  obtain ⟨h1, h2, -⟩ := C47_photolysis .fortran (by decide) T t r h2o junk k l m n hrow
  rw [h1]
  refine ⟨h2, (C85_photolysis ht ht' h hrow).2.2.1.trans (le_of_eq ?_)⟩
  push_cast
  norm_num

/-- The reactions of a file: the computed rate comes from the rate expression, evaluated with rounding. -/
theorem file_texts {text : Str} {m : Mechanism} (h : extractMechanism text = .ok m)
    {qs : List RawEqn} (hq : Reads text m.equations.toNat qs) {cores : Option Nat} {times : Nat}
    (hread : ReadableRates .fortran ((convertOf .fortran)^[times]) qs) {p : List KStmt}
    (hp : kProgram (ratesFile .fortran cores ((convertTable (convertOf .fortran))^[times] m.tables.rate)) = some p)
    {R : Rounding} {start env : Vals} (hrun : EvRun R start p env) :
    ∃ mid, EvRun R start kRateProgram mid ∧
      ∀ (k : Nat) q, qs[k]? = some q → ∃ x, kRead ((convertOf .fortran)^[times] q.rate) = some x ∧
        x.erase.rateLike .fortran = true ∧
        ∃ (mid' : Vals) (r : KVal), (∀ v, (∀ k, v ≠ Backend.fortran.rateVar k) → mid' v = mid v) ∧
          Ev R mid' x r ∧ env (Backend.fortran.rateVar k) = r.toReal := by
  obtain ⟨l, h1, h2, h3⟩ := kRate_file h hq cores hread
  rw [hp] at h1
  rw [Option.some.inj h1] at hrun
  obtain ⟨mid, hm, hl⟩ := evRun_append.1 hrun
  refine ⟨mid, hm, fun k q hk => ?_⟩
  have hlt : k ∈ l.map Prod.fst := by
    rw [h2, List.mem_range]
    exact (List.getElem?_eq_some_iff.1 hk).1
  obtain ⟨⟨k', x⟩, hmem, rfl⟩ := List.mem_map.1 hlt
  obtain ⟨hlike, q', hk', hx⟩ := h3 _ hmem
  obtain rfl : q' = q := Option.some.inj (hk'.symm.trans hk)
  exact ⟨x, hx, hlike, texts_run (by rw [h2]; exact List.nodup_range) hl _ hmem⟩

/-- **C85** (rates of reactions): the coefficient the Fortran file gives a reaction with photolysis coefficients in its
rate text, computed in single and double precision, differs from the value of its rate expression in real numbers by no
more than `e` times that value and `d`, if the analysis gives its text no more. -/
theorem C85_rates {text : Str} {m : Mechanism} (h : extractMechanism text = .ok m)
    {qs : List RawEqn} (hq : Reads text m.equations.toNat qs) {cores : Option Nat} {times : Nat}
    (hread : ReadableRates .fortran ((convertOf .fortran)^[times]) qs) {p : List KStmt}
    (hp : kProgram (ratesFile .fortran cores ((convertTable (convertOf .fortran))^[times] m.tables.rate)) = some p)
    {T t r h2o : ℝ} {junk env : Vals} (h1 : 200 ≤ T) (h2 : T ≤ 330) (hr : 0 ≤ r) (hh : 0 ≤ h2o)
    (ht : 0 ≤ t) (ht' : t ≤ 1000000000)
    (hrun : EvRun ieee (ambient .fortran T t r h2o junk) p env) {k : Nat} {q : RawEqn} (hk : qs[k]? = some q)
    {x : Ex} (hx : readExpr .fortran ((convertOf .fortran)^[times] q.rate) = some x) {e d : ℚ}
    (he : SmallMixed e d ((convertOf .fortran)^[times] q.rate)) :
    0 ≤ x.val (conditions .fortran T t r h2o) ∧
    |env (Backend.fortran.rateVar k) - x.val (conditions .fortran T t r h2o)| ≤
      e * x.val (conditions .fortran T t r h2o) + d := by
  obtain ⟨mid, hm, hf⟩ := file_texts h hq hread hp hrun
  obtain ⟨y, hy, hlike, mid', val, hmid, hev, hout⟩ := hf k q hk
  have hs := fixed_errors h1 h2 hr hh hm
  have ha := sun_sound ht ht' hm
  have hs' : knownErrors.Sound (run (ambient .fortran T t r h2o junk) (rateProgram .fortran)) mid' := by
    intro v
    by_cases hv : ∀ k, v ≠ Backend.fortran.rateVar k
    · rw [hmid v hv]; exact hs v
    · push Not at hv
      obtain ⟨k', rfl⟩ := hv
      rw [knownErrors_rates]
      exact Err.top_holds _ _
  have ha' : sunTable.Sound (run (ambient .fortran T t r h2o junk) (rateProgram .fortran)) mid' := by
    intro v d hv
    have hne : ∀ k, v ≠ Backend.fortran.rateVar k := by
      intro k' hk'
      obtain ⟨row, -, he⟩ := List.mem_map.1 (absGet_mem hv)
      have hn := congrArg (fun p : Var × ℚ => p.1.name) he
      rw [hk'] at hn
      revert hn
      show ¬ (Backend.fortran.name "J".toList = Backend.fortran.name "rate_values".toList)
      decide
    rw [hmid v hne]
    exact ha v d hv
  have hmix := mixOf_holds hs' ha' hev
  obtain ⟨pr, hpr, g1, g2⟩ := he y hy
  rw [hpr] at hmix
  have hmix : Mixed pr.1 pr.2 _ _ := hmix
  rw [Ex.val_congr _ fun v hv => program_conditions (b := .fortran) (by decide) T t r h2o junk
    (rateLike_vars hlike v hv)] at hmix
  rw [← kRead_erase, hy, Option.map_some, Option.some.injEq] at hx
  rw [hx] at hmix
  rw [hout]
  exact hmix.mono (by exact_mod_cast g1) (by exact_mod_cast g2)

/-- The analysis of a text. -/
def mixedSmall (e d : ℚ) (x : KEx) : Bool :=
  forceEx x fun x =>
    match mixOf knownErrors sunTable x with
    | some p => decide (p.1 ≤ e ∧ p.2 ≤ d)
    | none => false

theorem mixedSmall_spec {e d : ℚ} {s : Str} (h : (kRead s).map (mixedSmall e d) = some true) : SmallMixed e d s := by
  intro x hx
  rw [hx, Option.map_some] at h
  have h := Option.some.inj h
  unfold mixedSmall at h
  rw [forceEx_eq] at h
  split at h
  · rename_i p hp
    exact ⟨p, hp, of_decide_eq_true h⟩
  · cases h

/-- Texts of the shipped mechanisms: a photolysis rate, a sum of two, and a thermal one with a photolysis rate. -/
theorem sunTexts_small : SmallMixed 0 4.66e-7 ((convertOf .fortran)^[2] "J(4)".toList) ∧
    SmallMixed 1e-15 1.5e-8 ((convertOf .fortran)^[2] "J(15)+J(35)".toList) ∧
    SmallMixed 3.2e-5 2e-9 ((convertOf .fortran)^[2] "KBPAN+J(11)".toList) :=
  ⟨mixedSmall_spec (by decide +kernel), mixedSmall_spec (by decide +kernel), mixedSmall_spec (by decide +kernel)⟩

/-- The second reaction of `radicalText`, a photolysis; the file runs. -/
example (junk : Vals) : ∃ p x, kProgram (ratesFile .fortran (some 2)
      ((convertTable (convertOf .fortran))^[2] (build radicalReactions).rate)) = some p ∧
    readExpr .fortran ((convertOf .fortran)^[2] "J(4)".toList) = some x ∧
    (∃ env, EvRun ieee (ambient .fortran 298.15 43200 0 0 junk) p env) ∧
    ∀ env, EvRun ieee (ambient .fortran 298.15 43200 0 0 junk) p env →
      |env (Backend.fortran.rateVar 1) - x.val (conditions .fortran 298.15 43200 0 0)| ≤ 4.66e-7 := by
  obtain ⟨-, c2, -⟩ := radical_rates
  obtain ⟨f1, f2⟩ := rateTextCheck_reads c2
  obtain ⟨l, hp, -⟩ := kRate_file radical_parses radical_reads (some 2) f1
  obtain ⟨env, henv⟩ := C82_runs radical_parses radical_reads f1 f2 radical_kinds hp (T := 298.15) (t := 43200)
    (r := 0) (h2o := 0) (by norm_num) le_rfl le_rfl (by norm_num) junk
  obtain ⟨x, hx, -⟩ := f1 _ (List.mem_cons_of_mem _ (List.mem_cons_self ..))
  refine ⟨_, x, hp, hx, ⟨env, henv.mono fun p x y => exactly_ieee⟩, fun env' hrun => ?_⟩
  have := (C85_rates radical_parses radical_reads f1 hp (T := 298.15) (t := 43200) (r := 0) (h2o := 0) (by norm_num)
    (by norm_num) le_rfl le_rfl (by norm_num) (by norm_num) hrun (k := 1) rfl hx sunTexts_small.1).2
  refine this.trans (le_of_eq ?_)
  push_cast
  norm_num

end PyBox
