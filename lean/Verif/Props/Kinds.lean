import Verif.Rate.FactsKinds
import Verif.Props.GeneratedRates

/-!
# C82: rate coefficients with the kinds of Fortran numbers
-/

namespace PyBox

open Rl

/-! ### Specification -/

namespace Spec

/-- No rate text has integer arithmetic that differs from real arithmetic: `kindOf` finds a kind for it. -/
def PlainKinds (convert : Str → Str) (qs : List RawEqn) : Prop :=
  ∀ q ∈ qs, ∀ e, kRead (convert q.rate) = some e → (kindOf e).isSome = true ∧ noFloor e = true

/-- What is expected: a Fortran rate file, run without rounding but with the kinds of its literals, gives every
reaction the value of its rate expression. -/
def FortranMeansReal (convert : Str → Str) (p : List KStmt) (qs : List RawEqn) : Prop :=
  ∀ (junk : Vals) (T t r h2o : ℝ) (env : Vals), 0 < T → 0 ≤ r → 0 ≤ h2o →
    EvRun exactly (ambient .fortran T t r h2o junk) p env →
    ∀ (k : Nat) q e, qs[k]? = some q → readExpr .fortran (convert q.rate) = some e →
      env (Backend.fortran.rateVar k) = e.val (conditions .fortran T t r h2o)

end Spec

open Spec

attribute [local irreducible] kRateProgram rateProgram

/-! ### The fixed part -/

theorem noFloor_fits (env : Vals) : ∀ e : KEx, noFloor e = true → FloorsFit env e := by
  intro e
  induction e with
  | num q k => intro _; trivial
  | var v => intro _; trivial
  | neg a ih => intro h; exact ih h
  | bin o a b iha ihb =>
    intro h
    rw [noFloor, Bool.and_eq_true] at h
    exact ⟨iha h.1, ihb h.2⟩
  | call f a ih =>
    intro h
    rw [noFloor, Bool.and_eq_true, decide_eq_true_eq] at h
    exact ⟨ih h.2, fun he => absurd he h.1⟩

theorem noFloor_fitsAsgs : ∀ (l : List (Var × KEx)) (env : Vals), l.all (fun p => noFloor p.2) = true →
    FloorsFitAsgs env l
  | [], _, _ => trivial
  | p :: l, env, h => by
    rw [List.all_cons, Bool.and_eq_true] at h
    exact ⟨noFloor_fits env _ h.1, noFloor_fitsAsgs l _ h.2⟩

theorem noFloor_fitsStmt (env : Vals) (s : KStmt) (h : s.noFloor = true) : s.FloorsFit env := by
  cases s with
  | asg v e => exact noFloor_fits env e h
  | ifLe a b t e =>
    simp only [KStmt.noFloor, Bool.and_eq_true] at h
    exact ⟨noFloor_fits env a h.1.1.1, noFloor_fits env b h.1.1.2, noFloor_fitsAsgs t env h.1.2,
      noFloor_fitsAsgs e env h.2⟩

theorem noFloor_fitsRun : ∀ (p : List KStmt) (env : Vals), p.all KStmt.noFloor = true → FloorsFitRun env p
  | [], _, _ => trivial
  | s :: p, env, h => by
    rw [List.all_cons, Bool.and_eq_true] at h
    exact ⟨noFloor_fitsStmt env s h.1, noFloor_fitsRun p _ h.2⟩

theorem fitsRun_append : ∀ (p q : List KStmt) (env : Vals), FloorsFitRun env p →
    FloorsFitRun (run env (p.map KStmt.erase)) q → FloorsFitRun env (p ++ q)
  | [], _, _, _, h => h
  | _ :: p, q, _, h1, h2 => ⟨h1.1, fitsRun_append p q _ h1.2 h2⟩

/-- The kinds of the fixed part. -/
theorem fixed_kinds : ∀ s ∈ kRateProgram, s.kinds = true := by
  have h := facts_kinds
  unfold kindFacts at h
  simp only [Bool.and_eq_true, List.all_eq_true] at h
  exact h.1.1.1

/-- The only `floor` of the fixed part is that of the day. -/
theorem fixed_floors (T t r h2o : ℝ) (junk : Vals) (ht : |t| ≤ 10 ^ 12) :
    FloorsFitRun (ambient .fortran T t r h2o junk) kRateProgram := by
  have h := facts_kinds
  unfold kindFacts at h
  rw [Bool.and_eq_true, Bool.and_eq_true, Bool.and_eq_true, decide_eq_true_eq, decide_eq_true_eq] at h
  obtain ⟨⟨⟨-, h2⟩, h3⟩, h4⟩ := h
  have hsplit : kRateProgram = beforeHour ++ (hourStmt :: afterHour) := by
    have hd : kRateProgram.dropWhile KStmt.noFloor = hourStmt :: afterHour := by
      unfold afterHour
      rcases hc : kRateProgram.dropWhile KStmt.noFloor with - | ⟨a, l⟩
      · rw [hc] at h2; cases h2
      · rw [hc] at h2
        rw [Option.some.inj h2]
        rfl
    rw [← hd]
    exact (List.takeWhile_append_dropWhile).symm
  rw [hsplit]
  refine fitsRun_append _ _ _ (noFloor_fitsRun _ _ (List.all_takeWhile ..)) ⟨?_, noFloor_fitsRun _ _ h3⟩
  refine ⟨⟨trivial, trivial, fun _ => ?_⟩, trivial⟩
  show Fits ⌊run (ambient .fortran T t r h2o junk) (beforeHour.map KStmt.erase) dayVar⌋
  rw [run_eq_sym, h4]
  have hv : Ex.val (ambient .fortran T t r h2o junk)
      (.add (.sub (.num 150) (.num 1)) (.div (.var (Backend.fortran.var "ttime")) (.num 86400))) =
      149 + t / 86400 := by
    simp only [Ex.val]
    rw [ambient_ttime]
    push_cast
    ring
  rw [hv]
  obtain ⟨t1, t2⟩ := abs_le.1 ht
  have l1 : (-(2 : ℝ) ^ 31) ≤ 149 + t / 86400 := by
    have : -(10 ^ 12) / 86400 ≤ t / 86400 := by gcongr
    linarith
  have l2 : 149 + t / 86400 < (2 : ℝ) ^ 31 := by
    have : t / 86400 ≤ 10 ^ 12 / 86400 := by gcongr
    linarith
  constructor
  · rw [Int.le_floor]; push_cast; linarith
  · rw [Int.floor_lt]; push_cast; linarith

/-- Without rounding the fixed part computes what it computes in real numbers, and it computes something. -/
theorem fixed_exact {T t r h2o : ℝ} {junk env : Vals}
    (h : EvRun exactly (ambient .fortran T t r h2o junk) kRateProgram env) :
    env = run (ambient .fortran T t r h2o junk) (rateProgram .fortran) := by
  rw [exact_run fixed_kinds h, kRate_reads.2]

theorem fixed_runs {T t r h2o : ℝ} (junk : Vals) (hT : 0 < T) (hh : 0 ≤ h2o) (ht : |t| ≤ 10 ^ 12) :
    EvRun exactly (ambient .fortran T t r h2o junk) kRateProgram
      (run (ambient .fortran T t r h2o junk) (rateProgram .fortran)) := by
  have := exact_run_exists (env := ambient .fortran T t r h2o junk) fixed_kinds
    (by rw [kRate_reads.2]; exact (C50_defined_positive .fortran (by decide) T t r h2o junk hT hh).1)
    (fixed_floors T t r h2o junk ht)
  rw [kRate_reads.2] at this
  exact this

/-! ### Whole files -/

theorem evRun_append {R : Rounding} : ∀ {p q : List KStmt} {env env' : Vals}, EvRun R env (p ++ q) env' ↔
    ∃ mid, EvRun R env p mid ∧ EvRun R mid q env' := by
  intro p
  induction p with
  | nil =>
    intro q env env'
    constructor
    · intro h; exact ⟨env, .nil env, h⟩
    · rintro ⟨mid, h1, h2⟩; cases h1; exact h2
  | cons s p ih =>
    intro q env env'
    constructor
    · intro h
      cases h with
      | cons h1 h2 =>
        obtain ⟨mid, h3, h4⟩ := ih.1 h2
        exact ⟨mid, .cons h1 h3, h4⟩
    · rintro ⟨mid, h1, h2⟩
      cases h1 with
      | cons h3 h4 => exact .cons h3 (ih.2 ⟨mid, h4, h2⟩)

/-- The Fortran rate file of a mechanism, with kinds. -/
theorem kRate_file {text : Str} {m : Mechanism} (h : extractMechanism text = .ok m)
    {qs : List RawEqn} (hq : Reads text m.equations.toNat qs) (cores : Option Nat) {times : Nat}
    (hread : ReadableRates .fortran ((convertOf .fortran)^[times]) qs) :
    ∃ l : List (Nat × KEx),
      kProgram (ratesFile .fortran cores ((convertTable (convertOf .fortran))^[times] m.tables.rate)) =
        some (kRateProgram ++ l.map (fun p => .asg (Backend.fortran.rateVar p.1) p.2)) ∧
      l.map Prod.fst = List.range qs.length ∧
      ∀ p ∈ l, p.2.erase.rateLike .fortran = true ∧
        ∃ q, qs[p.1]? = some q ∧ kRead ((convertOf .fortran)^[times] q.rate) = some p.2 := by
  set conv := (convertOf .fortran)^[times] with hconv
  set d := qs.mapIdx (fun k q => (k, conv q.rate)) with hd
  have htab : (convertTable (convertOf .fortran))^[times] m.tables.rate = d := by
    rw [rate_table h hq, iterate_table]
  have hsp : ∀ p ∈ d, Spaceless p.2 :=
    spaceless_table (rates_spaceless hq) (fun s hs => convertOf_spaceless .fortran times s hs)
  have hdmem : ∀ (k : Nat) (s : Str), (k, s) ∈ d → ∃ q, qs[k]? = some q ∧ conv q.rate = s := by
    intro k s hm
    rw [hd, List.mem_mapIdx] at hm
    obtain ⟨i, hi, he⟩ := hm
    cases he
    exact ⟨_, List.getElem?_eq_getElem hi, rfl⟩
  have hex : ∀ p ∈ d, ∃ e, kRead p.2 = some e ∧ e.erase.rateLike .fortran = true := by
    rintro ⟨k, s⟩ hp
    obtain ⟨q, hk, rfl⟩ := hdmem k s hp
    obtain ⟨e, he, hl⟩ := hread q (List.mem_of_getElem? hk)
    rw [← kRead_erase] at he
    obtain ⟨e', he', rfl⟩ := Option.map_eq_some_iff.1 he
    exact ⟨e', he', hl⟩
  let ex : Nat × Str → KEx := fun p => (kRead p.2).getD (.num 0 .int)
  have hex' : ∀ p ∈ d, kRead p.2 = some (ex p) := by
    intro p hp
    obtain ⟨e, he, -⟩ := hex p hp
    show kRead p.2 = some ((kRead p.2).getD (.num 0 .int))
    rw [he]; rfl
  refine ⟨d.map (fun p => (p.1, ex p)), ?_, ?_, ?_⟩
  · rw [htab, kFile_program cores d hsp ex hex', List.map_map]
    rfl
  · rw [List.map_map, hd, map_mapIdx_eq]
    apply List.ext_getElem
    · simp
    · intro i h1 h2; simp
  · intro p hp
    obtain ⟨⟨k, s⟩, hp', rfl⟩ := List.mem_map.1 hp
    obtain ⟨e, he, hl⟩ := hex _ hp'
    obtain ⟨q, hk, rfl⟩ := hdmem k s hp'
    have : ex (k, conv q.rate) = e := Option.some.inj ((hex' _ hp').symm.trans he)
    dsimp only
    rw [this]
    exact ⟨hl, q, hk, he⟩

/-- The kinded file without its kinds is the file of `C66`. -/
theorem kRate_file_erase {text : Str} {m : Mechanism} (h : extractMechanism text = .ok m)
    {qs : List RawEqn} (hq : Reads text m.equations.toNat qs) (cores : Option Nat) {times : Nat}
    (hread : ReadableRates .fortran ((convertOf .fortran)^[times]) qs) {p : List KStmt}
    (hp : kProgram (ratesFile .fortran cores ((convertTable (convertOf .fortran))^[times] m.tables.rate)) = some p) :
    program .fortran (ratesFile .fortran cores ((convertTable (convertOf .fortran))^[times] m.tables.rate)) =
      some (p.map KStmt.erase) := by
  obtain ⟨l, h1, h2, h3⟩ := kRate_file h hq cores hread
  obtain ⟨l', h1', h2', h3'⟩ := rate_file h hq (b := .fortran) cores hread
  rw [hp] at h1
  rw [h1', Option.some.inj h1, List.map_append, kRate_reads.2, List.map_map]
  have hl : l' = l.map (fun p => (p.1, p.2.erase)) := by
    have hlen : l'.length = l.length := by
      have := congrArg List.length (h2'.trans h2.symm)
      simpa using this
    refine List.ext_getElem (by simp [hlen]) fun i i1 i2 => ?_
    have i3 : i < l.length := by rw [← hlen]; exact i1
    have e1 : l'[i].1 = i := by
      have : (l'.map Prod.fst)[i]? = (List.range qs.length)[i]? := by rw [h2']
      rw [List.getElem?_map, List.getElem?_eq_getElem i1] at this
      have hlt : i < qs.length := by
        have := congrArg List.length h2'
        simp at this
        omega
      rw [List.getElem?_range hlt] at this
      exact Option.some.inj this
    have e2 : l[i].1 = i := by
      have : (l.map Prod.fst)[i]? = (List.range qs.length)[i]? := by rw [h2]
      rw [List.getElem?_map, List.getElem?_eq_getElem i3] at this
      have hlt : i < qs.length := by
        have := congrArg List.length h2
        simp at this
        omega
      rw [List.getElem?_range hlt] at this
      exact Option.some.inj this
    obtain ⟨-, q, hk, he⟩ := h3 l[i] (List.getElem_mem i3)
    obtain ⟨-, q', hk', he'⟩ := h3' l'[i] (List.getElem_mem i1)
    rw [e2] at hk
    rw [e1, hk] at hk'
    obtain rfl := Option.some.inj hk'
    rw [← kRead_erase, he, Option.map_some] at he'
    rw [List.getElem_map]
    exact Prod.ext (e1.trans e2.symm) (Option.some.inj he').symm
  rw [hl, List.map_map]
  rfl

/-- **C82**, the statement: for every mechanism. -/
def C82_Statement : Prop := ∀ (text : Str) (m : Mechanism) (qs : List RawEqn) (cores : Option Nat) (times : Nat)
    (p : List KStmt), extractMechanism text = .ok m → Reads text m.equations.toNat qs →
  ReadableRates .fortran ((convertOf .fortran)^[times]) qs →
  kProgram (ratesFile .fortran cores ((convertTable (convertOf .fortran))^[times] m.tables.rate)) = some p →
  FortranMeansReal ((convertOf .fortran)^[times]) p qs

/-- **C82**: mechanisms whose rate texts pass the check of kinds have the expected rates. -/
theorem C82_kinds_partial {text : Str} {m : Mechanism} (h : extractMechanism text = .ok m)
    {qs : List RawEqn} (hq : Reads text m.equations.toNat qs) {cores : Option Nat} {times : Nat}
    (hread : ReadableRates .fortran ((convertOf .fortran)^[times]) qs)
    (hk : PlainKinds ((convertOf .fortran)^[times]) qs) {p : List KStmt}
    (hp : kProgram (ratesFile .fortran cores ((convertTable (convertOf .fortran))^[times] m.tables.rate)) = some p) :
    FortranMeansReal ((convertOf .fortran)^[times]) p qs := by
  intro junk T t r h2o env hT hr hh hrun k q e hq' he
  have hkinds : ∀ s ∈ p, s.kinds = true := by
    obtain ⟨l, h1, -, h3⟩ := kRate_file h hq cores hread
    rw [hp] at h1
    rw [Option.some.inj h1]
    intro s hs
    rcases List.mem_append.1 hs with hs | hs
    · exact fixed_kinds s hs
    · obtain ⟨x, hx, rfl⟩ := List.mem_map.1 hs
      obtain ⟨-, q, hqk, hqe⟩ := h3 x hx
      exact (hk q (List.mem_of_getElem? hqk) _ hqe).1
  obtain ⟨p', hp', hv⟩ := C66_value h hq (b := .fortran) (by decide) cores hread
  rw [kRate_file_erase h hq cores hread hp] at hp'
  have := (hv junk T t r h2o).1 k q e hq' he
  rw [← this, ← Option.some.inj hp', exact_run hkinds hrun]
  rfl

/-- **C82**: and they have rates: the file runs, for every positive temperature and every time of the next thirty
thousand years. -/
theorem C82_runs {text : Str} {m : Mechanism} (h : extractMechanism text = .ok m)
    {qs : List RawEqn} (hq : Reads text m.equations.toNat qs) {cores : Option Nat} {times : Nat}
    (hread : ReadableRates .fortran ((convertOf .fortran)^[times]) qs)
    (hsig : SignedRates .fortran ((convertOf .fortran)^[times]) qs)
    (hk : PlainKinds ((convertOf .fortran)^[times]) qs) {p : List KStmt}
    (hp : kProgram (ratesFile .fortran cores ((convertTable (convertOf .fortran))^[times] m.tables.rate)) = some p)
    {T t r h2o : ℝ} (hT : 0 < T) (hr : 0 ≤ r) (hh : 0 ≤ h2o) (ht : |t| ≤ 10 ^ 12) (junk : Vals) :
    ∃ env, EvRun exactly (ambient .fortran T t r h2o junk) p env := by
  have hp' := kRate_file_erase h hq cores hread hp
  have hok := C66_defined h hq (b := .fortran) (by decide) hread hsig hp' (t := t) hT hr hh junk
  obtain ⟨l, h1, -, h3⟩ := kRate_file h hq cores hread
  rw [hp] at h1
  have hpl := Option.some.inj h1
  refine ⟨_, exact_run_exists ?_ hok ?_⟩
  · rw [hpl]
    intro s hs
    rcases List.mem_append.1 hs with hs | hs
    · exact fixed_kinds s hs
    · obtain ⟨x, hx, rfl⟩ := List.mem_map.1 hs
      obtain ⟨-, q, hqk, hqe⟩ := h3 x hx
      exact (hk q (List.mem_of_getElem? hqk) _ hqe).1
  · rw [hpl]
    refine fitsRun_append _ _ _ (fixed_floors T t r h2o junk ht) (noFloor_fitsRun _ _ ?_)
    rw [List.all_eq_true]
    intro s hs
    obtain ⟨x, hx, rfl⟩ := List.mem_map.1 hs
    obtain ⟨-, q, hqk, hqe⟩ := h3 x hx
    exact (hk q (List.mem_of_getElem? hqk) _ hqe).2

/-- **C82**, with `C67`: without rounding the Fortran file gives each reaction the coefficient of the numba file. -/
theorem C82_same_partial {text : Str} {m : Mechanism} (h : extractMechanism text = .ok m)
    {qs : List RawEqn} (hq : Reads text m.equations.toNat qs) {cores : Option Nat} {i j : Nat}
    (hn : ReadableRates .numba ((convertOf .numba)^[i]) qs)
    (hf : ReadableRates .fortran ((convertOf .fortran)^[j]) qs)
    (hsame : SameExpressions ((convertOf .numba)^[i]) ((convertOf .fortran)^[j]) qs)
    (hk : PlainKinds ((convertOf .fortran)^[j]) qs) {p : List Stmt} {p' : List KStmt}
    (hp : program .numba (ratesFile .numba none ((convertTable (convertOf .numba))^[i] m.tables.rate)) = some p)
    (hp' : kProgram (ratesFile .fortran cores ((convertTable (convertOf .fortran))^[j] m.tables.rate)) = some p')
    {junk junk' env : Vals} {t r h2o T : ℝ} (hT : 0 < T) (hr : 0 ≤ r) (hh : 0 ≤ h2o)
    (hrun : EvRun exactly (ambient .fortran T t r h2o junk') p' env) {k : Nat} (hlt : k < qs.length) :
    env (Backend.fortran.rateVar k) = generatedRates .numba p junk t r h2o T k := by
  obtain ⟨e, he, -⟩ := hf _ (List.getElem_mem hlt)
  have hq' := List.getElem?_eq_getElem hlt
  obtain ⟨p2, hp2, hv⟩ := C66_value h hq (b := .fortran) (by decide) cores hf
  rw [C82_kinds_partial h hq hf hk hp' junk' T t r h2o env hT hr hh hrun k _ e hq' he,
    ← (hv junk' T t r h2o).1 k _ e hq' he, C67_same h hq hn hf hsame hp hp2 junk junk' t r h2o T hlt]

/-- The two reactions of `radicalText` pass the check. -/
theorem radical_kinds : PlainKinds ((convertOf .fortran)^[2]) radicalReactions := by
  have h : ∀ q ∈ radicalReactions, ((kRead ((convertOf .fortran)^[2] q.rate)).map
      (fun e => (kindOf e).isSome && noFloor e)) = some true := by decide +kernel
  intro q hq e he
  have := h q hq
  rw [he, Option.map_some, Option.some.injEq, Bool.and_eq_true] at this
  exact this

example (junk : Vals) : ∃ p env, kProgram (ratesFile .fortran (some 2)
      ((convertTable (convertOf .fortran))^[2] (build radicalReactions).rate)) = some p ∧
    EvRun exactly (ambient .fortran 298.15 43200 0 0 junk) p env ∧
    FortranMeansReal ((convertOf .fortran)^[2]) p radicalReactions := by
  obtain ⟨-, c2, -⟩ := radical_rates
  obtain ⟨f1, f2⟩ := rateTextCheck_reads c2
  obtain ⟨l, hp, -⟩ := kRate_file radical_parses radical_reads (some 2) f1
  obtain ⟨env, henv⟩ := C82_runs radical_parses radical_reads f1 f2 radical_kinds hp (T := 298.15) (t := 43200)
    (r := 0) (h2o := 0) (by norm_num) le_rfl le_rfl (by norm_num) junk
  exact ⟨_, env, hp, henv, C82_kinds_partial radical_parses radical_reads f1 radical_kinds hp⟩

/-! ### A text that fails -/

def halfText : Str := "{1.}NO2=NO:1/2*KMT10;".toList

def halfReactions : List RawEqn :=
  [{ reactants := [(1, "NO2".toList)], products := [(1, "NO".toList)], rate := "1/2*KMT10".toList }]

theorem half_parses : extractMechanism halfText = .ok { tables := build halfReactions, equations := 1 } := by
  rw [extract_ok_iff]
  refine ⟨"1.".toList, 1, halfReactions, ?_, by decide +kernel, ?_, rfl⟩
  · rw [labels_eq _ (not_mem_removeChar _ _)]; decide +kernel
  · rw [bodies_eq _ (not_mem_removeChar _ _)]; decide +kernel

theorem half_reads : Reads halfText 1 halfReactions := by
  unfold Reads bodyTexts; decide +kernel

theorem half_rates : (∀ q ∈ halfReactions, rateTextCheck .fortran ((convertOf .fortran)^[2] q.rate) = true) ∧
    kRead ((convertOf .fortran)^[2] "1/2*KMT10".toList) = some (.bin .mul (.bin .div (.num 1 .int) (.num 2 .int))
      (.var (Backend.fortran.var "KMT10"))) := by
  decide +kernel

/-- **C82 is false**: the rate `1/2*KMT10` is zero in Fortran, because `1/2` is a division of integers. -/
theorem C82_zero (cores : Option Nat) : ∃ p, kProgram (ratesFile .fortran cores
      ((convertTable (convertOf .fortran))^[2] (build halfReactions).rate)) = some p ∧
    ∀ (junk : Vals) (T t r h2o : ℝ), 0 < T → 0 ≤ h2o → |t| ≤ 10 ^ 12 →
      (∃ env, EvRun exactly (ambient .fortran T t r h2o junk) p env ∧ env (Backend.fortran.rateVar 0) = 0) ∧
      ∀ e, readExpr .fortran ((convertOf .fortran)^[2] "1/2*KMT10".toList) = some e →
        0 < e.val (conditions .fortran T t r h2o) := by
  obtain ⟨c1, c2⟩ := half_rates
  obtain ⟨f1, f2⟩ := rateTextCheck_reads c1
  obtain ⟨l, hp, h2, h3⟩ := kRate_file half_parses half_reads cores f1
  refine ⟨_, hp, fun junk T t r h2o hT hh ht => ⟨?_, ?_⟩⟩
  · obtain ⟨x, rfl⟩ : ∃ x, l = [x] := by
      have := congrArg List.length h2
      simp only [List.length_map, List.length_range] at this
      exact List.length_eq_one_iff.1 this
    have hx0 : x.1 = 0 := by
      rw [List.map_cons, List.map_nil] at h2
      have h5 : List.range halfReactions.length = [0] := rfl
      rw [h5] at h2
      exact (List.cons.inj h2).1
    obtain ⟨-, q, hk, he⟩ := h3 x (List.mem_singleton_self x)
    rw [hx0] at hk
    obtain rfl : q = _ := (Option.some.inj hk).symm
    rw [c2] at he
    have hx : x = (0, .bin .mul (.bin .div (.num 1 .int) (.num 2 .int)) (.var (Backend.fortran.var "KMT10"))) :=
      Prod.ext hx0 (Option.some.inj he).symm
    subst hx
    refine ⟨_, evRun_append.2 ⟨_, fixed_runs junk hT hh ht, .cons (.asg (.binReal (p := .double)
      (.binInt (z := 0) (.int (z := 1) (by norm_num) (by decide)) (.int (z := 2) (by norm_num) (by decide)) rfl
        (by decide)) (.var _) rfl (convert_self _ _) (convertRight_self _ _ _) trivial rfl)) (.nil _)⟩, ?_⟩
    rw [Function.update_self]
    simp [KVal.toReal, Op.val]
  · intro e he
    rw [← kRead_erase, c2, Option.map_some, Option.some.injEq] at he
    rw [← he]
    have hpos := (C50_defined_positive .fortran (by decide) T 0 0 h2o (fun _ => 0) hT hh).2.1 "KMT10" (by decide)
    have hc : conditions .fortran T t r h2o (Backend.fortran.var "KMT10") =
        run (ambient .fortran T 0 0 h2o (fun _ => 0)) (rateProgram .fortran) (Backend.fortran.var "KMT10") := by
      unfold conditions
      rw [show photolysisTable.find? (fun row => decide (Backend.fortran.var "KMT10" = Backend.fortran.slot row.1)) =
        none by decide +kernel]
      dsimp only
      rw [if_neg (by decide), if_neg (by decide), if_neg (by decide)]
    simp only [KEx.erase, Ex.val]
    rw [hc]
    push_cast
    positivity

theorem C82_false : ¬ C82_Statement := by
  intro hst
  obtain ⟨p, hp, hz⟩ := C82_zero none
  obtain ⟨⟨env, henv, h0⟩, hpos⟩ := hz (fun _ => 0) 298 0 0 0 (by norm_num) le_rfl (by norm_num)
  obtain ⟨f1, -⟩ := rateTextCheck_reads half_rates.1
  have he := kRead_erase ((convertOf .fortran)^[2] "1/2*KMT10".toList)
  rw [half_rates.2] at he
  have := hst halfText _ halfReactions none 2 p half_parses half_reads f1 hp (fun _ => 0) 298 0 0 0 env (by norm_num)
    le_rfl le_rfl henv 0 _ _ rfl he.symm
  rw [h0] at this
  have := hpos _ he.symm
  linarith

end PyBox
