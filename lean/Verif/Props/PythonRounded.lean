import Verif.Props.GasRounded
import Verif.Props.RoundingPython

/-!
# C91: rate texts in double precision, and the Python version with rounding in all files
-/

namespace PyBox

open Rl Set

namespace Spec

/-- What C91 says about the photolysis coefficients. -/
def doubleSun : AbsSt := photolysisTable.map fun r => (Backend.numba.slot r.1, 9e-9 * r.2.1)

/-- The analysis gives a rate text, in double precision, no more than the relative error `e` and the absolute error
`d`. -/
def SmallDouble (e d : ℚ) (s : Str) : Prop :=
  ∀ x y, readExpr .numba s = some x → x.doubles = some y →
    ∃ p, mixOf dKnown doubleSun y = some p ∧ p.1 ≤ e ∧ p.2 ≤ d

/-- The right-hand side of the Python version computed in double precision from the texts of the rate file and of the
two gas routines; `k` are the statements of the rate file. `/repo/ODE_solver.py` lines 82–109. -/
def RoundedNumba (m : Mechanism) (k : List KStmt) (t₁ t₂ : Str) (T start h2o temp : ℝ) {n : ℕ}
    (P : Set (Fin n → ℝ)) (G : ℝ → (Fin n → ℝ) → Fin n → ℝ) : Prop :=
  ∀ t ∈ Ico 0 T, ∀ z ∈ P, ∃ (r : ℝ) (junk env : Vals) (out : ℕ → ℝ),
    RoundedSum ieee ((ro2Indices m.tables.index).map (stateOf z)) r ∧ 0 ≤ r ∧
    EvRun ieee (ambient .numba temp (start + t) r h2o junk) k env ∧
    RoundedSlope .python m.tables.species.length m.equations.toNat t₁ t₂ (fun j => env (Backend.numba.rateVar j))
      (stateOf z) out ∧ ∀ i : Fin n, G t z i = out i

end Spec

open Spec

attribute [local irreducible] dRateProgram rateProgram dKnown

theorem inDouble_asgs {b : Backend} : ∀ {l : List (ℕ × Ex)} {k : List KStmt},
    InDouble (l.map fun p => Stmt.asg (b.rateVar p.1) p.2) k →
    ∃ l' : List (ℕ × KEx), k = l'.map (fun p => .asg (b.rateVar p.1) p.2) ∧
      l'.map Prod.fst = l.map Prod.fst ∧ ∀ p ∈ l', ∃ x, (p.1, x) ∈ l ∧ x.doubles = some p.2 := by
  intro l
  induction l with
  | nil =>
    intro k h
    exact ⟨[], List.map_eq_nil_iff.1 h.1, rfl, fun p hp => by cases hp⟩
  | cons a l ih =>
    intro k h
    rw [List.map_cons, ← List.singleton_append] at h
    obtain ⟨k₁, k₂, rfl, h1, h2⟩ := inDouble_append h
    obtain ⟨l', rfl, g1, g2⟩ := ih h2
    have hu := inDouble_unique h1
    obtain ⟨y, hy, hk⟩ : ∃ y, a.2.doubles = some y ∧ k₁ = [.asg (b.rateVar a.1) y] := by
      have : doublesRun [Stmt.asg (b.rateVar a.1) a.2] = (a.2.doubles).bind fun y => some [KStmt.asg (b.rateVar a.1) y] := by
        unfold doublesRun
        rw [List.mapM_cons, List.mapM_nil]
        show Option.bind (Option.map _ _) _ = _
        cases a.2.doubles <;> rfl
      rw [this] at hu
      obtain ⟨y, hy, he⟩ := Option.bind_eq_some_iff.1 hu
      exact ⟨y, hy, (Option.some.inj he).symm⟩
    refine ⟨(a.1, y) :: l', ?_, ?_, ?_⟩
    · rw [hk]; rfl
    · rw [List.map_cons, List.map_cons, g1]
    · intro p hp
      rcases List.mem_cons.1 hp with rfl | hp
      · exact ⟨a.2, List.mem_cons_self .., hy⟩
      · obtain ⟨x, hx, hd⟩ := g2 p hp
        exact ⟨x, List.mem_cons_of_mem _ hx, hd⟩

section

variable {text : Str} {m : Mechanism} {qs : List RawEqn} {cores : Option ℕ} {times : ℕ} {p : List Stmt} {k : List KStmt}

theorem double_parts (h : extractMechanism text = .ok m) (hq : Reads text m.equations.toNat qs)
    (hread : ReadableRates .numba ((convertOf .numba)^[times]) qs)
    (hp : program .numba (ratesFile .numba cores ((convertTable (convertOf .numba))^[times] m.tables.rate)) = some p)
    (hk : InDouble p k) :
    ∃ l : List (ℕ × KEx), k = dRateProgram ++ l.map (fun p => .asg (Backend.numba.rateVar p.1) p.2) ∧
      l.map Prod.fst = List.range qs.length ∧ ∀ p ∈ l, ∃ x q, qs[p.1]? = some q ∧
        readExpr .numba ((convertOf .numba)^[times] q.rate) = some x ∧ x.rateLike .numba = true ∧
        x.doubles = some p.2 := by
  obtain ⟨l, h1, h2, h3⟩ := rate_file h hq cores hread
  rw [hp] at h1
  rw [Option.some.inj h1] at hk
  obtain ⟨k₁, k₂, rfl, g1, g2⟩ := inDouble_append hk
  obtain rfl : k₁ = dRateProgram := Option.some.inj ((inDouble_unique g1).symm.trans (inDouble_unique dRate_double))
  obtain ⟨l', rfl, e1, e2⟩ := inDouble_asgs g2
  refine ⟨l', rfl, e1.trans h2, fun a ha => ?_⟩
  obtain ⟨x, hx, hd⟩ := e2 a ha
  obtain ⟨hl, q, hq', he⟩ := h3 _ hx
  exact ⟨x, q, hq', he, hl, hd⟩

/-- The reactions of a file: the computed rate comes from the rate expression, evaluated with rounding. -/
theorem double_texts (h : extractMechanism text = .ok m) (hq : Reads text m.equations.toNat qs)
    (hread : ReadableRates .numba ((convertOf .numba)^[times]) qs)
    (hp : program .numba (ratesFile .numba cores ((convertTable (convertOf .numba))^[times] m.tables.rate)) = some p)
    (hk : InDouble p k) {R : Rounding} {start env : Vals} (hrun : EvRun R start k env) :
    ∃ mid, EvRun R start dRateProgram mid ∧
      ∀ (j : Nat) q, qs[j]? = some q → ∃ x y, readExpr .numba ((convertOf .numba)^[times] q.rate) = some x ∧
        x.rateLike .numba = true ∧ x.doubles = some y ∧
        ∃ (mid' : Vals) (r : KVal), (∀ v, (∀ k, v ≠ Backend.numba.rateVar k) → mid' v = mid v) ∧
          Ev R mid' y r ∧ env (Backend.numba.rateVar j) = r.toReal := by
  obtain ⟨l, rfl, h2, h3⟩ := double_parts h hq hread hp hk
  obtain ⟨mid, hm, hl⟩ := evRun_append.1 hrun
  refine ⟨mid, hm, fun j q hj => ?_⟩
  have hlt : j ∈ l.map Prod.fst := by
    rw [h2, List.mem_range]
    exact (List.getElem?_eq_some_iff.1 hj).1
  obtain ⟨⟨j', y⟩, hmem, rfl⟩ := List.mem_map.1 hlt
  obtain ⟨x, q', hj', hx, hlike, hd⟩ := h3 _ hmem
  obtain rfl : q' = q := Option.some.inj (hj'.symm.trans hj)
  exact ⟨x, y, hx, hlike, hd, texts_run (by rw [h2]; exact List.nodup_range) hl _ hmem⟩

end

theorem doubleSun_sound {T t r h2o : ℝ} {junk env : Vals} (h1 : 200 ≤ T) (h2 : T ≤ 330) (hr : 0 ≤ r) (hh : 0 ≤ h2o)
    (ht : 0 ≤ t) (ht' : t ≤ 1000000000) (h : EvRun ieee (ambient .numba T t r h2o junk) dRateProgram env) :
    doubleSun.Sound (run (ambient .numba T t r h2o junk) (rateProgram .numba)) env := by
  intro v d hv
  obtain ⟨⟨k, l, m, n⟩, hrow, he⟩ := List.mem_map.1 (absGet_mem hv)
  cases he
  obtain ⟨g1, g2, -⟩ := C47_photolysis .numba (by decide) T t r h2o junk k l m n hrow
  rw [g1]
  refine ⟨g2, (C91_photolysis h1 h2 hr hh ht ht' dRate_double h hrow).2.2.1.trans (le_of_eq ?_)⟩
  push_cast
  norm_num

theorem dKnown_rates (k : Nat) : dKnown.get (Backend.numba.rateVar k) = .top := by
  have h : dKnown.all (fun p => decide (p.1.name ≠ Backend.numba.name "rate_values".toList)) = true := by
    decide +kernel
  exact get_noName _ (fun p hp => of_decide_eq_true (List.all_eq_true.1 h p hp)) _

/-- **C91** (rates of reactions): the coefficient the rate file of the Python version gives a reaction, computed in
double precision, differs from the value of its rate expression in real numbers by no more than `e` times that value
and `d`, if the analysis gives its text no more. -/
theorem C91_rates {text : Str} {m : Mechanism} (h : extractMechanism text = .ok m)
    {qs : List RawEqn} (hq : Reads text m.equations.toNat qs) {cores : Option Nat} {times : Nat}
    (hread : ReadableRates .numba ((convertOf .numba)^[times]) qs) {p : List Stmt}
    (hp : program .numba (ratesFile .numba cores ((convertTable (convertOf .numba))^[times] m.tables.rate)) = some p)
    {ks : List KStmt} (hks : InDouble p ks)
    {T t r h2o : ℝ} {junk env : Vals} (h1 : 200 ≤ T) (h2 : T ≤ 330) (hr : 0 ≤ r) (hh : 0 ≤ h2o)
    (ht : 0 ≤ t) (ht' : t ≤ 1000000000)
    (hrun : EvRun ieee (ambient .numba T t r h2o junk) ks env) {k : Nat} {q : RawEqn} (hk : qs[k]? = some q)
    {x : Ex} (hx : readExpr .numba ((convertOf .numba)^[times] q.rate) = some x) {e d : ℚ}
    (he : SmallDouble e d ((convertOf .numba)^[times] q.rate)) :
    0 ≤ x.val (conditions .numba T t r h2o) ∧
    |env (Backend.numba.rateVar k) - x.val (conditions .numba T t r h2o)| ≤
      e * x.val (conditions .numba T t r h2o) + d := by
  obtain ⟨mid, hm, hf⟩ := double_texts h hq hread hp hks hrun
  obtain ⟨x', y, hx', hlike, hy, mid', val, hmid, hev, hout⟩ := hf k q hk
  obtain rfl : x' = x := Option.some.inj (hx'.symm.trans hx)
  have hs := double_errors h1 h2 hr hh ht ht' hm
  have ha := doubleSun_sound h1 h2 hr hh ht ht' hm
  have hs' : dKnown.Sound (run (ambient .numba T t r h2o junk) (rateProgram .numba)) mid' := by
    intro v
    by_cases hv : ∀ k, v ≠ Backend.numba.rateVar k
    · rw [hmid v hv]; exact hs v
    · push Not at hv
      obtain ⟨k', rfl⟩ := hv
      rw [dKnown_rates]
      exact Err.top_holds _ _
  have ha' : doubleSun.Sound (run (ambient .numba T t r h2o junk) (rateProgram .numba)) mid' := by
    intro v d hv
    have hne : ∀ k, v ≠ Backend.numba.rateVar k := by
      intro k' hk'
      obtain ⟨row, -, he⟩ := List.mem_map.1 (absGet_mem hv)
      have hn := congrArg (fun p : Var × ℚ => p.1.name) he
      rw [hk'] at hn
      revert hn
      show ¬ (Backend.numba.name "J".toList = Backend.numba.name "rate_values".toList)
      decide
    rw [hmid v hne]
    exact ha v d hv
  have hmix := mixOf_holds hs' ha' hev
  obtain ⟨pr, hpr, g1, g2⟩ := he x' y hx hy
  rw [hpr] at hmix
  have hmix : Mixed pr.1 pr.2 _ _ := hmix
  rw [(doubles_spec hy).1, Ex.val_congr _ fun v hv => program_conditions (b := .numba) (by decide) T t r h2o junk
    (rateLike_vars hlike v hv)] at hmix
  rw [hout]
  exact hmix.mono (by exact_mod_cast g1) (by exact_mod_cast g2)

/-! ### Runs -/

/-- The texts have double-precision versions with kinds. -/
def Spec.DoubleTexts (convert : Str → Str) (qs : List RawEqn) : Prop :=
  ∀ q ∈ qs, ∀ x, readExpr .numba (convert q.rate) = some x →
    ∃ y, x.doubles = some y ∧ (kindOf y).isSome = true ∧ noFloor y = true

/-- **C91**: the rate file has a version in double precision, and it runs. -/
theorem C91_runs {text : Str} {m : Mechanism} (h : extractMechanism text = .ok m)
    {qs : List RawEqn} (hq : Reads text m.equations.toNat qs) {cores : Option Nat} {times : Nat}
    (hread : ReadableRates .numba ((convertOf .numba)^[times]) qs)
    (hsig : SignedRates .numba ((convertOf .numba)^[times]) qs)
    (hd : DoubleTexts ((convertOf .numba)^[times]) qs) {p : List Stmt}
    (hp : program .numba (ratesFile .numba cores ((convertTable (convertOf .numba))^[times] m.tables.rate)) = some p) :
    ∃ k, InDouble p k ∧ ∀ {T t r h2o : ℝ}, 0 < T → 0 ≤ r → 0 ≤ h2o → ∀ junk : Vals,
      ∃ env, EvRun ieee (ambient .numba T t r h2o junk) k env := by
  obtain ⟨l, h1, -, h3⟩ := rate_file h hq cores hread
  have hpl := Option.some.inj (hp.symm.trans h1)
  have hl : ∃ l' : List KStmt, InDouble (l.map fun p => Stmt.asg (Backend.numba.rateVar p.1) p.2) l' ∧
      ∀ s ∈ l', s.kinds = true ∧ s.noFloor = true := by
    have : ∀ p ∈ l, ∃ y, p.2.doubles = some y ∧ (kindOf y).isSome = true ∧ noFloor y = true := fun p hp => by
      obtain ⟨-, q, hq', he⟩ := h3 p hp
      exact hd q (List.mem_of_getElem? hq') _ he
    clear h1 h3 hpl
    induction l with
    | nil => exact ⟨[], ⟨rfl, fun s hs => by cases hs⟩, fun s hs => by cases hs⟩
    | cons a l ih =>
      obtain ⟨l', ⟨g1, g2⟩, g3⟩ := ih fun p hp => this p (List.mem_cons_of_mem _ hp)
      obtain ⟨y, y1, y2, y3⟩ := this a (List.mem_cons_self ..)
      obtain ⟨e1, e2⟩ := doubles_spec y1
      refine ⟨.asg (Backend.numba.rateVar a.1) y :: l', ⟨?_, ?_⟩, ?_⟩
      · rw [List.map_cons, List.map_cons, g1, KStmt.erase, e1]
      · intro s hs
        rcases List.mem_cons.1 hs with rfl | hs
        · exact e2
        · exact g2 s hs
      · intro s hs
        rcases List.mem_cons.1 hs with rfl | hs
        · exact ⟨y2, y3⟩
        · exact g3 s hs
  obtain ⟨l', hl1, hl2⟩ := hl
  have hk : InDouble p (dRateProgram ++ l') := by
    rw [hpl]
    obtain ⟨d1, d2⟩ := dRate_double
    refine ⟨by rw [List.map_append, d1, hl1.1], fun s hs => ?_⟩
    rcases List.mem_append.1 hs with hs | hs
    · exact d2 s hs
    · exact hl1.2 s hs
  obtain ⟨-, -, -, -, c1, c2⟩ := double_facts
  refine ⟨_, hk, fun {T t r h2o} hT hr hh junk => ⟨_, (exact_run_exists ?_ ?_ ?_).mono fun p x y => exactly_ieee⟩⟩
  · intro s hs
    rcases List.mem_append.1 hs with hs | hs
    · exact List.all_eq_true.1 c1 s hs
    · exact (hl2 s hs).1
  · rw [hk.1]
    exact C66_defined h hq (b := .numba) (by decide) hread hsig hp hT hr hh junk
  · refine noFloor_fitsRun _ _ (List.all_eq_true.2 fun s hs => ?_)
    rcases List.mem_append.1 hs with hs | hs
    · exact List.all_eq_true.1 c2 s hs
    · exact (hl2 s hs).2

/-! ### The Python version -/

/-- **C91**, with **C88**: rounding in the rate file and in the generated gas routines of the Python version. -/
theorem C91_python {text : Str} {m : Mechanism} (h : extractMechanism text = .ok m) {qs : List RawEqn}
    (hq : Reads text m.equations.toNat qs) (hone : WholeReactants qs) {num : ℚ → Str} (hw : Prints num id m.tables)
    (hx : ExactOrders qs) {L : ℕ} (hL : ∀ q ∈ qs, (names (chemReactants q)).length ≤ L) {cores : Option ℕ} {times : ℕ}
    (hread : ReadableRates .numba ((convertOf .numba)^[times]) qs) {p : List Stmt}
    (hp : program .numba (ratesFile .numba cores ((convertTable (convertOf .numba))^[times] m.tables.rate)) = some p)
    {k : List KStmt} (hk : InDouble p k) {junk : Vals} (hjunk : ∀ e, 0 ≤ junk (Backend.numba.rateVar e))
    {start h2o temp : ℝ} (hnn : NonnegRates .numba ((convertOf .numba)^[times]) qs h2o temp)
    (h1 : 200 ≤ temp) (h2 : temp ≤ 330) (hh : 0 ≤ h2o) {sim batch : ℚ} (hs : 0 < sim) (hb : 0 < batch)
    (ht : 0 ≤ start) (ht' : start + batch ≤ 1000000000) {n : ℕ} {F : ℝ → (Fin n → ℝ) → Fin n → ℝ}
    (hF : GasSystem m (generatedRates .numba p junk) start h2o temp F) (B : ℝ) :
    BoundedEffect (radicalStates m n B) F (fun e d G => e ≤ 1 ∧ d ≤ 1 ∧ RoundingUnits m .python L e ∧
      ∃ (e' d' : ℚ) (t₁ t₂ : Str), e' ≤ e ∧ d' ≤ d ∧
        (∀ q ∈ qs, SmallDouble e' d' ((convertOf .numba)^[times] q.rate)) ∧ GasTexts m none num t₁ t₂ .python ∧
        RoundedNumba m k t₁ t₂ batch start h2o temp (radicalStates m n B) G) sim batch := by
  refine (C88_python h hq hone hw hx hL (C66_piecewise h hq (by decide) hread hp hjunk start hnn) hs hb hF B).mono
    fun e d G ⟨he, hd, hu, e', d', t₁, t₂, hee, hdd, hsm, htx, hG⟩ => ⟨he, hd, hu, t₁, t₂, htx, ?_⟩
  intro t hT z hz
  obtain ⟨r, junk', env, out, g1, g2, g3, g4, g5⟩ := hG t hT z hz
  refine ⟨r, fun j => env (Backend.numba.rateVar j), out, g1, g2, fun j hj => ?_, g4, g5⟩
  rw [← (extract_tables h hq).2] at hj
  have hkq : qs[j]? = some qs[j] := List.getElem?_eq_getElem hj
  obtain ⟨x, hx, -⟩ := hread _ (List.getElem_mem hj)
  obtain ⟨_, f1, f2⟩ := C66_value h hq (b := .numba) (by decide) cores hread
  rw [hp] at f1
  obtain rfl := Option.some.inj f1
  rw [(f2 junk temp (start + t) r h2o).1 j _ x hkq hx]
  obtain ⟨c1, c2⟩ := C91_rates h hq hread hp hk h1 h2 g2 hh (by linarith [hT.1]) (by linarith [hT.2]) g3 hkq hx
    (hsm _ (List.getElem_mem hj))
  exact c2.trans (add_le_add (mul_le_mul_of_nonneg_right hee c1) hdd)

/-! ### Cases the theorems apply to -/

/-- The analysis of a text. -/
def doubleSmall (e d : ℚ) (x : Ex) : Bool :=
  match x.doubles with
  | none => false
  | some y => forceEx y fun y =>
    (kindOf y).isSome && noFloor y &&
    match mixOf dKnown doubleSun y with
    | some p => decide (p.1 ≤ e ∧ p.2 ≤ d)
    | none => false

theorem doubleSmall_spec {e d : ℚ} {s : Str} (h : (readExpr .numba s).map (doubleSmall e d) = some true) :
    SmallDouble e d s ∧ ∀ x, readExpr .numba s = some x →
      ∃ y, x.doubles = some y ∧ (kindOf y).isSome = true ∧ noFloor y = true := by
  have key : ∀ x, readExpr .numba s = some x → ∃ y, x.doubles = some y ∧ ((kindOf y).isSome = true ∧ noFloor y = true) ∧
      ∃ p, mixOf dKnown doubleSun y = some p ∧ p.1 ≤ e ∧ p.2 ≤ d := by
    intro x hx
    rw [hx, Option.map_some] at h
    have h := Option.some.inj h
    unfold doubleSmall at h
    split at h
    · cases h
    · rename_i y hy
      rw [forceEx_eq, Bool.and_eq_true, Bool.and_eq_true] at h
      refine ⟨y, hy, h.1, ?_⟩
      have h2 := h.2
      split at h2
      · rename_i p hp
        exact ⟨p, hp, of_decide_eq_true h2⟩
      · cases h2
  refine ⟨fun x y hx hy => ?_, fun x hx => ?_⟩
  · obtain ⟨y', hy', -, g⟩ := key x hx
    obtain rfl : y' = y := Option.some.inj (hy'.symm.trans hy)
    exact g
  · obtain ⟨y, hy, g, -⟩ := key x hx
    exact ⟨y, hy, g⟩

/-- Texts of the shipped mechanisms. -/
theorem doubleTexts_small : SmallDouble 1.7e-12 0 ((convertOf .numba)^[1] "KBPAN*0.67".toList) ∧
    SmallDouble 1.7e-12 5e-13 ((convertOf .numba)^[1] "KBPAN+J(11)".toList) ∧
    SmallDouble 1e-15 4e-12 ((convertOf .numba)^[1] "J(15)+J(35)".toList) :=
  ⟨(doubleSmall_spec (by decide +kernel)).1, (doubleSmall_spec (by decide +kernel)).1,
    (doubleSmall_spec (by decide +kernel)).1⟩

theorem radical_double : (∀ q ∈ radicalReactions, SmallDouble 1e-14 1.05e-10 ((convertOf .numba)^[1] q.rate)) ∧
    DoubleTexts ((convertOf .numba)^[1]) radicalReactions := by
  have h : ∀ q ∈ radicalReactions, (readExpr .numba ((convertOf .numba)^[1] q.rate)).map (doubleSmall 1e-14 1.05e-10) =
      some true := by decide +kernel
  exact ⟨fun q hq => (doubleSmall_spec (h q hq)).1, fun q hq => (doubleSmall_spec (h q hq)).2⟩

theorem radical_units_python : RoundingUnits ⟨build radicalReactions, 2⟩ .python 2 1e-14 := by
  refine ⟨⟨_, .double, fun s => ?_⟩, ?_⟩
  · have key : ∀ d : Dict Str (Dict ℕ ℚ), (∀ p ∈ d, p.2.length ≤ 5) → (d.getD s []).length ≤ 5 := by
      intro d hd
      unfold Dict.getD
      cases hg : d.get? s with
      | none => simp
      | some v => exact hd (s, v) (Dict.mem_of_get?_eq_some hg)
    have h1 := key (build radicalReactions).loss (by decide +kernel)
    have h2 := key (build radicalReactions).gain (by decide +kernel)
    have h3 : (termCount (build radicalReactions) s : ℝ) ≤ 10 := by
      have : termCount (build radicalReactions) s ≤ 10 := by unfold termCount; omega
      exact_mod_cast this
    show Real.exp (2⁻¹ ^ 52 + ((termCount (build radicalReactions) s : ℝ) + 2 * (2 : ℕ) + 2) * 2⁻¹ ^ 52) - 1 ≤ 1e-14
    have h4 : (0 : ℝ) ≤ termCount (build radicalReactions) s := Nat.cast_nonneg _
    refine exp_bound (by positivity) ?_ ?_ <;> norm_num <;> linarith
  · have : (ro2Indices (build radicalReactions).index).length = 1 := by decide +kernel
    show Real.exp ((ro2Indices (build radicalReactions).index).length * 2⁻¹ ^ 52) - 1 ≤ 1e-14
    rw [this]
    exact exp_bound (by positivity) (by norm_num) (by norm_num)

/-- For `radicalText`, its Python files and a start at noon the hypotheses of `C91_python` are met, and there is a
right-hand side with rounding in all files. -/
theorem radical_python_rounded : ∃ (p : List Stmt) (k : List KStmt) (F : ℝ → (Fin 5 → ℝ) → Fin 5 → ℝ),
    program .numba (ratesFile .numba none ((convertTable (convertOf .numba))^[1] (build radicalReactions).rate))
      = some p ∧ InDouble p k ∧ ∀ B : ℝ,
    (∃ G, RoundedNumba ⟨build radicalReactions, 2⟩ k radicalPython.reactants radicalPython.lossGain 60 43200 0 298.15
      (radicalStates ⟨build radicalReactions, 2⟩ 5 B) G) ∧
    BoundedEffect (radicalStates ⟨build radicalReactions, 2⟩ 5 B) F (fun e d G => e = 1e-14 ∧ d = 1.05e-10 ∧
      RoundedNumba ⟨build radicalReactions, 2⟩ k radicalPython.reactants radicalPython.lossGain 60 43200 0 298.15
        (radicalStates ⟨build radicalReactions, 2⟩ 5 B) G) (((2 : ℕ) : ℚ) * 60) 60 := by
  obtain ⟨c1, -, -⟩ := radical_rates
  obtain ⟨f1, f2⟩ := rateTextCheck_reads c1
  obtain ⟨p, hp, -⟩ := C66_value radical_parses radical_reads (b := .numba) (by decide) none f1
  obtain ⟨k, hk, hrun⟩ := C91_runs radical_parses radical_reads f1 f2 radical_double.2 hp
  obtain ⟨F, hF⟩ := radical_system (generatedRates .numba p fun _ => 0) 43200 0 298.15
  refine ⟨p, k, F, hp, hk, fun B => ⟨?_, (C91_python (L := 2) radical_parses radical_reads radical_positive.2
    radical_prints radical_orders (by decide +kernel) f1 hp hk (junk := fun _ => 0) (fun _ => le_rfl)
    (C66_nonneg (by decide) f1 f2 (by norm_num) le_rfl) (by norm_num) (by norm_num) le_rfl
    (sim := ((2 : ℕ) : ℚ) * 60) (batch := 60) (by norm_num) (by norm_num) (by norm_num) (by norm_num) hF B).mono ?_⟩⟩
  · have hG : ∀ (t : ℝ) (z : Fin 5 → ℝ), ∃ g : Fin 5 → ℝ, t ∈ Ico 0 60 →
        z ∈ radicalStates ⟨build radicalReactions, 2⟩ 5 B → ∃ (r : ℝ) (junk env : Vals) (out : ℕ → ℝ),
        RoundedSum ieee ((ro2Indices (build radicalReactions).index).map (stateOf z)) r ∧ 0 ≤ r ∧
        EvRun ieee (ambient .numba 298.15 (43200 + t) r 0 junk) k env ∧
        RoundedSlope .python (build radicalReactions).species.length 2 radicalPython.reactants radicalPython.lossGain
          (fun j => env (Backend.numba.rateVar j)) (stateOf z) out ∧ ∀ i : Fin 5, g i = out i := by
      intro t z
      by_cases hc : t ∈ Ico 0 60 ∧ z ∈ radicalStates ⟨build radicalReactions, 2⟩ 5 B
      · obtain ⟨ht, hz⟩ := hc
        obtain ⟨env, henv⟩ := hrun (T := 298.15) (t := 43200 + t) (h2o := 0) (by norm_num) hz.2 le_rfl fun _ => 0
        obtain ⟨out, ho⟩ := runnable_slope (lang := .python) (species := 5) (reactions := 2)
          (t₁ := radicalPython.reactants) (t₂ := radicalPython.lossGain) (by decide +kernel) (by decide +kernel)
          (fun j => env (Backend.numba.rateVar j)) (stateOf z)
        refine ⟨fun i => out i, fun _ _ => ⟨_, fun _ => 0, env, out, ?_, hz.2, henv, ?_, fun i => rfl⟩⟩
        · obtain ⟨i, hi⟩ : ∃ i, ro2Indices (build radicalReactions).index = [i] :=
            List.length_eq_one_iff.1 (by decide +kernel)
          show RoundedSum ieee _ ((ro2Indices (build radicalReactions).index).map (stateOf z)).sum
          rw [hi]
          simpa using RoundedSum.one (R := ieee) (stateOf z i)
        · rw [radical_five]; exact ho
      · exact ⟨fun _ => 0, fun h1 h2 => absurd ⟨h1, h2⟩ hc⟩
    choose G hG using hG
    exact ⟨G, fun t ht z hz => hG t z ht hz⟩
  · rintro e d G ⟨rfl, rfl, hG⟩
    exact ⟨by norm_num, by norm_num, radical_units_python, 1e-14, 1.05e-10, _, _, by push_cast; norm_num,
      by push_cast; norm_num, radical_double.1,
      ⟨radicalPython_written.reactants, radicalPython_written.lossGain⟩, by push_cast; exact hG⟩

end PyBox
