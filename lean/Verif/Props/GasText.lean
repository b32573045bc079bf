import Verif.Gen.Shapes
import Verif.Props.Rhs

/-!
# C70: the text of the generated gas routines
-/

namespace PyBox

open Spec

namespace Spec

/-- How Python prints the coefficients of a mechanism: `w q` is the number that the printed form of `q`
denotes. The writers print the coefficients in the tables, one more (Fortran tendencies) and one less
(exponents in the Jacobian). -/
structure Prints (num : ℚ → Str) (w : ℚ → ℚ) (t : Tables) : Prop where
  one : Numeral (num 1) (w 1)
  loss : ∀ s, ∀ c ∈ (t.loss.getD s []).values,
    Numeral (num c) (w c) ∧ Numeral (num (c + 1)) (w (c + 1)) ∧ (2 < c → Numeral (num (c - 1)) (w (c - 1)))
  gain : ∀ s, ∀ c ∈ (t.gain.getD s []).values, Numeral (num c) (w c) ∧ Numeral (num (c + 1)) (w (c + 1))

/-- `dydt_func` with given rate coefficients (`/repo/ODE_solver.py` lines 102–109, `/repo/f2py/ODE_solver.py`
lines 86–95) on the text of the two routines. -/
noncomputable def rhsOfFiles (reactants lossGain : Frame) (species reactions : Nat) (t₁ t₂ : Str) (k y : Nat → ℝ) :
    Option (Nat → ℝ) :=
  (runFile reactants species reactions t₁ ⟨y, fun _ => 0⟩ (fun _ => 0)).bind (fun f =>
    runFile lossGain species reactions t₂ ⟨y, fun e => f e * k e⟩ (fun _ => 0))

end Spec

theorem Spec.Prints.coefs {num : ℚ → Str} {w : ℚ → ℚ} {t : Tables} (h : Prints num w t) :
    CoefsOk t.gen (fun q => Numeral (num q) (w q)) := ⟨h.one, h.loss, h.gain⟩

theorem LineGood.split {κ : Type} {lang : Lang} {inputs : List Str} {num : ℚ → Str} {w : ℚ → ℚ}
    {p : List (Line κ)} (h : ∀ l ∈ p, LineGood lang inputs (fun q => Numeral (num q) (w q)) l) :
    (∀ l ∈ p, LineOk lang inputs l) ∧ Printed num w (p.flatMap Line.numbers) := by
  refine ⟨fun l hl => (h l hl).1, fun q hq => ?_⟩
  obtain ⟨l, hl, hq⟩ := List.mem_flatMap.1 hq
  exact (h l hl).2 q hq

theorem Fac.renum_id (f : Fac) : f.renum id = f := by cases f <;> rfl

theorem Tok.renum_id (t : Tok) : t.renum id = t := by
  cases t with
  | fac f => exact congrArg Tok.fac f.renum_id
  | _ => rfl

theorem Line.renum_id {κ : Type} (l : Line κ) : l.renum id = l := by
  cases l with
  | asg k ts => exact congrArg (Line.asg k) ((List.map_congr_left fun t _ => t.renum_id).trans (List.map_id' ts))
  | _ => rfl

theorem map_renum_id {κ : Type} (p : List (Line κ)) : p.map (Line.renum id) = p :=
  (List.map_congr_left fun l _ => l.renum_id).trans (List.map_id' p)

/-! ### The routines -/

/-- **C70**, `Reactants_conc_numba.py`: the text written for any tables is a routine that computes what the
token program computes, with the numbers as printed. -/
theorem C70_reactants_python {t : Tables} {num : ℚ → Str} {w : ℚ → ℚ} (hw : Prints num w t) {q : Nat}
    {P : List (Line Nat)} (hP : writeReactantsPy t.gen q = .ok P) {date : Str} (hd : '\n' ∉ date)
    (n m : Nat) (env : Env) (a : Nat → ℝ) :
    runFile reactantsPyFrame n m (fileText reactantsPyLayout num date n m P) env a =
      exec .python env (P.map (Line.renum w)) a := by
  obtain ⟨h1, h2⟩ := LineGood.split (writeReactantsPy_lines hw.coefs hP)
  exact runFile_eq reactantsPy_matches (q0 := []) rfl hd n m P h1 h2 env a

/-- **C70**, `Reactants_conc.f90`. -/
theorem C70_reactants_fortran {t : Tables} {num : ℚ → Str} {w : ℚ → ℚ} (hw : Prints num w t) {q : Nat}
    {cores : Option Nat} {P : List (Line Nat)} (hP : writeReactantsF t.gen q cores = .ok P) {date : Str}
    (hd : '\n' ∉ date) (n m : Nat) (env : Env) (a : Nat → ℝ) :
    runFile reactantsFFrame n m (fileText reactantsFLayout num date n m P) env a =
      exec .fortran env (P.map (Line.renum w)) a := by
  obtain ⟨h1, h2⟩ := LineGood.split (writeReactantsF_lines hw.coefs hP)
  exact runFile_eq reactantsF_matches (q0 := []) rfl hd n m P h1 h2 env a

/-- **C70**, `Loss_Gain_numba.py`. -/
theorem C70_tendency_python {t : Tables} {num : ℚ → Str} {w : ℚ → ℚ} (hw : Prints num w t) {date : Str}
    (hd : '\n' ∉ date) (n m : Nat) (env : Env) (a : Nat → ℝ) :
    runFile lossGainPyFrame n m (fileText lossGainPyLayout num date n m (writeLossGainPy t.gen)) env a =
      exec .python env ((writeLossGainPy t.gen).map (Line.renum w)) a := by
  obtain ⟨h1, h2⟩ := LineGood.split (writeLossGainPy_lines hw.coefs)
  exact runFile_eq lossGainPy_matches (q0 := []) rfl hd n m _ h1 h2 env a

theorem lossGainF_fill : ([(0, "loss_gain_array(:)=0.0d0".toList)] : List (Nat × Str)).mapM
    (readCmd (κ := Nat) lossGainFFrame) = some [.fill (.num 0)] := by
  decide +kernel

/-- **C70**, `Loss_Gain.f90`: the routine clears the array first, so its contents do not matter. -/
theorem C70_tendency_fortran {t : Tables} {num : ℚ → Str} {w : ℚ → ℚ} (hw : Prints num w t) (k : Nat)
    (cores : Option Nat) {date : Str} (hd : '\n' ∉ date) (n m : Nat) (env : Env) (a : Nat → ℝ) :
    runFile lossGainFFrame n m (fileText lossGainFLayout num date n m (writeLossGainF t.gen k cores)) env a =
      exec .fortran env ((writeLossGainF t.gen k cores).map (Line.renum w)) (fun _ => 0) := by
  obtain ⟨h1, h2⟩ := LineGood.split (writeLossGainF_lines hw.coefs k cores)
  rw [runFile_eq lossGainF_matches lossGainF_fill hd n m _ h1 h2 env a]
  refine congrArg (exec .fortran env _) ?_
  funext i
  exact Rat.cast_zero

/-- **C70**, `Jacobian_numba.py`. -/
theorem C70_jacobian_python {t : Tables} {num : ℚ → Str} {w : ℚ → ℚ} (hw : Prints num w t) {ord : SetOrder}
    {P : List (Line (Nat × Nat))} (hP : writeJacobianPy t.gen ord = .ok P) {date : Str} (hd : '\n' ∉ date)
    (n m : Nat) (env : Env) (a : Nat × Nat → ℝ) :
    runFile jacobianPyFrame n m (fileText jacobianPyLayout num date n m P) env a =
      exec .python env (P.map (Line.renum w)) a := by
  obtain ⟨h1, h2⟩ := LineGood.split (writeJacobianPy_lines hw.coefs hP)
  exact runFile_eq jacobianPy_matches (q0 := []) rfl hd n m P h1 h2 env a

theorem jacobianF_fill : ([(0, "dy_dy(:,:)=0.0d0".toList)] : List (Nat × Str)).mapM
    (readCmd (κ := Nat × Nat) jacobianFFrame) = some [.fill (.num 0)] := by
  decide +kernel

/-- **C70**, `Jacobian.f90`: the routine clears the matrix first. -/
theorem C70_jacobian_fortran {t : Tables} {num : ℚ → Str} {w : ℚ → ℚ} (hw : Prints num w t) {ord : SetOrder}
    {k : Nat} {cores : Option Nat} {P : List (Line (Nat × Nat))} (hP : writeJacobianF t.gen ord k cores = .ok P)
    {date : Str} (hd : '\n' ∉ date) (n m : Nat) (env : Env) (a : Nat × Nat → ℝ) :
    runFile jacobianFFrame n m (fileText jacobianFLayout num date n m P) env a =
      exec .fortran env (P.map (Line.renum w)) (fun _ => 0) := by
  obtain ⟨h1, h2⟩ := LineGood.split (writeJacobianF_lines hw.coefs hP)
  rw [runFile_eq jacobianF_matches jacobianF_fill hd n m P h1 h2 env a]
  refine congrArg (exec .fortran env _) ?_
  funext i
  exact Rat.cast_zero

/-! ### The right-hand side -/

/-- **C70**: with numbers that print exactly, the texts of the two Python routines define the right-hand side
that all statements about the Python version are about. -/
theorem C70_rhs_python {text : Str} {m : Mechanism} (h : extractMechanism text = .ok m) {num : ℚ → Str}
    (hw : Prints num id m.tables) (n : Nat) :
    ∃ P, writeReactantsPy m.tables.gen m.equations.toNat = .ok P ∧
      ∀ {d₁ d₂ : Str}, '\n' ∉ d₁ → '\n' ∉ d₂ → ∀ k y : Nat → ℝ,
        rhsOfFiles reactantsPyFrame lossGainPyFrame n m.equations.toNat
          (fileText reactantsPyLayout num d₁ n m.equations.toNat P)
          (fileText lossGainPyLayout num d₂ n m.equations.toNat (writeLossGainPy m.tables.gen)) k y =
        gasRhs m.tables m.equations.toNat k y := by
  obtain ⟨qs, hq, -, -⟩ := extract_reads h
  obtain ⟨P, hP, -⟩ := C10_value h hq
  refine ⟨P, hP, fun h1 h2 k y => ?_⟩
  unfold rhsOfFiles gasRhs
  rw [hP, C70_reactants_python hw hP h1, map_renum_id]
  refine Option.bind_congr fun f _ => ?_
  rw [C70_tendency_python hw h2, map_renum_id]

/-- **C70**: the same for the Fortran routines, whatever the arrays handed to them hold. -/
theorem C70_rhs_fortran {text : Str} {m : Mechanism} (h : extractMechanism text = .ok m) {num : ℚ → Str}
    (hw : Prints num id m.tables) (n s : Nat) (cores : Option Nat) :
    ∃ P, writeReactantsF m.tables.gen m.equations.toNat cores = .ok P ∧
      ∀ {d₁ d₂ : Str}, '\n' ∉ d₁ → '\n' ∉ d₂ → ∀ k y : Nat → ℝ,
        rhsOfFiles reactantsFFrame lossGainFFrame n m.equations.toNat
          (fileText reactantsFLayout num d₁ n m.equations.toNat P)
          (fileText lossGainFLayout num d₂ n m.equations.toNat (writeLossGainF m.tables.gen s cores)) k y =
        gasRhsF m.tables m.equations.toNat s cores (fun _ => 0) (fun _ => 0) k y := by
  obtain ⟨qs, hq, -, -⟩ := extract_reads h
  obtain ⟨P, hP, -⟩ := C10_value h hq
  obtain ⟨F, hF, -⟩ := (C11_same_programs m.tables.gen m.equations.toNat cores).2 P hP
  refine ⟨F, hF, fun h1 h2 k y => ?_⟩
  unfold rhsOfFiles gasRhsF
  rw [hF, C70_reactants_fortran hw hF h1, map_renum_id]
  refine Option.bind_congr fun f _ => ?_
  rw [C70_tendency_fortran hw s cores h2, map_renum_id]

/-- **C70**, what the Python files mean: for a mechanism with regular reactions the texts written are valid
routines, and called as by the solver they give every species the rate law of the mechanism. -/
theorem C70_rate_law {text : Str} {m : Mechanism} (h : extractMechanism text = .ok m)
    {qs : List RawEqn} (hq : Reads text m.equations.toNat qs) (hreg : ∀ q ∈ qs, Regular q) {num : ℚ → Str}
    (hw : Prints num id m.tables) (n : Nat) :
    ∃ P, writeReactantsPy m.tables.gen m.equations.toNat = .ok P ∧
      ∀ {d₁ d₂ : Str}, '\n' ∉ d₁ → '\n' ∉ d₂ → ∀ k y : Nat → ℝ, ∃ out,
        rhsOfFiles reactantsPyFrame lossGainPyFrame n m.equations.toNat
          (fileText reactantsPyLayout num d₁ n m.equations.toNat P)
          (fileText lossGainPyLayout num d₂ n m.equations.toNat (writeLossGainPy m.tables.gen)) k y = some out ∧
        ∀ s i, m.tables.index.get? s = some i → out i = if s ∈ heldConstant then 0 else
          rateLaw qs (concOf m.tables y) k s := by
  obtain ⟨P, hP, hr⟩ := C70_rhs_python h hw n
  refine ⟨P, hP, fun h1 h2 k y => ?_⟩
  rw [hr h1 h2]
  exact gasRhs_rateLaw h hq hreg k y

/-- **C70**, Jacobian: the texts of both versions are valid routines that fill the same matrix. -/
theorem C70_same_jacobian {text : Str} {m : Mechanism} (h : extractMechanism text = .ok m) {num : ℚ → Str}
    (hw : Prints num id m.tables) {ord₁ ord₂ : SetOrder} (h₁ : ord₁.Valid) (h₂ : ord₂.Valid) (n s : Nat)
    (cores : Option Nat) :
    ∃ P F, writeJacobianPy m.tables.gen ord₁ = .ok P ∧ writeJacobianF m.tables.gen ord₂ s cores = .ok F ∧
      ∀ {d₁ d₂ : Str}, '\n' ∉ d₁ → '\n' ∉ d₂ → ∀ (env : Env) (b : Nat × Nat → ℝ), ∃ out,
        runFile jacobianPyFrame n m.equations.toNat
          (fileText jacobianPyLayout num d₁ n m.equations.toNat P) env (fun _ => 0) = some out ∧
        runFile jacobianFFrame n m.equations.toNat
          (fileText jacobianFLayout num d₂ n m.equations.toNat F) env b = some out := by
  obtain ⟨P, F, hP, hF, hs⟩ := C20_same_matrix h h₁ h₂ s cores
  refine ⟨P, F, hP, hF, fun hd₁ hd₂ env b => ?_⟩
  rw [C70_jacobian_python hw hP hd₁, C70_jacobian_fortran hw hF hd₂, map_renum_id, map_renum_id]
  exact hs env _

/-! ### A mechanism with a coefficient other than one -/

/-- Python `'%s'` of the numbers that occur. -/
def shortNum (q : ℚ) : Str :=
  if q = 1 then "1.0".toList else if q = 2 then "2.0".toList else if q = 3 then "3.0".toList else []

theorem shortNum_prints {t : Tables} (h1 : ∀ p ∈ t.loss, ∀ c ∈ p.2.values, c = 1 ∨ c = 2)
    (h2 : ∀ p ∈ t.gain, ∀ c ∈ p.2.values, c = 1 ∨ c = 2) : Prints shortNum id t := by
  have n1 : Numeral (shortNum 1) 1 := by
    have h := Numeral.point (w := ['1']) (f := ['0']) (by unfold Digits; decide) (by unfold Digits; decide)
    have e : ((natOf (['1'] ++ ['0']) : ℕ) : ℚ) / 10 ^ ['0'].length = 1 := by
      rw [show natOf (['1'] ++ ['0']) = 10 from by decide]; norm_num
    rw [e] at h
    exact h
  have n2 : Numeral (shortNum 2) 2 := by
    have h := Numeral.point (w := ['2']) (f := ['0']) (by unfold Digits; decide) (by unfold Digits; decide)
    have e : ((natOf (['2'] ++ ['0']) : ℕ) : ℚ) / 10 ^ ['0'].length = 2 := by
      rw [show natOf (['2'] ++ ['0']) = 20 from by decide]; norm_num
    rw [e] at h
    exact h
  have n3 : Numeral (shortNum 3) 3 := by
    have h := Numeral.point (w := ['3']) (f := ['0']) (by unfold Digits; decide) (by unfold Digits; decide)
    have e : ((natOf (['3'] ++ ['0']) : ℕ) : ℚ) / 10 ^ ['0'].length = 3 := by
      rw [show natOf (['3'] ++ ['0']) = 30 from by decide]; norm_num
    rw [e] at h
    exact h
  have key : ∀ {d : Dict Str (Dict Nat ℚ)}, (∀ p ∈ d, ∀ c ∈ p.2.values, c = 1 ∨ c = 2) → ∀ s,
      ∀ c ∈ (d.getD s []).values, c = 1 ∨ c = 2 := by
    intro d hd s c hc
    unfold Dict.getD at hc
    cases hg : d.get? s with
    | none => rw [hg] at hc; simp [Dict.values] at hc
    | some v => rw [hg] at hc; exact hd (s, v) (Dict.mem_of_get?_eq_some hg) c hc
  refine ⟨n1, fun s c hc => ?_, fun s c hc => ?_⟩
  · rcases key h1 s c hc with rfl | rfl
    · exact ⟨n1, by norm_num; exact n2, fun h => by norm_num at h⟩
    · exact ⟨n2, by norm_num; exact n3, fun h => by norm_num at h⟩
  · rcases key h2 s c hc with rfl | rfl
    · exact ⟨n1, by norm_num; exact n2⟩
    · exact ⟨n2, by norm_num; exact n3⟩

theorem photon_prints : Prints shortNum id (build photonReactions) :=
  shortNum_prints (by decide +kernel) (by decide +kernel)

/-- What is written between the fixed parts, in both languages, with a directive per core. -/
example : ((writeLossGainPy (build photonReactions).gen).map (Line.text lossGainPyLayout shortNum)).flatten =
      ("    loss_gain_list[0]=-1.0*r[1]+r[0]\n    loss_gain_list[1]=-1.0*r[1]*2.0\n" ++
        "    loss_gain_list[2]=+r[1]\n").toList ∧
    ((writeLossGainF (build photonReactions).gen 3 (some 3)).map (Line.text lossGainFLayout shortNum)).flatten =
      ("!$OMP PARALLEL &\n!$OMP& SHARED(r,loss_gain_array)  \n!$OMP SINGLE \n" ++
        "    loss_gain_array(1)=-1.0*r(2)+r(1) \n!$OMP END SINGLE NOWAIT\n!$OMP SINGLE \n" ++
        "    loss_gain_array(2)=-1.0*r(2)*3.0 \n    loss_gain_array(3)=+r(2) \n" ++
        "!$OMP END SINGLE NOWAIT\n!$OMP END PARALLEL \n").toList := by
  decide +kernel

/-- The files of this mechanism are valid routines in both languages. -/
example (k y : Nat → ℝ) : ∃ P, writeReactantsPy (build photonReactions).gen 2 = .ok P ∧
    rhsOfFiles reactantsPyFrame lossGainPyFrame 3 2
      (fileText reactantsPyLayout shortNum "2018-01-01 12:00:00".toList 3 2 P)
      (fileText lossGainPyLayout shortNum "2018-01-01 12:00:00".toList 3 2
        (writeLossGainPy (build photonReactions).gen)) k y =
    gasRhs (build photonReactions) 2 k y := by
  obtain ⟨P, hP, h⟩ := C70_rhs_python photon_parses photon_prints 3
  exact ⟨P, hP, h (by decide) (by decide) k y⟩

/-- The hypotheses of the rate law are met by two coupled reactions. -/
example (k y : Nat → ℝ) : ∃ P out, writeReactantsPy (build radicalReactions).gen 2 = .ok P ∧
    rhsOfFiles reactantsPyFrame lossGainPyFrame 5 2 (fileText reactantsPyLayout shortNum [] 5 2 P)
      (fileText lossGainPyLayout shortNum [] 5 2 (writeLossGainPy (build radicalReactions).gen)) k y = some out ∧
    out 1 = rateLaw radicalReactions (concOf (build radicalReactions) y) k "NO".toList := by
  obtain ⟨P, hP, h⟩ := C70_rate_law radical_parses radical_reads radical_regular
    (shortNum_prints (by decide +kernel) (by decide +kernel)) 5
  obtain ⟨out, h1, h2⟩ := h (d₁ := []) (d₂ := []) (by decide) (by decide) k y
  refine ⟨P, out, hP, h1, ?_⟩
  have := h2 "NO".toList 1 (by decide +kernel)
  rwa [if_neg (by decide)] at this

end PyBox
