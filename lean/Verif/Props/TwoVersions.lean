import Verif.Props.Explicit

/-!
# C96: the two versions of a gas simulation, both with rounding

C68 and C73 say that the Python and the Fortran version report the same concentrations if both compute with real numbers.
Here both compute with rounding, each in its own way and with its own solver: `/repo/ODE_solver.py` and
`/repo/f2py/ODE_solver.py`.
-/

namespace PyBox

open Set Rl Spec

section

variable {n : ℕ} {P : Set (Fin n → ℝ)} {F G G' : ℝ → (Fin n → ℝ) → Fin n → ℝ} {sim batch : ℚ}
  {K ω ω' δ η ε η' ε' : ℝ} {times times' : List ℚ} {rows rows' : List (Fin n → ℝ)}

/-- Whoever follows `G` follows `F` up to the difference of the two. -/
theorem NearBatchesIn.of_slopes (h : SlopesWithin ω batch P F G) {solve : (Fin n → ℝ) → ℚ → Fin n → ℝ} {y0 : Fin n → ℝ}
    {k : ℕ} (hG : NearBatchesIn P G η ε solve batch y0 k) : NearBatchesIn P F (η + ω) ε solve batch y0 k := by
  intro j hj
  obtain ⟨v, h0, ⟨hc, S, hS, hd⟩, hP, hend⟩ := hG j hj
  refine ⟨v, h0, ⟨hc, S, hS, fun t ht htS => ?_⟩, hP, hend⟩
  obtain ⟨v', g1, g2⟩ := hd t ht htS
  refine ⟨v', g1, (dist_triangle _ _ _).trans (add_le_add g2 ?_)⟩
  exact (dist_pi_le_iff h.1).2 fun i => by rw [Real.dist_eq]; exact h.2 t ht _ (hP t ht) i

/-- **C96** for any two right-hand sides that are close to a third. -/
theorem C96_between (hs : 0 < sim) (hb : 0 < batch) (hK : LipschitzSlope F batch P K) (hω : SlopesWithin ω batch P F G)
    (hω' : SlopesWithin ω' batch P F G') (h : TwoRuns P G G' sim batch δ η ε η' ε' times times' rows rows') :
    RowsWithin (fun t k => apartBy K (ω + ω') δ η ε η' ε' t k) times times' rows rows' := by
  obtain ⟨⟨solve, zero, y0, solve', zero', y0', hrun, hrun', hδ, hnear, hnear'⟩, h6, ⟨h2, h4⟩, h3⟩ := h
  have hF : SlopesWithin 0 batch P F F := ⟨le_rfl, fun s _ z _ i => by rw [sub_self, abs_zero]⟩
  obtain ⟨g1, g2, g3⟩ := C94_runs hs hb hK hF (δ := δ) (ε := ε) (ε' := ε')
    ⟨⟨solve, zero, y0, solve', zero', y0', hrun, hrun', hδ, NearBatchesIn.of_slopes hω hnear,
      NearBatchesIn.of_slopes hω' hnear'⟩, h6, ⟨add_nonneg h2 hω.1, add_nonneg h4 hω'.1⟩, h3⟩
  refine ⟨g1, g2, fun k t row row' a1 a2 a3 i => (g3 k t row row' a1 a2 a3 i).trans (le_of_eq ?_)⟩
  unfold apartBy
  ring

end

section

variable {text : Str} {m : Mechanism} {qs : List RawEqn} {num num' : ℚ → Str} {cores cores' cores'' : Option ℕ}
  {s₁ s₂ t₁ t₂ : Str} {L : ℕ} {start h2o temp B K W V Λ S W' V' Λ' S' e d e₁ d₁ δ η ε η' ε' : ℝ} {sim batch : ℚ} {n : ℕ}
  {F F' G G' : ℝ → (Fin n → ℝ) → Fin n → ℝ} {times times' : List ℚ} {rows rows' : List (Fin n → ℝ)}

/-- **C96**: a run of the Python version and a run of the Fortran version, each with rounding in its files. `F` and `F'`
are the right-hand sides without rounding, which C68 shows to be the same. -/
theorem C96_versions (h : extractMechanism text = .ok m) (hq : Reads text m.equations.toNat qs) (hsame : SameNet m)
    (hw : Prints num id m.tables) (hw' : Prints num' id m.tables) (hx : ExactOrders qs)
    (hL : ∀ q ∈ qs, (names (chemReactants q)).length ≤ L) {i j : ℕ}
    (hn : ReadableRates .numba ((convertOf .numba)^[i]) qs) (hf : ReadableRates .fortran ((convertOf .fortran)^[j]) qs)
    (hex : SameExpressions ((convertOf .numba)^[i]) ((convertOf .fortran)^[j]) qs) {p p' : List Rl.Stmt} {k k' : List KStmt}
    (hp : program .numba (ratesFile .numba none ((convertTable (convertOf .numba))^[i] m.tables.rate)) = some p)
    (hp' : program .fortran (ratesFile .fortran cores ((convertTable (convertOf .fortran))^[j] m.tables.rate)) = some p')
    (hk : InDouble p k)
    (hk' : kProgram (ratesFile .fortran cores' ((convertTable (convertOf .fortran))^[j] m.tables.rate)) = some k')
    {junk junk' : Vals} (hjunk : ∀ e, 0 ≤ junk (Backend.numba.rateVar e))
    (hjunk' : ∀ e, 0 ≤ junk' (Backend.fortran.rateVar e))
    (hnn : NonnegRates .numba ((convertOf .numba)^[i]) qs h2o temp)
    (hnn' : NonnegRates .fortran ((convertOf .fortran)^[j]) qs h2o temp)
    (h1 : 200 ≤ temp) (h2 : temp ≤ 330) (hh : 0 ≤ h2o) (hs : 0 < sim) (hb : 0 < batch) (ht : 0 ≤ start)
    (ht' : start + batch ≤ 1000000000)
    (hF : GasSystem m (generatedRates .numba p junk) start h2o temp F)
    (hF' : GasSystemF m cores'' (generatedRates .fortran p' junk') start h2o temp F')
    (hB : GasBounds .python m qs (generatedRates .numba p junk) batch start h2o temp F (radicalStates m n B) K W V Λ S)
    (hB' : GasBounds .fortran m qs (generatedRates .fortran p' junk') batch start h2o temp F' (radicalStates m n B) K
      W' V' Λ' S')
    (he : 0 ≤ e) (he1 : e ≤ 1) (hd : 0 ≤ d) (hu : RoundingUnits m .python L e)
    (he' : 0 ≤ e₁) (he1' : e₁ ≤ 1) (hd' : 0 ≤ d₁) (hu' : RoundingUnits m .fortran L e₁) {e₂ d₂ e₃ d₃ : ℚ}
    (hee : e₂ ≤ e) (hdd : d₂ ≤ d) (hee' : e₃ ≤ e₁) (hdd' : d₃ ≤ d₁)
    (hsm : ∀ q ∈ qs, SmallDouble e₂ d₂ ((convertOf .numba)^[i] q.rate))
    (hsm' : ∀ q ∈ qs, SmallMixed e₃ d₃ ((convertOf .fortran)^[j] q.rate))
    (htx : GasTexts m none num s₁ s₂ .python) (htx' : GasTexts m cores' num' t₁ t₂ .fortran)
    (hG : RoundedNumba m k s₁ s₂ batch start h2o temp (radicalStates m n B) G)
    (hG' : RoundedFortran m k' t₁ t₂ batch start h2o temp (radicalStates m n B) G')
    (hrun : TwoRuns (radicalStates m n B) G G' sim batch δ η ε η' ε' times times' rows rows') :
    RowsWithin (fun t r => apartBy K (slopeError e d W V Λ S + slopeError e₁ d₁ W' V' Λ' S') δ η ε η' ε' t r)
      times times' rows rows' := by
  have hFF := C68_same_system h hq hsame hn hf hex hp hp' hF hF'
  have g2 := C94_fortran_slope h hq hw' hx hL hf hk' hp' hjunk' hnn' h1 h2 hh ht ht' hF' hB' he' he1' hd' hu' hee' hdd'
    hsm' htx' hG'
  rw [← hFF] at g2
  exact C96_between hs hb hB.lipschitz (C94_python_slope h hq hw hx hL hn hp hk hjunk hnn h1 h2 hh ht ht' hF hB he he1 hd
    hu hee hdd hsm htx hG) g2 hrun

end

/-- The case of C94 and C91: the bounds exist, both versions have right-hand sides with rounding, and for all of these the
rows of two runs are within the bound of C96, whatever the rounding errors of each. -/
theorem radical_versions : ∃ (p p' : List Rl.Stmt) (k k' : List KStmt) (F F' : ℝ → (Fin 5 → ℝ) → Fin 5 → ℝ),
    program .numba (ratesFile .numba none ((convertTable (convertOf .numba))^[1] (build radicalReactions).rate)) = some p ∧
    InDouble p k ∧
    kProgram (ratesFile .fortran (some 2) ((convertTable (convertOf .fortran))^[2] (build radicalReactions).rate)) = some k' ∧
    ∀ B : ℝ, ∃ K W V Λ S W' V' Λ' S',
      GasBounds .python ⟨build radicalReactions, 2⟩ radicalReactions (generatedRates .numba p fun _ => 0) ((60 : ℚ) : ℝ)
        43200 0 298.15 F (radicalStates ⟨build radicalReactions, 2⟩ 5 B) K W V Λ S ∧
      GasBounds .fortran ⟨build radicalReactions, 2⟩ radicalReactions (generatedRates .fortran p' fun _ => 0) ((60 : ℚ) : ℝ)
        43200 0 298.15 F' (radicalStates ⟨build radicalReactions, 2⟩ 5 B) K W' V' Λ' S' ∧
      (∃ G, RoundedNumba ⟨build radicalReactions, 2⟩ k radicalPython.reactants radicalPython.lossGain 60 43200 0 298.15
        (radicalStates ⟨build radicalReactions, 2⟩ 5 B) G) ∧
      (∃ G, RoundedFortran ⟨build radicalReactions, 2⟩ k' radicalFortran.reactants radicalFortran.lossGain 60 43200 0 298.15
        (radicalStates ⟨build radicalReactions, 2⟩ 5 B) G) ∧
      ∀ (G G' : ℝ → (Fin 5 → ℝ) → Fin 5 → ℝ) (δ η ε η' ε' : ℝ) (times times' : List ℚ) (rows rows' : List (Fin 5 → ℝ)),
        RoundedNumba ⟨build radicalReactions, 2⟩ k radicalPython.reactants radicalPython.lossGain ((60 : ℚ) : ℝ) 43200 0
          298.15 (radicalStates ⟨build radicalReactions, 2⟩ 5 B) G →
        RoundedFortran ⟨build radicalReactions, 2⟩ k' radicalFortran.reactants radicalFortran.lossGain ((60 : ℚ) : ℝ) 43200 0
          298.15 (radicalStates ⟨build radicalReactions, 2⟩ 5 B) G' →
        TwoRuns (radicalStates ⟨build radicalReactions, 2⟩ 5 B) G G' 120 60 δ η ε η' ε' times times' rows rows' →
        RowsWithin (fun t r => apartBy K (slopeError 1e-14 1.05e-10 W V Λ S + slopeError 1e-6 4.66e-7 W' V' Λ' S')
          δ η ε η' ε' t r) times times' rows rows' := by
  obtain ⟨c1, c2, c3⟩ := radical_rates
  obtain ⟨n1, n2⟩ := rateTextCheck_reads c1
  obtain ⟨f1, f2⟩ := rateTextCheck_reads c2
  have hexp : SameExpressions ((convertOf .numba)^[1]) ((convertOf .fortran)^[2]) radicalReactions := by
    intro q hq e e' he he'
    have := c3 q hq
    rw [he, he'] at this
    exact Option.some.inj this
  obtain ⟨p', hp', -⟩ := C66_value radical_parses radical_reads (b := .fortran) (by decide) (some 2) f1
  obtain ⟨p, k, _, hp, hk, hpy⟩ := radical_python_rounded
  obtain ⟨k', _, hk', hfo⟩ := radical_all_rounded
  obtain ⟨F, hF⟩ := radical_system (generatedRates .numba p fun _ => 0) 43200 0 298.15
  obtain ⟨F', hF'⟩ := radical_systemF none (generatedRates .fortran p' fun _ => 0) 43200 0 298.15
  have hFF := C68_same_system radical_parses radical_reads radical_sameNet n1 f1 hexp hp hp' hF hF'
  have hnn := C66_nonneg (h2o := 0) (temp := 298.15) (by decide) n1 n2 (by norm_num) le_rfl
  have hnn' := C66_nonneg (h2o := 0) (temp := 298.15) (by decide) f1 f2 (by norm_num) le_rfl
  refine ⟨p, p', k, k', F, F', hp, hk, hk', fun B => ?_⟩
  obtain ⟨K, W, V, Λ, S, hB⟩ := C94_bounds (lang := .python) radical_parses radical_reads
    (hF.kinetic radical_parses radical_reads) radical_positive.2
    (C66_piecewise radical_parses radical_reads (by decide) n1 hp (junk := fun _ => 0) (fun _ => le_rfl) 43200 hnn)
    ((60 : ℚ) : ℝ) B
  obtain ⟨K', W', V', Λ', S', hB'⟩ := C94_bounds (lang := .fortran) radical_parses radical_reads
    (hF'.kinetic radical_parses radical_reads) radical_positive.2
    (C66_piecewise radical_parses radical_reads (by decide) f1 hp' (junk := fun _ => 0) (fun _ => le_rfl) 43200 hnn')
    ((60 : ℚ) : ℝ) B
  have hB'' : GasBounds .fortran ⟨build radicalReactions, 2⟩ radicalReactions (generatedRates .fortran p' fun _ => 0)
      ((60 : ℚ) : ℝ) 43200 0 298.15 F' (radicalStates ⟨build radicalReactions, 2⟩ 5 B) K W' V' Λ' S' :=
    ⟨hFF ▸ hB.lipschitz, hB'.terms, hB'.radicals⟩
  refine ⟨K, W, V, Λ, S, W', V', Λ', S', hB, hB'', (hpy B).1, (hfo B).1, fun G G' δ η ε η' ε' times times' rows rows' hG hG' hrun => ?_⟩
  exact C96_versions (L := 2) radical_parses radical_reads radical_sameNet radical_prints radical_prints radical_orders
    (by decide +kernel) n1 f1 hexp hp hp' hk hk' (junk := fun _ => 0) (fun _ => le_rfl) (junk' := fun _ => 0)
    (fun _ => le_rfl) hnn hnn' (by norm_num) (by norm_num) le_rfl (by norm_num) (by norm_num) (by norm_num) (by norm_num)
    hF hF' hB hB'' (by norm_num) (by norm_num) (by norm_num) radical_units_python (by norm_num) (by norm_num) (by norm_num)
    radical_units (e₂ := 1e-14) (d₂ := 1.05e-10) (e₃ := 1e-6) (d₃ := 4.66e-7) (by push_cast; norm_num)
    (by push_cast; norm_num) (by push_cast; norm_num) (by push_cast; norm_num) radical_double.1 radical_small
    ⟨radicalPython_written.reactants, radicalPython_written.lossGain⟩ radical_texts hG hG' hrun

end PyBox
