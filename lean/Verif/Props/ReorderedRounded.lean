import Verif.Props.Reordered
import Verif.Props.TwoVersions

/-!
# C102: the order of the reactions, with rounding

C100 is about exact solvers and real numbers. With rounding, and with solvers that make errors, the order of the reactions
does change what is reported: terms are added in another order. Here is by how much at most.
-/

namespace PyBox

open Set Rl Spec

namespace Spec

/-- What is reported for every species at the same times differs by at most `bound`. -/
def NamesWithin (m m' : Mechanism) {n n' : ℕ} (bound : ℚ → ℕ → ℝ) (times times' : List ℚ) (rows : List (Fin n → ℝ))
    (rows' : List (Fin n' → ℝ)) : Prop :=
  times' = times ∧ rows'.length = rows.length ∧ ∀ (k : ℕ) (t : ℚ) (row : Fin n → ℝ) (row' : Fin n' → ℝ),
    times[k]? = some t → rows[k]? = some row → rows'[k]? = some row' → ∀ s (i : Fin n) (i' : Fin n'),
      m.tables.index.get? s = some (i : ℕ) → m'.tables.index.get? s = some (i' : ℕ) → |row' i' - row i| ≤ bound t (k + 1)

/-- Two runs with the species in different places: the first with `G`, the second with `G'`. -/
structure TwoOrders (m m' : Mechanism) {n n' : ℕ} (P : Set (Fin n → ℝ)) (P' : Set (Fin n' → ℝ))
    (G : ℝ → (Fin n → ℝ) → Fin n → ℝ) (G' : ℝ → (Fin n' → ℝ) → Fin n' → ℝ) (sim batch : ℚ) (δ η ε η' ε' : ℝ)
    (times times' : List ℚ) (rows : List (Fin n → ℝ)) (rows' : List (Fin n' → ℝ)) : Prop where
  run : ∃ solve zero y0 solve' zero' y0', runSimulation id solve zero y0 sim batch = .ok (times, rows) ∧
    runSimulation id solve' zero' y0' sim batch = .ok (times', rows') ∧
    (∀ s (i : Fin n) (i' : Fin n'), m.tables.index.get? s = some (i : ℕ) → m'.tables.index.get? s = some (i' : ℕ) →
      |y0' i' - y0 i| ≤ δ) ∧
    NearBatchesIn P G η ε solve batch y0 rows.length ∧ NearBatchesIn P' G' η' ε' solve' batch y0' rows'.length
  start : 0 ≤ δ
  slope : 0 ≤ η ∧ 0 ≤ η'
  ends : 0 ≤ ε ∧ 0 ≤ ε'

end Spec

/-! ## Any right-hand sides -/

section

variable {n n' : ℕ}

theorem dist_rename (σ : Fin n' ≃ Fin n) (u v : Fin n' → ℝ) : dist (u ∘ σ.symm) (v ∘ σ.symm) = dist u v := by
  apply le_antisymm
  · exact (dist_pi_le_iff dist_nonneg).2 fun i => dist_le_pi_dist u v (σ.symm i)
  · refine (dist_pi_le_iff dist_nonneg).2 fun i => ?_
    have := dist_le_pi_dist (u ∘ σ.symm) (v ∘ σ.symm) (σ i)
    simpa using this

theorem NearBatchesIn.rename (σ : Fin n' ≃ Fin n) {P : Set (Fin n → ℝ)} {P' : Set (Fin n' → ℝ)}
    (hP : ∀ z ∈ P', z ∘ σ.symm ∈ P) {G' : ℝ → (Fin n' → ℝ) → Fin n' → ℝ} {η ε : ℝ}
    {solve : (Fin n' → ℝ) → ℚ → Fin n' → ℝ} {batch : ℚ} {y0 : Fin n' → ℝ} {k : ℕ}
    (h : NearBatchesIn P' G' η ε solve batch y0 k) :
    NearBatchesIn P (fun t y => G' t (y ∘ σ) ∘ σ.symm) η ε (fun y b => solve (y ∘ σ) b ∘ σ.symm) batch (y0 ∘ σ.symm) k := by
  have e : ∀ z : Fin n' → ℝ, (z ∘ σ.symm) ∘ σ = z := fun z => by
    funext k
    simp
  intro j hj
  obtain ⟨v, h0, ⟨hc, S, hS, hd⟩, hin, hend⟩ := h j hj
  refine ⟨fun t => v t ∘ σ.symm, ?_, ⟨continuousOn_pi.2 fun i => (continuousOn_pi.1 hc) _, S, hS, fun t ht htS => ?_⟩,
    fun t ht => hP _ (hin t ht), ?_⟩
  · dsimp only
    rw [afterBatches_rename, e, h0]
  · obtain ⟨v', g1, g2⟩ := hd t ht htS
    refine ⟨v' ∘ σ.symm, hasDerivWithinAt_pi.2 fun i => (hasDerivWithinAt_pi.1 g1) (σ.symm i), ?_⟩
    dsimp only
    rwa [e, dist_rename]
  · rw [afterBatches_rename, e, dist_rename]
    exact hend

variable {m m' : Mechanism} {P : Set (Fin n → ℝ)} {P' : Set (Fin n' → ℝ)} {F G : ℝ → (Fin n → ℝ) → Fin n → ℝ}
  {F' G' : ℝ → (Fin n' → ℝ) → Fin n' → ℝ} {sim batch : ℚ} {K ω ω' δ η ε η' ε' : ℝ} {times times' : List ℚ}
  {rows : List (Fin n → ℝ)} {rows' : List (Fin n' → ℝ)}

/-- **C102** for any two right-hand sides that are close to the same one, with its components in different places. -/
theorem C102_between (σ : Fin n' ≃ Fin n)
    (hσ : ∀ s (i' : Fin n'), m'.tables.index.get? s = some (i' : ℕ) ↔ m.tables.index.get? s = some (σ i' : ℕ))
    (hall : ∀ i' : Fin n', ∃ s, m'.tables.index.get? s = some (i' : ℕ))
    (hc : ∀ t y, F' t (y ∘ σ) = F t y ∘ σ) (hP : ∀ z, z ∘ σ ∈ P' ↔ z ∈ P) (hs : 0 < sim) (hb : 0 < batch)
    (hK : LipschitzSlope F batch P K) (hω : SlopesWithin ω batch P F G) (hω' : SlopesWithin ω' batch P' F' G')
    (h : TwoOrders m m' P P' G G' sim batch δ η ε η' ε' times times' rows rows') :
    NamesWithin m m' (fun t k => apartBy K (ω + ω') δ η ε η' ε' t k) times times' rows rows' := by
  have e : ∀ z : Fin n' → ℝ, (z ∘ σ.symm) ∘ σ = z := fun z => by
    funext k
    simp
  obtain ⟨⟨solve, zero, y0, solve', zero', y0', hrun, hrun', hδ, hnear, hnear'⟩, h6, h24, h3⟩ := h
  obtain ⟨k, ht, hr, hk⟩ := C32_output_times hs hb hrun'
  have hk0 : 0 < k := by
    rcases Nat.eq_zero_or_pos k with rfl | h
    · rw [Nat.cast_zero, zero_mul] at hk
      exact absurd hk hs.ne'
    · exact h
  have hrun2 := C32_C33_whole_batches hk0 hb (exact_id batch k) (fun y b => solve' (y ∘ σ) b ∘ σ.symm) zero (y0' ∘ σ.symm)
  rw [← hk, ← ht] at hrun2
  have hrows : (List.range k).map (fun j => afterBatches (fun y b => solve' (y ∘ σ) b ∘ σ.symm) batch (y0' ∘ σ.symm) (j + 1))
      = rows'.map (· ∘ σ.symm) := by
    rw [hr, List.map_map]
    refine List.map_congr_left fun j _ => ?_
    rw [afterBatches_rename, e]
    rfl
  rw [hrows] at hrun2
  obtain ⟨g1, g2, g3⟩ := C96_between hs hb hK hω (G' := fun t y => G' t (y ∘ σ) ∘ σ.symm) (ω' := ω')
    ⟨hω'.1, fun s hsT z hz i => by
      have := hω'.2 s hsT (z ∘ σ) ((hP z).2 hz) (σ.symm i)
      rw [hc, Function.comp_apply, Equiv.apply_symm_apply] at this
      exact this⟩
    (δ := δ) (η := η) (ε := ε) (η' := η') (ε' := ε') (times := times) (times' := times') (rows := rows)
    ⟨⟨solve, zero, y0, _, zero, y0' ∘ σ.symm, hrun, hrun2, fun i => by
      obtain ⟨s, hsi⟩ := hall (σ.symm i)
      refine hδ s i (σ.symm i) ?_ hsi
      rw [(hσ s _).1 hsi, Equiv.apply_symm_apply], hnear, by
      rw [List.length_map]
      exact NearBatchesIn.rename σ (fun z hz => by rw [← hP, e]; exact hz) hnear'⟩, h6, h24, h3⟩
  refine ⟨g1, by rwa [List.length_map] at g2, fun j t row row' a1 a2 a3 s i i' hi hi' => ?_⟩
  have := g3 j t row (row' ∘ σ.symm) a1 a2 (by rw [List.getElem?_map, a3]; rfl) i
  rw [(hσ s i').1 hi'] at hi
  rw [← Fin.ext (Option.some.inj hi), Function.comp_apply, Equiv.symm_apply_apply] at this
  rw [← Fin.ext (Option.some.inj hi)]
  exact this

end

/-! ## The generated files -/

section

variable {text text' : Str} {m m' : Mechanism} {qs qs' : List RawEqn} {num num' : ℚ → Str}
  {cores₁ cores₂ cores₃ cores₁' cores₂' cores₃' : Option ℕ}
  {s₁ s₂ t₁ t₂ : Str} {L : ℕ} {start h2o temp B K K' W V Λ S W' V' Λ' S' e d e' d' δ η ε η' ε' : ℝ} {sim batch : ℚ}
  {n n' : ℕ} {F G : ℝ → (Fin n → ℝ) → Fin n → ℝ} {F' G' : ℝ → (Fin n' → ℝ) → Fin n' → ℝ} {times times' : List ℚ}
  {rows : List (Fin n → ℝ)} {rows' : List (Fin n' → ℝ)}

/-- States that hold the same have the same sum over the peroxy radicals and the same bound. -/
theorem radicalStates_same (h : extractMechanism text = .ok m) (hq : Reads text m.equations.toNat qs)
    (h' : extractMechanism text' = .ok m') (hq' : Reads text' m'.equations.toNat qs') (hre : Reordered qs qs')
    (hn : n = m.tables.species.length) (hn' : n' = m'.tables.species.length) {σ : Fin n' ≃ Fin n}
    (hσ : ∀ s (i' : Fin n'), m'.tables.index.get? s = some (i' : ℕ) ↔ m.tables.index.get? s = some (σ i' : ℕ))
    (z : Fin n → ℝ) : z ∘ σ ∈ radicalStates m' n' B ↔ z ∈ radicalStates m n B := by
  have hlook := ((sameByName_iff (m := m) h' hn' hσ z (z ∘ σ)).2 rfl).lookup h hq h' hq' hre hn hn'
  have hr : ((ro2Indices m.tables.index).map (stateOf z)).sum
      = ((ro2Indices m'.tables.index).map (stateOf (z ∘ σ))).sum := by
    rw [ro2Indices_eq, ro2Indices_eq, List.map_filterMap, List.map_filterMap]
    congr 2
    funext s
    exact hlook s
  unfold radicalStates
  rw [mem_ofPred_eq, mem_ofPred_eq, hr]
  refine and_congr ⟨fun hB i => ?_, fun hB i => hB _⟩ Iff.rfl
  have := hB (σ.symm i)
  rwa [Function.comp_apply, Equiv.apply_symm_apply] at this

theorem orders_apart (h : extractMechanism text = .ok m) (hq : Reads text m.equations.toNat qs)
    (h' : extractMechanism text' = .ok m') (hq' : Reads text' m'.equations.toNat qs') (hre : Reordered qs qs')
    (hn : n = m.tables.species.length) (hn' : n' = m'.tables.species.length)
    (hsys : ∀ t (y : Fin n → ℝ) (y' : Fin n' → ℝ), SameByName m m' y y' → SameByName m m' (F t y) (F' t y'))
    {ω ω' : ℝ} (hs : 0 < sim) (hb : 0 < batch) (hK : LipschitzSlope F batch (radicalStates m n B) K)
    (hω : SlopesWithin ω batch (radicalStates m n B) F G) (hω' : SlopesWithin ω' batch (radicalStates m' n' B) F' G')
    (hrun : TwoOrders m m' (radicalStates m n B) (radicalStates m' n' B) G G' sim batch δ η ε η' ε' times times' rows rows') :
    NamesWithin m m' (fun t k => apartBy K (ω + ω') δ η ε η' ε' t k) times times' rows rows' := by
  obtain ⟨σ, hσ⟩ := places h hq h' hq' hre hn hn'
  have hiff := sameByName_iff (m := m) h' hn' hσ
  exact C102_between σ hσ (fun i' => (C01_indices h' i').2 (hn' ▸ i'.2))
    (fun t y => (hiff _ _).1 (hsys t y _ ((hiff _ _).2 rfl))) (radicalStates_same h hq h' hq' hre hn hn' hσ) hs hb hK hω hω'
    hrun

theorem Spec.Reordered.rate (hre : Reordered qs qs') {q' : RawEqn} (hq' : q' ∈ qs') : ∃ q ∈ qs, q.rate = q'.rate := by
  obtain ⟨q, hq, hsame⟩ := hre.right hq'
  exact ⟨q, hq, hsame.rate⟩

theorem Spec.Reordered.lengths (hre : Reordered qs qs') (hL : ∀ q ∈ qs, (names (chemReactants q)).length ≤ L) :
    ∀ q ∈ qs', (names (chemReactants q)).length ≤ L := by
  intro q' hq'
  obtain ⟨q, hq, hsame⟩ := hre.right hq'
  rw [← (names_perm hsame.reactants).length_eq]
  exact hL q hq

theorem Spec.Reordered.orders (hre : Reordered qs qs') (hx : ExactOrders qs) : ExactOrders qs' := by
  intro q' hq' s hs
  obtain ⟨q, hq, hsame⟩ := hre.right hq'
  rw [← coef_perm hsame.reactants]
  exact hx q hq s ((names_perm hsame.reactants).mem_iff.2 hs)

/-- **C102**, Python version: two runs, each with rounding in the files generated from its own mechanism file and with its own
solver; the mechanism files list the same reactions in different orders. -/
theorem C102_python (h : extractMechanism text = .ok m) (hq : Reads text m.equations.toNat qs)
    (h' : extractMechanism text' = .ok m') (hq' : Reads text' m'.equations.toNat qs') (hre : Reordered qs qs')
    (hw : Prints num id m.tables) (hw' : Prints num' id m'.tables) (hx : ExactOrders qs)
    (hL : ∀ q ∈ qs, (names (chemReactants q)).length ≤ L) {conv : ℕ}
    (hread : ReadableRates .numba ((convertOf .numba)^[conv]) qs) {p p' : List Rl.Stmt} {k k' : List KStmt}
    (hp : program .numba (ratesFile .numba cores₁ ((convertTable (convertOf .numba))^[conv] m.tables.rate)) = some p)
    (hp' : program .numba (ratesFile .numba cores₁' ((convertTable (convertOf .numba))^[conv] m'.tables.rate)) = some p')
    (hk : InDouble p k) (hk' : InDouble p' k') {junk junk' : Vals}
    (hjunk : ∀ e, 0 ≤ junk (Backend.numba.rateVar e)) (hjunk' : ∀ e, 0 ≤ junk' (Backend.numba.rateVar e))
    (hnn : NonnegRates .numba ((convertOf .numba)^[conv]) qs h2o temp)
    (h1 : 200 ≤ temp) (h2 : temp ≤ 330) (hh : 0 ≤ h2o) (hs : 0 < sim) (hb : 0 < batch) (ht : 0 ≤ start)
    (ht' : start + batch ≤ 1000000000)
    (hF : GasSystem m (generatedRates .numba p junk) start h2o temp F) (hF' : GasSystem m' (generatedRates .numba p' junk') start h2o temp F')
    (hB : GasBounds .python m qs (generatedRates .numba p junk) batch start h2o temp F (radicalStates m n B) K W V Λ S)
    (hB' : GasBounds .python m' qs' (generatedRates .numba p' junk') batch start h2o temp F' (radicalStates m' n' B) K'
      W' V' Λ' S')
    (he : 0 ≤ e) (he1 : e ≤ 1) (hd : 0 ≤ d) (hu : RoundingUnits m .python L e)
    (he' : 0 ≤ e') (he1' : e' ≤ 1) (hu' : RoundingUnits m' .python L e') {e₂ d₂ : ℚ}
    (hee : e₂ ≤ e) (hee' : e₂ ≤ e') (hdd : d₂ ≤ d) (hsm : ∀ q ∈ qs, SmallDouble e₂ d₂ ((convertOf .numba)^[conv] q.rate))
    (htx : GasTexts m none num s₁ s₂ .python) (htx' : GasTexts m' none num' t₁ t₂ .python)
    (hG : RoundedNumba m k s₁ s₂ batch start h2o temp (radicalStates m n B) G)
    (hG' : RoundedNumba m' k' t₁ t₂ batch start h2o temp (radicalStates m' n' B) G')
    (hrun : TwoOrders m m' (radicalStates m n B) (radicalStates m' n' B) G G' sim batch δ η ε η' ε' times times' rows rows') :
    NamesWithin m m' (fun t r => apartBy K (slopeError e d W V Λ S + slopeError e' d W' V' Λ' S') δ η ε η' ε' t r)
      times times' rows rows' := by
  have hread' : ReadableRates .numba ((convertOf .numba)^[conv]) qs' := fun q' hm => by
    obtain ⟨q, hm, hr⟩ := hre.rate hm
    rw [← hr]
    exact hread q hm
  have hnn' : NonnegRates .numba ((convertOf .numba)^[conv]) qs' h2o temp := fun q' hm => by
    obtain ⟨q, hm, hr⟩ := hre.rate hm
    rw [← hr]
    exact hnn q hm
  have hsm' : ∀ q ∈ qs', SmallDouble e₂ d₂ ((convertOf .numba)^[conv] q.rate) := fun q' hm => by
    obtain ⟨q, hm, hr⟩ := hre.rate hm
    rw [← hr]
    exact hsm q hm
  exact orders_apart h hq h' hq' hre (hF.kinetic h hq).size (hF'.kinetic h' hq').size
    (fun t _ _ hy => C100_tendencies h hq h' hq' hre hF hF' (generated_by_text h hq (by decide) hread hp _ h2o temp)
      (generated_by_text h' hq' (by decide) hread' hp' _ h2o temp) t hy) hs hb hB.lipschitz
    (C94_python_slope h hq hw hx hL hread hp hk hjunk hnn h1 h2 hh ht ht' hF hB he he1 hd hu hee hdd hsm htx hG)
    (C94_python_slope h' hq' hw' (hre.orders hx) (hre.lengths hL) hread' hp' hk' hjunk' hnn' h1 h2 hh ht ht' hF' hB' he' he1'
      hd hu' hee' hdd hsm' htx' hG') hrun

/-- **C102**, Fortran version, for every number of processor cores on each side. -/
theorem C102_fortran (h : extractMechanism text = .ok m) (hq : Reads text m.equations.toNat qs)
    (h' : extractMechanism text' = .ok m') (hq' : Reads text' m'.equations.toNat qs') (hre : Reordered qs qs')
    (hw : Prints num id m.tables) (hw' : Prints num' id m'.tables) (hx : ExactOrders qs)
    (hL : ∀ q ∈ qs, (names (chemReactants q)).length ≤ L) {conv : ℕ}
    (hread : ReadableRates .fortran ((convertOf .fortran)^[conv]) qs) {p p' : List Rl.Stmt} {k k' : List KStmt}
    (hp : program .fortran (ratesFile .fortran cores₁ ((convertTable (convertOf .fortran))^[conv] m.tables.rate)) = some p)
    (hp' : program .fortran (ratesFile .fortran cores₁' ((convertTable (convertOf .fortran))^[conv] m'.tables.rate)) = some p')
    (hk : kProgram (ratesFile .fortran cores₂ ((convertTable (convertOf .fortran))^[conv] m.tables.rate)) = some k)
    (hk' : kProgram (ratesFile .fortran cores₂' ((convertTable (convertOf .fortran))^[conv] m'.tables.rate)) = some k') {junk junk' : Vals}
    (hjunk : ∀ e, 0 ≤ junk (Backend.fortran.rateVar e)) (hjunk' : ∀ e, 0 ≤ junk' (Backend.fortran.rateVar e))
    (hnn : NonnegRates .fortran ((convertOf .fortran)^[conv]) qs h2o temp)
    (h1 : 200 ≤ temp) (h2 : temp ≤ 330) (hh : 0 ≤ h2o) (hs : 0 < sim) (hb : 0 < batch) (ht : 0 ≤ start)
    (ht' : start + batch ≤ 1000000000)
    (hF : GasSystemF m cores₃ (generatedRates .fortran p junk) start h2o temp F) (hF' : GasSystemF m' cores₃' (generatedRates .fortran p' junk') start h2o temp F')
    (hB : GasBounds .fortran m qs (generatedRates .fortran p junk) batch start h2o temp F (radicalStates m n B) K W V Λ S)
    (hB' : GasBounds .fortran m' qs' (generatedRates .fortran p' junk') batch start h2o temp F' (radicalStates m' n' B) K'
      W' V' Λ' S')
    (he : 0 ≤ e) (he1 : e ≤ 1) (hd : 0 ≤ d) (hu : RoundingUnits m .fortran L e)
    (he' : 0 ≤ e') (he1' : e' ≤ 1) (hu' : RoundingUnits m' .fortran L e') {e₂ d₂ : ℚ}
    (hee : e₂ ≤ e) (hee' : e₂ ≤ e') (hdd : d₂ ≤ d) (hsm : ∀ q ∈ qs, SmallMixed e₂ d₂ ((convertOf .fortran)^[conv] q.rate))
    (htx : GasTexts m cores₂ num s₁ s₂ .fortran) (htx' : GasTexts m' cores₂' num' t₁ t₂ .fortran)
    (hG : RoundedFortran m k s₁ s₂ batch start h2o temp (radicalStates m n B) G)
    (hG' : RoundedFortran m' k' t₁ t₂ batch start h2o temp (radicalStates m' n' B) G')
    (hrun : TwoOrders m m' (radicalStates m n B) (radicalStates m' n' B) G G' sim batch δ η ε η' ε' times times' rows rows') :
    NamesWithin m m' (fun t r => apartBy K (slopeError e d W V Λ S + slopeError e' d W' V' Λ' S') δ η ε η' ε' t r)
      times times' rows rows' := by
  have hread' : ReadableRates .fortran ((convertOf .fortran)^[conv]) qs' := fun q' hm => by
    obtain ⟨q, hm, hr⟩ := hre.rate hm
    rw [← hr]
    exact hread q hm
  have hnn' : NonnegRates .fortran ((convertOf .fortran)^[conv]) qs' h2o temp := fun q' hm => by
    obtain ⟨q, hm, hr⟩ := hre.rate hm
    rw [← hr]
    exact hnn q hm
  have hsm' : ∀ q ∈ qs', SmallMixed e₂ d₂ ((convertOf .fortran)^[conv] q.rate) := fun q' hm => by
    obtain ⟨q, hm, hr⟩ := hre.rate hm
    rw [← hr]
    exact hsm q hm
  exact orders_apart h hq h' hq' hre (hF.kinetic h hq).size (hF'.kinetic h' hq').size
    (fun t _ _ hy => C100_tendencies_fortran h hq h' hq' hre hF hF' (generated_by_text h hq (by decide) hread hp _ h2o temp)
      (generated_by_text h' hq' (by decide) hread' hp' _ h2o temp) t hy) hs hb hB.lipschitz
    (C94_fortran_slope h hq hw hx hL hread hk hp hjunk hnn h1 h2 hh ht ht' hF hB he he1 hd hu hee hdd hsm htx hG)
    (C94_fortran_slope h' hq' hw' (hre.orders hx) (hre.lengths hL) hread' hk' hp' hjunk' hnn' h1 h2 hh ht ht' hF' hB' he' he1'
      hd hu' hee' hdd hsm' htx' hG') hrun

end

/-! ## The case of C100 -/

theorem swapped_units : RoundingUnits ⟨build swappedReactions, 2⟩ .python 2 1e-14 := by
  refine ⟨⟨_, .double, fun s => ?_⟩, ?_⟩
  · have key : ∀ d : Dict Str (Dict ℕ ℚ), (∀ p ∈ d, p.2.length ≤ 5) → (d.getD s []).length ≤ 5 := by
      intro d hd
      unfold Dict.getD
      cases hg : d.get? s with
      | none => simp
      | some v => exact hd (s, v) (Dict.mem_of_get?_eq_some hg)
    have h1 := key (build swappedReactions).loss (by decide +kernel)
    have h2 := key (build swappedReactions).gain (by decide +kernel)
    have h3 : (termCount (build swappedReactions) s : ℝ) ≤ 10 := by
      have : termCount (build swappedReactions) s ≤ 10 := by unfold termCount; omega
      exact_mod_cast this
    show Real.exp (2⁻¹ ^ 52 + ((termCount (build swappedReactions) s : ℝ) + 2 * (2 : ℕ) + 2) * 2⁻¹ ^ 52) - 1 ≤ 1e-14
    have h4 : (0 : ℝ) ≤ termCount (build swappedReactions) s := Nat.cast_nonneg _
    refine exp_bound (by positivity) ?_ ?_ <;> norm_num <;> linarith
  · have : (ro2Indices (build swappedReactions).index).length = 1 := by decide +kernel
    show Real.exp ((ro2Indices (build swappedReactions).index).length * 2⁻¹ ^ 52) - 1 ≤ 1e-14
    rw [this]
    exact exp_bound (by positivity) (by norm_num) (by norm_num)

theorem swapped_rounded {k : List KStmt} (B : ℝ)
    (hrun : ∀ {T t r h2o : ℝ}, 0 < T → 0 ≤ r → 0 ≤ h2o → ∀ junk, ∃ env, EvRun ieee (ambient .numba T t r h2o junk) k env) :
    ∃ G, RoundedNumba ⟨build swappedReactions, 2⟩ k swappedPython.reactants swappedPython.lossGain 60 43200 0 298.15
      (radicalStates ⟨build swappedReactions, 2⟩ 5 B) G := by
  have hG : ∀ (t : ℝ) (z : Fin 5 → ℝ), ∃ g : Fin 5 → ℝ, t ∈ Ico 0 60 →
      z ∈ radicalStates ⟨build swappedReactions, 2⟩ 5 B → ∃ (r : ℝ) (junk env : Vals) (out : ℕ → ℝ),
      RoundedSum ieee ((ro2Indices (build swappedReactions).index).map (stateOf z)) r ∧ 0 ≤ r ∧
      EvRun ieee (ambient .numba 298.15 (43200 + t) r 0 junk) k env ∧
      RoundedSlope .python (build swappedReactions).species.length 2 swappedPython.reactants swappedPython.lossGain
        (fun j => env (Backend.numba.rateVar j)) (stateOf z) out ∧ ∀ i : Fin 5, g i = out i := by
    intro t z
    by_cases hc : t ∈ Ico 0 60 ∧ z ∈ radicalStates ⟨build swappedReactions, 2⟩ 5 B
    · obtain ⟨ht, hz⟩ := hc
      obtain ⟨env, henv⟩ := hrun (T := 298.15) (t := 43200 + t) (h2o := 0) (by norm_num) hz.2 le_rfl fun _ => 0
      obtain ⟨out, ho⟩ := runnable_slope (lang := .python) (species := 5) (reactions := 2)
        (t₁ := swappedPython.reactants) (t₂ := swappedPython.lossGain) (by decide +kernel) (by decide +kernel)
        (fun j => env (Backend.numba.rateVar j)) (stateOf z)
      refine ⟨fun i => out i, fun _ _ => ⟨_, fun _ => 0, env, out, ?_, hz.2, henv, ?_, fun i => rfl⟩⟩
      · obtain ⟨i, hi⟩ : ∃ i, ro2Indices (build swappedReactions).index = [i] :=
          List.length_eq_one_iff.1 (by decide +kernel)
        show RoundedSum ieee _ ((ro2Indices (build swappedReactions).index).map (stateOf z)).sum
        rw [hi]
        simpa using RoundedSum.one (R := ieee) (stateOf z i)
      · rw [swapped_five]; exact ho
    · exact ⟨fun _ => 0, fun h1 h2 => absurd ⟨h1, h2⟩ hc⟩
  choose G hG using hG
  exact ⟨G, fun t ht z hz => hG t z ht hz⟩

/-- Whoever solves `F` exactly follows `G` up to the difference of the two. -/
theorem follows_rounded {n : ℕ} {P : Set (Fin n → ℝ)} {F G : ℝ → (Fin n → ℝ) → Fin n → ℝ} {ω : ℝ} {batch : ℚ}
    (h : SlopesWithin ω batch P F G) {solve : (Fin n → ℝ) → ℚ → Fin n → ℝ} {y0 : Fin n → ℝ} {k : ℕ}
    (hF : NearBatchesIn P F 0 0 solve batch y0 k) : NearBatchesIn P G ω 0 solve batch y0 k := by
  have := NearBatchesIn.of_slopes (F := G) (G := F) (ω := ω)
    ⟨h.1, fun s hs z hz i => by rw [abs_sub_comm]; exact h.2 s hs z hz i⟩ hF
  rwa [zero_add] at this

/-- Exact runs from bounded states stay in a bounded set of states. -/
theorem exact_in_states {text : Str} {m : Mechanism} (h : extractMechanism text = .ok m)
    {qs : List RawEqn} (hq : Reads text m.equations.toNat qs)
    (hpos : ∀ q ∈ qs, ∀ p ∈ chemReactants q ++ chemProducts q, 0 < p.1) (hone : WholeReactants qs)
    (hw : ∀ s i, m.tables.index.get? s = some i → s ∉ heldConstant → ∃ w : Str → ℝ,
      (∀ s, 0 ≤ w s) ∧ 0 < w s ∧ (∀ s ∈ heldConstant, w s = 0) ∧ ∀ q ∈ qs, NotGained w q)
    {rates : Rates} {start h2o temp : ℝ} (hr : PiecewiseRates rates start h2o temp) {n : ℕ}
    {F : ℝ → (Fin n → ℝ) → Fin n → ℝ} (hF : GasSystem m rates start h2o temp F) {batch : ℚ} (hb : 0 < batch)
    {y0 : Fin n → ℝ} (hy0 : ∀ i, 0 ≤ y0 i) :
    ∃ B₀ : ℝ, ∀ B ≥ B₀, ∀ (solve : (Fin n → ℝ) → ℚ → Fin n → ℝ) (k : ℕ), ExactBatches F solve batch y0 k →
      NearBatchesIn (radicalStates m n B) F 0 0 solve batch y0 k := by
  have hk := hF.kinetic h hq
  choose c hc0 hci hc using kinetic_weights h hq (recorded_lightWeights h hq hpos) hw hk.size
  obtain ⟨B₀, -, hB⟩ := total_bound hc0 hci hy0
  refine ⟨B₀, fun B hBB solve k hex => ?_⟩
  have hP : ∀ z : Fin n → ℝ, (∀ i, 0 ≤ z i) → (∀ i, z i ≤ B₀) → z ∈ radicalStates m n B := fun z hz hzB =>
    ⟨fun i => by rw [abs_of_nonneg (hz i)]; exact (hzB i).trans hBB, listState_nonneg hz _⟩
  exact (hk.tame h (recorded_loss_only h hq hpos).1 (left_pos hpos) hone hr.regular).batches_in
    hc0 hci (fun i t y hy => hc i rates start h2o temp F hk hr.regular.nonneg t y hy) hb.le hy0 hB hP hex

/-- `radicalText` and `swappedText`: the bounds exist, both have right-hand sides with rounding, there are runs that follow
these, and for all such runs the reports are within the bound of C102, species by species. -/
theorem swapped_rounded_runs : ∃ (p p' : List Rl.Stmt) (k k' : List KStmt) (F F' : ℝ → (Fin 5 → ℝ) → Fin 5 → ℝ) (B₀ : ℝ),
    program .numba (ratesFile .numba none ((convertTable (convertOf .numba))^[1] (build radicalReactions).rate)) = some p ∧
    InDouble p k ∧
    program .numba (ratesFile .numba none ((convertTable (convertOf .numba))^[1] (build swappedReactions).rate)) = some p' ∧
    InDouble p' k' ∧
    ∀ B : ℝ, ∃ K W V Λ S K' W' V' Λ' S',
      GasBounds .python ⟨build radicalReactions, 2⟩ radicalReactions (generatedRates .numba p fun _ => 0) ((60 : ℚ) : ℝ)
        43200 0 298.15 F (radicalStates ⟨build radicalReactions, 2⟩ 5 B) K W V Λ S ∧
      GasBounds .python ⟨build swappedReactions, 2⟩ swappedReactions (generatedRates .numba p' fun _ => 0) ((60 : ℚ) : ℝ)
        43200 0 298.15 F' (radicalStates ⟨build swappedReactions, 2⟩ 5 B) K' W' V' Λ' S' ∧
      (∃ G, RoundedNumba ⟨build radicalReactions, 2⟩ k radicalPython.reactants radicalPython.lossGain 60 43200 0 298.15
        (radicalStates ⟨build radicalReactions, 2⟩ 5 B) G) ∧
      (∃ G, RoundedNumba ⟨build swappedReactions, 2⟩ k' swappedPython.reactants swappedPython.lossGain 60 43200 0 298.15
        (radicalStates ⟨build swappedReactions, 2⟩ 5 B) G) ∧
      ∀ G G' : ℝ → (Fin 5 → ℝ) → Fin 5 → ℝ,
        RoundedNumba ⟨build radicalReactions, 2⟩ k radicalPython.reactants radicalPython.lossGain ((60 : ℚ) : ℝ) 43200 0
          298.15 (radicalStates ⟨build radicalReactions, 2⟩ 5 B) G →
        RoundedNumba ⟨build swappedReactions, 2⟩ k' swappedPython.reactants swappedPython.lossGain ((60 : ℚ) : ℝ) 43200 0
          298.15 (radicalStates ⟨build swappedReactions, 2⟩ 5 B) G' →
        (B₀ ≤ B → ∃ rows rows', TwoOrders ⟨build radicalReactions, 2⟩ ⟨build swappedReactions, 2⟩
          (radicalStates ⟨build radicalReactions, 2⟩ 5 B) (radicalStates ⟨build swappedReactions, 2⟩ 5 B) G G'
          (((2 : ℕ) : ℚ) * 60) 60 0 (slopeError 1e-14 1.05e-10 W V Λ S) 0 (slopeError 1e-14 1.05e-10 W' V' Λ' S') 0
          [60, 120] [60, 120] rows rows') ∧
        ∀ (δ η ε η' ε' : ℝ) (times times' : List ℚ) (rows rows' : List (Fin 5 → ℝ)),
        TwoOrders ⟨build radicalReactions, 2⟩ ⟨build swappedReactions, 2⟩ (radicalStates ⟨build radicalReactions, 2⟩ 5 B)
          (radicalStates ⟨build swappedReactions, 2⟩ 5 B) G G' (((2 : ℕ) : ℚ) * 60) 60 δ η ε η' ε' times times' rows rows' →
        NamesWithin ⟨build radicalReactions, 2⟩ ⟨build swappedReactions, 2⟩ (fun t r => apartBy K
          (slopeError 1e-14 1.05e-10 W V Λ S + slopeError 1e-14 1.05e-10 W' V' Λ' S') δ η ε η' ε' t r)
          times times' rows rows' := by
  obtain ⟨c1, -, -⟩ := radical_rates
  have c1' : ∀ q ∈ swappedReactions, rateTextCheck .numba ((convertOf .numba)^[1] q.rate) = true := by
    intro q' hm
    obtain ⟨q, hm, hr⟩ := swapped_reordered.rate hm
    rw [← hr]
    exact c1 q hm
  have hd' : DoubleTexts ((convertOf .numba)^[1]) swappedReactions := by
    intro q' hm
    obtain ⟨q, hm, hr⟩ := swapped_reordered.rate hm
    rw [← hr]
    exact radical_double.2 q hm
  obtain ⟨n1, n2⟩ := rateTextCheck_reads c1
  obtain ⟨m1, m2⟩ := rateTextCheck_reads c1'
  obtain ⟨p', hp', -⟩ := C66_value swapped_parses swapped_reads (b := .numba) (by decide) none m1
  obtain ⟨k', hk', hrun'⟩ := C91_runs swapped_parses swapped_reads m1 m2 hd' hp'
  obtain ⟨p, k, _, hp, hk, hpy⟩ := radical_python_rounded
  obtain ⟨F, hF⟩ := radical_system (generatedRates .numba p fun _ => 0) 43200 0 298.15
  obtain ⟨F', hF'⟩ := gasSystem_exists swapped_parses
    (allWritten_of_good swapped_parses swapped_reads (by decide +kernel)) ⟨"CH3O2".toList, by decide +kernel⟩
    (generatedRates .numba p' fun _ => 0) 43200 0 298.15 (n := 5) swapped_five.symm
  have hnn := C66_nonneg (h2o := 0) (temp := 298.15) (by decide) n1 n2 (by norm_num) le_rfl
  have hnn' := C66_nonneg (h2o := 0) (temp := 298.15) (by decide) m1 m2 (by norm_num) le_rfl
  have hpos' : (∀ q ∈ swappedReactions, ∀ p ∈ chemReactants q ++ chemProducts q, 0 < p.1) ∧
      (∀ q ∈ swappedReactions, ∀ s ∈ names (chemReactants q), 1 ≤ coef (chemReactants q) s) := by decide +kernel
  have hr := C66_piecewise radical_parses radical_reads (by decide) n1 hp (junk := fun _ => 0) (fun _ => le_rfl) 43200 hnn
  have hr' := C66_piecewise swapped_parses swapped_reads (by decide) m1 hp' (junk := fun _ => 0) (fun _ => le_rfl) 43200 hnn'
  obtain ⟨solve, hs⟩ := C61_exists radical_parses radical_reads radical_positive.1 radical_positive.2 radical_weights hr hF
    (batch := 60) (by norm_num)
  obtain ⟨solve', hs'⟩ := C61_exists swapped_parses swapped_reads hpos'.1 hpos'.2 swapped_weights hr' hF'
    (batch := 60) (by norm_num)
  have h01 : ∀ i : Fin 5, (0 : ℝ) ≤ (fun _ => 1 : Fin 5 → ℝ) i := fun _ => zero_le_one
  obtain ⟨B₁, hB₁⟩ := exact_in_states radical_parses radical_reads radical_positive.1 radical_positive.2 radical_weights hr hF
    (batch := 60) (by norm_num) h01
  obtain ⟨B₂, hB₂⟩ := exact_in_states swapped_parses swapped_reads hpos'.1 hpos'.2 swapped_weights hr' hF'
    (batch := 60) (by norm_num) h01
  refine ⟨p, p', k, k', F, F', max B₁ B₂, hp, hk, hp', hk', fun B => ?_⟩
  obtain ⟨K, W, V, Λ, S, hB⟩ := C94_bounds (lang := .python) radical_parses radical_reads
    (hF.kinetic radical_parses radical_reads) radical_positive.2 hr ((60 : ℚ) : ℝ) B
  obtain ⟨K', W', V', Λ', S', hB'⟩ := C94_bounds (lang := .python) swapped_parses swapped_reads
    (hF'.kinetic swapped_parses swapped_reads) hpos'.2 hr' ((60 : ℚ) : ℝ) B
  refine ⟨K, W, V, Λ, S, K', W', V', Λ', S', hB, hB', (hpy B).1, swapped_rounded B hrun', fun G G' hG hG' => ⟨fun hBB => ?_,
    fun δ η ε η' ε' times times' rows rows' hrun => ?_⟩⟩
  · obtain ⟨rows, hrun, -⟩ := radical_batches solve fun _ => 1
    obtain ⟨rows', hrun', -⟩ := radical_batches solve' fun _ => 1
    have hω := C94_python_slope (L := 2) (e := 1e-14) (d := 1.05e-10) radical_parses radical_reads radical_prints radical_orders (by decide +kernel) n1 hp
      hk (junk := fun _ => 0) (fun _ => le_rfl) hnn (by norm_num) (by norm_num) le_rfl (by norm_num) (by norm_num) hF hB
      (by norm_num) (by norm_num) (by norm_num) radical_units_python (e' := 1e-14) (d' := 1.05e-10) (by push_cast; norm_num)
      (by push_cast; norm_num) radical_double.1 ⟨radicalPython_written.reactants, radicalPython_written.lossGain⟩ hG
    have hω' := C94_python_slope (L := 2) (e := 1e-14) (d := 1.05e-10) swapped_parses swapped_reads swapped_prints (swapped_reordered.orders radical_orders)
      (by decide +kernel) m1 hp' hk' (junk := fun _ => 0) (fun _ => le_rfl) hnn' (by norm_num) (by norm_num) le_rfl
      (by norm_num) (by norm_num) hF' hB' (by norm_num) (by norm_num) (by norm_num) swapped_units (e' := 1e-14)
      (d' := 1.05e-10) (by push_cast; norm_num) (by push_cast; norm_num) (fun q' hm => by
        obtain ⟨q, hm, he⟩ := swapped_reordered.rate hm
        rw [← he]
        exact radical_double.1 q hm) ⟨swappedPython_written.reactants, swappedPython_written.lossGain⟩ hG'
    exact ⟨rows, rows', ⟨solve, _, _, solve', _, _, hrun, hrun', fun _ _ _ _ _ => by simp,
      follows_rounded hω (hB₁ B (le_of_max_le_left hBB) solve _ (hs _ h01 _)),
      follows_rounded hω' (hB₂ B (le_of_max_le_right hBB) solve' _ (hs' _ h01 _))⟩, le_rfl, ⟨hω.1, hω'.1⟩, le_rfl, le_rfl⟩
  · exact C102_python (L := 2) radical_parses radical_reads swapped_parses swapped_reads swapped_reordered radical_prints
      swapped_prints radical_orders (by decide +kernel) n1 hp hp' hk hk' (junk := fun _ => 0) (junk' := fun _ => 0)
      (fun _ => le_rfl) (fun _ => le_rfl) hnn (by norm_num) (by norm_num) le_rfl (by norm_num) (by norm_num) (by norm_num)
      (by norm_num) hF hF' hB hB' (by norm_num) (by norm_num) (by norm_num) radical_units_python (by norm_num) (by norm_num)
      swapped_units (e₂ := 1e-14) (d₂ := 1.05e-10) (by push_cast; norm_num) (by push_cast; norm_num) (by push_cast; norm_num)
      radical_double.1 ⟨radicalPython_written.reactants, radicalPython_written.lossGain⟩
      ⟨swappedPython_written.reactants, swappedPython_written.lossGain⟩ hG hG' hrun

end PyBox
