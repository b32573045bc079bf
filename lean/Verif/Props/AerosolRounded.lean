import Verif.Props.Explicit
import Verif.Props.PartRounded
import Verif.Props.AerosolFiles

/-!
# C95: rounding in all files of a simulation with particles

`dydt_func` of `/repo/Aerosol/f2py/ODE_solver.py` (57–156) with rounding in the rate file, the gas routines, the
partitioning routine and the addition of the two parts. The core masses and vapour pressures that line 107 and lines
113–134 compute in the same way in every call are handed over without errors.
-/

namespace PyBox

open Set Rl Spec Aerosol

namespace Spec

/-- The right-hand side computed from the files with rounding, one thread. `p` is the program in the rate file. -/
def RoundedAerosol (f : AeroFiles) (m : Mechanism) (L : Aerosol.Layout) (C : AeroConst) (p : List KStmt)
    (T start h2o : ℝ) {n : ℕ} (P : Set (Fin n → ℝ)) (G : ℝ → (Fin n → ℝ) → Fin n → ℝ) : Prop :=
  ∀ t ∈ Ico 0 T, ∀ z ∈ P, ∃ (r : ℝ) (junk env : Vals) (gas dy : ℕ → ℝ) (U : Ft.Unused L) (g : Ft.Junk) (soa aw size : Ft.V),
    RoundedSum ieee ((ro2Indices m.tables.index).map (stateOf z)) r ∧ 0 ≤ r ∧
    EvRun ieee (ambient .fortran C.temp (start + t) r h2o junk) p env ∧
    RoundedSlope .fortran (L.numSpecies - 1) m.equations.toNat f.reactants f.lossGain
      (fun j => env (Backend.fortran.rateVar j)) (firstEntries (L.numSpecies - 1) (stateOf z)) gas ∧
    RoundedPartition f.partitioning g
      (Ft.callArgs L (L.numSpecies + L.numBins * L.numCond) (partArgs L C (stateOf z)) U)
      [soa, aw, size, pyArray (L.numSpecies + L.numBins * L.numCond) dy] ∧
    ∀ i : Fin n, ieee .double ((if (i : ℕ) < L.numSpecies - 1 then gas i else 0) + dy i) (G t z i)

/-- The bounds that C95 needs: those of the gas, radii between `exp (-λ)` and `exp λ` metres, Kelvin exponents up to
`X`, and exchange between gas and particles of at most `Q` for every species. -/
structure AerosolBounds (m : Mechanism) (qs : List RawEqn) (L : Aerosol.Layout) (C : AeroConst) (rates : Rates)
    (T start h2o : ℝ) {n : ℕ} (F : ℝ → (Fin n → ℝ) → Fin n → ℝ) (P : Set (Fin n → ℝ)) (K W V Λ S lam X Q : ℝ) : Prop where
  gas : GasBounds .fortran m qs rates T start h2o C.temp F P K W V Λ S
  tame : ∀ z ∈ P, TameInput L (partArgs L C (stateOf z)) lam X
  exchange : ∀ z ∈ P, ∀ j < L.numCond, ∀ r : ℕ → ℝ, (∀ b < L.numBins, IsRadius L (partArgs L C (stateOf z)) b (r b)) →
    ∑ b ∈ Finset.range L.numBins, exchange L (partArgs L C (stateOf z)) b j (r b) ≤ Q
  range : 0 ≤ lam ∧ 0 ≤ X ∧ 0 ≤ Q

/-- The relative error of the partitioning routine. -/
noncomputable def partitionError (L : Aerosol.Layout) (lam X : ℝ) : ℝ :=
  Real.exp (exchangeError L.numCond lam X + (L.numBins + 1) * 3e-16) - 1

/-- The error of the slopes: `g` in the gas, a fraction `q` of the exchange `Q`, and one addition of what is at most
`W + Q`. -/
noncomputable def sumError (g q W Q : ℝ) : ℝ := g + q * Q + 2⁻¹ ^ 52 * (W + Q + (g + q * Q))

end Spec

section

variable {text : Str} {m : Mechanism} {qs : List RawEqn}

theorem reactionProduct_first (h : extractMechanism text = .ok m) {y y' : ℕ → ℝ}
    (hy : ∀ i < m.tables.species.length, y i = y' i) {s : Str} {i : ℕ} (hs : m.tables.index.get? s = some i) (e : ℕ) :
    reactionProduct qs m.tables y e = reactionProduct qs m.tables y' e := by
  have hpos : 0 < m.tables.species.length := by
    have := index_lt h hs
    omega
  have hc : concOf m.tables y = concOf m.tables y' := by
    funext r
    unfold concOf
    apply hy
    cases hr : m.tables.index.get? r with
    | none => unfold Dict.getD; rw [hr]; exact hpos
    | some j => rw [getD_of_get? hr]; exact index_lt h hr
  unfold reactionProduct
  rw [hc]

/-- As `rounded_imprecise`, for routines that are handed other entries beyond the species. -/
theorem rounded_imprecise_first (h : extractMechanism text = .ok m) (hq : Reads text m.equations.toNat qs)
    {num : ℚ → Str} (hw : Prints num id m.tables) (hx : ExactOrders qs) {N : ℕ}
    (hN : ∀ q ∈ qs, (names (chemReactants q)).length ≤ N) {lang : Lang} {cores : Option ℕ} {t₁ t₂ : Str}
    (ht : GasTexts m cores num t₁ t₂ lang) {n : ℕ} {P : Set (Fin n → ℝ)} {T start h2o temp e d : ℝ}
    (hu : RoundingUnits m lang N e) {rates : Rates} {G : ℝ → (Fin n → ℝ) → Fin n → ℝ}
    (hG : ∀ t ∈ Ico 0 T, ∀ z ∈ P, ∃ (r : ℝ) (k y out : ℕ → ℝ),
      RoundedSum ieee ((ro2Indices m.tables.index).map (stateOf z)) r ∧ 0 ≤ r ∧
      (∀ j < qs.length, |k j - rates (start + t) r h2o temp j| ≤ e * rates (start + t) r h2o temp j + d) ∧
      (∀ i < m.tables.species.length, y i = stateOf z i) ∧
      RoundedSlope lang m.tables.species.length m.equations.toNat t₁ t₂ k y out ∧
      ∀ i : Fin n, (i : ℕ) < m.tables.species.length → G t z i = out i) :
    Imprecise lang m qs rates T start h2o temp P e d G := by
  intro t hT z hz
  obtain ⟨r, k, y, out, g1, g2, g3, gy, g4, g5⟩ := hG t hT z hz
  obtain ⟨⟨σ, hσ, hu1⟩, hu2⟩ := hu
  obtain ⟨-, h3⟩ := extract_tables h hq
  have hsum := C88_sum g1
  rw [List.length_map, List.map_map] at hsum
  refine ⟨r, k, g2, hsum.trans (mul_le_mul_of_nonneg_right hu2 (List.sum_nonneg ?_)), g3, fun s i hs => ?_⟩
  · intro x hx
    obtain ⟨i, -, rfl⟩ := List.mem_map.1 hx
    exact abs_nonneg _
  obtain ⟨c1, c2⟩ := C88_slope h hq hw hx hσ hN ht g4 hs
  simp only [reactionProduct_first (qs := qs) h gy hs] at c2
  rw [g5 i (index_lt h hs), h3]
  refine ⟨c1, fun hx => (c2 hx).trans (mul_le_mul_of_nonneg_right (hu1 s) ?_)⟩
  exact Finset.sum_nonneg fun e _ => mul_nonneg (add_nonneg (abs_nonneg _) (abs_nonneg _)) (abs_nonneg _)

end

/-! ## The partitioning routine -/

section

variable {L : Aerosol.Layout} {P : PartInput} {lam X : ℝ}

theorem slot_le_exchange (h : TameInput L P lam X) {b j : ℕ} (hb : b < L.numBins) (hj : j < L.numCond) {r : ℝ}
    (hr : IsRadius L P b r) : |partition L P (L.numSpecies + b * L.numCond + j)| ≤ exchange L P b j r := by
  have hp := h.running.bins b hb
  have hrp : 0 < r := hp.size_eq hr ▸ hp.size_pos
  have h1 := (C40_between (P.gamma (j + 1) / r) (P.alpha (j + 1))
      (div_pos (hp.path j hj) hrp) (hp.acc j hj).1 (hp.acc j hj).2).1
  have h2 := fPi_pos
  have h3 := hp.number
  have h4 := hp.diff j hj
  have h5 := h.cgas j hj
  have h6 : 0 ≤ equilibrium L P b j r := by
    have k1 := hp.conc j hj
    have k2 := h.running.moles b hb
    have k3 := h.psat j hj
    have k4 := hp.na
    have k5 := h.running.temp
    unfold equilibrium
    dsimp only
    positivity
  rw [C39_rate L P b j hb hj hp r hr]
  unfold exchange
  set k := 4 * fPi * (r * 100) * P.nPerBin (b + 1) * P.dStar (j + 1) * fuchs (P.gamma (j + 1) / r) (P.alpha (j + 1))
  have hk : 0 ≤ k := by simp only [k]; positivity
  rw [abs_mul, abs_of_nonneg hk]
  refine mul_le_mul_of_nonneg_left ?_ hk
  rw [abs_le]
  constructor <;> linarith

theorem partitionError_nonneg (hlam : 0 ≤ lam) (hX : 0 ≤ X) : 0 ≤ partitionError L lam X := by
  have h1 : 0 ≤ exchangeError L.numCond lam X := by
    unfold exchangeError
    have : 0 ≤ Real.exp (1.2e-7 + (5 * L.numCond + 37 + lam) * 3e-16) - 1 := exp_sub_one_nonneg (by positivity)
    positivity
  exact exp_sub_one_nonneg (by positivity)

/-- The errors of the routine, entry by entry. -/
theorem partition_apart (hL : GoodLayout L) (hc : 1 ≤ L.numCond) (hb : 1 ≤ L.numBins) (h : TameInput L P lam X) {Q : ℝ}
    (hQ0 : 0 ≤ Q) (hQ : ∀ j < L.numCond, ∀ r : ℕ → ℝ, (∀ b < L.numBins, IsRadius L P b (r b)) →
      ∑ b ∈ Finset.range L.numBins, exchange L P b j (r b) ≤ Q) {date : Str} (hd : '\n' ∉ date) {U : Ft.Unused L}
    {g : Ft.Junk} {v1 v2 v3 : Ft.V} {dy : ℕ → ℝ}
    (ho : RoundedPartition (Ft.partText date L (L.numSpecies + L.numBins * L.numCond)) g
      (Ft.callArgs L (L.numSpecies + L.numBins * L.numCond) P U)
      [v1, v2, v3, pyArray (L.numSpecies + L.numBins * L.numCond) dy]) {i : ℕ}
    (hi : i < L.numSpecies + L.numBins * L.numCond) :
    |dy i - partition L P i| ≤ partitionError L lam X * Q ∧ |partition L P i| ≤ Q := by
  obtain ⟨soa, aw, size, dy', he, hcl⟩ := C92_results hd hL hc hb h U g ho
  obtain ⟨soa', aw', size', dy'', he', hz, -⟩ := C93_conserved hd hL hc U g ho
  have get : ∀ f : ℕ → ℝ, pyArray (L.numSpecies + L.numBins * L.numCond) dy = pyArray (L.numSpecies + L.numBins * L.numCond) f
      → ∀ i < L.numSpecies + L.numBins * L.numCond, dy i = f i := by
    intro f hf i hi
    unfold pyArray at hf
    have := congrArg (fun l : List ℝ => l[i]?) (Ft.V.arr.inj hf)
    simpa [hi] using this
  simp only [List.cons.injEq, and_true] at he he'
  have hdy := get dy' he.2.2.2
  have hdy0 := get dy'' he'.2.2.2
  have hΛ := tame_range h (by omega)
  have hE' := partitionError_nonneg (L := L) hΛ h.range
  have hr : ∀ b < L.numBins, IsRadius L P b (sizeArray L P (b + 1)) := fun b hb => (h.running.bins b hb).size_isRadius
  have hnn : ∀ j < L.numCond, ∀ b < L.numBins, 0 ≤ exchange L P b j (sizeArray L P (b + 1)) := fun j hj b hb =>
    exchange_nonneg h hb hj (hr b hb)
  have hone : ∀ j < L.numCond, ∀ b < L.numBins, exchange L P b j (sizeArray L P (b + 1)) ≤ Q := fun j hj b hb =>
    (Finset.single_le_sum (f := fun b => exchange L P b j (sizeArray L P (b + 1)))
      (fun b hb => hnn j hj b (Finset.mem_range.1 hb)) (Finset.mem_range.2 hb)).trans (hQ j hj (fun b => sizeArray L P (b + 1)) hr)
  rcases C38_layout L.numSpecies L.numCond L.numBins i hi with ⟨h1, -⟩ | ⟨-, ⟨b, j⟩, ⟨h1, h2, h3⟩, -⟩
  · by_cases hm : i ∈ L.incl
    · obtain ⟨j, hj, rfl⟩ := List.mem_iff_getElem.1 hm
      have hj' : j < L.numCond := hL.len ▸ hj
      constructor
      · rw [hdy _ hi]
        exact (hcl.gas j hj (fun b => sizeArray L P (b + 1)) hr).trans (mul_le_mul_of_nonneg_left (hQ j hj' _ hr) hE')
      · rw [C36_exchange L P hL j hj, abs_neg]
        refine (Finset.abs_sum_le_sum_abs _ _).trans (le_trans (Finset.sum_le_sum fun b hb => ?_)
          (hQ j hj' (fun b => sizeArray L P (b + 1)) hr))
        exact slot_le_exchange h (Finset.mem_range.1 hb) hj' (hr b (Finset.mem_range.1 hb))
    · rw [C37_excluded L P i h1 hm, hdy0 i hi, hz i h1 hm]
      simp only [sub_self, abs_zero]
      exact ⟨mul_nonneg hE' hQ0, hQ0⟩
  · simp only at h1 h2 h3
    rw [h3] at hi ⊢
    constructor
    · rw [hdy _ hi]
      refine (hcl.slot b h1 j h2 _ (hr b h1)).trans (mul_le_mul ?_ (hone j h2 b h1) (hnn j h2 b h1) hE')
      unfold partitionError
      have : exchangeError L.numCond lam X ≤ exchangeError L.numCond lam X + (L.numBins + 1) * 3e-16 := by
        have : (0 : ℝ) ≤ ((L.numBins : ℝ) + 1) * 3e-16 := by positivity
        linarith
      linarith [Real.exp_le_exp.2 this]
    · exact (slot_le_exchange h h1 h2 (hr b h1)).trans (hone j h2 b h1)

end

/-! ## The whole right-hand side -/

section

variable {text : Str} {m : Mechanism} {qs : List RawEqn} {f : AeroFiles} {num : ℚ → Str} {cores cores' : Option ℕ}
  {L : Aerosol.Layout} {C : AeroConst} {rates : Rates} {N n : ℕ} {F G : ℝ → (Fin n → ℝ) → Fin n → ℝ}
  {P : Set (Fin n → ℝ)} {T start h2o K W V Λ S lam X Q e d : ℝ}

theorem sum_round {x y g q W Q s : ℝ} {x' y' : ℝ} (hx : |x' - x| ≤ g) (hy : |y' - y| ≤ q * Q) (hW : |x| ≤ W) (hQ : |y| ≤ Q)
    (hs : ieee .double (x' + y') s) : |s - (x + y)| ≤ sumError g q W Q := by
  have h1 : |s - (x' + y')| ≤ 2⁻¹ ^ 52 * |x' + y'| := hs
  have h2 : |x' + y' - (x + y)| ≤ g + q * Q := by
    rw [show x' + y' - (x + y) = (x' - x) + (y' - y) by ring]
    exact (abs_add_le _ _).trans (add_le_add hx hy)
  have h3 : |x' + y'| ≤ W + Q + (g + q * Q) := by
    have a := abs_add_le (x' + y' - (x + y)) (x + y)
    rw [sub_add_cancel] at a
    have b := abs_add_le x y
    linarith
  have h4 := abs_sub_le s (x' + y') (x + y)
  have h5 := mul_le_mul_of_nonneg_left h3 (show (0 : ℝ) ≤ 2⁻¹ ^ 52 by positivity)
  unfold sumError
  linarith

theorem kineticValue_le {lang : Lang} {temp : ℝ} (hrn : ∀ t ∈ Ico 0 T, ∀ r k, 0 ≤ r → 0 ≤ rates (start + t) r h2o temp k)
    (hP : ∀ z ∈ P, 0 ≤ ((ro2Indices m.tables.index).map (stateOf z)).sum)
    (hW : TermBounds m qs (grossIn lang m.tables) rates T start h2o temp P W V) {t : ℝ} (ht : t ∈ Ico 0 T) {z : Fin n → ℝ}
    (hz : z ∈ P) {s : Str} {i : ℕ} (hi : m.tables.index.get? s = some i) :
    |kineticValue m qs (netIn lang m.tables) rates start h2o temp s t (stateOf z)| ≤ W := by
  unfold kineticValue
  split
  · rw [abs_zero]
    exact hW.nonneg.1
  · refine (Finset.abs_sum_le_sum_abs _ _).trans (le_trans (Finset.sum_le_sum fun k _ => ?_) (hW.rate t ht z hz s i hi))
    rw [abs_mul, abs_mul, abs_of_nonneg (hrn t ht _ k (hP z hz))]
    refine mul_le_mul_of_nonneg_right ((abs_sub _ _).trans (le_abs_self _)) ?_
    exact mul_nonneg (abs_nonneg _) (hrn t ht _ k (hP z hz))

/-- **C95**: whatever the rounding errors, the slopes are those of exact arithmetic up to `sumError`. -/
theorem C95_slope (h : extractMechanism text = .ok m) (hq : Reads text m.equations.toNat qs)
    (hw : Prints num id m.tables) (hx : ExactOrders qs) (hN : ∀ q ∈ qs, (names (chemReactants q)).length ≤ N)
    (hns : L.numSpecies = m.tables.species.length + 1) (hL : GoodLayout L) (hc : 1 ≤ L.numCond) (hb : 1 ≤ L.numBins)
    {times : ℕ} (hf : f.WrittenFor m cores times num L)
    (hread : ReadableRates .fortran ((convertOf .fortran)^[times]) qs) {p : List KStmt} (hp : kProgram f.rates = some p)
    {p' : List Rl.Stmt} (hp' : program .fortran f.rates = some p')
    {junk : Vals} (hjunk : ∀ e, 0 ≤ junk (Backend.fortran.rateVar e))
    (hnn : NonnegRates .fortran ((convertOf .fortran)^[times]) qs h2o C.temp)
    (h1 : 200 ≤ C.temp) (h2 : C.temp ≤ 330) (hh : 0 ≤ h2o) (ht : 0 ≤ start) (ht' : start + T ≤ 1000000000)
    (hF : AerosolSystem m cores' L C (generatedRates .fortran p' junk) start h2o F)
    (hP : ∀ z ∈ P, ∀ i, 0 ≤ z i)
    (hB : AerosolBounds m qs L C (generatedRates .fortran p' junk) T start h2o F P K W V Λ S lam X Q)
    (he : 0 ≤ e) (he1 : e ≤ 1) (hd : 0 ≤ d) (hu : RoundingUnits m .fortran N e) {e' d' : ℚ} (hee : e' ≤ e) (hdd : d' ≤ d)
    (hsm : ∀ q ∈ qs, SmallMixed e' d' ((convertOf .fortran)^[times] q.rate))
    (hG : RoundedAerosol f m L C p T start h2o P G) :
    SlopesWithin (sumError (slopeError e d W V Λ S) (partitionError L lam X) W Q) T P F G := by
  have hpos : ∀ z ∈ P, 0 ≤ ((ro2Indices m.tables.index).map (stateOf z)).sum := fun z hz => listState_nonneg (hP z hz) _
  obtain ⟨sp, hsp, -⟩ := index_sum h hq rfl
  have hmix := hF.mixed h hq hns hsp
  obtain ⟨hfr, ⟨Pr, dr, hr1, hr2, hr3⟩, ⟨dl, hl1, hl2⟩, ⟨date, hdate, hpart⟩⟩ := hf
  have hN1 : L.numSpecies - 1 = m.tables.species.length := by omega
  rw [hN1] at hr3 hl2
  have htx : GasTexts m cores num f.reactants f.lossGain .fortran := ⟨⟨Pr, dr, hr1, hr2, hr3⟩, dl, hl1, hl2⟩
  rw [hfr] at hp hp'
  have hr := C66_piecewise h hq (by decide) hread hp' hjunk start hnn
  have hrn : ∀ t ∈ Ico 0 T, ∀ r k, 0 ≤ r → 0 ≤ generatedRates .fortran p' junk (start + t) r h2o C.temp k :=
    fun t _ r k hr0 => (hr k).1 t r hr0
  -- the two parts
  have key : ∀ t (z : Fin n → ℝ), ∃ gas dy : ℕ → ℝ, t ∈ Ico 0 T → z ∈ P →
      (∃ (r : ℝ) (k y : ℕ → ℝ), RoundedSum ieee ((ro2Indices m.tables.index).map (stateOf z)) r ∧ 0 ≤ r ∧
        (∀ j < qs.length, |k j - generatedRates .fortran p' junk (start + t) r h2o C.temp j| ≤
          e * generatedRates .fortran p' junk (start + t) r h2o C.temp j + d) ∧
        (∀ i < m.tables.species.length, y i = stateOf z i) ∧
        RoundedSlope .fortran m.tables.species.length m.equations.toNat f.reactants f.lossGain k y gas) ∧
      (∀ i < L.numSpecies + L.numBins * L.numCond,
        |dy i - partition L (partArgs L C (stateOf z)) i| ≤ partitionError L lam X * Q ∧
        |partition L (partArgs L C (stateOf z)) i| ≤ Q) ∧
      ∀ i : Fin n, ieee .double ((if (i : ℕ) < L.numSpecies - 1 then gas i else 0) + dy i) (G t z i) := by
    intro t z
    by_cases hc' : t ∈ Ico 0 T ∧ z ∈ P
    · obtain ⟨hT, hz⟩ := hc'
      obtain ⟨r, junk', env, gas, dy, U, g, soa, aw, size, g1, g2, g3, g4, g5, g6⟩ := hG t hT z hz
      refine ⟨gas, dy, fun _ _ => ⟨⟨r, fun j => env (Backend.fortran.rateVar j), _, g1, g2, fun j hj => ?_,
        fun i hi => ?_, by rw [hN1] at g4; exact g4⟩, fun i hi => ?_, g6⟩⟩
      · have hkq : qs[j]? = some qs[j] := List.getElem?_eq_getElem hj
        obtain ⟨x, hx, -⟩ := hread _ (List.getElem_mem hj)
        obtain ⟨_, f1, f2⟩ := C66_value h hq (b := .fortran) (by decide) cores hread
        rw [hp'] at f1
        obtain rfl := Option.some.inj f1
        rw [(f2 junk C.temp (start + t) r h2o).1 j _ x hkq hx]
        obtain ⟨c1, c2⟩ := C85_rates h hq hread hp h1 h2 g2 hh (by linarith [hT.1]) (by linarith [hT.2]) g3 hkq hx
          (hsm _ (List.getElem_mem hj))
        exact c2.trans (add_le_add (mul_le_mul_of_nonneg_right hee c1) hdd)
      · unfold firstEntries
        rw [if_pos hi]
      · rw [hpart] at g5
        exact partition_apart hL hc hb (hB.tame z hz) hB.range.2.2 (hB.exchange z hz) hdate g5 hi
    · exact ⟨fun _ => 0, fun _ => 0, fun h1 h2 => absurd ⟨h1, h2⟩ hc'⟩
  choose gas dy hgd using key
  have himp : Imprecise .fortran m qs (generatedRates .fortran p' junk) T start h2o C.temp P e d
      (fun t z (i : Fin n) => gas t z i) := by
    refine rounded_imprecise_first h hq hw hx hN htx hu fun t hT z hz => ?_
    obtain ⟨⟨r, k, y, a1, a2, a3, a4, a5⟩, -, -⟩ := hgd t z hT hz
    exact ⟨r, k, y, _, a1, a2, a3, a4, a5, fun i _ => rfl⟩
  have hω := slopeError_nonneg (W := W) (V := V) (Λ := Λ) (S := S) he hd hB.gas.terms.nonneg.1 hB.gas.terms.nonneg.2
    hB.gas.radicals.nonneg.1 hB.gas.radicals.nonneg.2
  have hq0 := mul_nonneg (partitionError_nonneg (L := L) hB.range.1 hB.range.2.1) hB.range.2.2
  have hW0 := hB.gas.terms.nonneg.1
  have hQ0 := hB.range.2.2
  refine ⟨by unfold sumError; positivity, fun t hT z hz i => ?_⟩
  obtain ⟨-, a2, a3⟩ := hgd t z hT hz
  have hi : (i : ℕ) < L.numSpecies + L.numBins * L.numCond := hF.1 ▸ i.2
  have a3 := a3 i
  rw [hmix.entry]
  by_cases hin : (i : ℕ) < L.numSpecies - 1
  · have hi' : (i : ℕ) < m.tables.species.length := by omega
    have hidx := (hsp ⟨i, hi'⟩ _).2 rfl
    rw [if_pos hin] at a3 ⊢
    rw [gasPart, dif_pos hi']
    exact sum_round (imprecise_explicit (i := i) hrn hpos hB.gas.terms hB.gas.radicals he he1 hd himp hT hz hidx)
      (a2 i hi).1 (kineticValue_le (lang := .fortran) hrn hpos hB.gas.terms hT hz hidx) (a2 i hi).2 a3
  · rw [if_neg hin] at a3 ⊢
    exact sum_round (by rw [sub_zero, abs_zero]; exact hω) (a2 i hi).1 (by rw [abs_zero]; exact hW0) (a2 i hi).2 a3

/-- **C95**: what a run with rounding in all files reports, compared with a run without, in numbers. -/
theorem C95_runs (h : extractMechanism text = .ok m) (hq : Reads text m.equations.toNat qs)
    (hw : Prints num id m.tables) (hx : ExactOrders qs) (hN : ∀ q ∈ qs, (names (chemReactants q)).length ≤ N)
    (hns : L.numSpecies = m.tables.species.length + 1) (hL : GoodLayout L) (hc : 1 ≤ L.numCond) (hb : 1 ≤ L.numBins)
    {conv : ℕ} (hf : f.WrittenFor m cores conv num L)
    (hread : ReadableRates .fortran ((convertOf .fortran)^[conv]) qs) {p : List KStmt} (hp : kProgram f.rates = some p)
    {p' : List Rl.Stmt} (hp' : program .fortran f.rates = some p')
    {junk : Vals} (hjunk : ∀ e, 0 ≤ junk (Backend.fortran.rateVar e))
    (hnn : NonnegRates .fortran ((convertOf .fortran)^[conv]) qs h2o C.temp)
    (h1 : 200 ≤ C.temp) (h2 : C.temp ≤ 330) (hh : 0 ≤ h2o) {sim batch : ℚ} (hs : 0 < sim) (hbt : 0 < batch) (ht : 0 ≤ start)
    (ht' : start + batch ≤ 1000000000)
    (hF : AerosolSystem m cores' L C (generatedRates .fortran p' junk) start h2o F)
    (hP : ∀ z ∈ P, ∀ i, 0 ≤ z i)
    (hB : AerosolBounds m qs L C (generatedRates .fortran p' junk) batch start h2o F P K W V Λ S lam X Q)
    (he : 0 ≤ e) (he1 : e ≤ 1) (hd : 0 ≤ d) (hu : RoundingUnits m .fortran N e) {e' d' : ℚ} (hee : e' ≤ e) (hdd : d' ≤ d)
    (hsm : ∀ q ∈ qs, SmallMixed e' d' ((convertOf .fortran)^[conv] q.rate))
    (hG : RoundedAerosol f m L C p batch start h2o P G) {δ η ε η' ε' : ℝ} {times times' : List ℚ}
    {rows rows' : List (Fin n → ℝ)} (hrun : TwoRuns P F G sim batch δ η ε η' ε' times times' rows rows') :
    RowsWithin (fun t k => apartBy K (sumError (slopeError e d W V Λ S) (partitionError L lam X) W Q) δ η ε η' ε' t k)
      times times' rows rows' :=
  C94_runs hs hbt hB.gas.lipschitz (C95_slope h hq hw hx hN hns hL hc hb hf hread hp hp' hjunk hnn h1 h2 hh ht ht' hF hP hB
    he he1 hd hu hee hdd hsm hG) hrun

end

/-! ## There are such bounds -/

section

variable {L : Aerosol.Layout} {C : AeroConst} {n : ℕ}

theorem bounded_on_box {h : (Fin n → ℝ) → ℝ} (hh : ∀ z, (∀ i, 0 ≤ z i) → ContDiffAt ℝ 1 h z) (B : ℝ) :
    ∃ M : ℝ, 0 ≤ M ∧ ∀ z ∈ (box B : Set (Fin n → ℝ)), |h z| ≤ M := by
  obtain ⟨K, M, -, hM, h1⟩ := SetLip.of_contDiffAt (A := univ) (R := B) hh
  exact ⟨M, hM, fun z hz => (h1 0 (mem_univ _) z hz).1⟩

theorem kelvinExponent_contDiffAt (hC : PhysConst L C) {z : Fin n → ℝ} (hz : ∀ i, 0 ≤ z i) {b : ℕ} (hb : b < L.numBins)
    (j : ℕ) : ContDiffAt ℝ 1 (fun z : Fin n → ℝ => kelvinExponent L (partArgs L C (stateOf z)) b j
      (sizeArray L (partArgs L C (stateOf z)) (b + 1))) z := by
  have hP := hC.physical (stateOf_nonneg hz) hb
  have hd := density_contDiffAt hC hz hb
  have hd0 := density_pos hC hz hb
  simp only [density_eq] at hd hd0
  unfold kelvinExponent
  refine (contDiffAt_const (c := 4 * (C.mw j / 1000) * C.sigma)).div ?_ ?_
  · exact ((contDiffAt_const (c := C.rGas * C.temp)).mul (contDiffAt_const.mul (sizeArray_contDiffAt hC hz hb))).mul hd
  · have h1 := hP.size_pos
    have : 0 < (partArgs L C (stateOf z)).rGas * (partArgs L C (stateOf z)).temp := mul_pos hC.rGas hC.temp
    positivity

theorem dmSize_contDiffAt (hC : PhysConst L C) {z : Fin n → ℝ} (hz : ∀ i, 0 ≤ z i) {b j : ℕ} (hb : b < L.numBins)
    (hj : j < L.numCond) : ContDiffAt ℝ 1 (fun z : Fin n → ℝ => Ft.dmSize L (partArgs L C (stateOf z)) (b + 1) (j + 1)) z := by
  unfold Ft.dmSize kTransfer kPart1
  refine ContDiffAt.mul ?_ (ContDiffAt.add ?_ (cStar_contDiffAt hC hz hb))
  · refine ContDiffAt.mul ?_ (contDiffAt_const.mul (correction_contDiffAt hC hz hb hj))
    exact ((contDiffAt_const.mul (sizeArray_contDiffAt hC hz hb)).mul contDiffAt_const).mul contDiffAt_const
  · exact (stateOf_contDiff _).contDiffAt

theorem tame_on_box (hC : PhysConst L C) (hσ : 0 ≤ C.sigma) (B : ℝ) : ∃ lam X, 0 ≤ lam ∧ 0 ≤ X ∧
    ∀ z ∈ (box B : Set (Fin n → ℝ)), TameInput L (partArgs L C (stateOf z)) lam X := by
  have h1 : ∀ b, ∃ M : ℝ, 0 ≤ M ∧ (b < L.numBins → ∀ z ∈ (box B : Set (Fin n → ℝ)),
      |Real.log (sizeArray L (partArgs L C (stateOf z)) (b + 1))| ≤ M) := fun b => by
    by_cases hb : b < L.numBins
    · obtain ⟨M, hM, h⟩ := bounded_on_box (fun z hz => (sizeArray_contDiffAt hC hz hb).log
        (hC.physical (stateOf_nonneg hz) hb).size_pos.ne') B
      exact ⟨M, hM, fun _ => h⟩
    · exact ⟨0, le_rfl, fun h => absurd h hb⟩
  have h2 : ∀ b j, ∃ M : ℝ, 0 ≤ M ∧ (b < L.numBins → ∀ z ∈ (box B : Set (Fin n → ℝ)),
      |kelvinExponent L (partArgs L C (stateOf z)) b j (sizeArray L (partArgs L C (stateOf z)) (b + 1))| ≤ M) := fun b j => by
    by_cases hb : b < L.numBins
    · obtain ⟨M, hM, h⟩ := bounded_on_box (fun z hz => kelvinExponent_contDiffAt hC hz hb j) B
      exact ⟨M, hM, fun _ => h⟩
    · exact ⟨0, le_rfl, fun h => absurd h hb⟩
  choose l hl0 hl using h1
  choose k hk0 hk using h2
  refine ⟨∑ b ∈ Finset.range L.numBins, l b, ∑ b ∈ Finset.range L.numBins, ∑ j ∈ Finset.range L.numCond, k b j,
    Finset.sum_nonneg fun b _ => hl0 b, Finset.sum_nonneg fun b _ => Finset.sum_nonneg fun j _ => hk0 b j, fun z hz => ?_⟩
  have hz0 : ∀ i, 0 ≤ z i := fun i => (hz i).1
  have hy := stateOf_nonneg hz0
  exact {
    running := hC.running hy
    ycore := fun b hb => (hC.ycore b hb).le
    coreDiss := hC.coreDiss.le
    sigma := hσ
    psat := fun j _ => (psat_water_pos L C j).le
    cgas := fun j _ => hy _
    radius := fun b hb r hr => by
      have hp := hC.physical hy hb
      have hb' := (hl b hb z hz).trans (Finset.single_le_sum (fun b _ => hl0 b) (Finset.mem_range.2 hb))
      rw [hp.size_eq hr, abs_le] at hb'
      have hrp : 0 < r := hp.size_eq hr ▸ hp.size_pos
      exact ⟨(Real.le_log_iff_exp_le hrp).1 hb'.1, (Real.log_le_iff_le_exp hrp).1 hb'.2⟩
    range := Finset.sum_nonneg fun b _ => Finset.sum_nonneg fun j _ => hk0 b j
    kelvin := fun b hb j hj r hr => by
      have hp := hC.physical hy hb
      have hb' := (le_abs_self _).trans (hk b j hb z hz)
      rw [hp.size_eq hr] at hb'
      refine hb'.trans ((Finset.single_le_sum (fun j _ => hk0 b j) (Finset.mem_range.2 hj)).trans ?_)
      exact Finset.single_le_sum (f := fun b => ∑ j ∈ Finset.range L.numCond, k b j)
        (fun b _ => Finset.sum_nonneg fun j _ => hk0 b j) (Finset.mem_range.2 hb) }

theorem exchange_on_box (hC : PhysConst L C) (hσ : 0 ≤ C.sigma) (B : ℝ) : ∃ Q, 0 ≤ Q ∧
    ∀ z ∈ (box B : Set (Fin n → ℝ)), ∀ j < L.numCond, ∀ r : ℕ → ℝ,
      (∀ b < L.numBins, IsRadius L (partArgs L C (stateOf z)) b (r b)) →
      ∑ b ∈ Finset.range L.numBins, exchange L (partArgs L C (stateOf z)) b j (r b) ≤ Q := by
  obtain ⟨lam, X, -, -, ht⟩ := tame_on_box (n := n) hC hσ B
  have h1 : ∀ b j, ∃ M : ℝ, 0 ≤ M ∧ (b < L.numBins → j < L.numCond → ∀ z ∈ (box B : Set (Fin n → ℝ)),
      |Ft.dmSize L (partArgs L C (stateOf z)) (b + 1) (j + 1)| ≤ M) := fun b j => by
    by_cases hb : b < L.numBins ∧ j < L.numCond
    · obtain ⟨M, hM, h⟩ := bounded_on_box (fun z hz => dmSize_contDiffAt hC hz hb.1 hb.2) B
      exact ⟨M, hM, fun _ _ => h⟩
    · exact ⟨0, le_rfl, fun h h' => absurd ⟨h, h'⟩ hb⟩
  choose k hk0 hk using h1
  have h0 : ∀ j, 0 ≤ ∑ b ∈ Finset.range L.numBins, k b j := fun j => Finset.sum_nonneg fun b _ => hk0 b j
  refine ⟨∑ j ∈ Finset.range L.numCond, ∑ b ∈ Finset.range L.numBins, k b j, Finset.sum_nonneg fun j _ => h0 j,
    fun z hz j hj r hr => ?_⟩
  refine le_trans (Finset.sum_le_sum fun b hb => ?_) (Finset.single_le_sum (fun j _ => h0 j) (Finset.mem_range.2 hj))
  have hb' := Finset.mem_range.1 hb
  rw [← dmSize_eq (ht z hz) hb' (hr b hb')]
  exact (le_abs_self _).trans (hk b j hb' hj z hz)

/-- All of the bounds of C95 exist. -/
theorem C95_bounds {text : Str} {m : Mechanism} {qs : List RawEqn} (h : extractMechanism text = .ok m)
    (hq : Reads text m.equations.toNat qs) (hns : L.numSpecies = m.tables.species.length + 1) {cores : Option ℕ}
    {rates : Rates} {start h2o : ℝ} {F : ℝ → (Fin n → ℝ) → Fin n → ℝ} (hL : GoodLayout L) (hC : PhysConst L C)
    (hσ : 0 ≤ C.sigma) (h1 : WholeReactants qs) (hr : PiecewiseRates rates start h2o C.temp)
    (hF : AerosolSystem m cores L C rates start h2o F) (T : ℝ) {B : ℝ} (hB : 0 ≤ B) :
    ∃ K W V Λ S lam X Q, AerosolBounds m qs L C rates T start h2o F {z | ∀ i, 0 ≤ z i ∧ z i ≤ B} K W V Λ S lam X Q := by
  have hsz := SizeAtMost.box (n := n) B
  obtain ⟨K, hK⟩ := C94_lipschitz_aerosol h hq hns hL hC h1 hr hF T hB
  obtain ⟨W, V, hW⟩ := C94_terms h hq h1 hr hB hsz (fun z hz => listState_nonneg (fun i => (hz i).1) _) T
    (grossIn .fortran m.tables)
  obtain ⟨Λ, S, hΛ⟩ := C94_radicals h hq h1 hr hB hsz T .fortran
  obtain ⟨lam, X, h2, h3, ht⟩ := tame_on_box (n := n) hC hσ B
  obtain ⟨Q, h4, hQ⟩ := exchange_on_box (n := n) hC hσ B
  exact ⟨K, W, V, Λ, S, lam, X, Q, ⟨hK, hW, hΛ⟩, ht, hQ, h2, h3, h4⟩

end

/-- For `radicalText` with two bins: the bounds exist, there is a right-hand side with rounding in all files, and for every
such right-hand side the rows of a run are within the bound of C95, whatever the rounding errors. -/
theorem radical_aerosol_rounded : ∃ (p : List KStmt) (p' : List Rl.Stmt) (F : ℝ → (Fin 10 → ℝ) → Fin 10 → ℝ),
    kProgram radicalFiles.rates = some p ∧
    AerosolSystem ⟨build radicalReactions, 2⟩ none radicalLayout waterConst (generatedRates .fortran p' fun _ => 0) 43200 1000 F ∧
    ∀ B : ℝ, 0 ≤ B → ∃ K W V Λ S lam X Q,
      AerosolBounds ⟨build radicalReactions, 2⟩ radicalReactions radicalLayout waterConst
        (generatedRates .fortran p' fun _ => 0) ((60 : ℚ) : ℝ) 43200 1000 F {z | ∀ i, 0 ≤ z i ∧ z i ≤ B} K W V Λ S lam X Q ∧
      (∃ G, RoundedAerosol radicalFiles ⟨build radicalReactions, 2⟩ radicalLayout waterConst p ((60 : ℚ) : ℝ) 43200 1000
        {z : Fin 10 → ℝ | ∀ i, 0 ≤ z i ∧ z i ≤ B} G) ∧
      ∀ (G : ℝ → (Fin 10 → ℝ) → Fin 10 → ℝ) (δ η ε η' ε' : ℝ) (times times' : List ℚ) (rows rows' : List (Fin 10 → ℝ)),
        RoundedAerosol radicalFiles ⟨build radicalReactions, 2⟩ radicalLayout waterConst p ((60 : ℚ) : ℝ) 43200 1000
          {z | ∀ i, 0 ≤ z i ∧ z i ≤ B} G →
        TwoRuns {z | ∀ i, 0 ≤ z i ∧ z i ≤ B} F G 120 60 δ η ε η' ε' times times' rows rows' →
        RowsWithin (fun t k => apartBy K (sumError (slopeError 1e-6 4.66e-7 W V Λ S) (partitionError radicalLayout lam X) W Q)
          δ η ε η' ε' t k) times times' rows rows' := by
  obtain ⟨-, c2, -⟩ := radical_rates
  obtain ⟨f1, f2⟩ := rateTextCheck_reads c2
  obtain ⟨l, hp, -⟩ := kRate_file radical_parses radical_reads (some 2) f1
  obtain ⟨p', hp', -⟩ := C66_value radical_parses radical_reads (b := .fortran) (by decide) (some 2) f1
  obtain ⟨F, hF⟩ := radical_aerosol none waterConst (generatedRates .fortran p' fun _ => 0) 43200 1000
  have hC := waterConst_phys radicalLayout
  have htemp : waterConst.temp = 300 := rfl
  have hnn := C66_nonneg (b := .fortran) (by decide) f1 f2 (h2o := 1000) hC.temp (by norm_num)
  have hns : radicalLayout.numSpecies = (build radicalReactions).species.length + 1 := by decide +kernel
  refine ⟨_, p', F, hp, hF, fun B hB => ?_⟩
  obtain ⟨K, W, V, Λ, S, lam, X, Q, hbd⟩ := C95_bounds radical_parses radical_reads hns radicalLayout_good hC
    (by norm_num [waterConst]) radical_positive.2
    (C66_piecewise radical_parses radical_reads (by decide) f1 hp' (junk := fun _ => 0) (fun _ => le_rfl) 43200 hnn) hF
    ((60 : ℚ) : ℝ) hB
  refine ⟨K, W, V, Λ, S, lam, X, Q, hbd, ?_, fun G δ η ε η' ε' times times' rows rows' hG hrun => ?_⟩
  · have hG : ∀ (t : ℝ) (z : Fin 10 → ℝ), ∃ o : Fin 10 → ℝ, t ∈ Set.Ico 0 ((60 : ℚ) : ℝ) → (∀ i, 0 ≤ z i ∧ z i ≤ B) →
        ∃ (r : ℝ) (junk env : Vals) (gas dy : ℕ → ℝ) (U : Ft.Unused radicalLayout) (g : Ft.Junk) (soa aw size : Ft.V),
        RoundedSum ieee ((ro2Indices (build radicalReactions).index).map (stateOf z)) r ∧ 0 ≤ r ∧
        EvRun ieee (ambient .fortran waterConst.temp (43200 + t) r 1000 junk)
          (kRateProgram ++ List.map (fun p => KStmt.asg (Backend.fortran.rateVar p.1) p.2) l) env ∧
        RoundedSlope .fortran 5 2 radicalFiles.reactants radicalFiles.lossGain
          (fun j => env (Backend.fortran.rateVar j)) (firstEntries 5 (stateOf z)) gas ∧
        RoundedPartition radicalFiles.partitioning g (Ft.callArgs radicalLayout 10 (partArgs radicalLayout waterConst (stateOf z)) U)
          [soa, aw, size, pyArray 10 dy] ∧
        ∀ i : Fin 10, ieee .double ((if (i : ℕ) < 5 then gas i else 0) + dy i) (o i) := by
      intro t z
      by_cases hc : t ∈ Set.Ico 0 ((60 : ℚ) : ℝ) ∧ ∀ i, 0 ≤ z i ∧ z i ≤ B
      · obtain ⟨ht, hz⟩ := hc
        have ht2 := ht.2
        push_cast at ht2
        have h12 : |43200 + t| ≤ (10 : ℝ) ^ 12 := abs_le.2 ⟨by linarith [ht.1], by linarith⟩
        have hy := stateOf_nonneg fun i => (hz i).1
        have hr : 0 ≤ ((ro2Indices (build radicalReactions).index).map (stateOf z)).sum :=
          List.sum_nonneg fun x hx => by obtain ⟨i, -, rfl⟩ := List.mem_map.1 hx; exact hy i
        obtain ⟨env, henv⟩ := C82_runs radical_parses radical_reads f1 f2 radical_kinds hp (T := waterConst.temp) (t := 43200 + t)
          (h2o := 1000) (by rw [htemp]; norm_num) hr (by norm_num) h12 fun _ => 0
        obtain ⟨gas, hgas⟩ := runnable_slope (lang := .fortran) (species := 5) (reactions := 2)
          (t₁ := radicalFiles.reactants) (t₂ := radicalFiles.lossGain) (by decide +kernel) (by decide +kernel)
          (fun j => env (Backend.fortran.rateVar j)) (firstEntries 5 (stateOf z))
        have U : Ft.Unused radicalLayout := ⟨List.replicate 6 0, [0, 0], 0, 0, 0, 0, 0, 0, 0, rfl, rfl⟩
        refine ⟨fun i => (if (i : ℕ) < 5 then gas i else 0) + partition radicalLayout (partArgs radicalLayout waterConst (stateOf z)) i,
          fun _ _ => ⟨_, fun _ => 0, env, gas, _, U, ⟨fun _ => 0, fun _ => 0, fun _ _ => 0, fun _ _ _ => 0⟩, _, _, _, ?_, hr, henv.mono fun p x y => exactly_ieee, hgas,
            C92_exact (date := []) (by simp) radicalLayout_good (by decide) (hC.running hy) U _, fun i => exactly_ieee rfl⟩⟩
        obtain ⟨i, hi⟩ : ∃ i, ro2Indices (build radicalReactions).index = [i] :=
          List.length_eq_one_iff.1 (by decide +kernel)
        rw [hi]
        simpa using RoundedSum.one (R := ieee) (stateOf z i)
      · exact ⟨fun _ => 0, fun h1 h2 => absurd ⟨h1, h2⟩ hc⟩
    choose G hG using hG
    exact ⟨G, fun t ht z hz => hG t z ht hz⟩
  · exact C95_runs (N := 2) radical_parses radical_reads radical_prints radical_orders (by decide +kernel) hns
      radicalLayout_good (by decide) (by decide) radicalFiles_written f1 hp hp'
      (junk := fun _ => 0) (fun _ => le_rfl) hnn (by rw [htemp]; norm_num) (by rw [htemp]; norm_num) (by norm_num) (by norm_num)
      (by norm_num) (by norm_num) (by norm_num) hF (fun z hz i => (hz i).1) hbd (by norm_num) (by norm_num) (by norm_num)
      radical_units (e' := 1e-6) (d' := 4.66e-7) (by push_cast; norm_num) (by push_cast; norm_num) radical_small hG hrun

end PyBox
