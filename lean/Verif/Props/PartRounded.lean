import Verif.Aerosol.RoundedConserve
import Verif.Aerosol.RoundedExact
import Verif.Props.PartitionText

/-!
# C92, C93: rounding in the generated partitioning routine

The text of `Partitioning.f90` (`/repo/Parse_eqn_file.py` 3418–3650), executed with rounding by one thread. The reader
does not record how literals are written, so every literal that single precision does not represent, `Pi` included, may
have an error of single precision; operations have double precision without limits on the exponent.
-/

namespace PyBox

open Aerosol Spec Rl

namespace Spec

/-- `out` may be returned by a call of the subroutine `dydt_partition` in a file, with rounding and one thread. -/
def RoundedPartition (file : Str) (g : Ft.Junk) (args out : List Ft.V) : Prop :=
  ∃ R, Ft.readRoutine "dydt_partition".toList file = some R ∧ R.RoundedCall g args out

/-- The exponent of Kelvin's factor for species `j` over particles of bin `b` with radius `r`. -/
noncomputable def kelvinExponent (L : Aerosol.Layout) (P : PartInput) (b j : ℕ) (r : ℝ) : ℝ :=
  4 * (P.mw (j + 1) / 1000) * P.sigma / (P.rGas * P.temp * (2 * r) * (binMass L P b / binVolume L P b))

/-- What condenses on particles of radius `r` plus what evaporates from them; the tendency is the difference. -/
noncomputable def exchange (L : Aerosol.Layout) (P : PartInput) (b j : ℕ) (r : ℝ) : ℝ :=
  4 * fPi * (r * 100) * P.nPerBin (b + 1) * P.dStar (j + 1) * fuchs (P.gamma (j + 1) / r) (P.alpha (j + 1))
    * (P.cgas (j + 1) + equilibrium L P b j r)

/-- Arguments of a run, with radii between `exp (-Λ)` and `exp Λ` metres and Kelvin exponents up to `X`. -/
structure TameInput (L : Aerosol.Layout) (P : PartInput) (Λ X : ℝ) : Prop where
  running : Running L P
  ycore : ∀ b < L.numBins, 0 ≤ P.ycore (b + 1)
  coreDiss : 0 ≤ P.coreDiss
  sigma : 0 ≤ P.sigma
  psat : ∀ j < L.numCond, 0 ≤ P.psat (j + 1)
  cgas : ∀ j < L.numCond, 0 ≤ P.cgas (j + 1)
  radius : ∀ b < L.numBins, ∀ r, IsRadius L P b r → Real.exp (-Λ) ≤ r ∧ r ≤ Real.exp Λ
  range : 0 ≤ X
  kelvin : ∀ b < L.numBins, ∀ j < L.numCond, ∀ r, IsRadius L P b r → kelvinExponent L P b j r ≤ X

/-- Relative errors: half a unit of single precision is `6e-8`, of double precision less than `3e-16`. -/
noncomputable def massError (n bins : ℕ) : ℝ := 6e-8 + (n + bins + 2) * 3e-16
noncomputable def activityError (n : ℕ) : ℝ := (n + 3) * 3e-16
noncomputable def radiusError (n : ℕ) (Λ : ℝ) : ℝ := 6e-8 + (3 * n + 20 + Λ) * 3e-16
noncomputable def exchangeError (n : ℕ) (Λ X : ℝ) : ℝ :=
  X * (Real.exp (1.2e-7 + (5 * n + 37 + Λ) * 3e-16) - 1) + 4.2e-7 + (13 * n + 111 + 4 * Λ) * 3e-16

/-- `y` differs from `x` by a factor of at most `exp e`. -/
def UpToFactor (e x y : ℝ) : Prop := x * Real.exp (-e) ≤ y ∧ y ≤ x * Real.exp e

/-- Results close to those of the exact routine. -/
structure CloseResults (L : Aerosol.Layout) (P : PartInput) (Λ X soa : ℝ) (aw size dy : ℕ → ℝ) : Prop where
  soa : UpToFactor (massError L.numCond L.numBins) (totalSoaMass L P) soa
  aw : ∀ b < L.numBins, UpToFactor (activityError L.numCond) (waterActivity L P (b + 1)) (aw b)
  size : ∀ b < L.numBins, ∀ r, IsRadius L P b r → UpToFactor (radiusError L.numCond Λ) r (size b)
  slot : ∀ b < L.numBins, ∀ j < L.numCond, ∀ r, IsRadius L P b r →
    |dy (L.numSpecies + b * L.numCond + j) - partition L P (L.numSpecies + b * L.numCond + j)| ≤
      (Real.exp (exchangeError L.numCond Λ X) - 1) * exchange L P b j r
  gas : ∀ (j : ℕ) (hj : j < L.incl.length) (r : ℕ → ℝ), (∀ b < L.numBins, IsRadius L P b (r b)) →
    |dy L.incl[j] - partition L P L.incl[j]| ≤
      (Real.exp (exchangeError L.numCond Λ X + (L.numBins + 1) * 3e-16) - 1) *
        ∑ b ∈ Finset.range L.numBins, exchange L P b j (r b)

end Spec

section

variable {L : Aerosol.Layout} {P : PartInput} {Λ X : ℝ}

theorem dmErr_eq (n : ℕ) (Λ X : ℝ) : Ft.dmErr n Λ X = exchangeError n Λ X := by
  unfold Ft.dmErr Ft.kelvinErr Ft.curvErr Ft.sizeErr exchangeError Ft.su Ft.du
  rw [show (6e-8 : ℝ) + (6e-8 + (3 * n + 20 + Λ) * 3e-16) + (2 * n + 17) * 3e-16 =
    1.2e-7 + (5 * n + 37 + Λ) * 3e-16 by ring]
  ring

theorem sizeErr_eq (n : ℕ) (Λ : ℝ) : Ft.sizeErr n Λ = radiusError n Λ := rfl

theorem tame_log (h : TameInput L P Λ X) {b : ℕ} (hb : b < L.numBins) : |Real.log (sizeArray L P (b + 1))| ≤ Λ := by
  have hp := h.running.bins b hb
  obtain ⟨h1, h2⟩ := h.radius b hb _ hp.size_isRadius
  rw [abs_le]
  exact ⟨(Real.le_log_iff_exp_le hp.size_pos).2 h1, (Real.log_le_iff_le_exp hp.size_pos).2 h2⟩

theorem tame_nice (h : TameInput L P Λ X) {b : ℕ} (h1 : 1 ≤ b) (h2 : b ≤ L.numBins) : Ft.Nice L P b Λ X := by
  obtain ⟨b, rfl⟩ : ∃ c, b = c + 1 := ⟨b - 1, by omega⟩
  have hb : b < L.numBins := by omega
  have hp := h.running.bins b hb
  have hm := hp.binMass_pos
  have hv := hp.binVolume_pos
  have hn := hp.number
  have hpi := fPi_pos
  have hd : 0 < density L P (b + 1) := by rw [density_eq]; positivity
  have hM : 0 < totalMass L P (b + 1) := by rw [totalMass_eq]; exact hm
  have all : ∀ {Q : ℕ → Prop}, (∀ j < L.numCond, Q (j + 1)) → ∀ i, 1 ≤ i → i ≤ L.numCond → Q i := by
    intro Q hQ i i1 i2
    obtain ⟨j, rfl⟩ : ∃ c, i = c + 1 := ⟨i - 1, by omega⟩
    exact hQ j (by omega)
  exact {
    conc := all (fun j hj => by rw [tempArray_eq]; exact hp.conc j hj)
    ycore := h.ycore b hb
    coreDiss := h.coreDiss
    coreMass := hp.core.le
    coreDensity := hp.coreRho.le
    nPerBin := hn.le
    densityInput := all (fun j hj => (hp.rho j hj).le)
    dStar := all (fun j hj => (hp.diff j hj).le)
    alpha := all (fun j hj => ⟨(hp.acc j hj).1.le, (hp.acc j hj).2⟩)
    gamma := all (fun j hj => (hp.path j hj).le)
    cgas := all h.cgas
    mw := all (fun j hj => (hp.mw j hj).le)
    psat := all h.psat
    sigma := h.sigma
    na := hp.na.le
    rGas := h.running.gas.le
    temp := h.running.temp.le
    base := by positivity
    size := tame_log h hb
    kelvin := all (fun j hj => by
      have := h.kelvin b hb j hj _ hp.size_isRadius
      unfold kelvinExponent at this
      rw [density_eq]
      refine le_trans (le_of_eq ?_) this
      rw [show 4 * P.mw (j + 1) * 0.001 * P.sigma = 4 * (P.mw (j + 1) / 1000) * P.sigma by ring,
        show P.rGas * P.temp * sizeArray L P (b + 1) * 2 = P.rGas * P.temp * (2 * sizeArray L P (b + 1)) by ring]) }

theorem tame_range (h : TameInput L P Λ X) (hb : 0 < L.numBins) : 0 ≤ Λ := (abs_nonneg _).trans (tame_log h hb)

theorem dmSize_eq (h : TameInput L P Λ X) {b j : ℕ} (hb : b < L.numBins) {r : ℝ} (hr : IsRadius L P b r) :
    Ft.dmSize L P (b + 1) (j + 1) = exchange L P b j r := by
  unfold Ft.dmSize exchange
  rw [kTransfer, kPart1, correction_eq, cStar_eq, knudsen, (h.running.bins b hb).size_eq hr]
  ring

theorem within_ratio {e x y : ℝ} (h : Ratio e x y) : UpToFactor e x y := h.2.2

/-- C92: whatever the rounding errors, a call returns results close to those of exact arithmetic. The tendencies are
exact up to a small fraction of the exchange, which is larger than the tendency near equilibrium. -/
theorem C92_results {date : Str} (hd : '\n' ∉ date) (hL : GoodLayout L) (hc : 1 ≤ L.numCond) (hb : 1 ≤ L.numBins)
    (h : TameInput L P Λ X) (U : Ft.Unused L) (g : Ft.Junk) {out : List Ft.V}
    (ho : RoundedPartition (Ft.partText date L (L.numSpecies + L.numBins * L.numCond)) g
      (Ft.callArgs L (L.numSpecies + L.numBins * L.numCond) P U) out) :
    ∃ soa aw size dy, out = [.real soa, pyArray L.numBins aw, pyArray L.numBins size,
        pyArray (L.numSpecies + L.numBins * L.numCond) dy] ∧ CloseResults L P Λ X soa aw size dy := by
  obtain ⟨R, hR, ho⟩ := ho
  rw [Ft.read_part hd] at hR
  cases hR
  obtain ⟨F, hs⟩ := good_fits hL hc
  have hΛ := tame_range h (by omega)
  have hE : 0 ≤ Ft.dmErr L.numCond Λ X := by
    have hX := h.range
    rw [dmErr_eq]
    unfold exchangeError
    have : 0 ≤ Real.exp (1.2e-7 + (5 * L.numCond + 37 + Λ) * 3e-16) - 1 := exp_sub_one_nonneg (by positivity)
    positivity
  obtain ⟨soa, aw, size, D, rfl, r1, r2, r3, r4, r5⟩ := Ft.part_rounded F hs hE (fun b => tame_nice h) U ho
  have hsz : ∀ {b r}, b < L.numBins → IsRadius L P b r → sizeArray L P (b + 1) = r :=
    fun hb hr => (h.running.bins _ hb).size_eq hr
  refine ⟨soa, fun b => aw (b + 1), fun b => size (b + 1), fun i => D (i + 1), rfl, within_ratio r1,
    fun b hb => within_ratio (r2 (b + 1) (by omega) (by omega)), fun b hb r hr => ?_, fun b hb j hj r hr => ?_,
    fun j hj r hr => ?_⟩
  · have := within_ratio (r3 (b + 1) (by omega) (by omega))
    rwa [hsz hb hr] at this
  · have := (r4 b hb j hj).dist
    rwa [dmErr_eq, dmSize_eq h hb hr, ← partition_slot L P b j hb hj] at this
  · have hv := hL.valid _ (List.getElem_mem hj)
    have := (r5 (L.incl[j] + 1) (by omega) (by omega)).dist
    have e1 : -fsum L.numBins (fun a => gasColumn L.incl (dmDt L P a) (L.incl[j] + 1)) = partition L P L.incl[j] :=
      (partition_gas L P _ hv).symm
    have e2 : Ft.gasSize L P (L.incl[j] + 1) = ∑ b ∈ Finset.range L.numBins, exchange L P b j (r b) := by
      unfold Ft.gasSize fsum
      refine Finset.sum_congr rfl (fun b hb => ?_)
      rw [Finset.mem_range] at hb
      dsimp only
      rw [gasColumn_get _ _ hL.nodup, dmSize_eq h hb (hr b hb)]
    rwa [e1, e2, dmErr_eq] at this

/-- C93: whatever the arguments and the rounding errors, what a call takes from the gas of a condensing species it puts
into the bins, up to the error of one sum in double precision; the other gases do not change. -/
theorem C93_conserved {date : Str} (hd : '\n' ∉ date) (hL : GoodLayout L) (hc : 1 ≤ L.numCond) (U : Ft.Unused L)
    (g : Ft.Junk) {out : List Ft.V}
    (ho : RoundedPartition (Ft.partText date L (L.numSpecies + L.numBins * L.numCond)) g
      (Ft.callArgs L (L.numSpecies + L.numBins * L.numCond) P U) out) :
    ∃ soa aw size dy, out = [.real soa, pyArray L.numBins aw, pyArray L.numBins size,
        pyArray (L.numSpecies + L.numBins * L.numCond) dy] ∧
      (∀ s < L.numSpecies, s ∉ L.incl → dy s = 0) ∧
      ∀ (j : ℕ) (hj : j < L.incl.length),
        |dy L.incl[j] + ∑ b ∈ Finset.range L.numBins, dy (L.numSpecies + b * L.numCond + j)| ≤
          (Real.exp ((L.numBins + 1) * 3e-16) - 1) *
            ∑ b ∈ Finset.range L.numBins, |dy (L.numSpecies + b * L.numCond + j)| := by
  obtain ⟨R, hR, ho⟩ := ho
  rw [Ft.read_part hd] at hR
  cases hR
  obtain ⟨F, hs⟩ := good_fits hL hc
  obtain ⟨soa, aw, size, D, rfl, r1, r2⟩ := Ft.part_raw F hs U ho
  refine ⟨soa, fun b => aw (b + 1), fun b => size (b + 1), fun i => D (i + 1), rfl, fun s hs hn =>
    r1 (s + 1) (by omega) (by omega) (by simpa using hn), fun j hj => ?_⟩
  have := (r2 hL.nodup j hj).dist
  rwa [sub_neg_eq_add] at this

/-- C92: the exact results are among the possible ones, so the theorem is about calls that exist. -/
theorem C92_exact {date : Str} (hd : '\n' ∉ date) (hL : GoodLayout L) (hc : 1 ≤ L.numCond) (h : Running L P)
    (U : Ft.Unused L) (g : Ft.Junk) :
    RoundedPartition (Ft.partText date L (L.numSpecies + L.numBins * L.numCond)) g
      (Ft.callArgs L (L.numSpecies + L.numBins * L.numCond) P U)
      [.real (totalSoaMass L P), pyArray L.numBins (fun b => waterActivity L P (b + 1)),
        pyArray L.numBins (fun b => sizeArray L P (b + 1)),
        pyArray (L.numSpecies + L.numBins * L.numCond) (partition L P)] := by
  have := C71_one_thread (strict := True) (thr := fun _ => 0) (tr := Ft.allEvents (passLength L) 1 L.numBins)
    hd hL hc (fun _ => h) U g (fun _ => g) (fun _ => rfl) (fun _ => rfl)
  unfold callPartition at this
  rw [Ft.read_part hd, Option.bind_some] at this
  exact ⟨_, Ft.read_part hd _ _, Ft.call_exact this⟩

/-! ## Numbers -/

theorem exchangeError_le {n : ℕ} {Λ X : ℝ} (hn : n ≤ 10 ^ 6) (hΛ : Λ ≤ 100) (h0 : 0 ≤ X) (hX : X ≤ 1) :
    exchangeError n Λ X ≤ 5.6e-7 := by
  have hn' : (n : ℝ) ≤ 10 ^ 6 := by exact_mod_cast hn
  have h1 : 1.2e-7 + (5 * n + 37 + Λ) * 3e-16 ≤ (1.22e-7 : ℝ) := by nlinarith
  have h2 : Real.exp (1.2e-7 + (5 * n + 37 + Λ) * 3e-16) ≤ 1 + 1.23e-7 := by
    refine (Real.exp_le_exp.2 h1).trans ?_
    have := Real.exp_bound_div_one_sub_of_interval (x := 1.22e-7) (by norm_num) (by norm_num)
    refine this.trans ?_
    norm_num
  unfold exchangeError
  have h3 : X * (Real.exp (1.2e-7 + (5 * n + 37 + Λ) * 3e-16) - 1) ≤ 1.23e-7 := by
    have := mul_le_mul_of_nonneg_left (show Real.exp (1.2e-7 + (5 * n + 37 + Λ) * 3e-16) - 1 ≤ 1.23e-7 by linarith) h0
    linarith
  nlinarith

theorem exp_micro {e : ℝ} (h : e ≤ 9e-7) : Real.exp e - 1 ≤ 1e-6 := by
  have h1 := Real.exp_le_exp.2 h
  have h2 := Real.exp_bound_div_one_sub_of_interval (x := 9e-7) (by norm_num) (by norm_num)
  have h3 : 1 / (1 - 9e-7 : ℝ) ≤ 1 + 1e-6 := by norm_num
  linarith

theorem exchange_nonneg (h : TameInput L P Λ X) {b j : ℕ} (hb : b < L.numBins) (hj : j < L.numCond) {r : ℝ}
    (hr : IsRadius L P b r) : 0 ≤ exchange L P b j r := by
  have hp := h.running.bins b hb
  have hrp : 0 < r := hp.size_eq hr ▸ hp.size_pos
  have h1 := (C40_between (P.gamma (j + 1) / r) (P.alpha (j + 1))
      (div_pos (hp.path j hj) hrp) (hp.acc j hj).1 (hp.acc j hj).2).1
  have h2 := fPi_pos
  have h3 := hp.number
  have h4 := hp.diff j hj
  have h5 := h.cgas j hj
  have h6 : 0 ≤ equilibrium L P b j r := by
    have k1 := hp.conc j hj
    have k2 := h.running.moles b hb
    have k3 := h.psat j hj
    have k4 := hp.na
    have k5 := h.running.temp
    unfold equilibrium
    dsimp only
    positivity
  unfold exchange
  positivity

/-- C92 in numbers: up to a million species and bins, radii from `exp (-100)` to `exp 100` metres and Kelvin factors up
to `e`, the tendencies are exact up to a millionth of the exchange. -/
theorem C92_small {soa : ℝ} {aw size dy : ℕ → ℝ} (hL : GoodLayout L) (hn : L.numCond ≤ 10 ^ 6) (hb : L.numBins ≤ 10 ^ 6)
    (h : TameInput L P 100 1) (hr : CloseResults L P 100 1 soa aw size dy) :
    (∀ b < L.numBins, ∀ j < L.numCond, ∀ r, IsRadius L P b r →
      |dy (L.numSpecies + b * L.numCond + j) - partition L P (L.numSpecies + b * L.numCond + j)| ≤
        1e-6 * exchange L P b j r) ∧
    ∀ (j : ℕ) (hj : j < L.incl.length) (r : ℕ → ℝ), (∀ b < L.numBins, IsRadius L P b (r b)) →
      |dy L.incl[j] - partition L P L.incl[j]| ≤ 1e-6 * ∑ b ∈ Finset.range L.numBins, exchange L P b j (r b) := by
  have hE := exchangeError_le hn (le_refl 100) zero_le_one (le_refl 1)
  have hb' : (L.numBins : ℝ) ≤ 10 ^ 6 := by exact_mod_cast hb
  refine ⟨fun b hb j hj r h1 => (hr.slot b hb j hj r h1).trans ?_, fun j hj r h1 => (hr.gas j hj r h1).trans ?_⟩
  · exact mul_le_mul_of_nonneg_right (exp_micro (by linarith)) (exchange_nonneg h hb hj h1)
  · refine mul_le_mul_of_nonneg_right (exp_micro ?_) (Finset.sum_nonneg (fun b hb => exchange_nonneg h
      (Finset.mem_range.1 hb) (hL.len ▸ hj) (h1 b (Finset.mem_range.1 hb))))
    nlinarith

/-- C93 in numbers: with up to a thousand bins, nothing is lost or gained beyond a part in `10^12`. -/
theorem C93_small (hb : L.numBins ≤ 1000) {x m : ℝ} (hm : 0 ≤ m)
    (h : |x| ≤ (Real.exp ((L.numBins + 1) * 3e-16) - 1) * m) : |x| ≤ 1e-12 * m := by
  refine h.trans (mul_le_mul_of_nonneg_right ?_ hm)
  have hb' : (L.numBins : ℝ) ≤ 1000 := by exact_mod_cast hb
  have h1 := Real.exp_le_exp.2 (show ((L.numBins : ℝ) + 1) * 3e-16 ≤ 4e-13 by linarith)
  have h2 := Real.exp_bound_div_one_sub_of_interval (x := 4e-13) (by norm_num) (by norm_num)
  have h3 : 1 / (1 - 4e-13 : ℝ) ≤ 1 + 1e-12 := by norm_num
  linarith

/-- C92: the routine decides rightly between condensation and evaporation unless the gas is within a millionth of
equilibrium. -/
theorem C92_direction {soa : ℝ} {aw size dy : ℕ → ℝ} (hL : GoodLayout L) (hn : L.numCond ≤ 10 ^ 6)
    (hb : L.numBins ≤ 10 ^ 6) (h : TameInput L P 100 1) (hr : CloseResults L P 100 1 soa aw size dy) {b j : ℕ}
    (hb' : b < L.numBins) (hj : j < L.numCond) {r : ℝ} (hrad : IsRadius L P b r) :
    (1.000003 * equilibrium L P b j r < P.cgas (j + 1) → 0 < dy (L.numSpecies + b * L.numCond + j)) ∧
    (1.000003 * P.cgas (j + 1) < equilibrium L P b j r → dy (L.numSpecies + b * L.numCond + j) < 0) := by
  have h1 := (C92_small hL hn hb h hr).1 b hb' j hj r hrad
  have hp := h.running.bins b hb'
  have hrp : 0 < r := hp.size_eq hrad ▸ hp.size_pos
  rw [C39_rate L P b j hb' hj hp r hrad] at h1
  have hk : 0 < 4 * fPi * (r * 100) * P.nPerBin (b + 1) * P.dStar (j + 1)
          * fuchs (P.gamma (j + 1) / r) (P.alpha (j + 1)) := by
    have h1 := (C40_between (P.gamma (j + 1) / r) (P.alpha (j + 1))
      (div_pos (hp.path j hj) hrp) (hp.acc j hj).1 (hp.acc j hj).2).1
    have h2 := fPi_pos
    have h3 := hp.number
    have h4 := hp.diff j hj
    positivity
  unfold exchange at h1
  set k := 4 * fPi * (r * 100) * P.nPerBin (b + 1) * P.dStar (j + 1) * fuchs (P.gamma (j + 1) / r) (P.alpha (j + 1))
  set c := P.cgas (j + 1)
  set q := equilibrium L P b j r
  have hc : 0 ≤ c := h.cgas j hj
  have hq : 0 ≤ q := by
    have k1 := hp.conc j hj
    have k2 := h.running.moles b hb'
    have k3 := h.psat j hj
    have k4 := hp.na
    have k5 := h.running.temp
    simp only [q]
    unfold equilibrium
    dsimp only
    positivity
  rw [abs_le] at h1
  obtain ⟨h1, h2⟩ := h1
  constructor
  · intro h3
    have : 0 < k * ((c - q) - 1e-6 * (c + q)) := mul_pos hk (by nlinarith)
    nlinarith
  · intro h3
    have : 0 < k * ((q - c) - 1e-6 * (c + q)) := mul_pos hk (by nlinarith)
    nlinarith

end

/-! ## A case that meets the hypotheses -/

theorem dry_radius {b : ℕ} (hb : b < 2) {r : ℝ} (hr : IsRadius sampleLayout dryInput b r) : 0.1 ≤ r ∧ r ≤ 1 := by
  obtain ⟨h0, h⟩ := hr
  have hV : 100 ≤ binVolume sampleLayout dryInput b ∧ binVolume sampleLayout dryInput b ≤ 1000 := by
    unfold binVolume
    rcases (by omega : b = 0 ∨ b = 1) with rfl | rfl <;>
      norm_num [sampleLayout, dryInput, sampleInput, mass, conc, Finset.sum_range_succ]
  have hN : dryInput.nPerBin (b + 1) = 1 := rfl
  rw [hN] at h
  unfold fPi at h
  constructor
  · by_contra hlt
    push Not at hlt
    have : r ^ 3 ≤ 0.1 ^ 3 := pow_le_pow_left₀ h0 hlt.le 3
    nlinarith
  · by_contra hlt
    push Not at hlt
    have : (1 : ℝ) ^ 3 ≤ r ^ 3 := pow_le_pow_left₀ (by norm_num) hlt.le 3
    nlinarith

theorem dryInput_tame : TameInput sampleLayout dryInput 100 1 where
  running := dryInput_running
  ycore := fun _ _ => by norm_num [dryInput, sampleInput]
  coreDiss := by norm_num [dryInput, sampleInput]
  sigma := by norm_num [dryInput, sampleInput]
  psat := fun _ _ => by norm_num [dryInput, sampleInput]
  cgas := fun j _ => by show (0 : ℝ) ≤ ((j + 1 : ℕ) : ℝ); positivity
  radius := fun b hb r hr => by
    obtain ⟨h1, h2⟩ := dry_radius hb hr
    have h3 := Real.add_one_le_exp 100
    refine ⟨?_, by linarith⟩
    rw [Real.exp_neg]
    refine (inv_anti₀ (by norm_num) h3).trans (le_trans ?_ h1)
    norm_num
  range := zero_le_one
  kelvin := fun b hb j _ r hr => by
    obtain ⟨h1, h2⟩ := dry_radius hb hr
    have hV : binMass sampleLayout dryInput b / binVolume sampleLayout dryInput b = 1 := by
      unfold binVolume binMass
      rcases (by have : b < 2 := hb; omega : b = 0 ∨ b = 1) with rfl | rfl <;>
        norm_num [sampleLayout, dryInput, sampleInput, mass, conc, Finset.sum_range_succ]
    unfold kelvinExponent
    rw [hV]
    norm_num [dryInput, sampleInput]
    rw [div_le_one (by positivity)]
    linarith

/-- The hypotheses of `C92_results` hold together, and there are calls. -/
example (date : Str) (hd : '\n' ∉ date) (U : Ft.Unused sampleLayout) (g : Ft.Junk) :
    ∃ out, RoundedPartition (Ft.partText date sampleLayout 7) g (Ft.callArgs sampleLayout 7 dryInput U) out ∧
      ∃ soa aw size dy, out = [.real soa, pyArray 2 aw, pyArray 2 size, pyArray 7 dy] ∧
        CloseResults sampleLayout dryInput 100 1 soa aw size dy ∧ 0 < dy 3 := by
  have hL : GoodLayout sampleLayout := ⟨rfl, by decide, by decide⟩
  have h := C92_exact (P := dryInput) hd hL (by decide) dryInput_running U g
  obtain ⟨soa, aw, size, dy, h1, h2⟩ := C92_results hd hL (by decide) (by decide) dryInput_tame U g h
  refine ⟨_, h, soa, aw, size, dy, h1, h2, ?_⟩
  have hr := (C39_radius _ _ 0 (dryInput_physical 0)).1
  refine (C92_direction hL (by decide) (by decide) dryInput_tame h2 (b := 0) (j := 0) (by decide) (by decide) hr).1 ?_
  have : equilibrium sampleLayout dryInput 0 0 (sizeArray sampleLayout dryInput (0 + 1)) = 0 := by
    unfold equilibrium
    simp [dryInput]
  rw [this]
  norm_num [dryInput, sampleInput]

/-- The hypotheses of `C93_conserved` hold together. -/
example (date : Str) (hd : '\n' ∉ date) (U : Ft.Unused sampleLayout) (g : Ft.Junk) :
    ∃ dy : ℕ → ℝ, dy 1 = 0 ∧ |dy 0 + (dy 3 + dy 5)| ≤ 1e-12 * (|dy 3| + |dy 5|) := by
  have hL : GoodLayout sampleLayout := ⟨rfl, by decide, by decide⟩
  have h := C92_exact (P := dryInput) hd hL (by decide) dryInput_running U g
  obtain ⟨soa, aw, size, dy, -, h1, h2⟩ := C93_conserved hd hL (by decide) U g h
  have h3 := C93_small (L := sampleLayout) (by decide) (Finset.sum_nonneg (fun _ _ => abs_nonneg _)) (h2 0 (by decide))
  refine ⟨dy, h1 1 (by decide) (by decide), ?_⟩
  simpa [sampleLayout, Finset.sum_range_succ] using h3

end PyBox
