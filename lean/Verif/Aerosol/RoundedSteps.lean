import Verif.Aerosol.Approx
import Verif.Aerosol.PartLoop
import Verif.Gen.Rounded

/-!
# Rounding errors of the statements of the partitioning loop
-/

namespace PyBox
namespace Ft

open Aerosol Rl Spec

/-! ### Assignments -/

section

variable {σ : Store} {x n : ℕ} {e i : Ex} {c : ℝ} {g : ℕ → ℝ} {w v : V}

theorem assign_all {f : ℕ → ℝ} (hx : (σ x).shape = .arr n) (h : (Target.all x).assign True σ (.arr (vec n f)) = some v) :
    v = .arr (vec n f) := by
  obtain ⟨k, hk⟩ := shape_arr hx
  simpa [Target.assign, hk, eq_comm] using h

theorem round_all (hx : (σ x).shape = .arr n) (he : Approx σ (some n) e c g) (hw : e.Rounded σ w)
    (hv : (Target.all x).assign True σ w = some v) : Holds (some n) v c g := by
  obtain ⟨f, hf, hg⟩ := he w hw
  cases hf
  exact ⟨f, assign_all hx hv, hg⟩

theorem round_var (hx : (σ x).shape = .real) (he : Approx σ none e c g) (hw : e.Rounded σ w)
    (hv : (Target.var x).assign True σ w = some v) : Holds none v c g := by
  obtain ⟨f, ⟨y, rfl, rfl⟩, hg⟩ := he w hw
  obtain ⟨z, hz⟩ := shape_real hx
  refine ⟨_, ⟨y, ?_, rfl⟩, hg⟩
  simpa [Target.assign, hz, V.num, eq_comm] using hv

theorem assign_elem {f : ℕ → ℝ} {k : ℕ} {y : ℝ} (hx : σ x = .arr (vec n f)) (hi : i.val True σ = some (.int k))
    (h1 : 1 ≤ k) (h2 : k ≤ n) : (Target.elem x i).assign True σ (.real y) = some (.arr (vec n (Function.update f k y))) := by
  have := inside_nat h1 h2
  simp only [Target.assign, hx, hi, V.num, Option.bind_some, vec_length, if_pos this, Int.toNat_natCast, vec_set h1]

theorem round_elem {f : ℕ → ℝ} {k : ℕ} (hx : σ x = .arr (vec n f)) (hi : i.val True σ = some (.int k))
    (h1 : 1 ≤ k) (h2 : k ≤ n) (he : Approx σ none e c g) (hw : e.Rounded σ w)
    (hv : (Target.elem x i).assign True σ w = some v) :
    ∃ y, v = .arr (vec n (Function.update f k y)) ∧ ∀ j, Ratio c (g j) y := by
  obtain ⟨f, ⟨y, rfl, rfl⟩, hg⟩ := he w hw
  have := (assign_elem hx hi h1 h2).symm.trans hv
  cases this
  exact ⟨y, rfl, fun j => hg j trivial⟩

theorem assign_sec {f k : ℕ → ℝ} {a c m : ℕ} {p q : Ex}
    (hx : σ x = .arr (vec n f)) (hp : p.val True σ = some (.int a)) (hq : q.val True σ = some (.int c))
    (h1 : 1 ≤ a) (h2 : c ≤ n) (h3 : a ≤ c) (hm : m = c + 1 - a) :
    (Target.sec x p q).assign True σ (.arr (vec m k)) =
      some (.arr (vec n (fun i => if a ≤ i ∧ i ≤ c then k (i - a + 1) else f i))) := by
  have hn : ¬ ((c : ℤ) < (a : ℤ)) := by omega
  simp only [Target.assign, hx, hp, hq, Option.bind_some, vec_section h1 h2 (by omega : a ≤ c + 1), vec_length,
    ← hm, if_true, if_neg hn, Int.toNat_natCast, vec_assign h1 h2 hm (by omega : a ≤ c + 1)]

theorem approx_read {f : ℕ → ℝ} {k : ℕ} (hx : σ x = .arr (vec n f)) (hi : i.val True σ = some (.int k)) (h1 : 1 ≤ k)
    (h2 : k ≤ n) (h0 : 0 ≤ f k) : Approx σ none (.elem x i) 0 (fun _ => f k) := by
  intro v hv
  cases (val_elem (strict := True) hx hi h1 h2).symm.trans hv
  exact ⟨_, ⟨_, rfl, rfl⟩, fun _ _ => Ratio.refl h0⟩

/-- A difference of a literal and numbers not above it. -/
theorem approx_sub_one (hx : σ x = .arr (vec n g)) (h1 : ∀ i, 1 ≤ i → i ≤ n → g i ≤ 1) :
    Approx σ (some n) (.sub (.real 1) (.all x)) du (fun i => 1 - g i) := by
  rintro v ⟨u, w, ⟨y, rfl, -, hy⟩, hw, ho⟩
  have := (val_all (strict := True) hx).symm.trans hw
  cases this
  obtain ⟨r, hr, h⟩ := op_int (s := none) (t := some n) ⟨y, rfl, rfl⟩ rfl (by rintro _ _ ⟨⟩) ho
  refine ⟨r, hr, fun i hi => ?_⟩
  have h := h i hi
  rw [hy ⟨1, 0, by norm_num [Prec.bits], by norm_num, by norm_num⟩] at h
  push_cast at h
  exact round_du (by linarith [h1 i hi.1 hi.2]) h

end

/-! ### What is known during a pass -/

/-- Arguments that are not negative, a particle radius between `exp (-Λ)` and `exp Λ`, exponents of the Kelvin factor up
to `X`. -/
structure Nice (L : Aerosol.Layout) (P : PartInput) (b : ℕ) (Λ X : ℝ) : Prop where
  conc : ∀ i, 1 ≤ i → i ≤ L.numCond → 0 ≤ tempArray L P b i
  ycore : 0 ≤ P.ycore b
  coreDiss : 0 ≤ P.coreDiss
  coreMass : 0 ≤ P.coreMass b
  coreDensity : 0 ≤ P.coreDensity b
  nPerBin : 0 ≤ P.nPerBin b
  densityInput : ∀ i, 1 ≤ i → i ≤ L.numCond → 0 ≤ P.densityInput i
  dStar : ∀ i, 1 ≤ i → i ≤ L.numCond → 0 ≤ P.dStar i
  alpha : ∀ i, 1 ≤ i → i ≤ L.numCond → 0 ≤ P.alpha i ∧ P.alpha i ≤ 1
  gamma : ∀ i, 1 ≤ i → i ≤ L.numCond → 0 ≤ P.gamma i
  cgas : ∀ i, 1 ≤ i → i ≤ L.numCond → 0 ≤ P.cgas i
  mw : ∀ i, 1 ≤ i → i ≤ L.numCond → 0 ≤ P.mw i
  psat : ∀ i, 1 ≤ i → i ≤ L.numCond → 0 ≤ P.psat i
  sigma : 0 ≤ P.sigma
  na : 0 ≤ P.na
  rGas : 0 ≤ P.rGas
  temp : 0 ≤ P.temp
  base : 0 < (3 * (totalMass L P b * 1000 / (P.nPerBin b * 1000000))) / (4 * fPi * density L P b)
  size : |Real.log (sizeArray L P b)| ≤ Λ
  kelvin : ∀ i, 1 ≤ i → i ≤ L.numCond → (4 * P.mw i * 0.001 * P.sigma) /
    (P.rGas * P.temp * sizeArray L P b * 2 * density L P b) ≤ X

/-- Errors. -/
noncomputable def sizeErr (n : ℕ) (Λ : ℝ) : ℝ := su + (3 * n + 20 + Λ) * du
noncomputable def curvErr (n : ℕ) (Λ : ℝ) : ℝ := su + sizeErr n Λ + (2 * n + 17) * du
noncomputable def kelvinErr (n : ℕ) (Λ X : ℝ) : ℝ := X * (Real.exp (curvErr n Λ) - 1) + du
noncomputable def dmErr (n : ℕ) (Λ X : ℝ) : ℝ := kelvinErr n Λ X + 3 * su + 4 * sizeErr n Λ + (n + 30) * du

variable (L : Aerosol.Layout) (P : PartInput) (b : ℕ) (Λ X : ℝ)

/-- The size of the mass transfer in both directions. -/
noncomputable def dmSize (i : ℕ) : ℝ := kTransfer L P b i * (P.cgas i + cStar L P b i)

/-- What is known about the variable a statement assigns to, in pass `b`. -/
def RFact : ℕ → V → Prop
  | 0, v => v = .int b
  | 1, v => v = .arr (vec L.numCond (tempArray L P b))
  | 2, v => Holds none v ((L.numCond + 2) * du) (fun _ => totalMoles L P b)
  | 3, v => Holds (some L.numCond) v ((L.numCond + 3) * du) (moleFraction L P b)
  | 4, v => ∃ f, v = .arr (vec (L.numCond + 1) f) ∧ ∀ i, 1 ≤ i → i ≤ L.numCond → Ratio (2 * du) (massArray L P b i) (f i)
  | 5, v => Holds (some (L.numCond + 1)) v (2 * du) (massArray L P b)
  | 6, v => ∃ f, v = .arr (vec (L.numCond + 1) f) ∧ ∀ i, 1 ≤ i → i ≤ L.numCond → f i = densityArray L P b i
  | 7, v => v = .arr (vec (L.numCond + 1) (densityArray L P b))
  | 11, v => Holds none v ((L.numCond + 3) * du) (fun _ => totalMass L P b)
  | 12, v => Holds (some (L.numCond + 1)) v ((L.numCond + 6) * du) (massFraction L P b)
  | 13, v => Holds none v ((2 * L.numCond + 9) * du) (fun _ => density L P b)
  | 14, v => ∃ f, v = .arr (vec L.numBins f) ∧ Ratio (sizeErr L.numCond Λ) (sizeArray L P b) (f b)
  | 15, v => Holds (some L.numCond) v (sizeErr L.numCond Λ + du) (knudsen L P b)
  | 16, v => Holds (some L.numCond) v (sizeErr L.numCond Λ + 2 * du) (inverseKn L P b)
  | 17, v => Holds (some L.numCond) v (su + 2 * sizeErr L.numCond Λ + 8 * du) (correction1 L P b)
  | 18, v => Holds (some L.numCond) v (4 * du) (correction2 P)
  | 19, v => Holds (some L.numCond) v (su + 3 * sizeErr L.numCond Λ + 12 * du) (correction3 L P b)
  | 20, v => Holds (some L.numCond) v (su + 3 * sizeErr L.numCond Λ + 13 * du) (correction L P b)
  | 21, v => Holds (some L.numCond) v (kelvinErr L.numCond Λ X) (kelvin L P b)
  | 22, v => Holds (some L.numCond) v (kelvinErr L.numCond Λ X + (L.numCond + 6) * du) (pressureEq L P b)
  | 23, v => Holds (some L.numCond) v (kelvinErr L.numCond Λ X + su + (L.numCond + 9) * du) (cStar L P b)
  | 24, v => Holds (some L.numCond) v (su + 3 * sizeErr L.numCond Λ + 14 * du) (kPart1 L P b)
  | 25, v => Holds (some L.numCond) v (2 * su + 4 * sizeErr L.numCond Λ + 19 * du) (kTransfer L P b)
  | 26, v => ∃ f, v = .arr (vec L.numCond f) ∧ ∀ i, 1 ≤ i → i ≤ L.numCond →
      Near (dmErr L.numCond Λ X) (dmSize L P b i) (dmDt L P b i) (f i)
  | _, _ => True

/-- After statement `k`. -/
def RKnown (k : ℕ) (σ : Store) : Prop := ∀ j ≤ k, j ≤ 26 → RFact L P b Λ X j (σ (target j))

/-- The situation in a pass. -/
structure RCtx (total : ℕ) (σ : Store) : Prop where
  I : Inputs L P total (Function.update σ 59 (.real fPi))
  pi : Holds none (σ 59) su (fun _ => fPi)
  T : Typed L total σ
  lo : 1 ≤ b
  hi : b ≤ L.numBins
  size : total = L.numSpecies + L.numBins * L.numCond
  cond : 1 ≤ L.numCond
  N : Nice L P b Λ X

/-- The result of a statement. -/
def Gives (k : ℕ) (σ : Store) (v : V) : Prop :=
  ∃ w, (stmtAt k).rhs.Rounded σ w ∧ (stmtAt k).target.assign True σ w = some v

section Pass

variable {L P b Λ X} {total : ℕ} {σ : Store} {v : V}

theorem exact_nat {k : ℕ} (h : k ≤ 2 ^ 24 := by norm_num) : Exact .single (k : ℚ) :=
  ⟨k, 0, by simpa [Prec.bits] using (by exact_mod_cast h : (k : ℤ) ≤ 2 ^ 24), by norm_num, by simp⟩

theorem approx_nat (k : ℕ) (h : k ≤ 2 ^ 24 := by norm_num) : Approx σ none (.real k) 0 (fun _ => (k : ℝ)) :=
  approx_exact (exact_nat h) (by simp) (Nat.cast_nonneg _)

theorem approx_whole {q : ℚ} {x : ℝ} (k : ℕ) (hq : q = k) (hx : x = k) (h : k ≤ 2 ^ 24) :
    Approx σ none (.real q) 0 (fun _ => x) := by
  subst hq hx
  exact approx_nat k h

theorem compat_nl {t : Option ℕ} : Compat none t := by rintro _ _ ⟨⟩
theorem compat_ln {t : Option ℕ} : Compat t none := by rintro _ _ _ ⟨⟩
theorem compat_self {t : Option ℕ} : Compat t t := by rintro _ _ h h'; exact Option.some.inj (h.symm.trans h')

variable (c : RCtx L P b Λ X total σ)

include c

theorem RCtx.errs : 0 ≤ Λ ∧ 0 ≤ sizeErr L.numCond Λ := by
  have h := (abs_nonneg _).trans c.N.size
  have := du_nonneg
  have := su_nonneg
  refine ⟨h, ?_⟩
  unfold sizeErr
  positivity

theorem RCtx.species : σ 60 = .int L.numSpecies := c.I.species
theorem RCtx.ncond : σ 61 = .int L.numCond := c.I.cond

theorem RCtx.first (h0 : σ 56 = .int b) :
    (Ex.add (.add (.var 60) (.int 1)) (.mul (.sub (.var 56) (.int 1)) (.var 61))).val True σ =
      some (.int (firstIndex L b : ℕ)) := by
  simp only [Ex.val, c.species, c.ncond, h0, Option.bind_some, arith_ints, firstIndex]
  congr 2
  push_cast [c.lo]
  ring

theorem RCtx.last (h0 : σ 56 = .int b) :
    (Ex.add (.var 60) (.mul (.var 56) (.var 61))).val True σ = some (.int (lastIndex L b : ℕ)) := by
  simp only [Ex.val, c.species, c.ncond, h0, Option.bind_some, arith_ints, lastIndex]
  congr 2

theorem rstep1 (K : RKnown L P b Λ X 0 σ) (h : Gives 1 σ v) : RFact L P b Λ X 1 v := by
  have h0 : σ 56 = .int b := K 0 (by omega) (by omega)
  obtain ⟨w, hw, hv⟩ := h
  have hs := val_sec (strict := True) (show σ 0 = _ from c.I.y) (c.first h0) (c.last h0)
    (by unfold firstIndex; omega) (last_le c.hi c.size) (first_le c.lo)
  rw [last_first c.lo] at hs
  cases hs.symm.trans hw
  exact assign_all (typed_get c.T 50 rfl) hv

theorem RCtx.temp (K : RKnown L P b Λ X 1 σ) : Holds (some L.numCond) (σ 50) 0 (tempArray L P b) :=
  holds_exact (K 1 (by omega) (by omega)) c.N.conc

theorem RCtx.scalars : Approx σ none (.var 20) 0 (fun _ => P.sigma) ∧ Approx σ none (.var 21) 0 (fun _ => P.na) ∧
    Approx σ none (.var 24) 0 (fun _ => P.rGas) ∧ Approx σ none (.var 25) 0 (fun _ => P.temp) :=
  ⟨approx_var (holds_real (show σ 20 = _ from c.I.sigma) c.N.sigma),
   approx_var (holds_real (show σ 21 = _ from c.I.na) c.N.na),
   approx_var (holds_real (show σ 24 = _ from c.I.rGas) c.N.rGas),
   approx_var (holds_real (show σ 25 = _ from c.I.temp) c.N.temp)⟩

theorem rstep2 (K : RKnown L P b Λ X 1 σ) (h : Gives 2 σ v) : RFact L P b Λ X 2 v := by
  have h0 : σ 56 = .int b := K 0 (by omega) (by omega)
  obtain ⟨w, hw, hv⟩ := h
  have hy : σ 1 = _ := c.I.ycore
  have hn : (1 : ℝ) ≤ L.numCond := by exact_mod_cast c.cond
  have hu := du_nonneg
  refine round_var (typed_get c.T 41 rfl) ((((approx_all (c.temp K)).sum le_rfl).add
    ((approx_read hy (val_var h0) c.lo c.hi c.N.ycore).mul (approx_var (holds_real c.I.coreDiss c.N.coreDiss)) compat_nl) compat_nl).mono ?_) hw hv
  have : max (0 + (L.numCond : ℝ) * du) (0 + 0 + du) ≤ L.numCond * du := max_le (by linarith) (by nlinarith)
  nlinarith

theorem rstep3 (K : RKnown L P b Λ X 2 σ) (h : Gives 3 σ v) : RFact L P b Λ X 3 v := by
  have h1 := c.temp (fun j hj => K j (by omega))
  have h2 : Holds none (σ 41) _ _ := K 2 (by omega) (by omega)
  obtain ⟨w, hw, hv⟩ := h
  exact round_all (typed_get c.T 49 rfl) (((approx_all h1).div (approx_var h2) compat_ln).mono (by linarith)) hw hv

theorem rstep4 (K : RKnown L P b Λ X 3 σ) (h : Gives 4 σ v) : RFact L P b Λ X 4 v := by
  have h1 := c.temp (fun j hj => K j (by omega))
  obtain ⟨w, hw, hv⟩ := h
  have ha := ((approx_all h1).div c.scalars.2.1 compat_ln).mul
    (approx_all (holds_exact (show σ 12 = _ from c.I.mw) c.N.mw)) compat_self
  obtain ⟨f, hf, hg⟩ := ha w hw
  cases hf
  obtain ⟨k, hk⟩ := shape_arr (show (σ 51).shape = .arr (L.numCond + 1) from typed_get c.T 51 rfl)
  cases (assign_sec hk (show (Ex.int 1).val True σ = some (.int (1 : ℕ)) from rfl) (val_var c.ncond)
    (le_refl 1) (Nat.le_succ _) c.cond (by omega)).symm.trans hv
  refine ⟨_, rfl, fun i h1 h2 => ?_⟩
  rw [if_pos ⟨h1, h2⟩, Nat.sub_add_cancel h1, massArray, if_neg (by omega)]
  exact (hg i ⟨h1, h2⟩).mono (by linarith)

theorem rstep5 (K : RKnown L P b Λ X 4 σ) (h : Gives 5 σ v) : RFact L P b Λ X 5 v := by
  have h0 : σ 56 = .int b := K 0 (by omega) (by omega)
  obtain ⟨f, h4, hf⟩ : RFact L P b Λ X 4 (σ 51) := K 4 (by omega) (by omega)
  obtain ⟨w, hw, hv⟩ := h
  have hi : (Ex.add (.var 61) (.int 1)).val True σ = some (.int (L.numCond + 1 : ℕ)) :=
    val_add (val_var c.ncond) rfl (arith_ints _ _)
  obtain ⟨y, rfl, hy⟩ := round_elem h4 hi (by omega) (le_refl _)
    (approx_read (show σ 2 = _ from c.I.coreMass) (val_var h0) c.lo c.hi c.N.coreMass) hw hv
  refine ⟨_, rfl, fun i hi => ?_⟩
  by_cases h : i = L.numCond + 1
  · rw [massArray, if_pos h, h, Function.update_self]
    exact (hy 0).mono (by linarith [du_nonneg])
  · rw [Function.update_of_ne h]
    exact hf i hi.1 (by have := hi.2; omega)

theorem rstep6 (h : Gives 6 σ v) : RFact L P b Λ X 6 v := by
  obtain ⟨w, hw, hv⟩ := h
  obtain ⟨f, hf⟩ := shape_arr (show (σ 52).shape = .arr (L.numCond + 1) from typed_get c.T 52 rfl)
  have h1 := val_sec (strict := True) (show σ 5 = _ from c.I.densityInput)
    (show (Ex.int 1).val True σ = some (.int (1 : ℕ)) from rfl) (val_var c.ncond) (le_refl 1) (le_refl _) (by omega)
  cases h1.symm.trans hw
  cases (assign_sec hf (show (Ex.int 1).val True σ = some (.int (1 : ℕ)) from rfl) (val_var c.ncond)
    (le_refl 1) (Nat.le_succ _) c.cond rfl).symm.trans hv
  refine ⟨_, rfl, fun i h1 h2 => ?_⟩
  rw [if_pos ⟨h1, h2⟩, densityArray, if_neg (by omega)]
  congr 1
  omega

theorem rstep7 (K : RKnown L P b Λ X 6 σ) (h : Gives 7 σ v) : RFact L P b Λ X 7 v := by
  have h0 : σ 56 = .int b := K 0 (by omega) (by omega)
  obtain ⟨f, h6, hf⟩ : RFact L P b Λ X 6 (σ 52) := K 6 (by omega) (by omega)
  obtain ⟨w, hw, hv⟩ := h
  have hi : (Ex.add (.var 61) (.int 1)).val True σ = some (.int (L.numCond + 1 : ℕ)) :=
    val_add (val_var c.ncond) rfl (arith_ints _ _)
  cases (val_elem (strict := True) (show σ 3 = _ from c.I.coreDensity) (val_var h0) c.lo c.hi).symm.trans hw
  cases (assign_elem h6 hi (by omega) (le_refl _)).symm.trans hv
  show V.arr _ = V.arr _
  congr 1
  refine vec_congr (fun i h1 h2 => ?_)
  by_cases h : i = L.numCond + 1
  · rw [densityArray, if_pos h, h, Function.update_self]
  · rw [Function.update_of_ne h]
    exact hf i h1 (by omega)

theorem rstep8 (K : RKnown L P b Λ X 7 σ) (h : Gives 8 σ v) {f : ℕ → ℝ} (hf : σ 40 = .arr (vec L.numBins f)) :
    ∃ y, v = .arr (vec L.numBins (Function.update f b y)) ∧ Ratio ((L.numCond + 1) * du) (soaMassBin L P b) y := by
  have h0 : σ 56 = .int b := K 0 (by omega) (by omega)
  obtain ⟨k, h5, hk⟩ : Holds (some (L.numCond + 1)) (σ 51) (2 * du) (massArray L P b) := K 5 (by omega) (by omega)
  obtain ⟨w, hw, hv⟩ := h
  have hc := c.cond
  have hq : (Ex.sub (.var 61) (.int 1)).val True σ = some (.int ((L.numCond - 1 : ℕ) : ℤ)) := by
    refine val_sub (val_var c.ncond) rfl ((arith_ints _ _).trans ?_)
    congr 2
    push_cast [hc]
    rfl
  have h1 := val_sec (strict := True) h5 (show (Ex.int 1).val True σ = some (.int (1 : ℕ)) from rfl)
    hq (le_refl 1) (by omega) (by omega)
  have h2 : vec (L.numCond - 1 + 1 - 1) (fun i => k (1 + (i - 1))) = vec (L.numCond - 1) k := by
    rw [Nat.add_sub_cancel]
    exact vec_congr (fun i h1 _ => congrArg _ (by omega))
  rw [h2] at h1
  have ha : Approx σ (some (L.numCond - 1)) (.sec 51 (.int 1) (.sub (.var 61) (.int 1))) (2 * du) (massArray L P b) := by
    intro v hv
    cases h1.symm.trans hv
    exact ⟨_, rfl, fun i hi => hk i ⟨hi.1, by have := hi.2; omega⟩⟩
  have hu := du_nonneg
  obtain ⟨y, hy, hr⟩ := round_elem hf (val_var h0) c.lo c.hi (ha.sum (by linarith)) hw hv
  refine ⟨y, hy, (hr 0).mono ?_⟩
  have : ((L.numCond - 1 : ℕ) : ℝ) = L.numCond - 1 := by push_cast [hc]; ring
  rw [this]
  linarith

theorem rstep10 (K : RKnown L P b Λ X 9 σ) (h : Gives 10 σ v) {f : ℕ → ℝ} (hf : σ 27 = .arr (vec L.numBins f)) :
    ∃ y, v = .arr (vec L.numBins (Function.update f b y)) ∧ Ratio ((L.numCond + 3) * du) (waterActivity L P b) y := by
  have h0 : σ 56 = .int b := K 0 (by omega) (by omega)
  have h1 := c.temp (fun j hj => K j (by omega))
  have h2 : Holds none (σ 41) _ _ := K 2 (by omega) (by omega)
  obtain ⟨w, hw, hv⟩ := h
  obtain ⟨y, hy, hr⟩ := round_elem hf (val_var h0) c.lo c.hi ((approx_elem h1 (val_var c.ncond) c.cond (le_refl _)).div
    (approx_var h2) compat_nl) hw hv
  exact ⟨y, hy, (hr 0).mono (by linarith)⟩

theorem rstep11 (K : RKnown L P b Λ X 10 σ) (h : Gives 11 σ v) : RFact L P b Λ X 11 v := by
  have h5 : Holds (some (L.numCond + 1)) (σ 51) (2 * du) (massArray L P b) := K 5 (by omega) (by omega)
  obtain ⟨w, hw, hv⟩ := h
  refine round_var (typed_get c.T 55 rfl) (((approx_all h5).sum (by linarith [du_nonneg])).mono ?_) hw hv
  push_cast
  linarith

theorem rstep12 (K : RKnown L P b Λ X 11 σ) (h : Gives 12 σ v) : RFact L P b Λ X 12 v := by
  have h5 : Holds (some (L.numCond + 1)) (σ 51) (2 * du) (massArray L P b) := K 5 (by omega) (by omega)
  have h11 : Holds none (σ 55) _ _ := K 11 (by omega) (by omega)
  obtain ⟨w, hw, hv⟩ := h
  exact round_all (typed_get c.T 53 rfl) (((approx_all h5).div (approx_var h11) compat_ln).mono (by linarith)) hw hv

theorem RCtx.densities (K : RKnown L P b Λ X 7 σ) : Holds (some (L.numCond + 1)) (σ 52) 0 (densityArray L P b) := by
  refine holds_exact (K 7 (by omega) (by omega)) (fun i h1 h2 => ?_)
  unfold densityArray
  split
  · exact c.N.coreDensity
  · exact c.N.densityInput i h1 (by omega)

theorem rstep13 (K : RKnown L P b Λ X 12 σ) (h : Gives 13 σ v) : RFact L P b Λ X 13 v := by
  have h7 := c.densities (fun j hj => K j (by omega))
  have h12 : Holds (some (L.numCond + 1)) (σ 53) _ _ := K 12 (by omega) (by omega)
  obtain ⟨w, hw, hv⟩ := h
  have hu := du_nonneg
  have ha := approx_exact (σ := σ) (q := 1) (x := 1) (exact_nat (k := 1)) (by norm_num) (by norm_num)
  refine round_var (typed_get c.T 42 rfl) ((ha.div (((approx_all h12).div (approx_all h7) compat_self).sum
    (by positivity)) compat_nl).mono ?_) hw hv
  push_cast
  linarith

theorem RCtx.number (h0 : σ 56 = .int b) : Approx σ none (.elem 4 (.var 56)) 0 (fun _ => P.nPerBin b) :=
  approx_read (show σ 4 = _ from c.I.nPerBin) (val_var h0) c.lo c.hi c.N.nPerBin

theorem RCtx.fourPi : Approx σ none (.mul (.real 4) (.var 59)) (su + du) (fun _ => 4 * fPi) :=
  ((approx_whole (q := 4) 4 (x := 4) (by norm_num) (by norm_num) (by norm_num)).mul (approx_var c.pi) compat_nl).mono (by linarith)

theorem RCtx.baseErr (K : RKnown L P b Λ X 13 σ) : Approx σ none
    (.div (.mul (.real 3) (.div (.mul (.var 55) (.real 1000)) (.mul (.elem 4 (.var 56)) (.real 1000000))))
      (.mul (.mul (.real 4) (.var 59)) (.var 42))) (su + (3 * L.numCond + 19) * du)
    (fun _ => (3 * (totalMass L P b * 1000 / (P.nPerBin b * 1000000))) / (4 * fPi * density L P b)) := by
  have h0 : σ 56 = .int b := K 0 (by omega) (by omega)
  have h11 : Holds none (σ 55) _ _ := K 11 (by omega) (by omega)
  have h13 : Holds none (σ 42) _ _ := K 13 (by omega) (by omega)
  exact (((approx_whole 3 (x := 3) (by norm_num) (by norm_num) (by norm_num)).mul
    (((approx_var h11).mul (approx_whole 1000 (x := 1000) (by norm_num) (by norm_num) (by norm_num)) compat_nl).div
      ((c.number h0).mul (approx_whole 1000000 (x := 1000000) (by norm_num) (by norm_num) (by norm_num)) compat_nl)
      compat_nl) compat_nl).div (c.fourPi.mul (approx_var h13) compat_nl) compat_nl).mono (by linarith)

theorem RCtx.sizeErr (K : RKnown L P b Λ X 13 σ) : Approx σ none (stmtAt 14).rhs (sizeErr L.numCond Λ)
    (fun _ => sizeArray L P b) := by
  rintro v ⟨u, w, hu, hw, ho⟩
  obtain ⟨_, ⟨x, rfl, rfl⟩, hx⟩ := c.baseErr K u hu
  obtain ⟨u', w', ⟨y1, rfl, -, e1⟩, ⟨y2, rfl, -, e2⟩, ho'⟩ := hw
  rw [e1 (exact_nat (k := 1)), e2 (exact_nat (k := 3))] at ho'
  obtain ⟨_, _, y, ⟨⟩, ⟨⟩, rfl, hy⟩ := ho'
  obtain ⟨_, _, z, ⟨⟩, ⟨⟩, rfl, hz⟩ := ho
  refine ⟨_, ⟨z, rfl, rfl⟩, fun i _ => ?_⟩
  have hx := hx i trivial
  dsimp only at hx hy hz
  have hy : |y - 1 / 3| ≤ 2⁻¹ ^ 52 * |1 / 3| := by simpa [ieee] using hy
  rw [abs_of_pos (by norm_num : (0 : ℝ) < 1 / 3)] at hy
  have hl : |Real.log ((3 * (totalMass L P b * 1000 / (P.nPerBin b * 1000000))) / (4 * fPi * density L P b))| ≤ 3 * Λ := by
    have h := c.N.size
    rw [sizeArray, Real.rpow_eq_pow, Real.log_rpow c.N.base, abs_mul, abs_of_pos (by norm_num : (0 : ℝ) < 1 / 3)] at h
    linarith
  have hr := Ratio.pow (a := -(3 * Λ)) (b := 3 * Λ) (l := 1 / 3) (h := 1 / 3) hx
    ⟨c.N.base, (abs_le.1 hl).1, (abs_le.1 hl).2⟩ ⟨le_refl (1 / 3 : ℝ), le_rfl, hy⟩
  have hs := hr.trans (round_du hr.nonneg hz)
  refine hs.mono ?_
  have hΛ := c.errs.1
  rw [abs_neg, max_self, max_self, abs_of_nonneg (by linarith : (0 : ℝ) ≤ 3 * Λ), abs_of_pos (by norm_num : (0 : ℝ) < 1 / 3)]
  have hu := du_nonneg
  have hsu := su_nonneg
  have hn : (0 : ℝ) ≤ L.numCond := Nat.cast_nonneg _
  have h1 : (1 / 3 + 2⁻¹ ^ 52 * (1 / 3) : ℝ) ≤ 1 := by norm_num
  have h2 : (2⁻¹ ^ 52 * (1 / 3) : ℝ) * (3 * Λ) ≤ Λ * du := by
    have : (2⁻¹ ^ 52 : ℝ) ≤ du := by unfold du; norm_num
    nlinarith
  have h3 : 0 ≤ su + (3 * L.numCond + 19) * du := by positivity
  have h4 := mul_le_mul_of_nonneg_right h1 h3
  unfold Ft.sizeErr
  linarith

theorem rstep14 (K : RKnown L P b Λ X 13 σ) (h : Gives 14 σ v) {f : ℕ → ℝ} (hf : σ 28 = .arr (vec L.numBins f)) :
    ∃ y, v = .arr (vec L.numBins (Function.update f b y)) ∧ Ratio (Ft.sizeErr L.numCond Λ) (sizeArray L P b) y := by
  have h0 : σ 56 = .int b := K 0 (by omega) (by omega)
  obtain ⟨w, hw, hv⟩ := h
  obtain ⟨y, hy, hr⟩ := round_elem hf (val_var h0) c.lo c.hi (c.sizeErr K) hw hv
  exact ⟨y, hy, hr 0⟩

theorem RCtx.radius (K : RKnown L P b Λ X 14 σ) :
    Approx σ none (.elem 28 (.var 56)) (Ft.sizeErr L.numCond Λ) (fun _ => sizeArray L P b) := by
  have h0 : σ 56 = .int b := K 0 (by omega) (by omega)
  obtain ⟨f, h14, hf⟩ : RFact L P b Λ X 14 (σ 28) := K 14 (by omega) (by omega)
  intro v hv
  cases (val_elem (strict := True) h14 (val_var h0) c.lo c.hi).symm.trans hv
  exact ⟨_, ⟨_, rfl, rfl⟩, fun _ _ => hf⟩

omit c in
theorem lit_one : Approx σ none (.real 1) 0 (fun _ => 1) :=
  approx_whole 1 (by norm_num) (by norm_num) (by norm_num)

theorem rstep15 (K : RKnown L P b Λ X 14 σ) (h : Gives 15 σ v) : RFact L P b Λ X 15 v := by
  obtain ⟨w, hw, hv⟩ := h
  exact round_all (typed_get c.T 35 rfl) (((approx_all (holds_exact (show σ 8 = _ from c.I.gamma) c.N.gamma)).div
    (c.radius K) compat_ln).mono (by linarith)) hw hv

theorem rstep16 (K : RKnown L P b Λ X 15 σ) (h : Gives 16 σ v) : RFact L P b Λ X 16 v := by
  have h15 : Holds (some L.numCond) (σ 35) _ _ := K 15 (by omega) (by omega)
  obtain ⟨w, hw, hv⟩ := h
  exact round_all (typed_get c.T 30 rfl) ((lit_one.div (approx_all h15) compat_nl).mono (by linarith)) hw hv

theorem rstep17 (K : RKnown L P b Λ X 16 σ) (h : Gives 17 σ v) : RFact L P b Λ X 17 v := by
  have h16 : Holds (some L.numCond) (σ 30) _ _ := K 16 (by omega) (by omega)
  obtain ⟨w, hw, hv⟩ := h
  have a1 : Approx σ none (.real (133 / 100)) su (fun _ => 1.33) := approx_lit (by norm_num) (by norm_num) (by norm_num)
  have a2 : Approx σ none (.real (71 / 100)) su (fun _ => 0.71) := approx_lit (by norm_num) (by norm_num) (by norm_num)
  have hu := du_nonneg
  have hs := su_nonneg
  obtain ⟨-, he⟩ := c.errs
  refine round_all (typed_get c.T 31 rfl) (((a1.add (a2.mul (approx_all h16) compat_nl) compat_nl).div
    (lit_one.add (approx_all h16) compat_nl) compat_self).mono ?_) hw hv
  have m1 : max su (su + (Ft.sizeErr L.numCond Λ + 2 * du) + du) ≤ su + Ft.sizeErr L.numCond Λ + 3 * du :=
    max_le (by linarith) (by linarith)
  have m2 : max 0 (Ft.sizeErr L.numCond Λ + 2 * du) ≤ Ft.sizeErr L.numCond Λ + 2 * du := max_le (by linarith) le_rfl
  linarith

theorem rstep18 (h : Gives 18 σ v) : RFact L P b Λ X 18 v := by
  obtain ⟨w, hw, hv⟩ := h
  have ha : σ 7 = _ := c.I.alpha
  refine round_all (typed_get c.T 32 rfl) ((((approx_whole (q := 4) 4 (x := 4) (by norm_num) (by norm_num) (by norm_num)).mul
    (approx_sub_one ha (fun i h1 h2 => (c.N.alpha i h1 h2).2)) compat_nl).div
    ((approx_whole 3 (x := 3) (by norm_num) (by norm_num) (by norm_num)).mul
      (approx_all (holds_exact ha (fun i h1 h2 => (c.N.alpha i h1 h2).1))) compat_nl) compat_self).mono (by linarith)) hw hv

theorem rstep19 (K : RKnown L P b Λ X 18 σ) (h : Gives 19 σ v) : RFact L P b Λ X 19 v := by
  have h15 : Holds (some L.numCond) (σ 35) _ _ := K 15 (by omega) (by omega)
  have h17 : Holds (some L.numCond) (σ 31) _ _ := K 17 (by omega) (by omega)
  have h18 : Holds (some L.numCond) (σ 32) _ _ := K 18 (by omega) (by omega)
  obtain ⟨w, hw, hv⟩ := h
  have hu := du_nonneg
  have hs := su_nonneg
  obtain ⟨-, he⟩ := c.errs
  have m1 : max (su + 2 * Ft.sizeErr L.numCond Λ + 8 * du) (4 * du) ≤ su + 2 * Ft.sizeErr L.numCond Λ + 8 * du :=
    max_le le_rfl (by linarith)
  have a1 := ((((approx_all h17).add (approx_all h18) compat_self).mul (approx_all h15) compat_self).mono
    (show _ ≤ su + 3 * Ft.sizeErr L.numCond Λ + 11 * du by linarith))
  refine round_all (typed_get c.T 33 rfl) ((lit_one.add a1 compat_nl).mono ?_) hw hv
  have m2 : max 0 (su + 3 * Ft.sizeErr L.numCond Λ + 11 * du) ≤ su + 3 * Ft.sizeErr L.numCond Λ + 11 * du :=
    max_le (by linarith) le_rfl
  linarith

theorem rstep20 (K : RKnown L P b Λ X 19 σ) (h : Gives 20 σ v) : RFact L P b Λ X 20 v := by
  have h19 : Holds (some L.numCond) (σ 33) _ _ := K 19 (by omega) (by omega)
  obtain ⟨w, hw, hv⟩ := h
  exact round_all (typed_get c.T 34 rfl) ((lit_one.div (approx_all h19) compat_nl).mono (by linarith)) hw hv

theorem rstep21 (K : RKnown L P b Λ X 20 σ) (h : Gives 21 σ v) : RFact L P b Λ X 21 v := by
  have h13 : Holds none (σ 42) _ _ := K 13 (by omega) (by omega)
  have h14 := c.radius (fun j hj => K j (by omega))
  obtain ⟨w, hw, hv⟩ := h
  have a1 : Approx σ none (.real (1 / 1000)) su (fun _ => 0.001) := approx_lit (by norm_num) (by norm_num) (by norm_num)
  have a2 := ((((approx_whole (q := 4) 4 (x := 4) (by norm_num) (by norm_num) (by norm_num)).mul
    (approx_all (holds_exact (show σ 12 = _ from c.I.mw) c.N.mw)) compat_nl).mul a1 compat_ln).mul
      c.scalars.1 compat_ln).div
    ((((c.scalars.2.2.1.mul c.scalars.2.2.2 compat_nl).mul
      h14 compat_nl).mul (approx_whole (q := 2) 2 (x := 2) (by norm_num) (by norm_num) (by norm_num)) compat_nl).mul
      (approx_var h13) compat_nl) compat_ln
  exact round_all (typed_get c.T 48 rfl) ((a2.mono (show _ ≤ curvErr L.numCond Λ by unfold curvErr; linarith)).exp
    c.N.kelvin) hw hv

theorem rstep22 (K : RKnown L P b Λ X 21 σ) (h : Gives 22 σ v) : RFact L P b Λ X 22 v := by
  have h3 : Holds (some L.numCond) (σ 49) _ _ := K 3 (by omega) (by omega)
  have h21 : Holds (some L.numCond) (σ 48) _ _ := K 21 (by omega) (by omega)
  obtain ⟨w, hw, hv⟩ := h
  exact round_all (typed_get c.T 46 rfl) (((((approx_all h21).mul (approx_all h3) compat_self).mul
    (approx_all (holds_exact (show σ 13 = _ from c.I.psat) c.N.psat)) compat_self).mul
    (approx_whole 101325 (x := 101325) (by norm_num) (by norm_num) (by norm_num)) compat_ln).mono (by linarith)) hw hv

theorem rstep23 (K : RKnown L P b Λ X 22 σ) (h : Gives 23 σ v) : RFact L P b Λ X 23 v := by
  have h22 : Holds (some L.numCond) (σ 46) _ _ := K 22 (by omega) (by omega)
  obtain ⟨w, hw, hv⟩ := h
  have a1 : Approx σ none (.real (41572299 / 5)) su (fun _ => 8314459.8) :=
    approx_lit (by norm_num) (by norm_num) (by norm_num)
  exact round_all (typed_get c.T 47 rfl) (((approx_all h22).mul (c.scalars.2.1.div
    (a1.mul c.scalars.2.2.2 compat_nl) compat_nl) compat_ln).mono (by linarith)) hw hv

theorem rstep24 (K : RKnown L P b Λ X 23 σ) (h : Gives 24 σ v) : RFact L P b Λ X 24 v := by
  have h20 : Holds (some L.numCond) (σ 34) _ _ := K 20 (by omega) (by omega)
  obtain ⟨w, hw, hv⟩ := h
  exact round_all (typed_get c.T 37 rfl) (((approx_all (holds_exact (show σ 6 = _ from c.I.dStar) c.N.dStar)).mul
    (approx_all h20) compat_self).mono (by linarith)) hw hv

theorem rstep25 (K : RKnown L P b Λ X 24 σ) (h : Gives 25 σ v) : RFact L P b Λ X 25 v := by
  have h0 : σ 56 = .int b := K 0 (by omega) (by omega)
  have h24 : Holds (some L.numCond) (σ 37) _ _ := K 24 (by omega) (by omega)
  have h14 := c.radius (fun j hj => K j (by omega))
  obtain ⟨w, hw, hv⟩ := h
  exact round_all (typed_get c.T 38 rfl) (((((c.fourPi.mul h14 compat_nl).mul
    (approx_whole 100 (x := 100) (by norm_num) (by norm_num) (by norm_num)) compat_nl).mul (c.number h0) compat_nl).mul
    (approx_all h24) compat_nl).mono (by linarith)) hw hv

omit c in
theorem near_of_ratio {e x y : ℝ} (h : Ratio e x y) : Near e x x y := by
  obtain ⟨h1, h2, h3, h4⟩ := h
  refine ⟨h1, by rw [abs_of_nonneg h2], ?_⟩
  have e1 : Real.exp (-e) * Real.exp e = 1 := by rw [← Real.exp_add]; simp
  have e2 := Real.add_one_le_exp e
  have e5 : 1 - Real.exp (-e) ≤ Real.exp e - 1 := by nlinarith [sq_nonneg (Real.exp e - 1), Real.exp_pos (-e)]
  have e6 := mul_le_mul_of_nonneg_left e5 h2
  rw [abs_le]
  constructor <;> nlinarith

omit c in
theorem dbl_le_du : dbl ≤ du := by unfold du; norm_num

theorem rstep26 (K : RKnown L P b Λ X 25 σ) (h : Gives 26 σ v) : RFact L P b Λ X 26 v := by
  obtain ⟨s, h23, hs⟩ : Holds (some L.numCond) (σ 47) _ _ := K 23 (by omega) (by omega)
  obtain ⟨k, h25, hk⟩ : Holds (some L.numCond) (σ 38) _ _ := K 25 (by omega) (by omega)
  have hg : σ 10 = _ := c.I.cgas
  obtain ⟨w, ⟨u1, u2, hu1, ⟨u3, u4, hu3, hu4, ho1⟩, ho2⟩, hv⟩ := h
  cases (val_all (strict := True) h25).symm.trans hu1
  cases (val_all (strict := True) h23).symm.trans hu4
  cases (val_all (strict := True) hg).symm.trans hu3
  obtain ⟨r, hr, r1⟩ := op_int (s := some L.numCond) (t := some L.numCond) rfl rfl compat_self ho1
  obtain ⟨z, hz, z1⟩ := op_int (s := some L.numCond) (t := some L.numCond) rfl hr compat_self ho2
  cases hz
  refine ⟨z, assign_all (typed_get c.T 36 rfl) hv, fun i h1 h2 => ?_⟩
  have a1 := near_of_ratio (hs i ⟨h1, h2⟩)
  have a2 := near_of_ratio (hk i ⟨h1, h2⟩)
  have a3 : Near (kelvinErr L.numCond Λ X + su + (L.numCond + 9) * du) (P.cgas i) (P.cgas i) (P.cgas i) :=
    ⟨a1.cost, by rw [abs_of_nonneg (c.N.cgas i h1 h2)], by
      rw [sub_self, abs_zero]
      exact mul_nonneg (exp_sub_one_nonneg a1.cost) (c.N.cgas i h1 h2)⟩
  have a4 := (a3.add a1.neg).round (by have := r1 i ⟨h1, h2⟩; rwa [sub_eq_add_neg] at this)
  have a5 := (a2.mul a4).round (z1 i ⟨h1, h2⟩)
  have hd := dbl_le_du
  unfold dmSize dmDt
  rw [sub_eq_add_neg]
  refine a5.mono ?_ le_rfl
  unfold dmErr
  linarith

end Pass

end Ft
end PyBox
