import Verif.Props.Sim
import Verif.Sim.Pieces
import Mathlib.Analysis.ODE.ExistUnique
import Mathlib.Analysis.Calculus.Deriv.Shift
import Mathlib.Analysis.Calculus.Deriv.Pow

/-!
# C34: batches and the trajectory
-/

namespace PyBox

open Set

namespace Spec

variable {E : Type*} [NormedAddCommGroup E] [NormedSpace ℝ E]

/-- `u` is continuous on `[a,b]` and solves `u' = G t u` there, except perhaps at finitely many times. The
right-hand sides of the simulations may jump at sunrise and sunset. -/
def SolvesOn (G : ℝ → E → E) (u : ℝ → E) (a b : ℝ) : Prop :=
  ContinuousOn u (Icc a b) ∧
    ∃ S : Set ℝ, S.Finite ∧ ∀ t ∈ Ico a b, t ∉ S → HasDerivWithinAt u (G t (u t)) (Ici t) t

/-- `u` solves `u' = G t u` on `[a,b]`, without exceptions. -/
def SolvesEverywhere (G : ℝ → E → E) (u : ℝ → E) (a b : ℝ) : Prop :=
  ContinuousOn u (Icc a b) ∧ ∀ t ∈ Ico a b, HasDerivWithinAt u (G t (u t)) (Ici t) t

/-- The solver is exact for the problems the drivers set up: the right-hand side is evaluated at
`start_time + t`, where `t` is the time since the solver was started (`time_of_day_seconds=start_time+t`,
`/repo/ODE_solver.py` line 83; `t0 = 0.0` for every batch, lines 205, 245, 249). -/
def ExactSolver (F : ℝ → E → E) (start : ℝ) (solve : E → ℚ → E) : Prop :=
  ∀ (y : E) (d : ℚ), 0 < d → ∃ u, u 0 = y ∧ SolvesOn (fun t => F (start + t)) u 0 d ∧ solve y d = u d

/-- The time since the start of the current batch. -/
noncomputable def batchClock (batch t : ℝ) : ℝ := t - batch * ⌊t / batch⌋

/-- The right-hand side is Lipschitz on every ball, uniformly in time. -/
def LocallyLipschitzRhs (F : ℝ → E → E) : Prop :=
  ∀ R : ℝ, ∃ K, ∀ t, LipschitzOnWith K (F t) (Metric.closedBall 0 R)

end Spec

open Spec

variable {E : Type*} [NormedAddCommGroup E] [NormedSpace ℝ E]

theorem batchClock_eq {batch : ℝ} (hb : 0 < batch) (n : Nat) {t : ℝ} (h1 : n * batch ≤ t)
    (h2 : t < (n + 1) * batch) : batchClock batch t = t - n * batch := by
  unfold batchClock
  have : ⌊t / batch⌋ = (n : ℤ) := by
    rw [Int.floor_eq_iff]
    push_cast
    exact ⟨(le_div_iff₀ hb).2 h1, (div_lt_iff₀ hb).2 h2⟩
  rw [this]
  push_cast
  ring

theorem Spec.SolvesEverywhere.solvesOn {G : ℝ → E → E} {u : ℝ → E} {a b : ℝ} (h : SolvesEverywhere G u a b) :
    SolvesOn G u a b := ⟨h.1, ∅, finite_empty, fun t ht _ => h.2 t ht⟩

/-- Solutions of consecutive batches fit together. -/
theorem SolvesOn.glue {G H : ℝ → E → E} {U u : ℝ → E} {a b : ℝ} (ha : 0 ≤ a) (hb : 0 ≤ b)
    (hU : SolvesOn G U 0 a) (hu : SolvesOn H u 0 b) (h0 : u 0 = U a)
    (hG : ∀ t ∈ Ico a (a + b), G t = H (t - a)) :
    SolvesOn G (fun t => if t ≤ a then U t else u (t - a)) 0 (a + b) := by
  have e1 : EqOn (fun t => if t ≤ a then U t else u (t - a)) U (Icc 0 a) := fun t ht => if_pos ht.2
  have e2 : EqOn (fun t => if t ≤ a then U t else u (t - a)) (fun t => u (t - a)) (Ici a) := by
    intro t ht
    simp only
    split
    · rename_i h
      have : t = a := le_antisymm h ht
      rw [this, sub_self, h0]
    · rfl
  constructor
  · have hun : Icc (0 : ℝ) (a + b) = Icc 0 a ∪ Icc a (a + b) :=
      (Icc_union_Icc_eq_Icc ha (by linarith)).symm
    rw [hun]
    refine ContinuousOn.union_of_isClosed (hU.1.congr e1) ?_ isClosed_Icc isClosed_Icc
    refine ContinuousOn.congr (f := fun t => u (t - a)) ?_ (e2.mono Icc_subset_Ici_self)
    refine ContinuousOn.comp hu.1 (by fun_prop) ?_
    intro t ht
    exact ⟨by linarith [ht.1], by linarith [ht.2]⟩
  · obtain ⟨S, hS, hUd⟩ := hU.2
    obtain ⟨S', hS', hud⟩ := hu.2
    refine ⟨S ∪ (fun t => t + a) '' S', hS.union (hS'.image _), fun t ht htS => ?_⟩
    rw [mem_union, not_or] at htS
    rcases lt_or_ge t a with hta | hta
    · have hd := hUd t ⟨ht.1, hta⟩ htS.1
      simp only [if_pos hta.le]
      refine hd.congr_of_eventuallyEq ?_ (if_pos hta.le)
      have : Iio a ∈ nhds t := Iio_mem_nhds hta
      filter_upwards [mem_nhdsWithin_of_mem_nhds this] with s hs
      exact if_pos (le_of_lt hs)
    · have hd := hud (t - a) ⟨by linarith, by linarith [ht.2]⟩
        (fun h => htS.2 ⟨t - a, h, sub_add_cancel t a⟩)
      have hv : (fun t => if t ≤ a then U t else u (t - a)) t = u (t - a) := e2 hta
      simp only at hv
      rw [show (fun t => if t ≤ a then U t else u (t - a)) t = u (t - a) from hv, hG t ⟨hta, ht.2⟩]
      have hcomp : HasDerivWithinAt (fun s => u (s - a)) (H (t - a) (u (t - a))) (Ici t) t := by
        have hsub : HasDerivWithinAt (fun s : ℝ => s - a) 1 (Ici t) t :=
          ((hasDerivAt_id t).sub_const a).hasDerivWithinAt
        have := HasDerivWithinAt.scomp (t' := Ici (t - a)) t hd hsub
          (fun s hs => by simp only [mem_Ici] at hs ⊢; linarith)
        rw [one_smul] at this
        exact this
      exact hcomp.congr (fun s hs => e2 (le_trans hta hs)) hv

/-- C34, exactly what the drivers compute with an exact solver: for every right-hand side, the reported
states are the values of a solution of the system whose clock restarts from `start` at the beginning of
each batch. -/
theorem C34_exact {F : ℝ → E → E} {start : ℝ} {solve : E → ℚ → E} (hs : ExactSolver F start solve)
    {batch : ℚ} (hb : 0 < batch) (y0 : E) (n : Nat) :
    ∃ U : ℝ → E, U 0 = y0 ∧
      SolvesOn (fun t => F (start + batchClock batch t)) U 0 (n * batch) ∧
      ∀ k ≤ n, afterBatches solve batch y0 k = U (k * batch) := by
  have hbr : (0 : ℝ) < batch := by exact_mod_cast hb
  induction n with
  | zero =>
    refine ⟨fun _ => y0, rfl, ⟨continuousOn_const, ∅, finite_empty, ?_⟩, ?_⟩
    · intro t ht
      simp only [Nat.cast_zero, zero_mul, Ico_self] at ht
      exact absurd ht (notMem_empty t)
    · intro k hk
      obtain rfl : k = 0 := by omega
      rfl
  | succ n ih =>
    obtain ⟨U, h0, hU, hk⟩ := ih
    obtain ⟨u, hu0, hu, hend⟩ := hs (U (n * batch)) batch hb
    have hnb : (0 : ℝ) ≤ n * batch := mul_nonneg (Nat.cast_nonneg n) hbr.le
    have hg := SolvesOn.glue (H := fun t => F (start + t)) hnb hbr.le hU hu hu0 (by
      intro t ht
      rw [batchClock_eq hbr n ht.1 (by linarith [ht.2])])
    have e : (n : ℝ) * batch + batch = ((n + 1 : Nat) : ℝ) * batch := by push_cast; ring
    rw [e] at hg
    refine ⟨_, ?_, hg, ?_⟩
    · rw [if_pos hnb, h0]
    · intro k hkn
      rcases Nat.lt_or_ge k (n + 1) with hlt | hge
      · have hle : (k : ℝ) * batch ≤ n * batch :=
          mul_le_mul_of_nonneg_right (by exact_mod_cast Nat.lt_succ_iff.1 hlt) hbr.le
        rw [if_pos hle, hk k (by omega)]
      · obtain rfl : k = n + 1 := by omega
        have hlt : ¬ ((n + 1 : Nat) : ℝ) * batch ≤ n * batch := by push_cast; nlinarith
        have hsub : ((n + 1 : Nat) : ℝ) * batch - n * batch = batch := by push_cast; ring
        rw [if_neg hlt, hsub, ← hend]
        unfold afterBatches
        rw [Function.iterate_succ_apply']
        have := hk n le_rfl
        unfold afterBatches at this
        rw [this]

/-- Two solutions from the same state agree, for locally Lipschitz right-hand sides. -/
theorem SolvesOn.unique {G : ℝ → E → E} (hG : LocallyLipschitzRhs G) {U W : ℝ → E} {b : ℝ}
    (hU : SolvesOn G U 0 b) (hW : SolvesOn G W 0 b) (h0 : U 0 = W 0) : EqOn U W (Icc 0 b) := by
  obtain ⟨R1, hR1⟩ := (isCompact_Icc.image_of_continuousOn hU.1).isBounded.subset_closedBall 0
  obtain ⟨R2, hR2⟩ := (isCompact_Icc.image_of_continuousOn hW.1).isBounded.subset_closedBall 0
  obtain ⟨K, hK⟩ := hG (max R1 R2)
  obtain ⟨S1, hS1, hd1⟩ := hU.2
  obtain ⟨S2, hS2, hd2⟩ := hW.2
  intro t ht
  have hsub : Icc 0 t ⊆ Icc 0 b := Icc_subset_Icc le_rfl ht.2
  have hin : ∀ s ∈ Ico 0 t, s ∈ Icc 0 b := fun s hs => hsub (Ico_subset_Icc_self hs)
  have h := dist_off_finite (hS1.union hS2) (G := G) (B := Metric.closedBall 0 (max R1 R2)) (K := K)
    (u := U) (v := W) ht.1 (fun s _ => hK s) (hU.1.mono hsub)
    (fun s hs hsS => hd1 s ⟨hs.1, hs.2.trans_le ht.2⟩ fun h => hsS (Or.inl h))
    (fun s hs => Metric.closedBall_subset_closedBall (le_max_left _ _) (hR1 (mem_image_of_mem _ (hin s hs))))
    (hW.1.mono hsub)
    (fun s hs hsS => hd2 s ⟨hs.1, hs.2.trans_le ht.2⟩ fun h => hsS (Or.inr h))
    (fun s hs => Metric.closedBall_subset_closedBall (le_max_right _ _) (hR2 (mem_image_of_mem _ (hin s hs))))
  rw [h0, dist_self, zero_mul] at h
  exact dist_le_zero.1 h

/-- C34 as stated: with an exact solver the reported states are the values of the exact solution, however
the run is cut. -/
def C34_Statement : Prop := ∀ (F : ℝ → ℝ → ℝ) (start : ℝ) (solve : ℝ → ℚ → ℝ), ExactSolver F start solve →
  LocallyLipschitzRhs F → ∀ (batch : ℚ), 0 < batch → ∀ (n : Nat) (W : ℝ → ℝ),
  SolvesOn (fun t => F (start + t)) W 0 (n * batch) →
  ∀ k ≤ n, afterBatches solve batch (W 0) k = W (k * batch)

/-- What does hold: if the right-hand side has the period of the batch in time, in particular if it does not
depend on time, then the reported states are those of the exact solution. -/
theorem C34_periodic_partial {F : ℝ → E → E} {start : ℝ} {solve : E → ℚ → E}
    (hs : ExactSolver F start solve) (hF : LocallyLipschitzRhs F) {batch : ℚ} (hb : 0 < batch)
    (hper : ∀ s, F (s + batch) = F s) {n : Nat} {W : ℝ → E}
    (hW : SolvesOn (fun t => F (start + t)) W 0 (n * batch)) :
    ∀ k ≤ n, afterBatches solve batch (W 0) k = W (k * batch) := by
  obtain ⟨U, h0, hU, hk⟩ := C34_exact hs hb (W 0) n
  have hbr : (0 : ℝ) < batch := by exact_mod_cast hb
  have hp : ∀ (m : ℤ) (s : ℝ), F (s + m * batch) = F s := by
    have hnat : ∀ (m : Nat) (s : ℝ), F (s + m * batch) = F s := by
      intro m
      induction m with
      | zero => intro s; simp
      | succ m ih =>
        intro s
        have : s + ((m + 1 : Nat) : ℝ) * batch = (s + m * batch) + batch := by push_cast; ring
        rw [this, hper, ih]
    intro m s
    cases m with
    | ofNat m =>
      have := hnat m s
      simpa using this
    | negSucc m =>
      have := hnat (m + 1) (s + (Int.negSucc m : ℤ) * batch)
      rw [← this]
      congr 1
      rw [Int.cast_negSucc]
      push_cast
      ring
  have heq : (fun t => F (start + batchClock batch t)) = fun t => F (start + t) := by
    funext t
    have := hp ⌊t / batch⌋ (start + batchClock batch t)
    rw [← this]
    congr 1
    unfold batchClock
    ring
  rw [heq] at hU
  have hlip : LocallyLipschitzRhs (fun t => F (start + t)) := by
    intro R
    obtain ⟨K, hK⟩ := hF R
    exact ⟨K, fun t => hK (start + t)⟩
  intro k hkn
  rw [hk k hkn]
  refine SolvesOn.unique hlip hU hW h0 ⟨mul_nonneg (Nat.cast_nonneg k) hbr.le, ?_⟩
  exact mul_le_mul_of_nonneg_right (by exact_mod_cast hkn) hbr.le

/-- An exact solver for the right-hand side "seconds of the day". -/
theorem clock_solver (start : ℝ) :
    ExactSolver (fun s (_ : ℝ) => s) start (fun y d => y + start * d + (d : ℝ) ^ 2 / 2) := by
  intro y d _
  refine ⟨fun t => y + start * t + t ^ 2 / 2, by simp, SolvesEverywhere.solvesOn ⟨by fun_prop, ?_⟩, rfl⟩
  intro t _
  have h1 : HasDerivAt (fun t : ℝ => y + start * t + t ^ 2 / 2) (start * 1 + (2 * t) / 2) t := by
    have hp : HasDerivAt (fun t : ℝ => t ^ 2) (2 * t) t := by
      have := hasDerivAt_pow 2 t
      simpa using this
    exact ((hasDerivAt_const t y).add ((hasDerivAt_id t).const_mul start)).add (hp.div_const 2) |>.congr_deriv
      (by ring)
  have : start * 1 + (2 * t) / 2 = start + t := by ring
  rw [this] at h1
  exact h1.hasDerivWithinAt

/-- It is false for right-hand sides that depend on the time of day, as the photolysis rates do. -/
theorem C34_false : ¬ C34_Statement := by
  intro h
  have hW : SolvesOn (fun t (_ : ℝ) => (0 : ℝ) + t) (fun t => t ^ 2 / 2) 0 ((2 : Nat) * (1 : ℚ)) := by
    obtain ⟨u, -, -, -⟩ := clock_solver 0 0 1 one_pos
    refine SolvesEverywhere.solvesOn ⟨by fun_prop, fun t _ => ?_⟩
    have hp : HasDerivAt (fun t : ℝ => t ^ 2) (2 * t) t := by
      have := hasDerivAt_pow 2 t
      simpa using this
    have := (hp.div_const 2).hasDerivWithinAt (s := Ici t)
    simpa using this
  have := h (fun s _ => s) 0 _ (clock_solver 0) (fun R => ⟨0, fun t => (LipschitzWith.const t).lipschitzOnWith⟩) 1 one_pos 2 _
    hW 2 le_rfl
  unfold afterBatches at this
  simp only [Function.iterate_succ, Function.iterate_zero, Function.comp] at this
  norm_num at this

/-- An exact solver for decay: the hypotheses of `C34_periodic_partial` can be met by a right-hand side that does
not depend on time. -/
example : ∃ solve : ℝ → ℚ → ℝ, ExactSolver (fun _ y => -y) 43200 solve ∧
    LocallyLipschitzRhs (fun _ (y : ℝ) => -y) := by
  refine ⟨fun y d => y * Real.exp (-d), ?_, fun R => ⟨1, fun t => ?_⟩⟩
  · intro y d _
    refine ⟨fun t => y * Real.exp (-t), by simp, SolvesEverywhere.solvesOn ⟨by fun_prop, fun t _ => ?_⟩, rfl⟩
    have h1 : HasDerivAt (fun t : ℝ => y * Real.exp (-t)) (y * (Real.exp (-t) * -1)) t :=
      ((Real.hasDerivAt_exp (-t)).comp t (hasDerivAt_neg t)).const_mul y
    refine (h1.hasDerivWithinAt).congr_deriv ?_
    ring
  · exact (LipschitzWith.id.neg).lipschitzOnWith

end PyBox
