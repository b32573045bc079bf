import Verif.Sim.NearLip
import Mathlib.Analysis.ODE.ExistUnique

/-!
# Solutions exist and are unique

General facts about ordinary differential equations, used for the simulations: a system that keeps
non-negative states non-negative, and in which every component has a positive weight in some total that
cannot grow, has a solution from every non-negative state and for every duration.
-/

namespace PyBox

open Set Spec

variable {ι : Type} [Fintype ι]

/-- States with all components between 0 and `R`. -/
def box (R : ℝ) : Set (ι → ℝ) := {y | ∀ i, 0 ≤ y i ∧ y i ≤ R}

/-- On the times `A` and the states `B`, `f` is bounded and Lipschitz in the state. -/
def SetLip (A : Set ℝ) (B : Set (ι → ℝ)) (f : ℝ → (ι → ℝ) → ℝ) : Prop :=
  ∃ K M : ℝ, 0 ≤ K ∧ 0 ≤ M ∧ ∀ s ∈ A, ∀ z ∈ B,
    |f s z| ≤ M ∧ ∀ z' ∈ B, |f s z - f s z'| ≤ K * dist z z'

namespace SetLip

variable {A : Set ℝ} {B : Set (ι → ℝ)} {f g : ℝ → (ι → ℝ) → ℝ}

theorem const (c : ℝ) : SetLip A B (fun _ _ => c) :=
  ⟨0, |c|, le_rfl, abs_nonneg c, fun _ _ _ _ => ⟨le_rfl, fun _ _ => by simp⟩⟩

theorem coord {R : ℝ} (hR : 0 ≤ R) (i : ι) : SetLip A (box R) (fun _ (z : ι → ℝ) => z i) := by
  refine ⟨1, R, zero_le_one, hR, fun s _ z hz => ⟨?_, ?_⟩⟩
  · rw [abs_of_nonneg (hz i).1]; exact (hz i).2
  · intro z' _
    rw [one_mul, ← Real.dist_eq]
    exact dist_le_pi_dist z z' i

theorem add (hf : SetLip A B f) (hg : SetLip A B g) : SetLip A B (fun s z => f s z + g s z) := by
  obtain ⟨K, M, hK, hM, h⟩ := hf
  obtain ⟨K', M', hK', hM', h'⟩ := hg
  refine ⟨K + K', M + M', by positivity, by positivity, ?_⟩
  intro s hs z hz
  obtain ⟨h1, h2⟩ := h s hs z hz
  obtain ⟨h1', h2'⟩ := h' s hs z hz
  refine ⟨(abs_add_le _ _).trans (add_le_add h1 h1'), fun z' hz' => ?_⟩
  have e : f s z + g s z - (f s z' + g s z') = (f s z - f s z') + (g s z - g s z') := by ring
  rw [e, add_mul]
  exact (abs_add_le _ _).trans (add_le_add (h2 z' hz') (h2' z' hz'))

theorem mul (hf : SetLip A B f) (hg : SetLip A B g) : SetLip A B (fun s z => f s z * g s z) := by
  obtain ⟨K, M, hK, hM, h⟩ := hf
  obtain ⟨K', M', hK', hM', h'⟩ := hg
  refine ⟨K * M' + M * K', M * M', by positivity, by positivity, ?_⟩
  intro s hs z hz
  obtain ⟨h1, h2⟩ := h s hs z hz
  obtain ⟨h1', h2'⟩ := h' s hs z hz
  refine ⟨?_, fun z' hz' => ?_⟩
  · rw [abs_mul]
    exact mul_le_mul h1 h1' (abs_nonneg _) hM
  · have e : f s z * g s z - f s z' * g s z'
        = (f s z - f s z') * g s z + f s z' * (g s z - g s z') := by ring
    obtain ⟨h3, -⟩ := h s hs z' hz'
    rw [e]
    refine (abs_add_le _ _).trans ?_
    rw [abs_mul, abs_mul]
    have a1 : |f s z - f s z'| * |g s z| ≤ K * dist z z' * M' :=
      mul_le_mul (h2 z' hz') h1' (abs_nonneg _) (mul_nonneg hK dist_nonneg)
    have a2 : |f s z'| * |g s z - g s z'| ≤ M * (K' * dist z z') :=
      mul_le_mul h3 (h2' z' hz') (abs_nonneg _) hM
    calc _ ≤ K * dist z z' * M' + M * (K' * dist z z') := add_le_add a1 a2
      _ = _ := by ring

theorem sum {α : Type} (S : Finset α) {F : α → ℝ → (ι → ℝ) → ℝ} (h : ∀ a ∈ S, SetLip A B (F a)) :
    SetLip A B (fun s z => ∑ a ∈ S, F a s z) := by
  classical
  induction S using Finset.induction_on with
  | empty => simpa using const (A := A) (B := B) 0
  | insert a S ha ih =>
    simp only [Finset.sum_insert ha]
    exact (h a (Finset.mem_insert_self a S)).add
      (ih fun b hb => h b (Finset.mem_insert_of_mem hb))

theorem listSum {α : Type} (l : List α) {F : α → ℝ → (ι → ℝ) → ℝ} (h : ∀ a ∈ l, SetLip A B (F a)) :
    SetLip A B (fun s z => (l.map (fun a => F a s z)).sum) := by
  induction l with
  | nil => simpa using const (A := A) (B := B) 0
  | cons a l ih =>
    simp only [List.map_cons, List.sum_cons]
    exact (h a (by simp)).add (ih fun b hb => h b (by simp [hb]))

theorem listProd {α : Type} (l : List α) {F : α → ℝ → (ι → ℝ) → ℝ} (h : ∀ a ∈ l, SetLip A B (F a)) :
    SetLip A B (fun s z => (l.map (fun a => F a s z)).prod) := by
  induction l with
  | nil => simpa using const (A := A) (B := B) 1
  | cons a l ih =>
    simp only [List.map_cons, List.prod_cons]
    exact (h a (by simp)).mul (ih fun b hb => h b (by simp [hb]))

/-- Composition with a smooth function. -/
theorem comp_smooth (hf : SetLip A B f) {φ : ℝ → ℝ} (hφ : ContDiff ℝ 1 φ) :
    SetLip A B (fun s z => φ (f s z)) := by
  obtain ⟨K, M, hK, hM, h⟩ := hf
  obtain ⟨L, hL⟩ := hφ.contDiffOn (s := Icc (-M) M) |>.exists_lipschitzOnWith one_ne_zero
    (convex_Icc _ _) isCompact_Icc
  obtain ⟨C, hC⟩ := isCompact_Icc.exists_bound_of_continuousOn (s := Icc (-M) M)
    hφ.continuous.continuousOn
  refine ⟨L * K, max C 0, mul_nonneg L.2 hK, le_max_right _ _, fun s hs z hz => ?_⟩
  obtain ⟨h1, h2⟩ := h s hs z hz
  have hm : f s z ∈ Icc (-M) M := abs_le.1 h1
  refine ⟨?_, fun z' hz' => ?_⟩
  · have := hC _ hm
    rw [Real.norm_eq_abs] at this
    exact this.trans (le_max_left _ _)
  · have hm' : f s z' ∈ Icc (-M) M := abs_le.1 (h s hs z' hz').1
    have := hL.dist_le_mul _ hm _ hm'
    rw [Real.dist_eq, Real.dist_eq] at this
    refine this.trans ?_
    rw [mul_assoc]
    exact mul_le_mul_of_nonneg_left (h2 z' hz') L.2

/-- A constant power of at least one. -/
theorem rpow (hf : SetLip A B f) {p : ℝ} (hp : 1 ≤ p) : SetLip A B (fun s z => f s z ^ p) :=
  hf.comp_smooth (φ := fun x => x ^ p) (Real.contDiff_rpow_const_of_le (n := 1) (by simpa using hp))

end SetLip

/-- Common constants for all components. -/
theorem SetLip.components {A : Set ℝ} {B : Set (ι → ℝ)} {G : ℝ → (ι → ℝ) → ι → ℝ}
    (h : ∀ i, SetLip A B (fun s z => G s z i)) : ∃ K M : NNReal, ∀ s ∈ A,
      LipschitzOnWith K (G s) B ∧ ∀ z ∈ B, ‖G s z‖ ≤ M := by
  classical
  choose K M hK hM hh using h
  have hS : 0 ≤ ∑ i, K i := Finset.sum_nonneg fun i _ => hK i
  have hT : 0 ≤ ∑ i, M i := Finset.sum_nonneg fun i _ => hM i
  refine ⟨(∑ i, K i).toNNReal, (∑ i, M i).toNNReal, fun s hs => ⟨?_, fun z hz => ?_⟩⟩
  · refine LipschitzOnWith.of_dist_le_mul fun z hz z' hz' => ?_
    rw [Real.coe_toNNReal _ hS, dist_pi_le_iff (mul_nonneg hS dist_nonneg)]
    intro i
    have := (hh i s hs z hz).2 z' hz'
    rw [Real.dist_eq]
    refine this.trans (mul_le_mul_of_nonneg_right ?_ dist_nonneg)
    exact Finset.single_le_sum (fun i _ => hK i) (Finset.mem_univ i)
  · rw [Real.coe_toNNReal _ hT, pi_norm_le_iff_of_nonneg hT]
    intro i
    rw [Real.norm_eq_abs]
    exact (hh i s hs z hz).1.trans (Finset.single_le_sum (fun i _ => hM i) (Finset.mem_univ i))

/-! ## Existence -/

/-- The nearest state of the box. -/
def clip (R : ℝ) (y : ι → ℝ) : ι → ℝ := fun i => max 0 (min (y i) R)

omit [Fintype ι] in
theorem clip_mem {R : ℝ} (hR : 0 ≤ R) (y : ι → ℝ) : clip R y ∈ box R := fun _ =>
  ⟨le_max_left _ _, max_le hR (min_le_right _ _)⟩

omit [Fintype ι] in
theorem clip_of_mem {R : ℝ} {y : ι → ℝ} (h : y ∈ box R) : clip R y = y := by
  funext i
  unfold clip
  rw [min_eq_left (h i).2, max_eq_right (h i).1]

theorem clip_lipschitz (R : ℝ) : LipschitzWith 1 (clip R : (ι → ℝ) → ι → ℝ) := by
  refine LipschitzWith.of_dist_le_mul fun y z => ?_
  rw [NNReal.coe_one, one_mul, dist_pi_le_iff dist_nonneg]
  intro i
  refine le_trans ?_ (dist_le_pi_dist y z i)
  rw [Real.dist_eq, Real.dist_eq]
  unfold clip
  refine (abs_max_sub_max_le_max _ _ _ _).trans ?_
  rw [sub_self, abs_zero]
  refine max_le (abs_nonneg _) ((abs_min_sub_min_le_max _ _ _ _).trans ?_)
  rw [sub_self, abs_zero]
  exact max_le le_rfl (abs_nonneg _)

/-- A total that cannot grow. -/
theorem linear_le {G : ℝ → (ι → ℝ) → ι → ℝ} {u : ℝ → ι → ℝ} {T : ℝ} (hu : SolvesOn G u 0 T) (c : ι → ℝ)
    (hc : ∀ t ∈ Ico 0 T, ∑ i, c i * G t (u t) i ≤ 0) :
    ∀ t ∈ Icc 0 T, ∑ i, c i * u t i ≤ ∑ i, c i * u 0 i := by
  intro t ht
  obtain ⟨S, hS, hud⟩ := hu.2
  refine le_off_finite hS (f := fun t => ∑ i, c i * u t i)
    (f' := fun t => ∑ i, c i * G t (u t) i) ht.1 (ContinuousOn.mono ?_ (Icc_subset_Icc le_rfl ht.2)) ?_
  · exact continuousOn_finsetSum _ fun i _ =>
      continuousOn_const.mul ((continuous_apply i).comp_continuousOn hu.1)
  · intro s hs hsS
    have hs' : s ∈ Ico 0 T := ⟨hs.1, hs.2.trans_le ht.2⟩
    exact ⟨HasDerivWithinAt.fun_sum fun i _ => (hasDerivWithinAt_pi.1 (hud s hs' hsS) i).const_mul _,
      hc s hs'⟩

/-- Existence on a box. -/
theorem exists_solution {G : ℝ → (ι → ℝ) → ι → ℝ} {T R : ℝ} (hT : 0 ≤ T) (hR : 0 ≤ R) {K M : NNReal}
    (hlip : ∀ t ∈ Icc 0 T, LipschitzOnWith K (G t) (box R) ∧ ∀ z ∈ box R, ‖G t z‖ ≤ M)
    (hcont : ∀ y ∈ box R, ContinuousOn (fun t => G t y) (Icc 0 T))
    (hq : ∀ t ∈ Icc 0 T, QuasiPositive (G t)) {y0 : ι → ℝ} (hy0 : ∀ i, 0 ≤ y0 i)
    (htot : ∀ i, ∃ c : ι → ℝ, (∀ j, 0 ≤ c j) ∧ 0 < c i ∧
      (∀ t ∈ Icc 0 T, ∀ y, (∀ j, 0 ≤ y j) → ∑ j, c j * G t y j ≤ 0) ∧ ∑ j, c j * y0 j ≤ c i * R) :
    ∃ u, u 0 = y0 ∧ SolvesEverywhere G u 0 T ∧ ∀ t ∈ Icc 0 T, u t ∈ box R := by
  set H : ℝ → (ι → ℝ) → ι → ℝ := fun t y => G t (clip R y) with hH
  have hHlip : ∀ t ∈ Icc 0 T, LipschitzWith K (H t) := by
    intro t ht
    have := (hlip t ht).1.comp (clip_lipschitz R).lipschitzOnWith (s := univ)
      (fun y _ => clip_mem hR y)
    rw [mul_one, lipschitzOnWith_univ] at this
    exact this
  have hpl : IsPicardLindelof H (tmin := 0) (tmax := T) ⟨0, le_rfl, hT⟩ y0 (M * T.toNNReal) 0 M K := by
    constructor
    · exact fun t ht => (hHlip t ht).lipschitzOnWith
    · exact fun y _ => hcont _ (clip_mem hR y)
    · exact fun t ht y _ => (hlip t ht).2 _ (clip_mem hR y)
    · simp [Real.coe_toNNReal _ hT, hT]
  obtain ⟨u, hu0, hu⟩ := hpl.exists_eq_forall_mem_Icc_hasDerivWithinAt₀
  have hsol : SolvesEverywhere H u 0 T := by
    refine ⟨fun t ht => (hu t ht).continuousWithinAt, fun t ht => ?_⟩
    refine (hu t (Ico_subset_Icc_self ht)).mono_of_mem_nhdsWithin ?_
    exact Icc_mem_nhdsGE_of_mem ht
  have hnn : ∀ t ∈ Icc 0 T, ∀ i, 0 ≤ u t i := by
    have h0 : ∀ i, 0 ≤ u 0 i := fun i => by
      have h1 : u 0 = y0 := hu0
      rw [h1]; exact hy0 i
    refine PyBox.SolvesOn.nonneg hsol.solvesOn h0 ?_ ?_
    · intro t ht y _
      refine ⟨K, T - t, by linarith [ht.2], fun s hs => (hHlip s ⟨ht.1.trans hs.1, ?_⟩).lipschitzOnWith⟩
      linarith [hs.2]
    · intro t ht y hy i hi
      refine hq t (Ico_subset_Icc_self ht) _ (fun j => (clip_mem hR y j).1) i ?_
      unfold clip
      rw [hi, min_eq_left hR, max_self]
  have hbox : ∀ t ∈ Icc 0 T, u t ∈ box R := by
    intro t ht i
    refine ⟨hnn t ht i, ?_⟩
    obtain ⟨c, hc0, hci, hcG, hcy⟩ := htot i
    have h1 := linear_le hsol.solvesOn c (fun t ht => hcG t (Ico_subset_Icc_self ht) _
      (fun j => (clip_mem hR (u t) j).1)) t ht
    have h2 : c i * u t i ≤ ∑ j, c j * u t j :=
      Finset.single_le_sum (f := fun j => c j * u t j) (fun j _ => mul_nonneg (hc0 j) (hnn t ht j))
        (Finset.mem_univ i)
    have hu0' : u 0 = y0 := hu0
    rw [hu0'] at h1
    exact le_of_mul_le_mul_left (h2.trans (h1.trans hcy)) hci
  refine ⟨u, hu0, ⟨hsol.1, fun t ht => ?_⟩, hbox⟩
  have := hsol.2 t ht
  simp only [hH, clip_of_mem (hbox t (Ico_subset_Icc_self ht))] at this
  exact this

/-! ## Uniqueness -/

/-- A solution is bounded. -/
theorem SolvesOn.bounded {G : ℝ → (ι → ℝ) → ι → ℝ} {u : ℝ → ι → ℝ} {T : ℝ} (hu : SolvesOn G u 0 T) :
    ∃ R, 0 ≤ R ∧ ∀ t ∈ Icc 0 T, ∀ i, u t i ≤ R := by
  obtain ⟨C, hC⟩ := isCompact_Icc.exists_bound_of_continuousOn hu.1
  refine ⟨max C 0, le_max_right _ _, fun t ht i => ?_⟩
  exact (le_abs_self _).trans ((norm_le_pi_norm (u t) i).trans ((hC t ht).trans (le_max_left _ _)))

/-- Two non-negative solutions with the same start agree. -/
theorem SolvesOn.unique_nonneg {G : ℝ → (ι → ℝ) → ι → ℝ} {u v : ℝ → ι → ℝ} {T : ℝ} (hu : SolvesOn G u 0 T)
    (hv : SolvesOn G v 0 T) (hu0 : ∀ t ∈ Icc 0 T, ∀ i, 0 ≤ u t i) (hv0 : ∀ t ∈ Icc 0 T, ∀ i, 0 ≤ v t i)
    (hlip : ∀ R, 0 ≤ R → ∃ K, ∀ t ∈ Icc 0 T, LipschitzOnWith K (G t) (box R)) (h0 : u 0 = v 0) :
    EqOn u v (Icc 0 T) := by
  obtain ⟨R, hR, hRu⟩ := PyBox.SolvesOn.bounded hu
  obtain ⟨S, -, hSv⟩ := PyBox.SolvesOn.bounded hv
  obtain ⟨K, hK⟩ := hlip (max R S) (hR.trans (le_max_left _ _))
  obtain ⟨S1, hS1, hd1⟩ := hu.2
  obtain ⟨S2, hS2, hd2⟩ := hv.2
  intro t ht
  have hsub : Icc 0 t ⊆ Icc 0 T := Icc_subset_Icc le_rfl ht.2
  have hin : ∀ s ∈ Ico 0 t, s ∈ Icc 0 T := fun s hs => hsub (Ico_subset_Icc_self hs)
  have h := dist_off_finite (hS1.union hS2) (G := G) (B := box (max R S)) (K := K) (u := u) (v := v) ht.1
    (fun s hs => hK s (hin s hs)) (hu.1.mono hsub)
    (fun s hs hsS => hd1 s ⟨hs.1, hs.2.trans_le ht.2⟩ fun h => hsS (Or.inl h))
    (fun s hs i => ⟨hu0 s (hin s hs) i, (hRu s (hin s hs) i).trans (le_max_left _ _)⟩)
    (hv.1.mono hsub)
    (fun s hs hsS => hd2 s ⟨hs.1, hs.2.trans_le ht.2⟩ fun h => hsS (Or.inr h))
    (fun s hs i => ⟨hv0 s (hin s hs) i, (hSv s (hin s hs) i).trans (le_max_right _ _)⟩)
  rw [h0, dist_self, zero_mul] at h
  exact dist_le_zero.1 h

end PyBox
