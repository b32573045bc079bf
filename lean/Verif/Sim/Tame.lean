import Verif.Sim.Exists
import Verif.Props.Sim

/-!
# Systems a simulation can follow

What is needed of a system of differential equations for exact solutions to stay non-negative, to be
unique and to exist, and what follows for the rows a run reports.
-/

namespace PyBox

open Set Spec Filter Topology

namespace Spec

/-- Every batch of the run ends where a solution of `u' = F t u` ends that starts, at solver time 0, where
the batch before ended. -/
def ExactBatches {E : Type*} [NormedAddCommGroup E] [NormedSpace ℝ E] (F : ℝ → E → E)
    (solve : E → ℚ → E) (batch : ℚ) (y0 : E) (n : ℕ) : Prop :=
  ∀ k < n, ∃ u : ℝ → E, u 0 = afterBatches solve batch y0 k ∧ SolvesOn F u 0 batch ∧
    u batch = afterBatches solve batch y0 (k + 1)

/-- Functions of time that are continuous but for finitely many jumps in any bounded time after 0, the same
for all of them. -/
def PiecewiseContinuous {α X : Type*} [TopologicalSpace X] (f : α → ℝ → X) : Prop :=
  (∀ T, ∃ S : Set ℝ, S.Finite ∧ ∀ t ∈ Icc 0 T, t ∉ S → ∀ a, ContinuousAt (f a) t) ∧
  ∀ t a, (∃ l, Tendsto (f a) (𝓝[<] t) (𝓝 l)) ∧ ∃ l, Tendsto (f a) (𝓝[>] t) (𝓝 l)

end Spec

namespace Spec.PiecewiseContinuous

variable {α β X : Type*} [TopologicalSpace X]

theorem of_continuous {f : α → ℝ → X} (h : ∀ a, Continuous (f a)) : PiecewiseContinuous f :=
  ⟨fun _ => ⟨∅, finite_empty, fun _ _ _ a => (h a).continuousAt⟩, fun t a =>
    ⟨⟨f a t, ((h a).tendsto t).mono_left nhdsWithin_le_nhds⟩,
      ⟨f a t, ((h a).tendsto t).mono_left nhdsWithin_le_nhds⟩⟩⟩

theorem reindex {f : α → ℝ → X} (h : PiecewiseContinuous f) (g : β → α) :
    PiecewiseContinuous (fun b => f (g b)) :=
  ⟨fun T => (h.1 T).imp fun _ hS => ⟨hS.1, fun t ht htS b => hS.2 t ht htS (g b)⟩, fun t b => h.2 t (g b)⟩

theorem map_continuous {Y : Type*} [TopologicalSpace Y] {f : α → ℝ → X} (h : PiecewiseContinuous f)
    {φ : α → X → Y} (hφ : ∀ a, Continuous (φ a)) : PiecewiseContinuous (fun a t => φ a (f a t)) := by
  refine ⟨fun T => (h.1 T).imp fun _ hS => ⟨hS.1, fun t ht htS a =>
    (hφ a).continuousAt.comp (hS.2 t ht htS a)⟩, fun t a => ⟨?_, ?_⟩⟩
  · obtain ⟨l, hl⟩ := (h.2 t a).1
    exact ⟨φ a l, ((hφ a).tendsto l).comp hl⟩
  · obtain ⟨l, hl⟩ := (h.2 t a).2
    exact ⟨φ a l, ((hφ a).tendsto l).comp hl⟩

/-- Functions into products, component by component. -/
theorem pi {κ : Type*} [Fintype κ] {X : κ → Type*} [∀ k, TopologicalSpace (X k)] {f : α → ℝ → ∀ k, X k}
    (h : ∀ k, PiecewiseContinuous (fun a t => f a t k)) : PiecewiseContinuous f := by
  constructor
  · intro T
    choose S hS hc using fun k => (h k).1 T
    refine ⟨⋃ k, S k, finite_iUnion hS, fun t ht htS a => continuousAt_pi.2 fun k => ?_⟩
    exact hc k t ht (fun hk => htS (mem_iUnion.2 ⟨k, hk⟩)) a
  · intro t a
    constructor
    · choose l hl using fun k => ((h k).2 t a).1
      exact ⟨l, tendsto_pi_nhds.2 hl⟩
    · choose l hl using fun k => ((h k).2 t a).2
      exact ⟨l, tendsto_pi_nhds.2 hl⟩

/-- Weighted sums. -/
theorem sum {κ : Type*} (I : Finset κ) (c : κ → α → ℝ) {f : κ → α → ℝ → ℝ}
    (h : ∀ k ∈ I, PiecewiseContinuous (f k)) :
    PiecewiseContinuous (fun a t => ∑ k ∈ I, c k a * f k a t) := by
  have := (pi (κ := I) (f := fun a t (k : I) => f k a t) fun k => h k k.2).map_continuous
    (φ := fun a z => ∑ k : I, c k a * z k) (fun a => by fun_prop)
  refine cast (congrArg _ ?_) this
  funext a t
  exact Finset.sum_coe_sort I (fun k => c k a * f k a t)

end Spec.PiecewiseContinuous

/-! ## Batches -/

theorem batches_invariant {E : Type*} [NormedAddCommGroup E] [NormedSpace ℝ E] {F : ℝ → E → E}
    {solve : E → ℚ → E} {batch : ℚ} {y0 : E} {n : ℕ} (hex : ExactBatches F solve batch y0 n)
    {S : E → Prop} (h0 : S y0)
    (hstep : ∀ u : ℝ → E, SolvesOn F u 0 batch → S (u 0) → S (u batch)) :
    ∀ k ≤ n, S (afterBatches solve batch y0 k) := by
  intro k
  induction k with
  | zero => intro _; exact h0
  | succ k ih =>
    intro hk
    obtain ⟨u, h1, h2, h3⟩ := hex k (by omega)
    rw [← h3]
    exact hstep u h2 (by rw [h1]; exact ih (by omega))

/-- The same for the rows a run reports. -/
theorem rows_invariant {E : Type*} [NormedAddCommGroup E] [NormedSpace ℝ E] {F : ℝ → E → E}
    {solve : E → ℚ → E} {sim batch : ℚ} {zero y0 : E} (hs : 0 < sim) (hb : 0 < batch)
    {times : List ℚ} {rows : List E}
    (hrun : runSimulation id solve zero y0 sim batch = .ok (times, rows))
    (hex : ExactBatches F solve batch y0 rows.length) {S : E → Prop} (h0 : S y0)
    (hstep : ∀ u : ℝ → E, SolvesOn F u 0 batch → S (u 0) → S (u batch)) : ∀ row ∈ rows, S row := by
  obtain ⟨n, -, hr, -⟩ := C32_output_times hs hb hrun
  intro row hrow
  have hlen : rows.length = n := by rw [hr]; simp
  rw [hlen] at hex
  rw [hr, List.mem_map] at hrow
  obtain ⟨k, hk, rfl⟩ := hrow
  have := List.mem_range.1 hk
  exact batches_invariant hex h0 hstep (k + 1) (by omega)

/-- A quantity that does not grow along the solutions from good states does not grow from row to row. -/
theorem rows_decreasing {E : Type*} [NormedAddCommGroup E] [NormedSpace ℝ E] {F : ℝ → E → E}
    {solve : E → ℚ → E} {sim batch : ℚ} {zero y0 : E} (hs : 0 < sim) (hb : 0 < batch)
    {times : List ℚ} {rows : List E}
    (hrun : runSimulation id solve zero y0 sim batch = .ok (times, rows))
    (hex : ExactBatches F solve batch y0 rows.length) {S : E → Prop} {V : E → ℝ} (h0 : S y0)
    (hstep : ∀ u : ℝ → E, SolvesOn F u 0 batch → S (u 0) → S (u batch) ∧ V (u batch) ≤ V (u 0)) :
    (y0 :: rows).Pairwise fun a b => V b ≤ V a := by
  obtain ⟨k, -, hrows, -⟩ := C32_output_times hs hb hrun
  have hlen : rows.length = k := by rw [hrows]; simp
  rw [hlen] at hex
  have hS := batches_invariant hex h0 fun u hu hu0 => (hstep u hu hu0).1
  have hV : ∀ j < k, V (afterBatches solve batch y0 (j + 1)) ≤ V (afterBatches solve batch y0 j) := by
    intro j hj
    obtain ⟨u, h1, h2, h3⟩ := hex j hj
    rw [← h3, ← h1]
    exact (hstep u h2 (by rw [h1]; exact hS j hj.le)).2
  have hcons : y0 :: rows = (List.range (k + 1)).map (afterBatches solve batch y0) := by
    rw [hrows, List.range_succ_eq_map, List.map_cons, List.map_map]
    rfl
  rw [hcons, List.pairwise_map, List.pairwise_iff_getElem]
  intro i j hi hj hij
  rw [List.getElem_range, List.getElem_range]
  rw [List.length_range] at hj
  obtain ⟨d, rfl⟩ := Nat.exists_eq_add_of_le hij.le
  clear hij hi
  induction d with
  | zero => exact le_rfl
  | succ d ih => exact (hV (i + d) (by omega)).trans (ih (by omega))

/-- If solutions from good states are unique and lead to good states, so are the reported rows. -/
theorem rows_unique {E : Type*} [NormedAddCommGroup E] [NormedSpace ℝ E] {F : ℝ → E → E}
    {solve solve' : E → ℚ → E} {sim batch : ℚ} {zero y0 : E} (hs : 0 < sim) (hb : 0 < batch)
    {times times' : List ℚ} {rows rows' : List E}
    (hrun : runSimulation id solve zero y0 sim batch = .ok (times, rows))
    (hrun' : runSimulation id solve' zero y0 sim batch = .ok (times', rows'))
    (hex : ExactBatches F solve batch y0 rows.length)
    (hex' : ExactBatches F solve' batch y0 rows'.length) {S : E → Prop} (h0 : S y0)
    (hstep : ∀ u v : ℝ → E, SolvesOn F u 0 batch → SolvesOn F v 0 batch → u 0 = v 0 → S (u 0) →
      S (u batch) ∧ u batch = v batch) : times = times' ∧ rows = rows' := by
  obtain ⟨k, ht, hr1, hk⟩ := C32_output_times hs hb hrun
  obtain ⟨k', ht', hr1', hk'⟩ := C32_output_times hs hb hrun'
  have hkk : k = k' := by
    have : (k : ℚ) * batch = k' * batch := by rw [← hk, ← hk']
    exact_mod_cast mul_right_cancel₀ hb.ne' this
  subst hkk
  have hlen : rows.length = k := by rw [hr1]; simp
  have hlen' : rows'.length = k := by rw [hr1']; simp
  rw [hlen] at hex
  rw [hlen'] at hex'
  have hsame : ∀ j ≤ k, afterBatches solve batch y0 j = afterBatches solve' batch y0 j ∧
      S (afterBatches solve batch y0 j) := by
    intro j
    induction j with
    | zero => exact fun _ => ⟨rfl, h0⟩
    | succ j ih =>
      intro hj
      obtain ⟨e1, n1⟩ := ih (by omega)
      obtain ⟨u, u1, u2, u3⟩ := hex j (by omega)
      obtain ⟨v, v1, v2, v3⟩ := hex' j (by omega)
      obtain ⟨a, b⟩ := hstep u v u2 v2 (by rw [u1, v1, e1]) (by rw [u1]; exact n1)
      rw [← u3, ← v3]
      exact ⟨b, a⟩
  refine ⟨by rw [ht, ht'], ?_⟩
  rw [hr1, hr1']
  apply List.map_congr_left
  intro j hj
  have := List.mem_range.1 hj
  exact (hsame (j + 1) (by omega)).1

/-- If good states have solutions and these lead to good states, an exact solver exists. -/
theorem exact_solver {E : Type*} [NormedAddCommGroup E] [NormedSpace ℝ E] {F : ℝ → E → E} {batch : ℚ}
    {S : E → Prop} (hex : ∀ y0, S y0 → ∃ u : ℝ → E, u 0 = y0 ∧ SolvesOn F u 0 batch ∧ S (u batch)) :
    ∃ solve : E → ℚ → E, ∀ y0, S y0 → ∀ k, ExactBatches F solve batch y0 k := by
  classical
  have hex' : ∀ y0 : E, ∃ u : ℝ → E, S y0 → u 0 = y0 ∧ SolvesOn F u 0 batch ∧ S (u batch) := by
    intro y0
    by_cases h0 : S y0
    · obtain ⟨u, hu⟩ := hex y0 h0
      exact ⟨u, fun _ => hu⟩
    · exact ⟨fun _ => y0, fun h => absurd h h0⟩
  choose u hu using hex'
  refine ⟨fun y d => u y d, fun y0 hy0 k => ?_⟩
  have hsucc : ∀ j, afterBatches (fun y (d : ℚ) => u y d) batch y0 (j + 1)
      = u (afterBatches (fun y (d : ℚ) => u y d) batch y0 j) batch := fun j =>
    Function.iterate_succ_apply' _ _ _
  have hnn : ∀ j, S (afterBatches (fun y (d : ℚ) => u y d) batch y0 j) := by
    intro j
    induction j with
    | zero => exact hy0
    | succ j ih =>
      rw [hsucc]
      exact (hu _ ih).2.2
  intro j _
  obtain ⟨h1, h2, -⟩ := hu _ (hnn j)
  exact ⟨_, h1, h2, (hsucc j).symm⟩

/-! ## Tame systems -/

section Tame

variable {ι : Type} [Fintype ι]

/-- Lipschitz near the non-negative states, and no component of a non-negative state that is 0 falls. -/
structure Tame (F : ℝ → (ι → ℝ) → ι → ℝ) : Prop where
  near : ∀ t y, (∀ i, 0 ≤ y i) → ∀ i, NearLip t y (fun s z => F s z i)
  quasi : ∀ t, QuasiPositive (F t)

/-- Bounded and Lipschitz on boxes of non-negative states, continuous in time. -/
structure BoxLip (F : ℝ → (ι → ℝ) → ι → ℝ) : Prop where
  lip : ∀ T R, 0 ≤ R → ∀ i, SetLip (Icc 0 T) (box R) (fun s z => F s z i)
  cont : ∀ y, (∀ i, 0 ≤ y i) → Continuous fun t => F t y

/-- Bounded and Lipschitz on boxes of non-negative states, in time continuous except for finitely many
jumps in any bounded time. -/
structure BoxPieces (F : ℝ → (ι → ℝ) → ι → ℝ) : Prop where
  lip : ∀ T R, 0 ≤ R → ∀ i, SetLip (Icc 0 T) (box R) (fun s z => F s z i)
  time : PiecewiseContinuous (fun (y : {y : ι → ℝ // ∀ i, 0 ≤ y i}) t => F t y)

/-- Every component has a positive weight in some total that does not grow. -/
def Dissipative (F : ℝ → (ι → ℝ) → ι → ℝ) : Prop :=
  ∀ i, ∃ c : ι → ℝ, (∀ j, 0 ≤ c j) ∧ 0 < c i ∧ ∀ t y, (∀ j, 0 ≤ y j) → ∑ j, c j * F t y j ≤ 0

variable {F : ℝ → (ι → ℝ) → ι → ℝ}

theorem Tame.nonneg (hF : Tame F) {u : ℝ → ι → ℝ} {b : ℝ} (hu : SolvesOn F u 0 b) (h0 : ∀ i, 0 ≤ u 0 i) :
    ∀ t ∈ Icc 0 b, ∀ i, 0 ≤ u t i :=
  PyBox.SolvesOn.nonneg hu h0 (fun t _ y hy => LipschitzNear.of_components (hF.near t y hy))
    (fun t _ => hF.quasi t)

theorem Tame.rows_nonneg (hF : Tame F) {solve : (ι → ℝ) → ℚ → ι → ℝ} {sim batch : ℚ} (hs : 0 < sim)
    (hb : 0 < batch) {zero y0 : ι → ℝ} (hy0 : ∀ i, 0 ≤ y0 i) {times : List ℚ} {rows : List (ι → ℝ)}
    (hrun : runSimulation id solve zero y0 sim batch = .ok (times, rows))
    (hex : ExactBatches F solve batch y0 rows.length) : ∀ row ∈ rows, ∀ i, 0 ≤ row i := by
  have hb' : (0 : ℝ) ≤ batch := by exact_mod_cast hb.le
  refine rows_invariant hs hb hrun hex (S := fun y => ∀ i, 0 ≤ y i) hy0 fun u hu h0 => ?_
  exact hF.nonneg hu h0 _ ⟨hb', le_rfl⟩

/-- A total that does not grow in non-negative states does not grow from row to row. -/
theorem Tame.rows_total (hF : Tame F) (c : ι → ℝ)
    (hc : ∀ t y, (∀ j, 0 ≤ y j) → ∑ j, c j * F t y j ≤ 0)
    {solve : (ι → ℝ) → ℚ → ι → ℝ} {sim batch : ℚ} (hs : 0 < sim)
    (hb : 0 < batch) {zero y0 : ι → ℝ} (hy0 : ∀ i, 0 ≤ y0 i) {times : List ℚ} {rows : List (ι → ℝ)}
    (hrun : runSimulation id solve zero y0 sim batch = .ok (times, rows))
    (hex : ExactBatches F solve batch y0 rows.length) :
    (y0 :: rows).Pairwise fun a b => ∑ j, c j * b j ≤ ∑ j, c j * a j := by
  have hb' : (0 : ℝ) ≤ batch := by exact_mod_cast hb.le
  refine rows_decreasing hs hb hrun hex (S := fun y => ∀ i, 0 ≤ y i) (V := fun y => ∑ j, c j * y j) hy0
    fun u hu h0 => ?_
  have hn := hF.nonneg hu h0
  exact ⟨hn _ ⟨hb', le_rfl⟩,
    linear_le hu c (fun t ht => hc t _ (hn t (Ico_subset_Icc_self ht))) _ ⟨hb', le_rfl⟩⟩

/-- A total that does not change is the same in all rows; this needs nothing else. -/
theorem rows_constant (c : ι → ℝ) (hc : ∀ t y, ∑ j, c j * F t y j = 0)
    {solve : (ι → ℝ) → ℚ → ι → ℝ} {sim batch : ℚ} (hs : 0 < sim)
    (hb : 0 < batch) {zero y0 : ι → ℝ} {times : List ℚ} {rows : List (ι → ℝ)}
    (hrun : runSimulation id solve zero y0 sim batch = .ok (times, rows))
    (hex : ExactBatches F solve batch y0 rows.length) :
    ∀ row ∈ rows, ∑ j, c j * row j = ∑ j, c j * y0 j := by
  have hb' : (0 : ℝ) ≤ batch := by exact_mod_cast hb.le
  refine rows_invariant hs hb hrun hex (S := fun y => ∑ j, c j * y j = ∑ j, c j * y0 j) rfl
    fun u hu h0 => ?_
  rw [← h0]
  refine le_antisymm (linear_le hu c (fun t _ => (hc t _).le) _ ⟨hb', le_rfl⟩) ?_
  have := linear_le hu (fun j => - c j) (fun t _ => by
    simp only [neg_mul, Finset.sum_neg_distrib, hc, neg_zero]; exact le_rfl) _ ⟨hb', le_rfl⟩
  simp only [neg_mul, Finset.sum_neg_distrib] at this
  linarith

/-- The same for totals that are constant in the non-negative states only. -/
theorem Tame.rows_constant (hF : Tame F) (c : ι → ℝ)
    (hc : ∀ t y, (∀ j, 0 ≤ y j) → ∑ j, c j * F t y j = 0)
    {solve : (ι → ℝ) → ℚ → ι → ℝ} {sim batch : ℚ} (hs : 0 < sim)
    (hb : 0 < batch) {zero y0 : ι → ℝ} (hy0 : ∀ i, 0 ≤ y0 i) {times : List ℚ} {rows : List (ι → ℝ)}
    (hrun : runSimulation id solve zero y0 sim batch = .ok (times, rows))
    (hex : ExactBatches F solve batch y0 rows.length) :
    ∀ row ∈ rows, ∑ j, c j * row j = ∑ j, c j * y0 j := by
  have h1 := hF.rows_total c (fun t y hy => (hc t y hy).le) hs hb hy0 hrun hex
  have h2 := hF.rows_total (fun j => - c j) (fun t y hy => by
    simp only [neg_mul, Finset.sum_neg_distrib, hc t y hy, neg_zero]; exact le_rfl) hs hb hy0 hrun hex
  intro row hrow
  have a := (List.pairwise_cons.1 h1).1 row hrow
  have b := (List.pairwise_cons.1 h2).1 row hrow
  simp only [neg_mul, Finset.sum_neg_distrib] at b
  linarith

omit [Fintype ι] in
/-- The totals bound every component. -/
theorem total_bound [Fintype ι] {c : ι → ι → ℝ} (hc0 : ∀ i j, 0 ≤ c i j) (hci : ∀ i, 0 < c i i)
    {y0 : ι → ℝ} (hy0 : ∀ i, 0 ≤ y0 i) : ∃ R, 0 ≤ R ∧ ∀ i, ∑ j, c i j * y0 j ≤ c i i * R := by
  refine ⟨∑ i, (∑ j, c i j * y0 j) / c i i, Finset.sum_nonneg fun i _ => ?_, fun i => ?_⟩
  · exact div_nonneg (Finset.sum_nonneg fun j _ => mul_nonneg (hc0 i j) (hy0 j)) (hci i).le
  · have h1 : (∑ j, c i j * y0 j) / c i i ≤ ∑ i, (∑ j, c i j * y0 j) / c i i :=
      Finset.single_le_sum (f := fun i => (∑ j, c i j * y0 j) / c i i) (fun i _ =>
        div_nonneg (Finset.sum_nonneg fun j _ => mul_nonneg (hc0 i j) (hy0 j)) (hci i).le)
        (Finset.mem_univ i)
    rw [div_le_iff₀ (hci i)] at h1
    linarith

theorem Tame.solution (hF : Tame F) (hB : BoxLip F) (hD : Dissipative F) {y0 : ι → ℝ}
    (hy0 : ∀ i, 0 ≤ y0 i) {T : ℝ} (hT : 0 ≤ T) : ∃ u, u 0 = y0 ∧ SolvesEverywhere F u 0 T := by
  choose c hc0 hci hct using hD
  obtain ⟨R, hR0, hRc⟩ := total_bound hc0 hci hy0
  obtain ⟨K, M, hKM⟩ := SetLip.components (A := Icc 0 T) (B := box R) (hB.lip T R hR0)
  obtain ⟨u, hu0, hu, -⟩ := exists_solution hT hR0 hKM
    (fun y hy => (hB.cont y fun i => (hy i).1).continuousOn) (fun t _ => hF.quasi t) hy0
    (fun i => ⟨c i, hc0 i, hci i, fun t _ y hy => hct i t y hy, hRc i⟩)
  exact ⟨u, hu0, hu⟩

/-- Systems that are continuous in time have no jumps. -/
theorem BoxLip.pieces (hB : BoxLip F) : BoxPieces F where
  lip := hB.lip
  time := PiecewiseContinuous.of_continuous fun y => hB.cont y y.2

/-- Existence between two jumps. -/
theorem Tame.solution_piece (hF : Tame F) (hB : BoxPieces F) (hD : Dissipative F) {a b : ℝ} (ha : 0 ≤ a)
    (hab : a < b) (hcont : ∀ t ∈ Ioo a b, ∀ y, (∀ i, 0 ≤ y i) → ContinuousAt (fun s => F s y) t)
    {y0 : ι → ℝ} (hy0 : ∀ i, 0 ≤ y0 i) :
    ∃ u, u 0 = y0 ∧ SolvesOn (fun t => F (a + t)) u 0 (b - a) := by
  choose c hc0 hci hct using hD
  obtain ⟨R, hR0, hRc⟩ := total_bound hc0 hci hy0
  obtain ⟨K, M, hKM⟩ := SetLip.components (A := Icc 0 b) (B := box R) (hB.lip b R hR0)
  -- the values inside, extended by their limits
  set G : ℝ → (ι → ℝ) → ι → ℝ := fun t y => extendFrom (Ioo a b) (fun s => F s y) t with hG
  have hGc : ∀ y, (∀ i, 0 ≤ y i) → ContinuousOn (fun t => G t y) (Icc a b) := by
    intro y hy
    obtain ⟨la, hla⟩ := (hB.time.2 a ⟨y, hy⟩).2
    obtain ⟨lb, hlb⟩ := (hB.time.2 b ⟨y, hy⟩).1
    exact continuousOn_Icc_extendFrom_Ioo (fun t ht => (hcont t ht y hy).continuousWithinAt) hla hlb
  have hGin : ∀ t ∈ Ioo a b, ∀ y, (∀ i, 0 ≤ y i) → G t y = F t y := by
    intro t ht y hy
    exact extendFrom_eq (subset_closure ht) (hcont t ht y hy).continuousWithinAt
  have hne : ∀ t ∈ Icc a b, (𝓝[Ioo a b] t).NeBot := by
    intro t ht
    rw [← mem_closure_iff_nhdsWithin_neBot, closure_Ioo hab.ne]
    exact ht
  have hlim : ∀ t ∈ Icc a b, ∀ y, (∀ i, 0 ≤ y i) → Tendsto (fun s => F s y) (𝓝[Ioo a b] t) (𝓝 (G t y)) := by
    intro t ht y hy
    have h1 : Tendsto (fun s => G s y) (𝓝[Ioo a b] t) (𝓝 (G t y)) :=
      ((hGc y hy) t ht).mono_left (nhdsWithin_mono t Ioo_subset_Icc_self)
    refine h1.congr' ?_
    filter_upwards [self_mem_nhdsWithin] with s hs
    exact hGin s hs y hy
  have hin : ∀ t, ∀ᶠ s in 𝓝[Ioo a b] t, s ∈ Icc 0 b := fun t => by
    filter_upwards [self_mem_nhdsWithin] with s hs
    exact ⟨ha.trans hs.1.le, hs.2.le⟩
  have hb0 : ∀ y ∈ box R, ∀ i : ι, 0 ≤ y i := fun y hy i => (hy i).1
  have hsh : ∀ t ∈ Icc 0 (b - a), a + t ∈ Icc a b := fun t ht => ⟨by linarith [ht.1], by linarith [ht.2]⟩
  obtain ⟨u, hu0, hu, hubox⟩ := exists_solution (G := fun t => G (a + t)) (T := b - a) (R := R) (K := K)
    (M := M) (by linarith) hR0 (fun t ht => by
      have ht' := hsh t ht
      have := hne _ ht'
      constructor
      · refine LipschitzOnWith.of_dist_le_mul fun z hz z' hz' => ?_
        have h1 := (hlim _ ht' z (hb0 z hz)).dist (hlim _ ht' z' (hb0 z' hz'))
        refine le_of_tendsto h1 ?_
        filter_upwards [hin (a + t)] with s hs
        exact (hKM s hs).1.dist_le_mul z hz z' hz'
      · intro z hz
        refine le_of_tendsto (hlim _ ht' z (hb0 z hz)).norm ?_
        filter_upwards [hin (a + t)] with s hs
        exact (hKM s hs).2 z hz)
    (fun y hy => ((hGc y (hb0 y hy)).comp (by fun_prop) hsh))
    (fun t ht y hy i hi => by
      have ht' := hsh t ht
      have := hne _ ht'
      refine ge_of_tendsto (tendsto_pi_nhds.1 (hlim _ ht' y hy) i) (Eventually.of_forall fun s => ?_)
      exact hF.quasi s y hy i hi) hy0
    (fun i => ⟨c i, hc0 i, hci i, fun t ht y hy => by
      have ht' := hsh t ht
      have := hne _ ht'
      have h1 : Tendsto (fun s => ∑ j, c i j * F s y j) (𝓝[Ioo a b] (a + t))
          (𝓝 (∑ j, c i j * G (a + t) y j)) :=
        tendsto_finsetSum _ fun j _ => (tendsto_pi_nhds.1 (hlim _ ht' y hy) j).const_mul _
      exact le_of_tendsto h1 (Eventually.of_forall fun s => hct i s y hy), hRc i⟩)
  refine ⟨u, hu0, hu.1, {0}, finite_singleton 0, fun t ht htS => ?_⟩
  have h1 := hu.2 t ht
  have hpos : 0 < t := lt_of_le_of_ne ht.1 (fun h => htS h.symm)
  simp only at h1
  rwa [hGin (a + t) ⟨by linarith, by linarith [ht.2]⟩ _ (hb0 _ (hubox t (Ico_subset_Icc_self ht)))] at h1

theorem Tame.shift (hF : Tame F) (a : ℝ) : Tame (fun t => F (a + t)) where
  near := fun t y hy i => by
    obtain ⟨K, M, ε, hK, hM, hε, h⟩ := hF.near (a + t) y hy i
    exact ⟨K, M, ε, hK, hM, hε, fun s hs => h (a + s) ⟨by linarith [hs.1], by linarith [hs.2]⟩⟩
  quasi := fun t => hF.quasi (a + t)

/-- Existence in spite of finitely many jumps. -/
theorem Tame.solution_pieces (hF : Tame F) (hB : BoxPieces F) (hD : Dissipative F) {y0 : ι → ℝ}
    (hy0 : ∀ i, 0 ≤ y0 i) {T : ℝ} (hT : 0 ≤ T) : ∃ u, u 0 = y0 ∧ SolvesOn F u 0 T := by
  have key : ∀ S : Set ℝ, S.Finite → ∀ a b, 0 ≤ a → a < b →
      (∀ t ∈ Ioo a b, t ∉ S → ∀ y, (∀ i, 0 ≤ y i) → ContinuousAt (fun s => F s y) t) →
      ∀ y0 : ι → ℝ, (∀ i, 0 ≤ y0 i) → ∃ u, u 0 = y0 ∧ SolvesOn (fun t => F (a + t)) u 0 (b - a) := by
    intro S hS
    induction S, hS using Set.Finite.induction_on with
    | empty =>
      intro a b ha hab hc y0 hy0
      exact hF.solution_piece hB hD ha hab (fun t ht => hc t ht (notMem_empty t)) hy0
    | @insert s S hs _ ih =>
      intro a b ha hab hc y0 hy0
      by_cases hmem : s ∈ Ioo a b
      · obtain ⟨u, hu0, hu⟩ := ih a s ha hmem.1 (fun t ht htS => hc t ⟨ht.1, ht.2.trans hmem.2⟩
          (by rw [mem_insert_iff, not_or]; exact ⟨ht.2.ne, htS⟩)) y0 hy0
        have hend := (hF.shift a).nonneg hu (by rw [hu0]; exact hy0) (s - a)
          ⟨by linarith [hmem.1], le_rfl⟩
        obtain ⟨v, hv0, hv⟩ := ih s b (ha.trans hmem.1.le) hmem.2 (fun t ht htS => hc t
          ⟨hmem.1.trans ht.1, ht.2⟩ (by rw [mem_insert_iff, not_or]; exact ⟨ht.1.ne', htS⟩)) _ hend
        have hg := PyBox.SolvesOn.glue (G := fun t => F (a + t)) (H := fun t => F (s + t))
          (by linarith [hmem.1]) (by linarith [hmem.2]) hu hv hv0 (fun t _ => by
            congr 1
            ring)
        have e : s - a + (b - s) = b - a := by ring
        rw [e] at hg
        refine ⟨_, ?_, hg⟩
        rw [if_pos (by linarith [hmem.1]), hu0]
      · exact ih a b ha hab (fun t ht htS => hc t ht (by
          rw [mem_insert_iff, not_or]; exact ⟨fun he => hmem (he ▸ ht), htS⟩)) y0 hy0
  rcases hT.eq_or_lt with rfl | hT'
  · refine ⟨fun _ => y0, rfl, continuousOn_const, ∅, finite_empty, fun t ht => ?_⟩
    rw [Ico_self] at ht
    exact absurd ht (notMem_empty t)
  · obtain ⟨S, hS, hc⟩ := hB.time.1 T
    obtain ⟨u, hu0, hu⟩ := key S hS 0 T le_rfl hT' (fun t ht htS y hy =>
      hc t (Ioo_subset_Icc_self ht) htS ⟨y, hy⟩) y0 hy0
    simp only [zero_add, sub_zero] at hu
    exact ⟨u, hu0, hu⟩

theorem Tame.exact_solver (hF : Tame F) (hB : BoxPieces F) (hD : Dissipative F) {batch : ℚ} (hb : 0 < batch) :
    ∃ solve : (ι → ℝ) → ℚ → ι → ℝ, ∀ y0, (∀ i, 0 ≤ y0 i) → ∀ k, ExactBatches F solve batch y0 k := by
  have hb' : (0 : ℝ) ≤ batch := by exact_mod_cast hb.le
  refine PyBox.exact_solver (S := fun y : ι → ℝ => ∀ i, 0 ≤ y i) fun y0 hy0 => ?_
  obtain ⟨u, h1, h2⟩ := hF.solution_pieces hB hD hy0 hb'
  exact ⟨u, h1, h2, hF.nonneg h2 (by rw [h1]; exact hy0) _ ⟨hb', le_rfl⟩⟩

theorem Tame.rows_unique (hF : Tame F) (hB : BoxPieces F)
    {solve solve' : (ι → ℝ) → ℚ → ι → ℝ} {sim batch : ℚ} (hs : 0 < sim) (hb : 0 < batch)
    {zero y0 : ι → ℝ} (hy0 : ∀ i, 0 ≤ y0 i) {times times' : List ℚ} {rows rows' : List (ι → ℝ)}
    (hrun : runSimulation id solve zero y0 sim batch = .ok (times, rows))
    (hrun' : runSimulation id solve' zero y0 sim batch = .ok (times', rows'))
    (hex : ExactBatches F solve batch y0 rows.length)
    (hex' : ExactBatches F solve' batch y0 rows'.length) : times = times' ∧ rows = rows' := by
  have hb' : (0 : ℝ) ≤ batch := by exact_mod_cast hb.le
  have hlip : ∀ R, 0 ≤ R → ∃ K, ∀ t ∈ Icc (0 : ℝ) batch, LipschitzOnWith K (F t) (box R) := by
    intro R hR
    obtain ⟨K, M, hKM⟩ := SetLip.components (A := Icc (0 : ℝ) batch) (B := box R) (hB.lip batch R hR)
    exact ⟨K, fun t ht => (hKM t ht).1⟩
  refine PyBox.rows_unique hs hb hrun hrun' hex hex' (S := fun y => ∀ i, 0 ≤ y i) hy0
    fun u v hu hv huv h0 => ?_
  have hun := hF.nonneg hu h0
  exact ⟨hun _ ⟨hb', le_rfl⟩, PyBox.SolvesOn.unique_nonneg hu hv hun
    (hF.nonneg hv (by rw [← huv]; exact h0)) hlip huv ⟨hb', le_rfl⟩⟩

end Tame

end PyBox
