import Verif.Aerosol.RoundedPass

/-!
# Rounding errors of a call of the partitioning routine
-/

namespace PyBox
namespace Ft

open Aerosol Rl Spec

/-! ### Sums of numbers of both signs -/

theorem near_trans {c d M M' x y z : ℝ} (h : Near c M x y) (h' : Near d M' y z) (hM : M' ≤ Real.exp c * M) :
    Near (c + d) M x z := by
  refine ⟨add_nonneg h.cost h'.cost, h.size, ?_⟩
  have h1 := abs_sub_le z y x
  have h2 := h.dist
  have h3 := h'.dist
  have h4 := mul_le_mul_of_nonneg_left hM (exp_sub_one_nonneg h'.cost)
  rw [Real.exp_add]
  nlinarith

theorem roundedSum_near {l : List ℝ} {t : ℝ} (h : RoundedSum ieee l t) :
    l ≠ [] ∧ Near ((l.length - 1) * dbl) (l.map abs).sum l.sum t := by
  induction h with
  | one x => exact ⟨by simp, by simpa using Near.refl x⟩
  | @add l l' s s' t _ _ hR ih ih' =>
    obtain ⟨n1, r1⟩ := ih
    obtain ⟨n2, r2⟩ := ih'
    refine ⟨by simp [n1], ?_⟩
    have hl : (1 : ℝ) ≤ l.length := by exact_mod_cast List.length_pos_iff.2 n1
    have hl' : (1 : ℝ) ≤ l'.length := by exact_mod_cast List.length_pos_iff.2 n2
    have hd := dbl_nonneg
    have q1 := r1.mono (c' := (l.length + l'.length - 2) * dbl) (by nlinarith) le_rfl
    have q2 := r2.mono (c' := (l.length + l'.length - 2) * dbl) (by nlinarith) le_rfl
    rw [List.sum_append, List.map_append, List.sum_append, List.length_append]
    refine ((q1.add q2).round hR).mono ?_ le_rfl
    push_cast
    linarith
  | @perm l l' s _ hp ih =>
    obtain ⟨n1, r1⟩ := ih
    refine ⟨fun h => n1 ?_, ?_⟩
    · rw [h] at hp; exact hp.eq_nil
    · rw [← hp.length_eq, ← hp.sum_eq, ← (hp.map abs).sum_eq]; exact r1

theorem near_fsum {c : ℝ} (hc : 0 ≤ c) {n : ℕ} {M x y : ℕ → ℝ} (h : ∀ i, 1 ≤ i → i ≤ n → Near c (M i) (x i) (y i)) :
    Near c (fsum n M) (fsum n x) (fsum n y) := by
  induction n with
  | zero => exact ⟨hc, by simp [fsum], by simp [fsum]⟩
  | succ n ih =>
    unfold fsum
    rw [Finset.sum_range_succ, Finset.sum_range_succ, Finset.sum_range_succ]
    exact (ih (fun i h1 h2 => h i h1 (by omega))).add (h (n + 1) (by omega) le_rfl)

theorem sumOf_near {c : ℝ} (hc : 0 ≤ c) {n : ℕ} {M x y : ℕ → ℝ} {s : ℝ}
    (h : ∀ i, 1 ≤ i → i ≤ n → Near c (M i) (x i) (y i)) (hs : SumOf (vec n y) s) :
    Near (c + n * du) (fsum n M) (fsum n x) s := by
  have hn : 0 ≤ (n : ℝ) * du := mul_nonneg (Nat.cast_nonneg _) du_nonneg
  have h1 := near_fsum hc h
  rcases hs with ⟨hl, rfl⟩ | hs
  · have : n = 0 := by rw [← vec_length n y, hl]; rfl
    subst this
    simpa [fsum] using h1.mono (le_refl c) le_rfl
  · obtain ⟨-, h2⟩ := roundedSum_near hs
    rw [vec_sum, vec_length, vec_map, vec_sum] at h2
    refine (near_trans h1 h2 ?_).mono ?_ le_rfl
    · unfold fsum
      rw [Finset.mul_sum]
      refine Finset.sum_le_sum (fun i hi => ?_)
      exact (h (i + 1) (by omega) (by have := Finset.mem_range.1 hi; omega)).abs_le
    · have := dbl_le_du
      have : ((n : ℝ) - 1) * dbl ≤ n * du := by
        have := dbl_nonneg
        have hn : (0 : ℝ) ≤ n := Nat.cast_nonneg _
        nlinarith
      linarith

/-! ### Loop -/

section

variable {L : Aerosol.Layout} {P : PartInput} {Λ X : ℝ} {total : ℕ} {σ : Store}

theorem runEvents_congr {dm dm' : ℕ → ℕ → ℝ} (ev : List Aerosol.Event) (s : Shared)
    (h : ∀ e ∈ ev, dm e.bin = dm' e.bin) : runEvents L dm ev s = runEvents L dm' ev s := by
  induction ev generalizing s with
  | nil => rfl
  | cons e ev ih =>
    have he := h e (List.mem_cons_self ..)
    have : Aerosol.step L dm s e = Aerosol.step L dm' s e := by
      obtain ⟨b, st⟩ := e
      cases st
      · rfl
      · rfl
      · simp only at he
        simp only [Aerosol.step, he]
    unfold runEvents
    rw [List.foldl_cons, List.foldl_cons, this]
    exact ih _ (fun e he => h e (List.mem_cons_of_mem _ he))

theorem serial_bins {n : ℕ} {e : Aerosol.Event} (h : e ∈ serialEvents n) : e.bin ≤ n := by
  unfold serialEvents at h
  obtain ⟨k, hk, he⟩ := List.mem_flatMap.1 h
  have := List.mem_range.1 hk
  unfold binEvents at he
  simp only [List.mem_cons, List.not_mem_nil, or_false] at he
  rcases he with rfl | rfl | rfl <;> (dsimp only; omega)

/-- The elements of passes up to `n` of an array. -/
def FilledTo (L : Aerosol.Layout) (n x : ℕ) (σ : Store) (c : ℝ) (g : ℕ → ℝ) : Prop :=
  ∃ f, σ x = .arr (vec L.numBins f) ∧ ∀ a, 1 ≤ a → a ≤ n → Ratio c (g a) (f a)

/-- After `n` passes. -/
structure LoopAt (L : Aerosol.Layout) (P : PartInput) (Λ X : ℝ) (total n : ℕ) (σ : Store) : Prop where
  I : Inputs L P total (Function.update σ 59 (.real fPi))
  pi : Holds none (σ 59) su (fun _ => fPi)
  T : Typed L total σ
  soa : FilledTo L n 40 σ ((L.numCond + 1) * du) (soaMassBin L P)
  aw : FilledTo L n 27 σ ((L.numCond + 3) * du) (waterActivity L P)
  size : FilledTo L n 28 σ (sizeErr L.numCond Λ) (sizeArray L P)
  dy : ∃ dm : ℕ → ℕ → ℝ, (∀ a, 1 ≤ a → a ≤ n → ∀ i, 1 ≤ i → i ≤ L.numCond →
      Near (dmErr L.numCond Λ X) (dmSize L P a i) (dmDt L P a i) (dm a i)) ∧
    (∃ f, σ 39 = .mat L.numSpecies L.numBins f ∧
      ∀ a i, f i a = if 1 ≤ a ∧ a ≤ n then gasColumn L.incl (dm a) i else 0) ∧
    σ 29 = .arr (vec total (runEvents L dm (serialEvents n) ⟨0, 0, fun _ => 0⟩).dyDt)

theorem filled_step {n x : ℕ} {σ₀ σ' : Store} {c : ℝ} {g : ℕ → ℝ} (h : FilledTo L n x σ c g) (h0 : σ₀ x = σ x)
    (he : ElemSet L (n + 1) x σ₀ σ' c (g (n + 1))) : FilledTo L (n + 1) x σ' c g := by
  obtain ⟨f, hf, hr⟩ := h
  obtain ⟨y, hy, hq⟩ := he f (h0.trans hf)
  refine ⟨_, hy, fun a h1 h2 => ?_⟩
  rcases Nat.lt_or_ge n a with h | h
  · obtain rfl : a = n + 1 := by omega
    rwa [Function.update_self]
  · rw [Function.update_of_ne (by omega)]
    exact hr a h1 h

theorem loop_pass (F : Fits L total) {n : ℕ} (hn : n < L.numBins) (N : Nice L P (n + 1) Λ X)
    (h : LoopAt L P Λ X total n σ) {σ' : Store} (hp : (partRoutine L total).RoundedPass (n + 1) σ σ') :
    LoopAt L P Λ X total (n + 1) σ' := by
  obtain ⟨τ, τ', p1, p2, p3, rfl⟩ := hp
  change ∀ x ∉ partPriv, τ x = σ x at p1
  change ∀ x ∈ partPriv, ∀ d, (partDecls (holes L total))[x]? = some d → d.accepts (τ x) at p2
  change RoundedRun (partBody L) (Function.update τ 56 (.int (n + 1 : ℕ))) τ' at p3
  set τ₀ := Function.update τ 56 (.int (n + 1 : ℕ)) with hτ₀
  have e0 : ∀ x ∉ partPriv, τ₀ x = σ x := fun x hx => by
    rw [hτ₀, Function.update_of_ne (fun h : x = 56 => hx (by rw [h]; decide))]
    exact p1 x hx
  have hTτ : Typed L total τ := by
    intro x d hd
    by_cases hx : x ∈ partPriv
    · exact accepts_shape (p2 x hx d hd)
    · rw [p1 x hx]; exact h.T x d hd
  have hI : Inputs L P total (Function.update τ₀ 59 (.real fPi)) := by
    refine inputs_congr h.I (fun x hx => ?_)
    by_cases h59 : x = 59
    · subst h59; rw [Function.update_self, Function.update_self]
    · rw [Function.update_of_ne h59, Function.update_of_ne h59]
      exact e0 x ((by decide : ∀ x ∈ [0, 1, 2, 3, 4, 5, 6, 7, 8, 10, 12, 13, 14, 20, 21, 24, 25, 59, 60, 61],
        x ∉ partPriv) x hx)
  obtain ⟨z, hz⟩ := shape_int (show (τ 56).shape = .int from typed_get hTτ 56 rfl)
  have c0 : RCtx L P (n + 1) Λ X total τ₀ :=
    ⟨hI, by rw [e0 59 (by decide)]; exact h.pi, typed_update hTτ (by rw [hz]; rfl), by omega, by omega, F.size, F.cond, N⟩
  have P0 : PassAt L P (n + 1) Λ X total τ₀ 0 τ₀ := by
    refine ⟨c0, ?_, by simp, by simp, by simp, rfl, rfl⟩
    intro j hj _
    obtain rfl : j = 0 := by omega
    exact Function.update_self ..
  have p3 : RoundedRun (partBody1.drop 0 ++ (L.incl.zipIdx.map gasStmt ++ partBody2)) τ₀ τ' := by
    rw [List.drop_zero, ← List.append_assoc]; exact p3
  obtain ⟨τ₁, P1, q1⟩ := pass_first 26 rfl P0 p3
  have k56 : τ₁ 56 = .int (n + 1 : ℕ) := P1.known 0 (by omega) (by omega)
  obtain ⟨dmn, k36, hdm⟩ : ∃ f, τ₁ 36 = .arr (vec L.numCond f) ∧ ∀ i, 1 ≤ i → i ≤ L.numCond →
      Near (dmErr L.numCond Λ X) (dmSize L P (n + 1) i) (dmDt L P (n + 1) i) (f i) := P1.known 26 (by omega) (by omega)
  obtain ⟨dm, hd, ⟨f, hf, hg⟩, hD⟩ := h.dy
  have k39 : τ₁ 39 = .mat L.numSpecies L.numBins f := P1.gas.trans ((e0 39 (by decide)).trans hf)
  obtain ⟨τ₂, q2, g1, g2⟩ := pass_gas (by omega) (by omega) L.incl.zipIdx (fun p hp => by
    obtain ⟨i, hi⟩ := List.mem_iff_getElem?.1 hp
    rw [List.getElem?_zipIdx] at hi
    obtain ⟨a, ha, rfl⟩ := Option.map_eq_some_iff.1 hi
    obtain ⟨hlt, rfl⟩ := List.getElem?_eq_some_iff.1 ha
    exact ⟨F.valid _ (List.getElem_mem hlt), by have := F.len; dsimp only; omega⟩) k39 k36 k56 q1
  have c2 : RCtx L P (n + 1) Λ X total τ₂ := by
    have : τ₂ = Function.update τ₁ 39 (τ₂ 39) := by
      funext x
      by_cases hx : x = 39
      · subst hx; rw [Function.update_self]
      · rw [Function.update_of_ne hx]; exact g1 x hx
    rw [this]
    exact rctx_update P1.ctx (by decide) (by rw [g2, k39]; rfl)
  have k29 : τ₂ 29 = _ := (g1 29 (by decide)).trans (P1.dy.trans ((e0 29 (by decide)).trans hD))
  obtain ⟨s1, s2, c3⟩ := pass_slice c2 ((g1 56 (by decide)).trans k56) ((g1 36 (by decide)).trans k36) k29 q2
  have sh : ∀ x ∉ partPriv, (if x ∈ (partRoutine L total).loop.priv then σ x else τ' x) = τ' x :=
    fun x hx => if_neg hx
  have e3 : ∀ x, x ∉ [57, 58, 29, 39] → τ' x = τ₁ x := fun x hx => by
    simp only [List.mem_cons, List.not_mem_nil, or_false, not_or] at hx
    rw [s2 x (by simp; tauto), g1 x hx.2.2.2]
  have fill : ∀ {x : ℕ} {c : ℝ} {g : ℕ → ℝ}, x ∉ partPriv → x ∉ [57, 58, 29, 39] → FilledTo L n x σ c g →
      ElemSet L (n + 1) x τ₀ τ₁ c (g (n + 1)) →
      FilledTo L (n + 1) x (fun x => if x ∈ (partRoutine L total).loop.priv then σ x else τ' x) c g := by
    intro x c g hx hx' hf he
    exact filled_step hf (e0 x hx) (elemSet_frame he ((sh x hx).trans (e3 x hx')))
  refine ⟨?_, ?_, ?_, fill (by decide) (by decide) h.soa (by simpa using P1.soa),
    fill (by decide) (by decide) h.aw (by simpa using P1.aw), fill (by decide) (by decide) h.size (by simpa using P1.size), ?_⟩
  · refine inputs_congr c3.I (fun x hx => ?_)
    by_cases h59 : x = 59
    · subst h59; rw [Function.update_self, Function.update_self]
    · rw [Function.update_of_ne h59, Function.update_of_ne h59]
      exact sh x ((by decide : ∀ x ∈ [0, 1, 2, 3, 4, 5, 6, 7, 8, 10, 12, 13, 14, 20, 21, 24, 25, 59, 60, 61],
        x ∉ partPriv) x hx)
  · rw [sh 59 (by decide)]; exact c3.pi
  · intro x d hd
    dsimp only
    split
    · exact h.T x d hd
    · exact c3.T x d hd
  · have hdn : ∀ a, a ≤ n → Function.update dm (n + 1) dmn a = dm a := fun a ha => Function.update_of_ne (by omega) ..
    refine ⟨Function.update dm (n + 1) dmn, fun a h1 h2 i i1 i2 => ?_, ?_, ?_⟩
    · rcases Nat.lt_or_ge n a with h | h
      · obtain rfl : a = n + 1 := by omega
        rw [Function.update_self]
        exact hdm i i1 i2
      · rw [hdn a h]
        exact hd a h1 h i i1 i2
    · refine ⟨_, ((sh 39 (by decide)).trans (s2 39 (by decide))).trans g2, fun a i => ?_⟩
      by_cases ha : a = n + 1
      · subst ha
        rw [if_pos rfl, if_pos (by omega), Function.update_self]
        unfold gasColumn
        refine congrFun (congrArg (fun M => List.foldl _ M _) ?_) i
        funext i
        rw [hg, if_neg (by omega)]
      · rw [if_neg ha, hg]
        by_cases hl : 1 ≤ a ∧ a ≤ n
        · rw [if_pos hl, if_pos (by omega), hdn a hl.2]
        · rw [if_neg hl, if_neg (by omega)]
    · rw [sh 29 (by decide), s1, serialEvents_succ, runEvents_append, run_binEvents, Function.update_self,
        runEvents_congr (dm := Function.update dm (n + 1) dmn) (dm' := dm) (serialEvents n) _
          (fun e he => hdn _ (serial_bins he))]

theorem loop_passes (F : Fits L total) (N : ∀ b, 1 ≤ b → b ≤ L.numBins → Nice L P b Λ X) (m : ℕ) {n : ℕ}
    (hn : n + m = L.numBins) {σ σ' : Store} (h : LoopAt L P Λ X total n σ)
    (hp : (partRoutine L total).RoundedPasses (List.range' (n + 1) m) σ σ') : LoopAt L P Λ X total L.numBins σ' := by
  induction m generalizing n σ with
  | zero =>
    cases hp
    obtain rfl : n = L.numBins := by omega
    exact h
  | succ m ih =>
    rw [List.range'_succ] at hp
    cases hp with
    | cons h1 h2 =>
      exact ih (by omega) (loop_pass F (by omega) (N _ (by omega) (by omega)) h h1) h2

/-! ### Before the loop -/

theorem rounded_zero {w : V} (h : (Ex.real 0).Rounded σ w) : w = .real 0 := by
  obtain ⟨x, rfl, -, hx⟩ := h
  rw [hx (by simpa using exact_nat (k := 0))]
  simp

theorem rfills {p : List Stmt} {σ σ' : Store} (h : ∀ s ∈ p, isFill σ s) (hr : RoundedRun p σ σ') :
    runStmts True p σ = some σ' := by
  induction p generalizing σ with
  | nil => cases hr; rfl
  | cons s p ih =>
    cases hr with
    | @cons _ _ _ _ w v hw hv hr =>
      have hs := h s (List.mem_cons_self ..)
      have hstep := fill_step (strict := True) hs
      have hrhs : s.rhs = .real 0 := by
        rcases hs with ⟨x, n, rfl, -⟩ | ⟨x, n, m, rfl, -⟩ <;> rfl
      rw [hrhs] at hw
      rw [rounded_zero hw] at hv
      have hv' := hstep
      rw [step_eq_assign, hrhs] at hv'
      have : (Ex.real 0).val True σ = some (.real 0) := by simp [Ex.val]
      rw [this, Option.bind_some, hv] at hv'
      have hz := step_shape hstep
      unfold runStmts
      rw [hstep, Option.bind_some, ← Option.some.inj hv']
      rw [← Option.some.inj hv'] at hz
      refine ih ?_ hr
      intro s' hs'
      have hsh : ∀ x, (Function.update σ s.target.name v x).shape = (σ x).shape := by
        intro x
        by_cases hx : x = s.target.name
        · subst hx; rw [Function.update_self]; exact hz
        · rw [Function.update_of_ne hx]
      rcases h s' (List.mem_cons_of_mem _ hs') with ⟨x, n, e, hx⟩ | ⟨x, n, m, e, hx⟩
      · exact .inl ⟨x, n, e, (hsh x).trans hx⟩
      · exact .inr ⟨x, n, m, e, (hsh x).trans hx⟩

theorem zeroOf_shape (s : Shape) : (zeroOf s).shape = s := by
  cases s <;> simp [zeroOf, V.shape]

theorem loop_start (I : Inputs L P total (Function.update σ 59 (.real fPi))) (hpi : Holds none (σ 59) su (fun _ => fPi))
    (T : Typed L total σ) {σ' : Store} (hr : RoundedRun partPre σ σ') : LoopAt L P Λ X total 0 σ' := by
  have hfill : ∀ s ∈ partPre, isFill σ s := by
    intro s hs
    unfold partPre at hs
    simp only [List.mem_cons, List.not_mem_nil, or_false] at hs
    rcases hs with rfl | rfl | rfl | rfl | rfl | rfl | rfl | rfl | rfl | rfl | rfl | rfl | rfl
    · exact .inl ⟨_, _, rfl, typed_get T 40 rfl⟩
    · exact .inr ⟨_, _, _, rfl, typed_get T 39 rfl⟩
    · exact .inl ⟨_, _, rfl, typed_get T 46 rfl⟩
    · exact .inl ⟨_, _, rfl, typed_get T 47 rfl⟩
    · exact .inl ⟨_, _, rfl, typed_get T 48 rfl⟩
    · exact .inl ⟨_, _, rfl, typed_get T 49 rfl⟩
    · exact .inl ⟨_, _, rfl, typed_get T 50 rfl⟩
    · exact .inl ⟨_, _, rfl, typed_get T 51 rfl⟩
    · exact .inl ⟨_, _, rfl, typed_get T 52 rfl⟩
    · exact .inl ⟨_, _, rfl, typed_get T 53 rfl⟩
    · exact .inl ⟨_, _, rfl, typed_get T 27 rfl⟩
    · exact .inl ⟨_, _, rfl, typed_get T 28 rfl⟩
    · exact .inl ⟨_, _, rfl, typed_get T 29 rfl⟩
  obtain ⟨σ'', h1, h2⟩ := fills (strict := True) hfill
  cases h1.symm.trans (rfills hfill hr)
  have hnames : partPre.map (fun s => s.target.name) = [40, 39, 46, 47, 48, 49, 50, 51, 52, 53, 27, 28, 29] := rfl
  rw [hnames] at h2
  have z : ∀ {x n}, x ∈ [40, 39, 46, 47, 48, 49, 50, 51, 52, 53, 27, 28, 29] → (σ x).shape = .arr n →
      σ' x = .arr (vec n (fun _ => 0)) := by
    intro x n hx hs
    rw [h2 x, if_pos hx, hs]
    rfl
  have z2 : σ' 39 = .mat L.numSpecies L.numBins (fun _ _ => 0) := by
    rw [h2 39, if_pos (by decide), show (σ 39).shape = _ from typed_get T 39 rfl]
    rfl
  refine ⟨?_, ?_, ?_, ⟨_, z (by decide) (typed_get T 40 rfl), fun a h1 h2 => by omega⟩,
    ⟨_, z (by decide) (typed_get T 27 rfl), fun a h1 h2 => by omega⟩,
    ⟨_, z (by decide) (typed_get T 28 rfl), fun a h1 h2 => by omega⟩,
    ⟨fun _ _ => 0, fun a h1 h2 => by omega, ⟨_, z2, fun a i => by rw [if_neg (by omega)]⟩,
      z (by decide) (typed_get T 29 rfl)⟩⟩
  · refine inputs_congr I (fun x hx => ?_)
    by_cases h59 : x = 59
    · subst h59; rw [Function.update_self, Function.update_self]
    · rw [Function.update_of_ne h59, Function.update_of_ne h59, h2 x,
        if_neg ((by decide : ∀ x ∈ [0, 1, 2, 3, 4, 5, 6, 7, 8, 10, 12, 13, 14, 20, 21, 24, 25, 59, 60, 61],
          x ∉ [40, 39, 46, 47, 48, 49, 50, 51, 52, 53, 27, 28, 29]) x hx)]
  · rw [h2 59, if_neg (by decide)]; exact hpi
  · intro x d hd
    rw [h2 x]
    split
    · rw [zeroOf_shape]; exact T x d hd
    · exact T x d hd

/-! ### After the loop -/

/-- A relation between columns. -/
theorem gasColumn_rel {Q : ℝ → ℝ → ℝ → Prop} (h0 : Q 0 0 0) (incl : List ℕ) {x y z : ℕ → ℝ}
    (h : ∀ j < incl.length, Q (x (j + 1)) (y (j + 1)) (z (j + 1))) (i : ℕ) :
    Q (gasColumn incl x i) (gasColumn incl y i) (gasColumn incl z i) := by
  induction incl using List.reverseRecOn with
  | nil => exact h0
  | append_singleton l a ih =>
    rw [gasColumn_append, gasColumn_append, gasColumn_append]
    by_cases hi : i = a + 1
    · subst hi
      simp only [Function.update_self]
      exact h _ (by simp)
    · simp only [Function.update_of_ne hi]
      exact ih (fun j hj => h j (by simp; omega))

/-- The exchange of a gas with all bins, both directions added. -/
noncomputable def gasSize (L : Aerosol.Layout) (P : PartInput) (i : ℕ) : ℝ :=
  fsum L.numBins (fun a => gasColumn L.incl (dmSize L P a) i)

theorem loop_end (F : Fits L total) (hs : 1 ≤ L.numSpecies) (hE : 0 ≤ dmErr L.numCond Λ X)
    (h : LoopAt L P Λ X total L.numBins σ) {σ' : Store} (hr : RoundedRun partPost σ σ') :
    ∃ (soa : ℝ) (aw size D : ℕ → ℝ),
      results (partRoutine L total) σ' = [.real soa, .arr (vec L.numBins aw), .arr (vec L.numBins size), .arr (vec total D)] ∧
      Ratio (su + (L.numCond + L.numBins + 2) * du) (totalSoaMass L P) soa ∧
      (∀ a, 1 ≤ a → a ≤ L.numBins → Ratio ((L.numCond + 3) * du) (waterActivity L P a) (aw a)) ∧
      (∀ a, 1 ≤ a → a ≤ L.numBins → Ratio (sizeErr L.numCond Λ) (sizeArray L P a) (size a)) ∧
      (∀ b < L.numBins, ∀ j < L.numCond, Near (dmErr L.numCond Λ X) (dmSize L P (b + 1) (j + 1)) (dmDt L P (b + 1) (j + 1))
        (D (L.numSpecies + b * L.numCond + j + 1))) ∧
      (∀ i, 1 ≤ i → i ≤ L.numSpecies → Near (dmErr L.numCond Λ X + (L.numBins + 1) * du) (gasSize L P i)
        (-fsum L.numBins (fun a => gasColumn L.incl (dmDt L P a) i)) (D i)) := by
  obtain ⟨f40, h40, r40⟩ := h.soa
  obtain ⟨f27, h27, r27⟩ := h.aw
  obtain ⟨f28, h28, r28⟩ := h.size
  obtain ⟨dm, hd, ⟨f, h39, hf⟩, h29⟩ := h.dy
  have hsp : σ 60 = .int L.numSpecies := h.I.species
  have hsT : L.numSpecies ≤ total := by rw [F.size]; omega
  unfold partPost at hr
  obtain - | ⟨w1, v1, hr⟩ := hr
  rename_i u1 z1
  obtain - | ⟨w2, v2, hr⟩ := hr
  rename_i u2 z2
  cases hr
  dsimp only [Target.name] at *
  set D0 := (runEvents L dm (serialEvents L.numBins) ⟨0, 0, fun _ => 0⟩).dyDt with hD0
  obtain ⟨a1, a2, k1, k2, o⟩ := w1
  have hsec := val_sec (strict := True) h29 (show (Ex.int 1).val True σ = some (.int (1 : ℕ)) from rfl)
    (val_var hsp) (le_refl 1) hsT (by omega)
  rw [Nat.add_sub_cancel] at hsec
  cases hsec.symm.trans k1
  unfold Ex.Rounded at k2
  rw [h39] at k2
  obtain ⟨r, rfl, k2⟩ := k2
  have k2' : List.Forall₂ (fun i s => SumOf (vec L.numBins (fun j => f i j)) s) (vec L.numSpecies (fun i => i)) r := by
    rw [vec, List.forall₂_map_left_iff]
    exact k2
  obtain ⟨s, rfl, hsum⟩ := forall₂_vec k2'
  obtain ⟨z, hz, hzr⟩ := op_int (s := some L.numSpecies) (t := some L.numSpecies) rfl rfl compat_self o
  cases hz
  have r4 := assign_sec (k := z) h29 (show (Ex.int 1).val True σ = some (.int (1 : ℕ)) from rfl)
    (val_var hsp) (le_refl 1) hsT hs rfl
  rw [Nat.add_sub_cancel] at r4
  cases r4.symm.trans v1
  set σ1 := Function.update σ 29 (V.arr (vec total (fun i => if 1 ≤ i ∧ i ≤ L.numSpecies then z (i - 1 + 1) else D0 i)))
    with hσ1
  have h40' : Holds (some L.numBins) (σ1 40) ((L.numCond + 1) * du) (soaMassBin L P) :=
    ⟨f40, by rw [hσ1, Function.update_of_ne (by decide)]; exact h40, fun i hi => r40 i hi.1 hi.2⟩
  have ht26 : (σ1 26).shape = .real := by
    rw [hσ1, Function.update_of_ne (by decide)]
    exact typed_get h.T 26 rfl
  have hdu := du_nonneg
  have al : Approx σ1 none (.real 1000000000000) su (fun _ => 1000000000000) :=
    approx_lit (by norm_num) (by norm_num) (by norm_num)
  obtain ⟨g, ⟨soa, rfl, rfl⟩, hsoa⟩ := round_var ht26
    (((approx_var h40').sum (by positivity)).mul al compat_nl) w2 v2
  refine ⟨soa, f27, f28, fun i => if 1 ≤ i ∧ i ≤ L.numSpecies then z (i - 1 + 1) else D0 i, ?_, ?_, r27, r28, ?_, ?_⟩
  · rw [results_part, Function.update_self, Function.update_of_ne (by decide), Function.update_of_ne (by decide),
      Function.update_of_ne (by decide), hσ1, Function.update_self, Function.update_of_ne (by decide),
      Function.update_of_ne (by decide), h27, h28]
  · refine (hsoa 0 trivial).mono ?_
    linarith
  · intro b hb j hj
    dsimp only
    rw [if_neg (by omega), hD0, serial_slot L dm _ _ _ _ hj, if_pos hb]
    exact hd (b + 1) (by omega) (by omega) (j + 1) (by omega) (by omega)
  · intro i h1 h2
    dsimp only
    rw [if_pos ⟨h1, h2⟩, Nat.sub_add_cancel h1]
    have e1 := hzr i ⟨h1, h2⟩
    have e2 : 1 + (i - 1) = i := by omega
    rw [e2, hD0, serial_gas L dm _ _ _ h2, zero_sub] at e1
    have e3 := hsum i h1 h2
    have e4 : Near (dmErr L.numCond Λ X + L.numBins * du) (gasSize L P i)
        (fsum L.numBins (fun a => gasColumn L.incl (dmDt L P a) i)) (s i) := by
      refine sumOf_near (y := fun j => f i j) hE (fun a a1 a2 => ?_) e3
      rw [hf a i, if_pos ⟨a1, a2⟩]
      exact gasColumn_rel (Q := fun x y z => Near (dmErr L.numCond Λ X) x y z) ⟨hE, by simp, by simp⟩ L.incl
        (fun j hj => hd a a1 a2 (j + 1) (by omega) (by have := F.len; omega)) i
    refine (e4.neg.round e1).mono ?_ le_rfl
    have := dbl_le_du
    linarith

/-! ### The call -/

theorem blank_other {g : Junk} {β : Store} (hb : (partRoutine L total).RoundedBlank g β) {x : ℕ} {d : Decl}
    (hd : (partDecls (holes L total))[x]? = some d) (h : ∀ q, d.role ≠ .const (.real q)) :
    β x = (partRoutine L total).blank g x := by
  rcases hb x with ⟨d', q, h1, h2, -⟩ | ⟨-, h⟩
  · cases h1.symm.trans hd
    exact absurd h2 (h q)
  · exact h

theorem blank_pi {g : Junk} {β : Store} (hb : (partRoutine L total).RoundedBlank g β) :
    Holds none (β 59) su (fun _ => fPi) := by
  rcases hb 59 with ⟨d, q, h1, h2, -, y, h4, h5⟩ | ⟨h, -⟩
  · cases h1
    cases h2
    exact ⟨_, ⟨y, h4, rfl⟩, fun _ _ => litRounds_ratio (by unfold fPi; norm_num) (by unfold fPi; norm_num)
      (by unfold fPi; norm_num) h5⟩
  · exact absurd rfl (h _ _ rfl rfl)

theorem rblank_typed {g : Junk} {β : Store} (hb : (partRoutine L total).RoundedBlank g β) : Typed L total β := by
  intro x d hd
  rcases hb x with ⟨d', q, h1, h2, h3, y, h4, -⟩ | ⟨-, h⟩
  · cases h1.symm.trans hd
    have hdim := decls_const _ d (List.mem_of_getElem? hd) _ h2
    rw [h4]
    unfold shapeOf
    rw [h3, hdim]
    rfl
  · rw [h]
    exact blank_typed g x d hd

theorem part_rounded (F : Fits L total) (hs : 1 ≤ L.numSpecies) (hE : 0 ≤ dmErr L.numCond Λ X)
    (N : ∀ b, 1 ≤ b → b ≤ L.numBins → Nice L P b Λ X) (U : Unused L) {g : Junk} {out : List V}
    (h : (partRoutine L total).RoundedCall g (callArgs L total P U) out) :
    ∃ (soa : ℝ) (aw size D : ℕ → ℝ),
      out = [.real soa, .arr (vec L.numBins aw), .arr (vec L.numBins size), .arr (vec total D)] ∧
      Ratio (su + (L.numCond + L.numBins + 2) * du) (totalSoaMass L P) soa ∧
      (∀ a, 1 ≤ a → a ≤ L.numBins → Ratio ((L.numCond + 3) * du) (waterActivity L P a) (aw a)) ∧
      (∀ a, 1 ≤ a → a ≤ L.numBins → Ratio (sizeErr L.numCond Λ) (sizeArray L P a) (size a)) ∧
      (∀ b < L.numBins, ∀ j < L.numCond, Near (dmErr L.numCond Λ X) (dmSize L P (b + 1) (j + 1)) (dmDt L P (b + 1) (j + 1))
        (D (L.numSpecies + b * L.numCond + j + 1))) ∧
      (∀ i, 1 ≤ i → i ≤ L.numSpecies → Near (dmErr L.numCond Λ X + (L.numBins + 1) * du) (gasSize L P i)
        (-fsum L.numBins (fun a => gasColumn L.incl (dmDt L P a) i)) (D i)) := by
  obtain ⟨β, σ₀, σ₁, σ₂, σ₃, a, b, h1, h2, h3, h4, h5, h6, h7, rfl⟩ := h
  obtain ⟨σ', b1, b2, b3⟩ := binds (P := P) (total := total) U β
  cases b1.symm.trans h2
  have I := b3 (blank_other h1 (x := 60) rfl (fun q h => by cases h)) (blank_other h1 (x := 61) rfl (fun q h => by cases h))
  have h0 := loop_start (Λ := Λ) (X := X) I (by rw [b2]; exact blank_pi h1) (bind_typed h2 (rblank_typed h1)) h3
  have ha : a = 1 := by
    have : some (V.int 1) = some (V.int a) := h4
    have := V.int.inj (Option.some.inj this)
    omega
  have hb : b = L.numBins := by
    have : some (V.int L.numBins) = some (V.int b) := h5
    have := V.int.inj (Option.some.inj this)
    omega
  subst ha hb
  rw [Nat.add_sub_cancel] at h6
  exact loop_end F hs hE (loop_passes F N L.numBins (by omega) h0 h6) h7

end

end Ft
end PyBox
