import Verif.Aerosol.RoundedSteps
import Verif.Aerosol.PartCall

/-!
# Rounding errors in a pass of the partitioning loop
-/

namespace PyBox
namespace Ft

open Aerosol Rl Spec

/-- Assignments do not change types and sizes. -/
theorem assign_shape {strict : Prop} {t : Target} {σ : Store} {u v : V} (h : t.assign strict σ u = some v) :
    v.shape = (σ t.name).shape := by
  unfold Target.assign at h
  cases t with
  | var x =>
    dsimp only [Target.name] at h ⊢
    split at h
    · rename_i hx; cases h; rw [hx]; rfl
    · rename_i hx
      rw [Option.map_eq_some_iff] at h
      obtain ⟨y, -, rfl⟩ := h
      rw [hx]; rfl
    · rename_i hx
      split at h
      · rename_i hl; cases h; rw [hx]; simp [V.shape, hl]
      · exact absurd h (by simp)
    · exact absurd h (by simp)
  | all x =>
    dsimp only [Target.name] at h ⊢
    split at h
    · rename_i hx
      split at h
      · rename_i hl; cases h; rw [hx]; simp [V.shape, hl]
      · exact absurd h (by simp)
    · rename_i hx _
      rw [Option.map_eq_some_iff] at h
      obtain ⟨y, -, rfl⟩ := h
      rw [hx]; simp [V.shape]
    · exact absurd h (by simp)
  | all2 x =>
    dsimp only [Target.name] at h ⊢
    split at h
    · rename_i n m f hx
      rw [Option.map_eq_some_iff] at h
      obtain ⟨y, -, rfl⟩ := h
      rw [hx]; rfl
    · exact absurd h (by simp)
  | elem x i =>
    dsimp only [Target.name] at h ⊢
    rw [Option.bind_eq_some_iff] at h
    obtain ⟨k, -, h⟩ := h
    split at h
    · rename_i l k hx
      rw [Option.bind_eq_some_iff] at h
      obtain ⟨y, -, h⟩ := h
      split at h
      · cases h; rw [hx]; simp [V.shape]
      · exact absurd h (by simp)
    · exact absurd h (by simp)
  | elem2 x i j =>
    dsimp only [Target.name] at h ⊢
    rw [Option.bind_eq_some_iff] at h
    obtain ⟨k, -, h⟩ := h
    rw [Option.bind_eq_some_iff] at h
    obtain ⟨k', -, h⟩ := h
    split at h
    · rename_i n m f k k' hx
      rw [Option.bind_eq_some_iff] at h
      obtain ⟨y, -, h⟩ := h
      split at h
      · cases h; rw [hx]; rfl
      · exact absurd h (by simp)
    · exact absurd h (by simp)
  | sec x a b =>
    dsimp only [Target.name] at h ⊢
    rw [Option.bind_eq_some_iff] at h
    obtain ⟨p, -, h⟩ := h
    rw [Option.bind_eq_some_iff] at h
    obtain ⟨q, -, h⟩ := h
    split at h
    · rename_i l p q r hx
      rw [Option.bind_eq_some_iff] at h
      obtain ⟨old, ho, h⟩ := h
      split at h
      · rename_i hl
        split at h
        · cases h; rw [hx]
        · rename_i hpq
          cases h
          rw [hx]
          unfold section? at ho
          rw [if_neg hpq] at ho
          split at ho
          · rename_i hin
            cases ho
            simp only [List.length_drop, List.length_take] at hl
            simp only [V.shape, List.length_append, List.length_take, List.length_drop, Shape.arr.injEq]
            obtain ⟨⟨h1, h2⟩, h3, h4⟩ := hin
            omega
          · exact absurd ho (by simp)
      · exact absurd h (by simp)
    · exact absurd h (by simp)

section

variable {L : Aerosol.Layout} {P : PartInput} {b : ℕ} {Λ X : ℝ} {total : ℕ} {σ σ₀ : Store} {v : V}

theorem rstep_known (c : RCtx L P b Λ X total σ) {k : ℕ} (h1 : 1 ≤ k) (h2 : k ≤ 26) (K : RKnown L P b Λ X (k - 1) σ)
    (h : Gives k σ v) : RFact L P b Λ X k v := by
  interval_cases k
  · exact rstep1 c K h
  · exact rstep2 c K h
  · exact rstep3 c K h
  · exact rstep4 c K h
  · exact rstep5 c K h
  · exact rstep6 c h
  · exact rstep7 c K h
  · trivial
  · trivial
  · trivial
  · exact rstep11 c K h
  · exact rstep12 c K h
  · exact rstep13 c K h
  · obtain ⟨f, hf⟩ := shape_arr (typed_get c.T 28 rfl)
    obtain ⟨y, hy, hr⟩ := rstep14 c K h hf
    exact ⟨_, hy, by rwa [Function.update_self]⟩
  · exact rstep15 c K h
  · exact rstep16 c K h
  · exact rstep17 c K h
  · exact rstep18 c h
  · exact rstep19 c K h
  · exact rstep20 c K h
  · exact rstep21 c K h
  · exact rstep22 c K h
  · exact rstep23 c K h
  · exact rstep24 c K h
  · exact rstep25 c K h
  · exact rstep26 c K h

theorem rknown_succ {k : ℕ} (h2 : k ≤ 26) (K : RKnown L P b Λ X (k - 1) σ) (hv : RFact L P b Λ X k v) :
    RKnown L P b Λ X k (Function.update σ (target k) v) := by
  intro j hj hj'
  rcases Nat.lt_or_ge j k with h | h
  · have hF := K j (by omega) hj'
    by_cases ht : target j = target k
    · rw [ht, Function.update_self]
      have : (j = 4 ∧ k = 5) ∨ (j = 6 ∧ k = 7) :=
        (by decide +kernel : ∀ k < 27, ∀ j < k, target j = target k → (j = 4 ∧ k = 5) ∨ (j = 6 ∧ k = 7))
          k (by omega) j h ht
      rcases this with ⟨rfl, rfl⟩ | ⟨rfl, rfl⟩
      · obtain ⟨f, hf, hr⟩ : Holds (some (L.numCond + 1)) v (2 * du) (massArray L P b) := hv
        exact ⟨f, hf, fun i h1 h2 => hr i ⟨h1, by omega⟩⟩
      · exact ⟨_, hv, fun i _ _ => rfl⟩
    · rw [Function.update_of_ne ht]
      exact hF
  · have : j = k := by omega
    subst this
    rw [Function.update_self]
    exact hv

theorem rctx_update (c : RCtx L P b Λ X total σ) {x : ℕ} (hx : x ∉ inputVars) (hs : v.shape = (σ x).shape) :
    RCtx L P b Λ X total (Function.update σ x v) := by
  have h59 : (59 : ℕ) ≠ x := fun h => hx (h ▸ (by decide : 59 ∈ inputVars))
  refine { c with I := ?_, pi := ?_, T := typed_update c.T hs }
  · rw [Function.update_comm h59.symm]
    exact inputs_update c.I hx
  · rw [Function.update_of_ne h59]
    exact c.pi

/-- Element `b` of the array has been computed. -/
def ElemSet (L : Aerosol.Layout) (b x : ℕ) (σ₀ σ : Store) (c g : ℝ) : Prop :=
  ∀ f, σ₀ x = .arr (vec L.numBins f) → ∃ y, σ x = .arr (vec L.numBins (Function.update f b y)) ∧ Ratio c g y

/-- During a pass that started in `σ₀`. -/
structure PassAt (L : Aerosol.Layout) (P : PartInput) (b : ℕ) (Λ X : ℝ) (total : ℕ) (σ₀ : Store) (k : ℕ) (σ : Store) :
    Prop where
  ctx : RCtx L P b Λ X total σ
  known : RKnown L P b Λ X k σ
  soa : if 8 ≤ k then ElemSet L b 40 σ₀ σ ((L.numCond + 1) * du) (soaMassBin L P b) else σ 40 = σ₀ 40
  aw : if 10 ≤ k then ElemSet L b 27 σ₀ σ ((L.numCond + 3) * du) (waterActivity L P b) else σ 27 = σ₀ 27
  size : if 14 ≤ k then ElemSet L b 28 σ₀ σ (sizeErr L.numCond Λ) (sizeArray L P b) else σ 28 = σ₀ 28
  gas : σ 39 = σ₀ 39
  dy : σ 29 = σ₀ 29

theorem elemSet_frame {x : ℕ} {σ' : Store} {c g : ℝ} (h : ElemSet L b x σ₀ σ c g) (hx : σ' x = σ x) :
    ElemSet L b x σ₀ σ' c g := fun f hf => by rw [hx]; exact h f hf

theorem pass_step {k : ℕ} (h1 : 1 ≤ k) (h2 : k ≤ 26) (h : PassAt L P b Λ X total σ₀ (k - 1) σ) (hv : Gives k σ v) :
    PassAt L P b Λ X total σ₀ k (Function.update σ (target k) v) := by
  have ht : (target k ∉ inputVars ∧ target k ≠ 39 ∧ target k ≠ 29) ∧ (target k = 40 → k = 8) ∧ (target k = 27 → k = 10) ∧
      (target k = 28 → k = 14) :=
    (by decide +kernel : ∀ k ≤ 26, 1 ≤ k → (target k ∉ inputVars ∧ target k ≠ 39 ∧ target k ≠ 29) ∧
      (target k = 40 → k = 8) ∧ (target k = 27 → k = 10) ∧ (target k = 28 → k = 14)) k h2 h1
  obtain ⟨⟨t1, t2, t3⟩, t4, t5, t6⟩ := ht
  have hF := rstep_known h.ctx h1 h2 h.known hv
  have hs : v.shape = (σ (target k)).shape := by
    obtain ⟨w, -, hv⟩ := hv
    have := assign_shape hv
    rwa [target_name h1 h2] at this
  have frame : ∀ {x n : ℕ} {c g : ℝ}, (target k = x → k = n) → k ≠ n →
      (if n ≤ k - 1 then ElemSet L b x σ₀ σ c g else σ x = σ₀ x) →
      (if n ≤ k then ElemSet L b x σ₀ (Function.update σ (target k) v) c g
        else Function.update σ (target k) v x = σ₀ x) := by
    intro x n c g ht hk h
    have hx : Function.update σ (target k) v x = σ x := Function.update_of_ne (fun h => hk (ht h.symm)) ..
    by_cases hn : n ≤ k
    · rw [if_pos hn]
      rw [if_pos (by omega)] at h
      exact elemSet_frame h hx
    · rw [if_neg hn]
      rw [if_neg (by omega)] at h
      exact hx.trans h
  refine ⟨rctx_update h.ctx t1 hs, rknown_succ h2 h.known hF, ?_, ?_, ?_, ?_, ?_⟩
  · by_cases hk : k = 8
    · subst hk
      rw [if_pos le_rfl]
      intro f hf
      obtain ⟨y, hy, hr⟩ := rstep8 h.ctx h.known hv ((show σ 40 = σ₀ 40 from by simpa using h.soa).trans hf)
      exact ⟨y, by rw [← hy]; exact Function.update_self .., hr⟩
    · exact frame t4 hk h.soa
  · by_cases hk : k = 10
    · subst hk
      rw [if_pos le_rfl]
      intro f hf
      obtain ⟨y, hy, hr⟩ := rstep10 h.ctx h.known hv ((show σ 27 = σ₀ 27 from by simpa using h.aw).trans hf)
      exact ⟨y, by rw [← hy]; exact Function.update_self .., hr⟩
    · exact frame t5 hk h.aw
  · by_cases hk : k = 14
    · subst hk
      rw [if_pos le_rfl]
      intro f hf
      obtain ⟨y, hy, hr⟩ := rstep14 h.ctx h.known hv ((show σ 28 = σ₀ 28 from by simpa using h.size).trans hf)
      exact ⟨y, by rw [← hy]; exact Function.update_self .., hr⟩
    · exact frame t6 hk h.size
  · rw [Function.update_of_ne t2.symm]
    exact h.gas
  · rw [Function.update_of_ne t3.symm]
    exact h.dy

theorem body1_drop {k : ℕ} (h : k < 26) : partBody1.drop k = stmtAt (k + 1) :: partBody1.drop (k + 1) := by
  rw [List.drop_eq_getElem_cons (by rw [body1_length]; omega)]
  unfold stmtAt
  rw [Nat.add_sub_cancel, List.getElem?_eq_getElem (by rw [body1_length]; omega)]
  rfl

theorem pass_first {rest : List Stmt} {τ : Store} (m : ℕ) {k : ℕ} (hk : k + m = 26) {σ : Store}
    (h : PassAt L P b Λ X total σ₀ k σ) (hr : RoundedRun (partBody1.drop k ++ rest) σ τ) :
    ∃ σ', PassAt L P b Λ X total σ₀ 26 σ' ∧ RoundedRun rest σ' τ := by
  induction m generalizing k σ with
  | zero =>
    obtain rfl : k = 26 := by omega
    exact ⟨σ, h, hr⟩
  | succ m ih =>
    rw [body1_drop (by omega), List.cons_append] at hr
    cases hr with
    | cons hw hv hr =>
      rw [target_name (by omega) (by omega)] at hr
      exact ih (by omega) (pass_step (by omega) (by omega) (by simpa using h) ⟨_, hw, hv⟩) hr

/-- The lines for the gas copy computed values. -/
theorem pass_gas {rest : List Stmt} {τ : Store} {dm : ℕ → ℝ} (h1 : 1 ≤ b) (h2 : b ≤ L.numBins) (l : List (ℕ × ℕ))
    (hl : ∀ p ∈ l, p.1 < L.numSpecies ∧ p.2 < L.numCond) {σ : Store} {f : ℕ → ℕ → ℝ}
    (h39 : σ 39 = .mat L.numSpecies L.numBins f) (h36 : σ 36 = .arr (vec L.numCond dm)) (h56 : σ 56 = .int b)
    (hr : RoundedRun (l.map gasStmt ++ rest) σ τ) :
    ∃ σ', RoundedRun rest σ' τ ∧ (∀ x, x ≠ 39 → σ' x = σ x) ∧
      σ' 39 = .mat L.numSpecies L.numBins (fun i j => if j = b then
        l.foldl (fun M p => Function.update M (p.1 + 1) (dm (p.2 + 1))) (fun i => f i b) i else f i j) := by
  induction l generalizing σ f with
  | nil =>
    refine ⟨σ, hr, fun _ _ => rfl, ?_⟩
    rw [h39]
    congr 1
    funext i j
    split
    · rename_i h; rw [h]; rfl
    · rfl
  | cons p l ih =>
    rw [List.map_cons, List.cons_append] at hr
    cases hr with
    | @cons s _ _ _ w v hw hv hr =>
      obtain ⟨p1, p2⟩ := hl p (List.mem_cons_self ..)
      have hval : (Ex.elem 36 (.int (p.2 + 1))).val True σ = some (.real (dm (p.2 + 1))) :=
        val_elem (k := p.2 + 1) h36 rfl (by omega) (by omega)
      cases hval.symm.trans hw
      have i1 : inside L.numSpecies ((p.1 + 1 : ℕ) : ℤ) := inside_nat (by omega) (by omega)
      have i2 : inside L.numBins (b : ℤ) := inside_nat h1 h2
      have hv' : some (V.mat L.numSpecies L.numBins (Function.update f (p.1 + 1)
          (Function.update (f (p.1 + 1)) b (dm (p.2 + 1))))) = some v := by
        rw [← hv]
        simp only [gasStmt, Target.assign, Ex.val, h39, h56, V.num, Option.bind_some]
        exact (if_pos (And.intro i1 i2)).symm
      cases hv'
      obtain ⟨σ', r1, r2, r3⟩ := ih (fun q hq => hl q (List.mem_cons_of_mem _ hq)) (Function.update_self ..)
        (by rw [Function.update_of_ne (by decide)]; exact h36) (by rw [Function.update_of_ne (by decide)]; exact h56) hr
      refine ⟨σ', r1, fun x hx => (r2 x hx).trans (Function.update_of_ne hx ..), ?_⟩
      rw [r3]
      congr 1
      funext i j
      by_cases hj : j = b
      · subst hj
        rw [if_pos rfl, if_pos rfl, List.foldl_cons]
        refine congrFun (congrArg (fun M => List.foldl _ M l) ?_) i
        funext i
        by_cases hi : i = p.1 + 1
        · subst hi; simp
        · simp [Function.update_of_ne hi]
      · rw [if_neg hj, if_neg hj]
        by_cases hi : i = p.1 + 1
        · subst hi; simp [Function.update_of_ne hj]
        · simp [Function.update_of_ne hi]

theorem rounded_var {x : ℕ} {w : V} (h : (Ex.var x).Rounded σ w) : w = σ x := (Option.some.inj h).symm

/-- The slice of the bin. -/
theorem slice_run {τ : Store} {dm d : ℕ → ℝ} (hT : Typed L total σ) (hsz : total = L.numSpecies + L.numBins * L.numCond)
    (hc : 1 ≤ L.numCond) (lo : 1 ≤ b) (hi : b ≤ L.numBins) (h60 : σ 60 = .int L.numSpecies) (h61 : σ 61 = .int L.numCond)
    (h56 : σ 56 = .int b) (h36 : σ 36 = .arr (vec L.numCond dm)) (h29 : σ 29 = .arr (vec total d))
    (hr : RoundedRun partBody2 σ τ) :
    τ 29 = .arr (vec total (assignSlice d (firstIndex L b) (lastIndex L b) dm)) ∧ (∀ x ∉ [57, 58, 29], τ x = σ x) ∧
      Typed L total τ := by
  unfold partBody2 at hr
  obtain - | ⟨w1, v1, hr⟩ := hr
  rename_i u1 z1
  obtain - | ⟨w2, v2, hr⟩ := hr
  rename_i u2 z2
  obtain - | ⟨w3, v3, hr⟩ := hr
  rename_i u3 z3
  cases hr
  dsimp only [Target.name] at *
  have s1 := assign_shape v1
  have s2 := assign_shape v2
  have s3 := assign_shape v3
  have c1 : Typed L total (Function.update σ 57 z1) := typed_update hT s1
  have c2 := typed_update c1 s2
  have c3 := typed_update c2 s3
  have e1 : z1 = .int (firstIndex L b : ℕ) := by
    obtain ⟨a1, a2, ⟨a3, a4, k3, rfl, o1⟩, ⟨a5, a6, ⟨a7, a8, k7, rfl, o2⟩, k6, o3⟩, o4⟩ := w1
    rw [rounded_var k3, h60] at o1
    rw [rounded_var k7, h56] at o2
    cases o1
    cases o2
    rw [rounded_var k6, h61] at o3
    cases o3
    cases o4
    obtain ⟨z, hz⟩ := shape_int (typed_get hT 57 rfl)
    have : some (V.int ((L.numSpecies : ℤ) + 1 + ((b : ℤ) - 1) * L.numCond)) = some z1 := by
      rw [← v1]; simp [Target.assign, hz]
    rw [← Option.some.inj this]
    congr 1
    unfold firstIndex
    push_cast [lo]
    ring
  have e2 : z2 = .int (lastIndex L b : ℕ) := by
    obtain ⟨a1, a2, k1, ⟨a3, a4, k3, k4, o1⟩, o2⟩ := w2
    rw [rounded_var k3, rounded_var k4, Function.update_of_ne (by decide), Function.update_of_ne (by decide), h56, h61] at o1
    cases o1
    rw [rounded_var k1, Function.update_of_ne (by decide), h60] at o2
    cases o2
    obtain ⟨z, hz⟩ := shape_int (typed_get c1 58 rfl)
    have : some (V.int ((L.numSpecies : ℤ) + (b : ℤ) * L.numCond)) = some z2 := by
      rw [← v2]; simp only [Target.assign, hz]
    rw [← Option.some.inj this]
    congr 1
  subst e1 e2
  set σ2 := Function.update (Function.update σ 57 (V.int (firstIndex L b : ℕ))) 58 (V.int (lastIndex L b : ℕ)) with hσ2
  have f57 : σ2 57 = .int (firstIndex L b : ℕ) := by simp [hσ2]
  have f58 : σ2 58 = .int (lastIndex L b : ℕ) := by simp [hσ2]
  have f36 : σ2 36 = .arr (vec L.numCond dm) := by rw [← h36]; simp [hσ2]
  have f29 : σ2 29 = .arr (vec total d) := by rw [← h29]; simp [hσ2]
  have f61 : σ2 61 = .int L.numCond := by rw [← h61]; simp [hσ2]
  have r1 := val_sec (strict := True) f36 (show (Ex.int 1).val True σ2 = some (.int (1 : ℕ)) from rfl)
    (val_var f61) (le_refl 1) (le_refl _) (by omega)
  have r2 : vec (L.numCond + 1 - 1) (fun i => dm (1 + (i - 1))) = vec L.numCond dm := by
    rw [Nat.add_sub_cancel]
    exact vec_congr (fun i h1 _ => congrArg _ (by omega))
  rw [r2] at r1
  cases r1.symm.trans w3
  have r3 := last_first (L := L) lo
  have r4 := assign_sec (k := dm) f29 (val_var f57) (val_var f58) (by unfold firstIndex; omega) (last_le hi hsz)
    (by omega) r3.symm
  cases r4.symm.trans v3
  refine ⟨Function.update_self .., fun x hx => ?_, c3⟩
  simp only [List.mem_cons, List.not_mem_nil, or_false, not_or] at hx
  rw [Function.update_of_ne hx.2.2, hσ2, Function.update_of_ne hx.2.1, Function.update_of_ne hx.1]

theorem pass_slice {τ : Store} {dm d : ℕ → ℝ} (c : RCtx L P b Λ X total σ) (h56 : σ 56 = .int b)
    (h36 : σ 36 = .arr (vec L.numCond dm)) (h29 : σ 29 = .arr (vec total d)) (hr : RoundedRun partBody2 σ τ) :
    τ 29 = .arr (vec total (assignSlice d (firstIndex L b) (lastIndex L b) dm)) ∧ (∀ x ∉ [57, 58, 29], τ x = σ x) ∧
      RCtx L P b Λ X total τ := by
  obtain ⟨h1, h2, h3⟩ := slice_run c.T c.size c.cond c.lo c.hi c.species c.ncond h56 h36 h29 hr
  refine ⟨h1, h2, { c with I := ?_, pi := by rw [h2 59 (by decide)]; exact c.pi, T := h3 }⟩
  refine inputs_congr c.I (fun x hx => ?_)
  by_cases h59 : x = 59
  · subst h59; rw [Function.update_self, Function.update_self]
  · rw [Function.update_of_ne h59, Function.update_of_ne h59]
    exact h2 x ((by decide : ∀ x ∈ [0, 1, 2, 3, 4, 5, 6, 7, 8, 10, 12, 13, 14, 20, 21, 24, 25, 59, 60, 61],
      x ∉ [57, 58, 29]) x hx)

end

end Ft
end PyBox
