import Verif.Rate.Errors

/-!
# Rounded sums
-/

namespace PyBox

open Rl

namespace Spec

/-- A sum of numbers computed in some order and grouping (`np.sum`, `SUM`), rounding after each addition. -/
inductive RoundedSum (R : Rounding) : List ℝ → ℝ → Prop
  | one (x : ℝ) : RoundedSum R [x] x
  | add {l l' : List ℝ} {s s' t : ℝ} : RoundedSum R l s → RoundedSum R l' s' → R .double (s + s') t →
      RoundedSum R (l ++ l') t
  | perm {l l' : List ℝ} {s : ℝ} : RoundedSum R l s → l.Perm l' → RoundedSum R l' s

end Spec

open Spec

/-- Numbers that are not negative. -/
theorem roundedSum_ratio {l : List ℝ} {t : ℝ} (h : RoundedSum ieee l t) (h0 : ∀ x ∈ l, 0 ≤ x) :
    l ≠ [] ∧ Ratio ((l.length - 1) * 3e-16) l.sum t := by
  induction h with
  | one x => exact ⟨by simp, by simpa using Ratio.refl (h0 x (by simp))⟩
  | @add l l' s s' t _ _ hR ih ih' =>
    obtain ⟨n1, r1⟩ := ih (fun x hx => h0 x (by simp [hx]))
    obtain ⟨n2, r2⟩ := ih' (fun x hx => h0 x (by simp [hx]))
    refine ⟨by simp [n1], ?_⟩
    have hl : (1 : ℝ) ≤ l.length := by exact_mod_cast List.length_pos_iff.2 n1
    have hl' : (1 : ℝ) ≤ l'.length := by exact_mod_cast List.length_pos_iff.2 n2
    have hr := r1.add r2
    have := hr.trans (round_double (by linarith [r1.nonneg, r2.nonneg]) hR)
    rw [List.sum_append, List.length_append]
    refine this.mono ?_
    have : max (((l.length : ℝ) - 1) * 3e-16) ((l'.length - 1) * 3e-16) ≤ (l.length + l'.length - 2) * 3e-16 :=
      max_le (by nlinarith) (by nlinarith)
    push_cast
    linarith
  | @perm l l' s _ hp ih =>
    obtain ⟨n1, r1⟩ := ih (fun x hx => h0 x (hp.mem_iff.1 hx))
    refine ⟨fun h => n1 ?_, ?_⟩
    · rw [h] at hp; exact hp.eq_nil
    · rw [← hp.length_eq, ← hp.sum_eq]; exact r1

end PyBox
