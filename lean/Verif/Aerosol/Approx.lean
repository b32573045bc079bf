import Verif.Aerosol.Rounded
import Verif.Aerosol.PartSteps

/-!
# Errors of rounded array expressions

How far the computed value of an expression can be off, from how far its parts can be off. Arrays are given by functions
as in `Aerosol/Vec.lean`, scalars by constant functions.
-/

namespace PyBox
namespace Ft

open Rl Spec
open Aerosol (fsum)

/-- The units of double and of single precision. -/
noncomputable def du : ℝ := 3e-16
noncomputable def su : ℝ := 6e-8

theorem du_nonneg : 0 ≤ du := by unfold du; norm_num
theorem su_nonneg : 0 ≤ su := by unfold su; norm_num

theorem round_du {z r : ℝ} (hz : 0 ≤ z) (h : ieee .double z r) : Ratio du z r := round_double hz h

/-- `v` is an array of `n` elements (`s = some n`) or a scalar. -/
def Is : Option ℕ → V → (ℕ → ℝ) → Prop
  | none, v, f => ∃ x, v = .real x ∧ f = fun _ => x
  | some n, v, f => v = .arr (vec n f)

def In : Option ℕ → ℕ → Prop
  | none, _ => True
  | some n, i => 1 ≤ i ∧ i ≤ n

/-- The size of the result of an operation. -/
def joins : Option ℕ → Option ℕ → Option ℕ
  | none, t => t
  | some n, _ => some n

def Compat (s t : Option ℕ) : Prop := ∀ n m, s = some n → t = some m → n = m

theorem in_left {s t : Option ℕ} {i : ℕ} (h : In (joins s t) i) : In s i := by
  cases s with
  | none => trivial
  | some n => exact h

theorem in_right {s t : Option ℕ} {i : ℕ} (hc : Compat s t) (h : In (joins s t) i) : In t i := by
  cases s with
  | none => exact h
  | some n =>
    cases t with
    | none => trivial
    | some m => rw [← hc n m rfl rfl]; exact h

theorem forall₂_vec {n : ℕ} {α : Type} {f : ℕ → α} {r : List ℝ} {R : α → ℝ → Prop} (h : List.Forall₂ R (vec n f) r) :
    ∃ g : ℕ → ℝ, r = vec n g ∧ ∀ i, 1 ≤ i → i ≤ n → R (f i) (g i) := by
  have hl : r.length = n := by rw [← h.length_eq, vec_length]
  refine ⟨fun i => r.getD (i - 1) 0, ?_, fun i h1 h2 => ?_⟩
  · rw [← hl]; exact list_vec r
  · have h3 : i - 1 < (vec n f).length := by rw [vec_length]; omega
    have h4 : i - 1 < r.length := by omega
    have := h.get h3 h4
    simp only [List.get_eq_getElem, vec_getElem] at this
    rw [Nat.sub_add_cancel h1] at this
    dsimp only
    rw [List.getD_eq_getElem?_getD, List.getElem?_eq_getElem h4]
    exact this

/-- An operation. -/
theorem op2 {s t : Option ℕ} {u w v : V} {f g : ℕ → ℝ} {op : ℝ → ℝ → ℝ} (hu : Is s u f) (hw : Is t w g)
    (hc : Compat s t) (h : Op2 op u w v) :
    ∃ r, Is (joins s t) v r ∧ ∀ i, In (joins s t) i → ieee .double (op (f i) (g i)) (r i) := by
  cases s with
  | none =>
    obtain ⟨x, rfl, rfl⟩ := hu
    cases t with
    | none =>
      obtain ⟨y, rfl, rfl⟩ := hw
      obtain ⟨x', y', z, hx, hy, rfl, hz⟩ := h
      cases hx; cases hy
      exact ⟨fun _ => z, ⟨z, rfl, rfl⟩, fun _ _ => hz⟩
    | some m =>
      cases hw
      obtain ⟨x', r, hx, rfl, hz⟩ := h
      cases hx
      obtain ⟨r', rfl, hr⟩ := forall₂_vec hz
      exact ⟨r', rfl, fun i hi => hr i hi.1 hi.2⟩
  | some n =>
    cases hu
    cases t with
    | none =>
      obtain ⟨y, rfl, rfl⟩ := hw
      obtain ⟨x', r, hx, rfl, hz⟩ := h
      cases hx
      obtain ⟨r', rfl, hr⟩ := forall₂_vec hz
      exact ⟨r', rfl, fun i hi => hr i hi.1 hi.2⟩
    | some m =>
      cases hw
      cases hc n m rfl rfl
      obtain ⟨-, r, rfl, hz⟩ := h
      have e : (vec n f).zip (vec n g) = vec n (fun i => (f i, g i)) := vec_zipWith n f g Prod.mk
      rw [e] at hz
      obtain ⟨r', rfl, hr⟩ := forall₂_vec hz
      exact ⟨r', rfl, fun i hi => hr i hi.1 hi.2⟩

theorem op_int {s t : Option ℕ} {u w v : V} {f g : ℕ → ℝ} {iop : ℤ → ℤ → ℤ} {op : ℝ → ℝ → ℝ} (hu : Is s u f)
    (hw : Is t w g) (hc : Compat s t) (h : OpInt iop op u w v) :
    ∃ r, Is (joins s t) v r ∧ ∀ i, In (joins s t) i → ieee .double (op (f i) (g i)) (r i) := by
  refine op2 hu hw hc ?_
  cases s with
  | none => obtain ⟨x, rfl, rfl⟩ := hu; exact h
  | some n => cases hu; exact h

theorem op_real {s t : Option ℕ} {u w v : V} {f g : ℕ → ℝ} {op : ℝ → ℝ → ℝ} (hu : Is s u f)
    (hw : Is t w g) (hc : Compat s t) (h : OpReal op u w v) :
    ∃ r, Is (joins s t) v r ∧ ∀ i, In (joins s t) i → ieee .double (op (f i) (g i)) (r i) := by
  refine op2 hu hw hc ?_
  cases s with
  | none => obtain ⟨x, rfl, rfl⟩ := hu; exact h
  | some n => cases hu; exact h

/-- Every computed value is within the factor `exp c` of `g`. -/
def Approx (σ : Store) (s : Option ℕ) (e : Ex) (c : ℝ) (g : ℕ → ℝ) : Prop :=
  ∀ v, e.Rounded σ v → ∃ f, Is s v f ∧ ∀ i, In s i → Ratio c (g i) (f i)

/-- What a variable contains. -/
def Holds (s : Option ℕ) (v : V) (c : ℝ) (g : ℕ → ℝ) : Prop := ∃ f, Is s v f ∧ ∀ i, In s i → Ratio c (g i) (f i)

section

variable {σ : Store} {s t : Option ℕ} {a b : Ex} {c d e : ℝ} {g h : ℕ → ℝ}

theorem Approx.mono (ha : Approx σ s a c g) (h : c ≤ d) : Approx σ s a d g := fun v hv => by
  obtain ⟨f, h1, h2⟩ := ha v hv
  exact ⟨f, h1, fun i hi => (h2 i hi).mono h⟩

theorem Approx.mul (ha : Approx σ s a c g) (hb : Approx σ t b d h) (hc : Compat s t) :
    Approx σ (joins s t) (.mul a b) (c + d + du) (fun i => g i * h i) := by
  rintro v ⟨u, w, hu, hw, ho⟩
  obtain ⟨f, f1, f2⟩ := ha u hu
  obtain ⟨k, k1, k2⟩ := hb w hw
  obtain ⟨r, r1, r2⟩ := op_int f1 k1 hc ho
  refine ⟨r, r1, fun i hi => ?_⟩
  have := (f2 i (in_left hi)).mul (k2 i (in_right hc hi))
  exact this.trans (round_du this.nonneg (r2 i hi))

theorem Approx.div (ha : Approx σ s a c g) (hb : Approx σ t b d h) (hc : Compat s t) :
    Approx σ (joins s t) (.div a b) (c + d + du) (fun i => g i / h i) := by
  rintro v ⟨u, w, hu, hw, ho⟩
  obtain ⟨f, f1, f2⟩ := ha u hu
  obtain ⟨k, k1, k2⟩ := hb w hw
  obtain ⟨r, r1, r2⟩ := op_real f1 k1 hc ho
  refine ⟨r, r1, fun i hi => ?_⟩
  have := (f2 i (in_left hi)).div (k2 i (in_right hc hi))
  exact this.trans (round_du this.nonneg (r2 i hi))

theorem Approx.add (ha : Approx σ s a c g) (hb : Approx σ t b d h) (hc : Compat s t) :
    Approx σ (joins s t) (.add a b) (max c d + du) (fun i => g i + h i) := by
  rintro v ⟨u, w, hu, hw, ho⟩
  obtain ⟨f, f1, f2⟩ := ha u hu
  obtain ⟨k, k1, k2⟩ := hb w hw
  obtain ⟨r, r1, r2⟩ := op_int f1 k1 hc ho
  refine ⟨r, r1, fun i hi => ?_⟩
  have := (f2 i (in_left hi)).add (k2 i (in_right hc hi))
  exact this.trans (round_du this.nonneg (r2 i hi))

/-- A literal that single precision represents. -/
theorem approx_exact {q : ℚ} {x : ℝ} (hq : Exact .single q) (hx : (q : ℝ) = x) (h0 : 0 ≤ x) :
    Approx σ none (.real q) 0 (fun _ => x) := by
  rintro v ⟨y, rfl, -, hy⟩
  refine ⟨_, ⟨y, rfl, rfl⟩, fun _ _ => ?_⟩
  rw [hy hq, hx]
  exact Ratio.refl h0

theorem litRounds_ratio {q : ℚ} {x y : ℝ} (hx : (q : ℝ) = x) (h0 : (10 : ℝ) ^ (-30 : ℤ) ≤ x) (h1 : x ≤ 10 ^ 38)
    (h : LitRounds q y) : Ratio su x y := by
  obtain ⟨h, -⟩ := h
  rw [hx] at h
  exact round_single h0 h1 h

theorem approx_lit {q : ℚ} {x : ℝ} (hx : (q : ℝ) = x) (h0 : (10 : ℝ) ^ (-30 : ℤ) ≤ x) (h1 : x ≤ 10 ^ 38) :
    Approx σ none (.real q) su (fun _ => x) := by
  rintro v ⟨y, rfl, hy⟩
  exact ⟨_, ⟨y, rfl, rfl⟩, fun _ _ => litRounds_ratio hx h0 h1 hy⟩

theorem approx_var {x : ℕ} (hv : Holds s (σ x) c g) : Approx σ s (.var x) c g := by
  intro v h
  have h : some (σ x) = some v := h
  cases h
  exact hv

theorem approx_all {x n : ℕ} (hv : Holds (some n) (σ x) c g) : Approx σ (some n) (.all x) c g := by
  obtain ⟨f, hf, hg⟩ := hv
  intro v h
  have hf : σ x = .arr (vec n f) := hf
  have := (val_all (strict := True) hf).symm.trans h
  cases this
  exact ⟨f, rfl, hg⟩

theorem approx_elem {x n k : ℕ} {i : Ex} (hv : Holds (some n) (σ x) c g) (hi : i.val True σ = some (.int k)) (h1 : 1 ≤ k)
    (h2 : k ≤ n) : Approx σ none (.elem x i) c (fun _ => g k) := by
  obtain ⟨f, hf, hg⟩ := hv
  intro v h
  have hf : σ x = .arr (vec n f) := hf
  have := (val_elem (strict := True) hf hi h1 h2).symm.trans h
  cases this
  exact ⟨_, ⟨_, rfl, rfl⟩, fun _ _ => hg k ⟨h1, h2⟩⟩

theorem holds_exact {n : ℕ} {v : V} {f : ℕ → ℝ} (h : v = .arr (vec n f)) (h0 : ∀ i, 1 ≤ i → i ≤ n → 0 ≤ f i) :
    Holds (some n) v 0 f := ⟨f, h, fun i hi => Ratio.refl (h0 i hi.1 hi.2)⟩

theorem holds_real {v : V} {x : ℝ} (h : v = .real x) (h0 : 0 ≤ x) : Holds none v 0 (fun _ => x) :=
  ⟨_, ⟨x, h, rfl⟩, fun _ _ => Ratio.refl h0⟩

theorem ratio_list {n : ℕ} {f : ℕ → ℝ} (hf : ∀ i, 1 ≤ i → i ≤ n → Ratio c (g i) (f i)) (hc : 0 ≤ c) :
    Ratio c (fsum n g) (fsum n f) := by
  induction n with
  | zero => simpa [fsum] using (Ratio.refl le_rfl).mono hc
  | succ n ih =>
    unfold fsum
    rw [Finset.sum_range_succ, Finset.sum_range_succ]
    have := (ih (fun i h1 h2 => hf i h1 (by omega))).add (hf (n + 1) (by omega) le_rfl)
    rwa [max_self] at this

theorem sumOf_ratio {n : ℕ} {f : ℕ → ℝ} {s : ℝ} (hf : ∀ i, 1 ≤ i → i ≤ n → Ratio c (g i) (f i)) (hc : 0 ≤ c)
    (h : SumOf (vec n f) s) : Ratio (c + n * du) (fsum n g) s := by
  have hn : 0 ≤ (n : ℝ) * du := mul_nonneg (Nat.cast_nonneg _) du_nonneg
  have h1 := ratio_list hf hc
  rcases h with ⟨hl, rfl⟩ | h
  · have : n = 0 := by rw [← vec_length n f, hl]; rfl
    subst this
    simpa [fsum] using h1.mono (le_refl c)
  · obtain ⟨-, h2⟩ := roundedSum_ratio h (fun x hx => by
      obtain ⟨i, a1, a2, rfl⟩ := vec_mem hx
      exact (hf i a1 a2).nonneg)
    rw [vec_sum, vec_length] at h2
    refine (h1.trans h2).mono ?_
    unfold du
    nlinarith

theorem Approx.sum {n : ℕ} (ha : Approx σ (some n) a c g) (hc : 0 ≤ c) :
    Approx σ none (.sum a) (c + n * du) (fun _ => fsum n g) := by
  rintro v ⟨l, r, hl, rfl, hr⟩
  obtain ⟨f, hf, hg⟩ := ha _ hl
  cases hf
  exact ⟨_, ⟨r, rfl, rfl⟩, fun _ _ => sumOf_ratio (fun i h1 h2 => hg i ⟨h1, h2⟩) hc hr⟩

/-- The exponential of a number between 0 and `X`. -/
theorem Approx.exp {n : ℕ} {X : ℝ} (ha : Approx σ (some n) a c g) (hX : ∀ i, 1 ≤ i → i ≤ n → g i ≤ X) :
    Approx σ (some n) (.exp a) (X * (Real.exp c - 1) + du) (fun i => Real.exp (g i)) := by
  rintro v ⟨u, hu, h⟩
  obtain ⟨f, hf, hg⟩ := ha _ hu
  cases hf
  obtain ⟨r, rfl, hr⟩ := h
  obtain ⟨r', rfl, hr'⟩ := forall₂_vec hr
  refine ⟨r', rfl, fun i hi => ?_⟩
  have h1 := hg i hi
  obtain ⟨c0, g0, lo, up⟩ := h1
  have h2 : Off 0 X (X * (Real.exp c - 1)) (g i) (f i) := by
    refine ⟨g0, hX i hi.1 hi.2, ?_⟩
    have e1 : Real.exp (-c) * Real.exp c = 1 := by rw [← Real.exp_add]; simp
    have e2 := Real.add_one_le_exp c
    have e3 : 0 < Real.exp (-c) := Real.exp_pos _
    have e4 : g i * (Real.exp c - 1) ≤ X * (Real.exp c - 1) :=
      mul_le_mul_of_nonneg_right (hX i hi.1 hi.2) (by linarith)
    have e5 : 1 - Real.exp (-c) ≤ Real.exp c - 1 := by nlinarith [sq_nonneg (Real.exp c - 1)]
    have e6 := mul_le_mul_of_nonneg_left e5 g0
    rw [abs_le]
    constructor <;> nlinarith
  exact (Ratio.exp h2).trans (round_du (Real.exp_pos _).le (hr' i hi.1 hi.2))

end

end Ft
end PyBox
