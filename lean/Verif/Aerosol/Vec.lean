import Verif.Aerosol.PartAst

/-!
# Arrays given by functions

Array operations of `Aerosol/Fortran.lean` on arrays whose elements (counted from 1) are given by a function.
-/

namespace PyBox
namespace Ft

open Aerosol (fsum)

/-- The array with elements `f 1, ..., f n`. -/
def vec {α : Type} (n : ℕ) (f : ℕ → α) : List α := (List.range n).map (fun k => f (k + 1))

@[simp] theorem vec_length {α : Type} (n : ℕ) (f : ℕ → α) : (vec n f).length = n := by simp [vec]

theorem vec_getElem {α : Type} {n : ℕ} {f : ℕ → α} {i : ℕ} (h : i < (vec n f).length) : (vec n f)[i] = f (i + 1) := by
  simp [vec]

theorem vec_getElem? {α : Type} {n : ℕ} {f : ℕ → α} {i : ℕ} (h : i < n) : (vec n f)[i]? = some (f (i + 1)) := by
  simp [vec, h]

theorem vec_congr {α : Type} {n : ℕ} {f g : ℕ → α} (h : ∀ i, 1 ≤ i → i ≤ n → f i = g i) : vec n f = vec n g := by
  unfold vec
  refine List.map_congr_left (fun k hk => h (k + 1) (by omega) ?_)
  have := List.mem_range.mp hk
  omega

theorem eq_vec {α : Type} {l : List α} {n : ℕ} {f : ℕ → α} (hl : l.length = n)
    (h : ∀ i (hi : i < l.length), l[i] = f (i + 1)) : l = vec n f := by
  refine List.ext_getElem (by simp [hl]) (fun i h1 h2 => ?_)
  rw [vec_getElem, h]

/-- Every array is of this form. -/
theorem list_vec (l : List ℝ) : l = vec l.length (fun i => l.getD (i - 1) 0) := by
  refine eq_vec rfl (fun i hi => ?_)
  simp [List.getD_eq_getElem?_getD, List.getElem?_eq_getElem hi]

theorem vec_map {α β : Type} (n : ℕ) (f : ℕ → α) (g : α → β) : (vec n f).map g = vec n (fun i => g (f i)) := by
  simp [vec, Function.comp_def]

theorem vec_zipWith {α β γ : Type} (n : ℕ) (f : ℕ → α) (g : ℕ → β) (op : α → β → γ) :
    List.zipWith op (vec n f) (vec n g) = vec n (fun i => op (f i) (g i)) := by
  refine eq_vec (by simp) (fun i hi => ?_)
  rw [List.getElem_zipWith, vec_getElem, vec_getElem]

theorem vec_mem {α : Type} {n : ℕ} {f : ℕ → α} {x : α} (h : x ∈ vec n f) : ∃ i, 1 ≤ i ∧ i ≤ n ∧ x = f i := by
  unfold vec at h
  rw [List.mem_map] at h
  obtain ⟨k, hk, rfl⟩ := h
  exact ⟨k + 1, by omega, by have := List.mem_range.mp hk; omega, rfl⟩

theorem vec_zip_mem {α β : Type} {n : ℕ} {f : ℕ → α} {g : ℕ → β} {p : α × β} (h : p ∈ (vec n f).zip (vec n g)) :
    ∃ i, 1 ≤ i ∧ i ≤ n ∧ p = (f i, g i) := by
  have : (vec n f).zip (vec n g) = vec n (fun i => (f i, g i)) := vec_zipWith n f g Prod.mk
  rw [this] at h
  exact vec_mem h

theorem vec_sum (n : ℕ) (f : ℕ → ℝ) : (vec n f).sum = fsum n f := by
  unfold vec fsum
  rw [Finset.sum_range]
  exact (List.sum_ofFn (f := fun i : Fin n => f (i + 1))).symm ▸ by
    congr 1
    exact List.ext_getElem (by simp) (fun i h1 h2 => by simp)

theorem vec_getD {n : ℕ} {f : ℕ → ℝ} {i : ℕ} (h1 : 1 ≤ i) (h2 : i ≤ n) : (vec n f).getD (i - 1) 0 = f i := by
  rw [List.getD_eq_getElem?_getD, vec_getElem? (by omega)]
  simp [Nat.sub_add_cancel h1]

theorem vec_set {α : Type} {n : ℕ} {f : ℕ → α} {i : ℕ} (h1 : 1 ≤ i) (x : α) :
    (vec n f).set (i - 1) x = vec n (Function.update f i x) := by
  refine eq_vec (by simp) (fun k hk => ?_)
  rw [List.getElem_set]
  split
  · rename_i h
    have : k + 1 = i := by omega
    rw [this, Function.update_self]
  · rename_i h
    rw [vec_getElem, Function.update_of_ne (by omega)]

theorem inside_nat {n i : ℕ} (h1 : 1 ≤ i) (h2 : i ≤ n) : inside n (i : ℤ) := by
  unfold inside; omega

theorem vec_section {α : Type} {n : ℕ} {f : ℕ → α} {a b : ℕ} (h1 : 1 ≤ a) (h2 : b ≤ n) (h3 : a ≤ b + 1) :
    section? (vec n f) a b = some (vec (b + 1 - a) (fun i => f (a + (i - 1)))) := by
  unfold section?
  by_cases h : b < a
  · rw [if_pos (by exact_mod_cast h)]
    have : b + 1 - a = 0 := by omega
    rw [this]
    rfl
  · rw [if_neg (by exact_mod_cast h), if_pos]
    · congr 1
      refine eq_vec (by simp; omega) (fun i hi => ?_)
      rw [List.getElem_drop, List.getElem_take, vec_getElem]
      congr 1
      simp only [Int.toNat_natCast]
      omega
    · rw [vec_length]
      exact ⟨inside_nat h1 (by omega), inside_nat (by omega) h2⟩

/-- Assigning to a section. -/
theorem vec_assign {α : Type} {n m : ℕ} {f g : ℕ → α} {a b : ℕ} (h1 : 1 ≤ a) (h2 : b ≤ n) (hm : m = b + 1 - a)
    (h3 : a ≤ b + 1) :
    (vec n f).take (a - 1) ++ vec m g ++ (vec n f).drop b =
      vec n (fun i => if a ≤ i ∧ i ≤ b then g (i - a + 1) else f i) := by
  have hla : ((vec n f).take (a - 1)).length = a - 1 := by simp; omega
  refine eq_vec (by simp; omega) (fun i hi => ?_)
  rw [List.getElem_append]
  split
  · rename_i h
    rw [List.getElem_append]
    split
    · rename_i h'
      rw [List.getElem_take, vec_getElem, if_neg]
      rw [hla] at h'
      omega
    · rename_i h'
      rw [hla] at h'
      rw [vec_getElem, if_pos]
      · congr 1
        rw [hla]
        omega
      · simp only [List.length_append, hla, vec_length] at h
        omega
  · rename_i h
    simp only [List.length_append, hla, vec_length] at h
    rw [List.getElem_drop, vec_getElem, if_neg (by omega)]
    congr 1
    simp only [List.length_append, hla, vec_length]
    omega

/-! ### Operations -/

variable {n : ℕ} {f g : ℕ → ℝ} {x y : ℝ} {op : ℝ → ℝ → ℝ} {iop : ℤ → ℤ → ℤ} {ok : ℝ → ℝ → Prop}

@[simp] theorem arith_ints (a b : ℤ) : arith iop op (.int a) (.int b) = some (.int (iop a b)) := rfl

@[simp] theorem arith_reals : arith iop op (.real x) (.real y) = some (.real (op x y)) := by
  simp [arith, lift2, V.num]

@[simp] theorem arith_arr_real : arith iop op (.arr (vec n f)) (.real y) = some (.arr (vec n (fun i => op (f i) y))) := by
  simp [arith, lift2, V.num, vec_map]

@[simp] theorem arith_real_arr : arith iop op (.real x) (.arr (vec n g)) = some (.arr (vec n (fun i => op x (g i)))) := by
  simp [arith, lift2, V.num, vec_map]

@[simp] theorem arith_arrs :
    arith iop op (.arr (vec n f)) (.arr (vec n g)) = some (.arr (vec n (fun i => op (f i) (g i)))) := by
  simp [arith, lift2, vec_zipWith]

theorem noInts_reals (h : ok x y) : noInts ok op (.real x) (.real y) = some (.real (op x y)) := by
  simp [noInts, lift2, V.num, h]

theorem noInts_arr_real (h : ∀ i, 1 ≤ i → i ≤ n → ok (f i) y) :
    noInts ok op (.arr (vec n f)) (.real y) = some (.arr (vec n (fun i => op (f i) y))) := by
  have : ∀ z ∈ vec n f, ok z y := by
    intro z hz
    obtain ⟨i, h1, h2, rfl⟩ := vec_mem hz
    exact h i h1 h2
  simp only [noInts, lift2, V.num, Option.bind_some, if_pos this, vec_map]

theorem noInts_real_arr (h : ∀ i, 1 ≤ i → i ≤ n → ok x (g i)) :
    noInts ok op (.real x) (.arr (vec n g)) = some (.arr (vec n (fun i => op x (g i)))) := by
  have : ∀ z ∈ vec n g, ok x z := by
    intro z hz
    obtain ⟨i, h1, h2, rfl⟩ := vec_mem hz
    exact h i h1 h2
  simp only [noInts, lift2, V.num, Option.bind_some, if_pos this, vec_map]

theorem noInts_arrs (h : ∀ i, 1 ≤ i → i ≤ n → ok (f i) (g i)) :
    noInts ok op (.arr (vec n f)) (.arr (vec n g)) = some (.arr (vec n (fun i => op (f i) (g i)))) := by
  have : (vec n f).length = (vec n g).length ∧ ∀ p ∈ (vec n f).zip (vec n g), ok p.1 p.2 := by
    refine ⟨by simp, fun p hp => ?_⟩
    obtain ⟨i, h1, h2, rfl⟩ := vec_zip_mem hp
    exact h i h1 h2
  simp only [noInts, lift2, if_pos this, vec_zipWith]

end Ft
end PyBox
