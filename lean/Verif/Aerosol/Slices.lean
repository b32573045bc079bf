import Verif.Aerosol.Partition
import Mathlib.Tactic.Ring
import Mathlib.Tactic.Linarith
import Mathlib.Tactic.Positivity
import Mathlib.Tactic.FieldSimp
import Mathlib.Tactic.NormNum

/-! # What the assignments to slices leave behind -/

namespace PyBox
namespace Aerosol

theorem runEvents_append (L : Layout) (dm : ℕ → ℕ → ℝ) (e1 e2 : List Event) (s : Shared) :
    runEvents L dm (e1 ++ e2) s = runEvents L dm e2 (runEvents L dm e1 s) := by
  simp [runEvents, List.foldl_append]

theorem serialEvents_succ (n : ℕ) :
    serialEvents (n + 1) = serialEvents n ++ binEvents (n + 1) := by
  simp [serialEvents, List.range_succ]

theorem run_binEvents (L : Layout) (dm : ℕ → ℕ → ℝ) (b : ℕ) (s : Shared) :
    (runEvents L dm (binEvents b) s).dyDt
      = assignSlice s.dyDt (firstIndex L b) (lastIndex L b) (dm b) := rfl

theorem slot_lt {nc b n j : ℕ} (hb : b < n) (hj : j < nc) : b * nc + j < n * nc := by
  calc b * nc + j < b * nc + nc := by omega
    _ = (b + 1) * nc := by ring
    _ ≤ n * nc := Nat.mul_le_mul_right _ hb

theorem slot_inj {nc b b' j j' : ℕ} (hj : j < nc) (hj' : j' < nc)
    (h : b * nc + j = b' * nc + j') : b = b' ∧ j = j' := by
  rcases lt_trichotomy b b' with hb | hb | hb
  · have := slot_lt (n := b') hb hj
    omega
  · subst hb; exact ⟨rfl, by omega⟩
  · have := slot_lt (n := b) hb hj'
    omega

/-- Writing the slice of bin `b+1`. -/
theorem assign_own (L : Layout) (D : ℕ → ℝ) (v : ℕ → ℝ) {b j : ℕ} (hj : j < L.numCond) :
    assignSlice D (firstIndex L (b + 1)) (lastIndex L (b + 1)) v
      (L.numSpecies + b * L.numCond + j + 1) = v (j + 1) := by
  unfold assignSlice firstIndex lastIndex
  have e : (b + 1) * L.numCond = b * L.numCond + L.numCond := by ring
  have e2 : b + 1 - 1 = b := by omega
  rw [e, e2, if_pos (by constructor <;> omega)]
  congr 1
  omega

theorem assign_other (L : Layout) (D : ℕ → ℝ) (v : ℕ → ℝ) {b b' j : ℕ} (hj : j < L.numCond)
    (hb : b ≠ b') :
    assignSlice D (firstIndex L (b + 1)) (lastIndex L (b + 1)) v
      (L.numSpecies + b' * L.numCond + j + 1) = D (L.numSpecies + b' * L.numCond + j + 1) := by
  unfold assignSlice firstIndex lastIndex
  have e : (b + 1) * L.numCond = b * L.numCond + L.numCond := by ring
  have e2 : b + 1 - 1 = b := by omega
  rw [e, e2, if_neg]
  rintro ⟨h1, h2⟩
  have := slot_inj (nc := L.numCond) (b := b) (b' := b')
    (j := b' * L.numCond + j - b * L.numCond) (j' := j) (by omega) hj (by omega)
  exact hb this.1

theorem assign_gas (L : Layout) (D : ℕ → ℝ) (v : ℕ → ℝ) {b i : ℕ} (hi : i ≤ L.numSpecies) :
    assignSlice D (firstIndex L (b + 1)) (lastIndex L (b + 1)) v i = D i := by
  unfold assignSlice firstIndex
  rw [if_neg]
  rintro ⟨h1, _⟩
  omega

theorem assign_beyond (L : Layout) (D : ℕ → ℝ) (v : ℕ → ℝ) {b n i : ℕ} (hb : b < n)
    (hi : L.numSpecies + n * L.numCond < i) :
    assignSlice D (firstIndex L (b + 1)) (lastIndex L (b + 1)) v i = D i := by
  unfold assignSlice lastIndex
  rw [if_neg]
  rintro ⟨_, h2⟩
  have : (b + 1) * L.numCond ≤ n * L.numCond := Nat.mul_le_mul_right _ hb
  omega

theorem serial_slot (L : Layout) (dm : ℕ → ℕ → ℝ) (s : Shared) (n b j : ℕ)
    (hj : j < L.numCond) :
    (runEvents L dm (serialEvents n) s).dyDt (L.numSpecies + b * L.numCond + j + 1)
      = if b < n then dm (b + 1) (j + 1)
        else s.dyDt (L.numSpecies + b * L.numCond + j + 1) := by
  induction n with
  | zero => simp [serialEvents, runEvents]
  | succ n ih =>
    rw [serialEvents_succ, runEvents_append, run_binEvents]
    by_cases h : n = b
    · subst h
      rw [assign_own L _ _ hj, if_pos (by omega)]
    · rw [assign_other L _ _ hj h, ih]
      by_cases h2 : b < n
      · rw [if_pos h2, if_pos (by omega)]
      · rw [if_neg h2, if_neg (by omega)]

theorem serial_gas (L : Layout) (dm : ℕ → ℕ → ℝ) (s : Shared) (n i : ℕ)
    (hi : i ≤ L.numSpecies) :
    (runEvents L dm (serialEvents n) s).dyDt i = s.dyDt i := by
  induction n with
  | zero => simp [serialEvents, runEvents]
  | succ n ih =>
    rw [serialEvents_succ, runEvents_append, run_binEvents, assign_gas L _ _ hi, ih]

/-- A column of the gas matrix, built from the right. -/
theorem gasColumn_append (incl : List ℕ) (a : ℕ) (dm : ℕ → ℝ) :
    gasColumn (incl ++ [a]) dm
      = Function.update (gasColumn incl dm) (a + 1) (dm (incl.length + 1)) := by
  simp [gasColumn, List.zipIdx_append, List.foldl_append]

theorem gasColumn_not_mem (incl : List ℕ) (dm : ℕ → ℝ) (s : ℕ) (h : s ∉ incl) :
    gasColumn incl dm (s + 1) = 0 := by
  induction incl using List.reverseRecOn with
  | nil => rfl
  | append_singleton l a ih =>
    simp only [List.mem_append, List.mem_singleton, not_or] at h
    rw [gasColumn_append, Function.update_of_ne (by omega), ih h.1]

theorem gasColumn_get (incl : List ℕ) (dm : ℕ → ℝ) (hnd : incl.Nodup) (j : ℕ)
    (h : j < incl.length) : gasColumn incl dm (incl[j] + 1) = dm (j + 1) := by
  induction incl using List.reverseRecOn with
  | nil => simp at h
  | append_singleton l a ih =>
    rw [gasColumn_append]
    by_cases hj : j < l.length
    · have hne : (l ++ [a])[j] ≠ a := by
        rw [List.getElem_append_left hj]
        intro he
        have := (List.nodup_append.1 hnd).2.2 l[j] (List.getElem_mem hj) a (by simp)
        exact this he
      rw [Function.update_of_ne (by omega), ]
      have := ih (List.nodup_append.1 hnd).1 hj
      rw [List.getElem_append_left hj]
      exact this
    · have hj' : j = l.length := by
        simp only [List.length_append, List.length_singleton] at h; omega
      subst hj'
      simp

end Aerosol
end PyBox
