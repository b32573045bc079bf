import Verif.Aerosol.Split
import Verif.Props.AerosolTraj

/-!
# What the right-hand sides of an operator-split simulation are
-/

namespace PyBox

open Set Spec Aerosol

/-! ## Only the entries in the bins matter to the bins -/

section Congr

variable {L : Aerosol.Layout} {P : PartInput} {y' c' : ℕ → ℝ} (hy : ∀ i, L.numSpecies < i → y' i = P.y i)

include hy

theorem tempArray_congr (b i : ℕ) :
    tempArray L { P with y := y', cgas := c' } b (i + 1) = tempArray L P b (i + 1) := by
  unfold tempArray
  exact hy _ (by omega)

theorem massArray_congr (b i : ℕ) :
    massArray L { P with y := y', cgas := c' } b (i + 1) = massArray L P b (i + 1) := by
  unfold massArray
  rw [tempArray_congr hy]

theorem totalMass_congr (b : ℕ) :
    totalMass L { P with y := y', cgas := c' } b = totalMass L P b := by
  unfold totalMass fsum
  exact Finset.sum_congr rfl fun i _ => massArray_congr hy b i

theorem density_congr (b : ℕ) :
    density L { P with y := y', cgas := c' } b = density L P b := by
  unfold density fsum massFraction
  rw [totalMass_congr hy]
  refine congrArg _ (Finset.sum_congr rfl fun i _ => ?_)
  dsimp only
  rw [massArray_congr hy]
  rfl

theorem sizeArray_congr (b : ℕ) :
    sizeArray L { P with y := y', cgas := c' } b = sizeArray L P b := by
  unfold sizeArray
  rw [totalMass_congr hy, density_congr hy]

theorem kTransfer_congr (b i : ℕ) :
    kTransfer L { P with y := y', cgas := c' } b i = kTransfer L P b i := by
  simp only [kTransfer, kPart1, correction, correction3, correction1, inverseKn, knudsen,
    sizeArray_congr hy]
  rfl

theorem cStar_congr (b i : ℕ) :
    cStar L { P with y := y', cgas := c' } b (i + 1) = cStar L P b (i + 1) := by
  have h : totalMoles L { P with y := y', cgas := c' } b = totalMoles L P b := by
    unfold totalMoles fsum
    exact congrArg (· + _) (Finset.sum_congr rfl fun i _ => tempArray_congr hy b i)
  simp only [cStar, pressureEq, kelvin, moleFraction, sizeArray_congr hy, density_congr hy, h,
    tempArray_congr hy]

end Congr

/-! ## The masked routine -/

/-- 0 for the species to be ignored, 1 for the others. -/
def keptWeight (ignored : List ℕ) (s : ℕ) : ℝ := if s ∈ ignored then 0 else 1

theorem allLayout_good (bins species : ℕ) : GoodLayout (allLayout bins species) :=
  ⟨List.length_range, List.nodup_range, fun _ hs => List.mem_range.1 hs⟩

theorem maskedDmDt_eq (L : Aerosol.Layout) (hincl : L.incl = List.range L.numSpecies) (C : AeroConst)
    (ignored : List ℕ) (y : ℕ → ℝ) (b : ℕ) {j : ℕ} (hj : j < L.numSpecies) :
    maskedDmDt L (splitArgs L C ignored y) (ignoreFlag ignored) b (j + 1)
      = keptWeight ignored j * dmDt L (partArgs L C y) b (j + 1) := by
  unfold keptWeight
  by_cases h : j ∈ ignored
  · rw [if_pos h, zero_mul]
    unfold maskedDmDt maskedCStar maskedPressure maskedFraction
    rw [if_pos (by unfold ignoreFlag; rw [if_pos (by exact h)])]
    have : (splitArgs L C ignored y).cgas (j + 1) = 0 := if_pos h
    rw [this]
    ring
  · rw [if_neg h, one_mul]
    have hy : ∀ i, L.numSpecies < i →
        (fun i => if i - 1 < L.numSpecies ∧ i - 1 ∈ ignored then 0 else y (i - 1)) i
          = (partArgs L C y).y i := by
      intro i hi
      exact if_neg (by omega)
    have hm : maskedDmDt L (splitArgs L C ignored y) (ignoreFlag ignored) b (j + 1)
        = dmDt L (splitArgs L C ignored y) b (j + 1) := by
      unfold maskedDmDt maskedCStar maskedPressure maskedFraction dmDt cStar pressureEq
      rw [if_neg (by unfold ignoreFlag; rw [if_neg (by exact h)]; decide)]
    have hc : (splitArgs L C ignored y).cgas (j + 1) = (partArgs L C y).cgas (j + 1) := by
      show (if j + 1 - 1 ∈ ignored then 0 else y (j + 1 - 1)) = y (L.incl.getD (j + 1 - 1) 0)
      rw [Nat.add_sub_cancel, if_neg h, hincl, List.getD_eq_getElem?_getD, List.getElem?_range hj]
      rfl
    rw [hm]
    unfold dmDt
    rw [hc]
    exact congrArg₂ (fun a b => a * (_ - b)) (kTransfer_congr hy b (j + 1)) (cStar_congr hy b j)

theorem gasColumn_range (n : ℕ) (dm : ℕ → ℝ) {s : ℕ} (hs : s < n) :
    gasColumn (List.range n) dm (s + 1) = dm (s + 1) := by
  have := gasColumn_get (List.range n) dm List.nodup_range s (by simpa using hs)
  rwa [List.getElem_range] at this

theorem aerosolOnly_eq (bins species : ℕ) (C : AeroConst) (ignored : List ℕ) (y : ℕ → ℝ) {i : ℕ}
    (hi : i < species + bins * species) :
    aerosolOnlyRhs (allLayout bins species) C ignored y i
      = slotWeight (allLayout bins species) (keptWeight ignored) i
        * fixedYieldRhs (allLayout bins species) C y i := by
  set L := allLayout bins species with hL
  have hg : GoodLayout L := allLayout_good bins species
  have hi' : i < L.numSpecies + L.numCond * L.numBins := by
    rw [hL]
    show i < species + species * bins
    rwa [Nat.mul_comm species]
  unfold aerosolOnlyRhs fixedYieldRhs addUp
  simp only [if_pos hi', ite_self, zero_add]
  rcases C38_layout L.numSpecies L.numCond L.numBins i hi with ⟨h1, -⟩ | ⟨-, ⟨b, j⟩, ⟨h1, h2, h3⟩, -⟩
  · rw [partition_gas L _ i h1]
    have hw : slotWeight L (keptWeight ignored) i = keptWeight ignored i := if_pos h1
    rw [hw]
    unfold partitionAll
    dsimp only
    rw [if_pos (by omega), serial_gas L _ _ _ _ (by omega), zero_sub, mul_neg, Finset.mul_sum, fsum]
    refine congrArg _ (Finset.sum_congr rfl fun b _ => ?_)
    unfold assignSlice
    rw [if_pos (by omega)]
    rw [show i + 1 - 1 + 1 = i + 1 by omega, maskedDmDt_eq L rfl C ignored y _ h1]
    exact congrArg _ (gasColumn_range species _ h1).symm
  · simp only at h1 h2 h3
    have hjs : L.incl[j]? = some j := by
      exact List.getElem?_range h2
    rw [h3, partition_slot L _ b j h1 h2, slotWeight_slot hg _ hjs]
    unfold partitionAll
    dsimp only
    rw [if_neg (by omega), serial_slot L _ _ _ b j h2, if_pos h1]
    exact maskedDmDt_eq L rfl C ignored y _ h2

end PyBox
