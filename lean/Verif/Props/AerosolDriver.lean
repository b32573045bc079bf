import Verif.Sim.AerosolDriver
import Verif.Props.AerosolFiles
import Verif.Props.Initial
import Verif.Props.Properties
import Verif.Props.Sizes
import Verif.Props.Structures

/-!
# C76: what the driver prepares for a simulation with particles
-/

namespace PyBox

open Spec Aerosol Rl

namespace Spec

/-- Settings with a physical meaning: below saturation, at least two bins, a distribution with a spread. -/
structure GoodSettings (s : Settings) : Prop where
  temp : 34.85 < s.temp
  rh : 0 ≤ s.rh
  dry : s.rh < 1
  rGas : 0 < s.rGas
  na : 0 < s.na
  bins : 2 ≤ s.numBins
  total : 0 < s.total
  mean : 0 < s.mean
  std : 1 < s.std
  lower : 0 < s.lower
  upper : s.lower < s.upper
  coreDensity : 0 < s.coreDensity
  coreMw : 0 < s.coreMw
  coreDiss : 0 < s.coreDiss
  once : s.conc.keys.Nodup
  nonneg : ∀ name v, s.conc.get? name = some v → 0 ≤ v

/-- Every name with an initial concentration is a species of the mechanism or water. -/
def KnownNames (s : Settings) (m : Mechanism) : Prop :=
  ∀ name ∈ s.conc.keys, name = "H2O".toList ∨ (m.tables.index.get? name).isSome

/-- The library returns positive densities and molecular weights. -/
def GoodLibrary {O : Type} (props : O → PureProps) : Prop :=
  ∀ o, 0 < (props o).density ∧ 0 < (props o).mw

/-- The radius of bin `b` in microns: equal ratios from the lower to the upper limit. -/
noncomputable def binRadius (s : Settings) (b : ℕ) : ℝ :=
  s.lower * (s.upper / s.lower) ^ ((b : ℝ) / ((s.numBins : ℝ) - 1))

/-- The vector handed to the solver. -/
def startVector (P : Prepared) (n : ℕ) : Fin n → ℝ := fun i => P.y0.getD i 0

/-- C76 for one result. -/
structure Ready {O : Type} (s : Settings) (m : Mechanism) (smiles : Dict Str Str) (pybel : Dict Str O)
    (props : O → PureProps) (P : Prepared) : Prop where
  /-- the layout is the one the statements about simulations ask for -/
  good : GoodLayout P.layout
  bins : P.layout.numBins = s.numBins
  species : P.layout.numSpecies = m.tables.species.length + 1
  /-- water has the last index among the gases and the last place among the condensing species -/
  water : P.layout.incl[P.layout.numCond - 1]? = some m.tables.species.length
  cond : 1 ≤ P.layout.numCond
  /-- a species of the mechanism takes part exactly if it has a structure and a low vapour pressure -/
  members : ∀ i name, m.tables.species.get? i = some name →
    (i ∈ P.layout.incl ↔ Included smiles pybel props true s.cutoff name)
  /-- the arrays hold the properties of the species at their places -/
  entries : ∀ (j i : ℕ) (name : Str), P.layout.incl[j]? = some i → m.tables.species.get? i = some name →
    ∃ sm o, smiles.get? name = some sm ∧ pybel.get? sm = some o ∧
      P.const.densityInput j = (props o).density * 1000 ∧ P.const.mw j = (props o).mw ∧
      psatAtm P.layout P.const j = Real.rpow 10 (props o).vp ∧
      P.const.dStar j = diffusivity (props o).mw ∧ P.const.gamma j = meanFreePath s.rGas s.temp (props o).mw
  waterEntries : P.const.densityInput (P.layout.numCond - 1) = 1000 ∧ P.const.mw (P.layout.numCond - 1) = 18 ∧
    psatAtm P.layout P.const (P.layout.numCond - 1) = satVapWater s.temp * 0.00000986923
  /-- all constants are physical -/
  phys : PhysConst P.layout P.const
  /-- as many particles as asked for, in the proportions of the lognormal distribution -/
  number : ∑ b ∈ Finset.range s.numBins, P.const.nPerBin b = s.total
  shape : ∃ c : ℝ, ∀ b, b < s.numBins → P.const.nPerBin b * binRadius s b *
    Real.exp (Real.log (binRadius s b / s.mean) ^ 2 / (2 * Real.log s.std ^ 2)) = c
  /-- filled with core material -/
  core : ∀ b, b < s.numBins → P.const.ycore b =
    coreMolecules (binRadius s b) s.coreDensity s.coreMw s.na (P.const.nPerBin b)
  /-- one entry for every gas and every condensing species in every bin -/
  length : P.y0.length = P.layout.numSpecies + P.layout.numBins * P.layout.numCond
  /-- the gases start with the given concentrations and water vapour -/
  gases : ∀ i name, m.tables.species.get? i = some name →
    P.y0[i]? = some (if name = "H2O".toList then 0 else (s.conc.get? name).getD 0 * 25500000000)
  vapour : waterVapour s.temp s.rh = .ok P.h2o ∧ P.y0[m.tables.species.length]? = some P.h2o
  /-- the particles start with water -/
  particles : ∀ b j, b < P.layout.numBins → j < P.layout.numCond →
    P.y0[P.layout.numSpecies + b * P.layout.numCond + j]? = some
      (if j + 1 = P.layout.numCond then P.const.ycore b * s.coreDiss * (s.rh / (1 - s.rh)) else 0)
  /-- nothing is negative -/
  nonneg : ∀ v ∈ P.y0, 0 ≤ v
  humid : P.const.coreDiss = s.coreDiss ∧ P.const.temp = s.temp ∧ P.const.coreMw = (fun _ => s.coreMw) ∧
    P.const.coreDensity = (fun _ => s.coreDensity) ∧ P.const.na = s.na

end Spec

theorem waterVapour_ok {temp rh : ℝ} (ht : 34.85 < temp) (hr : 0 ≤ rh) :
    ∃ h2o, waterVapour temp rh = .ok h2o ∧ 0 ≤ h2o := by
  unfold waterVapour
  dsimp only
  rw [if_neg (by rintro (h | h) <;> norm_num at h ht ⊢ <;> linarith)]
  refine ⟨_, rfl, ?_⟩
  have h1 : 0 < temp - 273.15 + 273.16 := by norm_num at ht ⊢; linarith
  have := Real.exp_pos ((temp - 273.15) / (temp - 273.15 + 238.3) * 17.2694)
  positivity

theorem appendWater_incl {r : Pure1} {n : ℕ} {index : Dict Str ℕ} {vp : ℚ} {w : WithWater}
    (h : appendWater r true n index vp = .ok w) :
    w.incl = r.incl.mergeSort (fun a b => decide (a ≤ b)) ++ [n] ∧ w.index = index.set "H2O".toList n := by
  unfold appendWater at h
  dsimp only at h
  rw [if_pos rfl] at h
  obtain ⟨a, -, h⟩ := bind_ok h
  rw [if_pos rfl] at h
  obtain ⟨b, -, h⟩ := bind_ok h
  rw [if_pos rfl] at h
  obtain ⟨c, -, h⟩ := bind_ok h
  cases h
  exact ⟨rfl, rfl⟩

theorem lognormal_values {n : ℕ} {total mean std lower upper : ℝ} {numbers x : List ℝ} (hn : 0 < n)
    (ht : 0 < total) (hs : 1 < std) (h : lognormal n total mean std lower upper = some (numbers, x)) :
    numbers.length = n ∧ x.length = n ∧ (∀ v ∈ numbers, 0 < v) ∧ ∀ v ∈ x, 0 < v := by
  rw [lognormal_eq n total mean std lower upper hs] at h
  injection h with h
  injection h with h1 h2
  have hlen : (sizesOf lower upper n).length = n := by simp [sizesOf, linspace_length]
  have hx : ∀ v ∈ sizesOf lower upper n, 0 < v := by
    intro v hv
    obtain ⟨y, -, rfl⟩ := List.mem_map.1 hv
    exact Real.exp_pos y
  set g := pdfValue (Real.log std) (Real.exp (Real.log mean)) with hg
  have hpos : ∀ v ∈ (sizesOf lower upper n).map g, 0 < v := by
    intro v hv
    obtain ⟨x, hx', rfl⟩ := List.mem_map.1 hv
    exact pdfValue_pos (Real.log_pos hs) (hx x hx')
  have hsum : 0 < ((sizesOf lower upper n).map g).sum := by
    apply List.sum_pos _ hpos
    intro h
    have := congrArg List.length h
    rw [List.length_map, hlen] at this
    simp at this
    omega
  subst h1 h2
  refine ⟨by simp [hlen], hlen, fun v hv => ?_, hx⟩
  obtain ⟨p, hp, rfl⟩ := List.mem_map.1 hv
  exact mul_pos (div_pos (hpos p hp) hsum) ht

theorem coreMolecules_pos {x d mw na n : ℝ} (hx : 0 < x) (hd : 0 < d) (hm : 0 < mw) (hna : 0 < na) (hn : 0 < n) :
    0 < coreMolecules x d mw na n := by
  unfold coreMolecules
  have h1 : 0 < Real.rpow (x * 0.000001) 3 := Real.rpow_pos_of_pos (by positivity) _
  have := Real.pi_pos
  positivity

section

variable {O : Type} {text : Str} {m : Mechanism} {s : Settings} {smiles : Dict Str Str} {pybel : Dict Str O}
  {props : O → PureProps}

/-- The tables after water has been added. -/
theorem water_tables (h : extractMechanism text = .ok m) (hs : Structures smiles pybel) (cutoff : ℚ) :
    ∃ r w, pureComponent1 m.tables.species.length m.tables.species m.tables.index smiles pybel props true cutoff
        = .ok r ∧
      appendWater r true m.tables.species.length m.tables.index 0 = .ok w ∧
      WaterLast m smiles pybel props 0 w ∧ w.index = m.tables.index.set "H2O".toList m.tables.species.length ∧
      ∀ i name, m.tables.species.get? i = some name →
        (i ∈ w.incl ↔ Included smiles pybel props true cutoff name) := by
  obtain ⟨r, w, hr, hw, hW⟩ := C43_water_partial h smiles pybel props cutoff 0 hs
  obtain ⟨hincl, hindex⟩ := appendWater_incl hw
  refine ⟨r, w, hr, hw, hW, hindex, fun i name hi => ?_⟩
  obtain ⟨r', hr', hsort, -, hmem, -⟩ := C42_split h smiles pybel props true cutoff hs
  rw [hr] at hr'
  obtain rfl : r = r' := by injection hr'
  have hlt := (C01_indices h i).1 ⟨name, (C01_inverse h _ _).2 hi⟩
  rw [hincl, mergeSort_sorted _ hsort, List.mem_append, hmem]
  constructor
  · rintro (⟨name', h1, h2⟩ | h1)
    · rw [hi] at h1
      cases h1
      exact h2
    · rw [List.mem_singleton] at h1
      omega
  · exact fun h2 => Or.inl ⟨name, hi, h2⟩

theorem set_index_inj (h : extractMechanism text = .ok m) :
    (∀ a b i, (m.tables.index.set "H2O".toList m.tables.species.length).get? a = some i →
      (m.tables.index.set "H2O".toList m.tables.species.length).get? b = some i → a = b) ∧
    ∀ a i, (m.tables.index.set "H2O".toList m.tables.species.length).get? a = some i →
      i < m.tables.species.length + 1 := by
  have hlt : ∀ a i, m.tables.index.get? a = some i → i < m.tables.species.length := fun a i ha =>
    (C01_indices h i).1 ⟨a, ha⟩
  constructor
  · intro a b i ha hb
    rw [Dict.get?_set] at ha hb
    split at ha <;> split at hb
    · simp_all
    · cases ha
      exact absurd (hlt _ _ hb) (lt_irrefl _)
    · cases hb
      exact absurd (hlt _ _ ha) (lt_irrefl _)
    · rw [C01_inverse h] at ha hb
      rw [ha] at hb
      injection hb
  · intro a i ha
    rw [Dict.get?_set] at ha
    split at ha
    · cases ha
      omega
    · have := hlt _ _ ha
      omega

theorem known_keys {w : WithWater} {h2o : ℝ}
    (hindex : w.index = m.tables.index.set "H2O".toList m.tables.species.length)
    (hW : w.numSpecies = m.tables.species.length + 1)
    (hbound : ∀ a i, w.index.get? a = some i → i < m.tables.species.length + 1) (hn : KnownNames s m) :
    ∀ a ∈ (s.conc.set "H2O".toList h2o).keys, ∃ i, w.index.get? a = some i ∧ i < w.numSpecies := by
  intro a ha
  rw [hW]
  suffices ∃ i, w.index.get? a = some i from by
    obtain ⟨i, hi⟩ := this
    exact ⟨i, hi, hbound a i hi⟩
  rw [hindex, Dict.get?_set]
  split
  · exact ⟨_, rfl⟩
  · rename_i hne
    rcases (Dict.mem_keys_set _ _ _ _).1 ha with h1 | h1
    · exact absurd h1 hne
    · rcases hn a h1 with h2 | h2
      · exact absurd h2 hne
      · exact Option.isSome_iff_exists.1 h2

/-- **C76**: for physical settings, a library with positive densities and weights and known names, the driver prepares
a simulation that meets all requirements of the statements about simulations with particles, and every array has at
every place what belongs there. -/
theorem C76_prepared (h : extractMechanism text = .ok m) (hs : Structures smiles pybel) (hg : GoodSettings s)
    (hl : GoodLibrary props) (hn : KnownNames s m) :
    ∃ P, prepareRun s m smiles pybel props = .ok (some P) ∧ Ready s m smiles pybel props P := by
  obtain ⟨h2o, e1, p1⟩ := waterVapour_ok hg.temp hg.rh
  obtain ⟨r, w, e2, e3, hW, hindex, hmem⟩ := water_tables (props := props) h hs s.cutoff
  obtain ⟨⟨numbers, x⟩, e4, hsz⟩ := C44_sizes_partial s.numBins s.total s.mean s.std s.lower s.upper hg.bins hg.total.le
    hg.std hg.lower hg.upper
  obtain ⟨l1, l2, p2, p3⟩ := lognormal_values (by have := hg.bins; omega) hg.total hg.std e4
  have hcond : 1 ≤ w.numCond := by
    rw [← hW.len.1]
    cases hi : w.incl with
    | nil => have := hW.last; rw [hi] at this; cases this
    | cons a l => simp
  obtain ⟨cond, e5, lc, hc⟩ := C53_water_slots w.numCond s.numBins (by omega)
    (coreOf s numbers x) s.coreDiss s.rh hg.dry.ne
  obtain ⟨hinj, hbound⟩ := set_index_inj h
  rw [← hindex] at hinj hbound
  have hknown := known_keys (h2o := h2o) hindex hW.species hbound hn
  obtain ⟨y0, e6, ly, hy1, hy2, hy3⟩ := C35_aerosol (numSpecies := w.numSpecies) (numCond := w.numCond)
    (numBins := s.numBins) hinj (Dict.nodup_keys_set hg.once _ h2o) hknown (cond := cond)
    (by rw [lc, Nat.mul_comm])
  have hnum : ∀ b, b < s.numBins → numbers[b]? = some (numbers.getD b 0) ∧ 0 < numbers.getD b 0 := by
    intro b hb
    have := List.getElem?_eq_getElem (l := numbers) (i := b) (by omega)
    rw [List.getD_eq_getElem?_getD, this]
    exact ⟨rfl, p2 _ (List.getElem_mem _)⟩
  have hxv : ∀ b, b < s.numBins → x[b]? = some (x.getD b 0) ∧ 0 < x.getD b 0 := by
    intro b hb
    have := List.getElem?_eq_getElem (l := x) (i := b) (by omega)
    rw [List.getD_eq_getElem?_getD, this]
    exact ⟨rfl, p3 _ (List.getElem_mem _)⟩
  have hcore : ∀ b, b < s.numBins → 0 < coreOf s numbers x b := fun b hb =>
    coreMolecules_pos (hxv b hb).2 hg.coreDensity hg.coreMw hg.na (hnum b hb).2
  obtain ⟨hrad, c, hshape⟩ := C44_shape s.numBins s.total s.mean s.std s.lower s.upper hg.bins hg.mean hg.std hg.lower
    hg.upper e4
  have hgood := C43_layout hW s.numBins
  -- the properties of a condensing species
  have hlast : w.incl[w.numCond - 1]? = some m.tables.species.length := by
    rw [← hW.len.1, ← List.getLast?_eq_getElem?]
    exact hW.last
  have hwat : w.density.getD (w.numCond - 1) 0 = 1000 ∧ w.mw.getD (w.numCond - 1) 0 = 18 := by
    obtain ⟨a, b, -⟩ := hW.water
    rw [List.getLast?_eq_getElem?, hW.len.2.1] at a
    rw [List.getLast?_eq_getElem?, hW.len.2.2.1] at b
    exact ⟨by rw [List.getD_eq_getElem?_getD, a]; rfl, by rw [List.getD_eq_getElem?_getD, b]; rfl⟩
  have hplace : ∀ j, j < w.numCond → j + 1 = w.numCond ∨
      ∃ i name sm o, w.incl[j]? = some i ∧ m.tables.species.get? i = some name ∧ smiles.get? name = some sm ∧
        pybel.get? sm = some o ∧ w.density.getD j 0 = (props o).density * 1000 ∧ w.mw.getD j 0 = (props o).mw ∧
        w.satVp.getD j 0 = (props o).vp := by
    intro j hj
    rcases Nat.lt_or_ge (j + 1) w.numCond with h1 | h1
    · right
      have hj' : j < w.incl.length := by rw [hW.len.1]; exact hj
      have hi := List.getElem?_eq_getElem hj'
      have hlt : w.incl[j] < m.tables.species.length := by
        have hk : w.numCond - 1 < w.incl.length := by rw [hW.len.1]; omega
        have := List.pairwise_iff_getElem.1 hW.sorted j (w.numCond - 1) hj' hk (by omega)
        rw [List.getElem?_eq_getElem hk] at hlast
        injection hlast with hlast
        omega
      obtain ⟨name, hname⟩ := (C01_indices h w.incl[j]).2 hlt
      rw [C01_inverse h] at hname
      obtain ⟨sm, o, h2, h3, h4, h5, h6⟩ := hW.entries j _ name hi hname
      exact ⟨_, name, sm, o, hi, hname, h2, h3, by rw [List.getD_eq_getElem?_getD, h4]; rfl,
        by rw [List.getD_eq_getElem?_getD, h5]; rfl, by rw [List.getD_eq_getElem?_getD, h6]; rfl⟩
    · exact Or.inl (by omega)
  have hmw : ∀ j, j < w.numCond → (0 : ℝ) < ((w.mw.getD j 0 : ℚ) : ℝ) := by
    intro j hj
    rcases hplace j hj with h1 | ⟨_, _, _, o, -, -, -, -, -, h2, -⟩
    · rw [show j = w.numCond - 1 by omega, hwat.2]; norm_num
    · rw [h2]; exact_mod_cast (hl o).2
  have htemp : 0 < s.temp := by have := hg.temp; norm_num at this; linarith
  refine ⟨⟨⟨s.numBins, w.numSpecies, w.numCond, w.incl⟩, inputDict s w numbers x, h2o, w.index, y0⟩, ?_, ?_⟩
  · simp only [prepareRun, e1, e2, e3, e4, e5, e6, bind, Except.bind, pure, Except.pure]
  · refine ⟨hgood, rfl, hW.species, hlast, hcond, hmem, ?_, ?_, ?_, ?_, ?_, ?_, ly, ?_, ?_, ?_, ?_, rfl, rfl, rfl, rfl, rfl⟩
    · intro j i name hj hi
      have hj' : j < w.numCond := by
        have := (List.getElem?_eq_some_iff.1 hj).1
        rw [← hW.len.1]
        exact this
      rcases hplace j hj' with h1 | ⟨i', name', sm, o, g1, g2, g3, g4, g5, g6, g7⟩
      · exfalso
        rw [show j = w.numCond - 1 by omega] at hj
        have := hlast.symm.trans hj
        injection this with this
        have hlt := (C01_indices h i).1 ⟨name, (C01_inverse h _ _).2 hi⟩
        omega
      · have := g1.symm.trans hj
        injection this with this
        subst this
        have := g2.symm.trans hi
        injection this with this
        subst this
        have hne : ¬ j + 1 = w.numCond := by
          intro he
          rw [show j = w.numCond - 1 by omega, hlast] at hj
          injection hj with hj
          have hlt := (C01_indices h i').1 ⟨name', (C01_inverse h _ _).2 hi⟩
          omega
        refine ⟨sm, o, g3, g4, ?_, ?_, ?_, ?_, ?_⟩
        · show ((w.density.getD j 0 : ℚ) : ℝ) = _
          rw [g5]; push_cast; rfl
        · show ((w.mw.getD j 0 : ℚ) : ℝ) = _
          rw [g6]
        · unfold psatAtm
          dsimp only
          rw [if_neg hne]
          show Real.rpow 10 (if j + 1 = w.numCond then _ else ((w.satVp.getD j 0 : ℚ) : ℝ)) = _
          rw [if_neg hne, g7]
        · show diffusivity ((w.mw.getD j 0 : ℚ) : ℝ) = _
          rw [g6]
        · show meanFreePath s.rGas s.temp ((w.mw.getD j 0 : ℚ) : ℝ) = _
          rw [g6]
    · refine ⟨?_, ?_, ?_⟩
      · show ((w.density.getD (w.numCond - 1) 0 : ℚ) : ℝ) = _
        rw [hwat.1]; norm_num
      · show ((w.mw.getD (w.numCond - 1) 0 : ℚ) : ℝ) = _
        rw [hwat.2]; norm_num
      · unfold psatAtm
        dsimp only
        rw [if_pos (by omega)]
        refine Real.rpow_logb (by norm_num) (by norm_num) (mul_pos (Real.exp_pos _) (by norm_num))
    · refine ⟨hg.na, hg.rGas, htemp, hg.coreDiss, hcore, fun _ _ => hg.coreMw, fun _ _ => hg.coreDensity,
        fun b hb => (hnum b hb).2, hmw, ?_, ?_, ?_, ?_⟩
      · intro j hj
        show (0 : ℝ) < ((w.density.getD j 0 : ℚ) : ℝ)
        rcases hplace j hj with h1 | ⟨_, _, _, o, -, -, -, -, h2, -, -⟩
        · rw [show j = w.numCond - 1 by omega, hwat.1]; norm_num
        · rw [h2]
          have := (hl o).1
          exact_mod_cast mul_pos this (by norm_num)
      · exact fun j hj => (C52_admissible s.rGas s.temp _ hg.rGas htemp (hmw j hj)).1
      · exact fun j hj => (C52_admissible s.rGas s.temp _ hg.rGas htemp (hmw j hj)).2.2.2
      · exact fun j hj => (C52_admissible s.rGas s.temp _ hg.rGas htemp (hmw j hj)).2.2.1
    · rw [← hsz.sum, ← l1, Finset.sum_range, ← Fin.sum_univ_getElem]
      exact Finset.sum_congr rfl fun i _ => by
        show numbers.getD i 0 = _
        simp
    · exact ⟨c, fun b hb => hshape b _ _ (hnum b hb).1 (hrad b hb)⟩
    · intro b hb
      show coreMolecules (x.getD b 0) _ _ _ _ = _
      rw [List.getD_eq_getElem?_getD, hrad b hb]
      rfl
    · intro i name hi
      have hi' := (C01_inverse h name i).2 hi
      have hlt := (C01_indices h i).1 ⟨name, hi'⟩
      split
      · rename_i hname
        refine hy2 i (by rw [hW.species]; omega) fun a ha => ?_
        rw [hindex, Dict.get?_set] at ha
        split at ha
        · injection ha with ha
          omega
        · rename_i hne
          rw [C01_inverse h, hi] at ha
          injection ha with ha
          exact hne (ha ▸ hname)
      · rename_i hname
        have := hy1 i name (by rw [hW.species]; omega) (by rw [hindex, Dict.get?_set_ne _ _ hname, hi'])
        rw [if_neg hname, Dict.get?_set_ne _ _ hname] at this
        exact this
    · refine ⟨e1, ?_⟩
      have := hy1 m.tables.species.length "H2O".toList (by rw [hW.species]; omega) hW.index
      rw [if_pos rfl, Dict.get?_set_self, mul_one] at this
      exact this
    · intro b j hb hj
      have := hy3 (b * w.numCond + j) (by
        have : 0 + b * w.numCond + j < 0 + w.numCond * s.numBins := slot_lt hb hj
        rw [Nat.mul_comm s.numBins]
        omega)
      rw [← add_assoc] at this
      rw [this]
      exact hc b j hb hj
    · intro v hv
      obtain ⟨k, hk, rfl⟩ := List.getElem_of_mem hv
      have hget := List.getElem?_eq_getElem hk
      rw [ly] at hk
      rcases Nat.lt_or_ge k w.numSpecies with h1 | h1
      · by_cases h2 : ∃ a, w.index.get? a = some k
        · obtain ⟨a, ha⟩ := h2
          have := hy1 k a h1 ha
          rw [hget] at this
          injection this with this
          rw [this]
          refine mul_nonneg ?_ (by split <;> norm_num)
          rw [Dict.get?_set]
          split
          · exact p1
          · cases hv : s.conc.get? a with
            | none => simp
            | some v => exact hg.nonneg a v hv
        · have := hy2 k h1 (fun a ha => h2 ⟨a, ha⟩)
          rw [hget] at this
          injection this with this
          rw [this]
      · obtain ⟨j, rfl⟩ : ∃ j, k = w.numSpecies + j := ⟨k - w.numSpecies, by omega⟩
        have hj : j < s.numBins * w.numCond := by omega
        have hb : j / w.numCond < s.numBins := Nat.div_lt_of_lt_mul (by rw [Nat.mul_comm]; exact hj)
        have hm : j % w.numCond < w.numCond := Nat.mod_lt _ hcond
        have := hc _ _ hb hm
        rw [Nat.mul_comm, Nat.div_add_mod, ← hy3 j hj, hget] at this
        injection this with this
        rw [this]
        split
        · exact mul_nonneg (mul_nonneg (hcore _ hb).le hg.coreDiss.le)
            (div_nonneg hg.rh (by have := hg.dry; linarith))
        · exact le_rfl

/-- Nothing but what the settings say decides which prepared run it is. -/
theorem ready_of (h : extractMechanism text = .ok m) (hs : Structures smiles pybel) (hg : GoodSettings s)
    (hl : GoodLibrary props) (hn : KnownNames s m) {P : Prepared} (hP : prepareRun s m smiles pybel props = .ok (some P)) :
    Ready s m smiles pybel props P := by
  obtain ⟨P', h1, h2⟩ := C76_prepared h hs hg hl hn
  rw [hP] at h1
  cases h1
  exact h2

theorem Spec.Ready.slot {P : Prepared} (hr : Ready s m smiles pybel props P) {b j : ℕ} (hb : b < P.layout.numBins)
    (hj : j < P.layout.numCond) : P.y0.getD (P.layout.numSpecies + b * P.layout.numCond + j) 0 =
      if j + 1 = P.layout.numCond then P.const.ycore b * s.coreDiss * (s.rh / (1 - s.rh)) else 0 := by
  rw [List.getD_eq_getElem?_getD, hr.particles b j hb hj]
  rfl

/-- C76: in every bin the partitioning routine finds the relative humidity of the settings as activity of water in the
initial particles. -/
theorem C76_humidity (h : extractMechanism text = .ok m) (hs : Structures smiles pybel) (hg : GoodSettings s)
    (hl : GoodLibrary props) (hn : KnownNames s m) {P : Prepared} (hP : prepareRun s m smiles pybel props = .ok (some P))
    {b : ℕ} (hb : b < s.numBins) :
    waterActivity P.layout (partArgs P.layout P.const (fun i => P.y0.getD i 0)) (b + 1) = s.rh := by
  have hr := ready_of h hs hg hl hn hP
  have hpos : 0 < P.const.ycore b * P.const.coreDiss :=
    mul_pos (hr.phys.ycore b (by rw [hr.bins]; exact hb)) hr.phys.coreDiss
  obtain ⟨y, h1, h2, h3⟩ := C53_water_slots P.layout.numCond P.layout.numBins (by have := hr.cond; omega)
    P.const.ycore P.const.coreDiss s.rh hg.dry.ne
  refine C53_activity P.layout _ y s.rh hg.dry (by have := hr.cond; omega) h1 ?_ b (by rw [hr.bins]; exact hb) hpos
  intro k hk
  show P.y0.getD (P.layout.numSpecies + k + 1 - 1) 0 = _
  have hc := hr.cond
  have hb' : k / P.layout.numCond < P.layout.numBins := Nat.div_lt_of_lt_mul hk
  have hm := Nat.mod_lt k (show 0 < P.layout.numCond by omega)
  have e := hr.slot hb' hm
  have e' := h3 _ _ hb' hm
  rw [add_assoc, Nat.mul_comm, Nat.div_add_mod] at e
  rw [Nat.mul_comm, Nat.div_add_mod] at e'
  rw [Nat.add_sub_cancel, e, List.getD_eq_getElem?_getD, e', hr.humid.1]
  rfl

/-- C76: a dry bin has the radius the settings ask for, up to one part in a hundred million. -/
theorem C76_radius (h : extractMechanism text = .ok m) (hs : Structures smiles pybel) (hg : GoodSettings s)
    (hl : GoodLibrary props) (hn : KnownNames s m) {P : Prepared} (hP : prepareRun s m smiles pybel props = .ok (some P))
    {b : ℕ} (hb : b < s.numBins) (y : ℕ → ℝ)
    (hy : ∀ j < P.layout.numCond, y (P.layout.numSpecies + b * P.layout.numCond + j) = 0) :
    |sizeArray P.layout (partArgs P.layout P.const y) (b + 1) - binRadius s b * 10 ^ (-6 : ℤ)| ≤
      10 ^ (-8 : ℤ) * (binRadius s b * 10 ^ (-6 : ℤ)) := by
  have hr := ready_of h hs hg hl hn hP
  have hb' : b < P.layout.numBins := by rw [hr.bins]; exact hb
  obtain ⟨-, -, e1, e2, e3⟩ := hr.humid
  refine C54_close P.layout _ b (binRadius s b) s.coreMw ?_ hg.coreMw hr.phys.na (hr.phys.number b hb')
    (hr.phys.coreDensity b hb') (fun j hj => ?_) ?_ ?_
  · exact mul_pos hg.lower (Real.rpow_pos_of_pos (div_pos (hg.lower.trans hg.upper) hg.lower) _)
  · rw [conc_partArgs]
    exact hy j hj
  · show P.const.ycore b = coreMolecules _ (P.const.coreDensity b) _ P.const.na _
    rw [hr.core b hb, e2, e3]
    rfl
  · show P.const.ycore b / P.const.na * P.const.coreMw b = _
    rw [e1]
    rfl

/-- C76: what is read from a structure file can be used. -/
theorem C76_structures (h : extractMechanism text = .ok m) {read : Str → Except PyErr O} {nodes : List Node}
    (hx : extractSmiles m.tables.species read nodes = .ok (smiles, pybel)) : Structures smiles pybel := by
  obtain ⟨qs, -, h2, -⟩ := extract_reads h
  have hI := spInv_build qs
  have hk : m.tables.species.keys.Nodup := by
    rw [h2, hI.species_eq]
    have : Dict.keys ((registered qs).zipIdx.map (fun p => (p.2, p.1)) : Dict ℕ Str) =
        List.range (registered qs).length := by
      unfold Dict.keys
      rw [List.map_map]
      exact List.ext_getElem (by simp) (by simp)
    rw [this]
    exact List.nodup_range
  intro name sm hsm
  obtain ⟨o, ho, -⟩ := C46_objects hk hx name sm hsm
  exact ⟨o, ho⟩

theorem initial_unknown (h : extractMechanism text = .ok m) {w : WithWater}
    (hW : w.numSpecies = m.tables.species.length + 1)
    (hindex : w.index = m.tables.index.set "H2O".toList m.tables.species.length) (hn : ¬ KnownNames s m) (h2o : ℝ)
    (cond : List ℝ) :
    initialAerosol w.numSpecies w.numCond s.numBins w.index (s.conc.set "H2O".toList h2o) cond = .error .key := by
  refine C35_aerosol_unknown cond (fun a i ha => ?_) ?_
  · rw [hW]
    rw [hindex] at ha
    exact (set_index_inj h).2 a i ha
  · unfold KnownNames at hn
    push Not at hn
    obtain ⟨name, h1, h2, h3⟩ := hn
    refine ⟨name, (Dict.mem_keys_set _ _ _ _).2 (Or.inr h1), ?_⟩
    rw [hindex, Dict.get?_set_ne _ _ h2]
    exact Option.not_isSome_iff_eq_none.1 (by simpa using h3)

/-- C76: exactly when the preparation succeeds, and how it fails otherwise. -/
theorem C76_exact (h : extractMechanism text = .ok m) (hs : Structures smiles pybel) (ht : 34.85 < s.temp)
    (hb : 0 < s.numBins) (hstd : 0 < s.std) (ho : s.conc.keys.Nodup) :
    ((∃ P, prepareRun s m smiles pybel props = .ok (some P)) ↔ 1 < s.std ∧ s.rh ≠ 1 ∧ KnownNames s m) ∧
    (s.std ≤ 1 → prepareRun s m smiles pybel props = .ok none) ∧
    (1 < s.std → s.rh = 1 → prepareRun s m smiles pybel props = .error .zeroDiv) ∧
    (1 < s.std → s.rh ≠ 1 → ¬ KnownNames s m → prepareRun s m smiles pybel props = .error .key) := by
  obtain ⟨h2o, e1⟩ : ∃ v, waterVapour s.temp s.rh = .ok v := by
    unfold waterVapour
    dsimp only
    rw [if_neg (by rintro (h | h) <;> norm_num at h ht ⊢ <;> linarith)]
    exact ⟨_, rfl⟩
  obtain ⟨r, w, e2, e3, hW, hindex, -⟩ := water_tables (props := props) h hs s.cutoff
  have hcond : 0 < w.numCond := by
    rw [← hW.len.1]
    cases hi : w.incl with
    | nil => have := hW.last; rw [hi] at this; cases this
    | cons a l => simp
  have hnarrow : s.std ≤ 1 → prepareRun s m smiles pybel props = .ok none := fun h1 => by
    have e4 := C44_narrow s.numBins s.total s.mean s.std s.lower s.upper hb hstd h1
    simp only [prepareRun, e1, e2, e3, e4, bind, Except.bind, pure, Except.pure]
  have hsat : 1 < s.std → s.rh = 1 → prepareRun s m smiles pybel props = .error .zeroDiv := fun h1 h2 => by
    have e4 := lognormal_eq s.numBins s.total s.mean s.std s.lower s.upper h1
    have e5 := fun f => C53_saturated w.numCond s.numBins hb f s.coreDiss
    rw [← h2] at e5
    simp only [prepareRun, e1, e2, e3, e4, bind, Except.bind, e5]
  have hcell : 1 < s.std → s.rh ≠ 1 → ∃ x N cond,
      lognormal s.numBins s.total s.mean s.std s.lower s.upper = some (N, x) ∧
      initialCond w.numCond s.numBins (coreOf s N x) s.coreDiss s.rh = .ok cond ∧
      cond.length = w.numCond * s.numBins := fun h1 h2 => by
    obtain ⟨⟨N, x⟩, e4⟩ : ∃ p, lognormal s.numBins s.total s.mean s.std s.lower s.upper = some p :=
      ⟨_, lognormal_eq s.numBins s.total s.mean s.std s.lower s.upper h1⟩
    obtain ⟨cond, e5, l5, -⟩ := C53_water_slots w.numCond s.numBins hcond (coreOf s N x) s.coreDiss s.rh h2
    exact ⟨x, N, cond, e4, e5, l5⟩
  have hunknown : 1 < s.std → s.rh ≠ 1 → ¬ KnownNames s m → prepareRun s m smiles pybel props = .error .key :=
    fun h1 h2 h3 => by
      obtain ⟨x, N, cond, e4, e5, -⟩ := hcell h1 h2
      have e6 := initial_unknown h hW.species hindex h3 h2o cond
      simp only [prepareRun, e1, e2, e3, e4, e5, e6, bind, Except.bind]
  refine ⟨⟨?_, ?_⟩, hnarrow, hsat, hunknown⟩
  · rintro ⟨P, hP⟩
    by_cases h1 : 1 < s.std
    · by_cases h2 : s.rh = 1
      · rw [hsat h1 h2] at hP
        cases hP
      · by_cases h3 : KnownNames s m
        · exact ⟨h1, h2, h3⟩
        · rw [hunknown h1 h2 h3] at hP
          cases hP
    · rw [hnarrow (not_lt.1 h1)] at hP
      cases hP
  · rintro ⟨h1, h2, h3⟩
    obtain ⟨x, N, cond, e4, e5, l5⟩ := hcell h1 h2
    obtain ⟨hinj, hbound⟩ := set_index_inj h
    rw [← hindex] at hinj hbound
    obtain ⟨y0, e6, -⟩ := C35_aerosol (numSpecies := w.numSpecies) (numCond := w.numCond) (numBins := s.numBins) hinj
      (Dict.nodup_keys_set ho _ h2o) (known_keys hindex hW.species hbound h3) (cond := cond) (by rw [l5, Nat.mul_comm])
    exact ⟨⟨⟨s.numBins, w.numSpecies, w.numCond, w.incl⟩, inputDict s w N x, h2o, w.index, y0⟩,
      by simp only [prepareRun, e1, e2, e3, e4, e5, e6, bind, Except.bind, pure, Except.pure]⟩

/-! ### Running what has been prepared -/

theorem stateOf_start {P : Prepared} {n : ℕ} (hn : n = P.y0.length) (i : ℕ) :
    stateOf (startVector P n) i = P.y0.getD i 0 := by
  unfold stateOf startVector
  split
  · rfl
  · rename_i h
    rw [List.getD_eq_getElem?_getD, List.getElem?_eq_none (by omega), Option.getD_none]

/-- What there is of a species of the mechanism at the start: only gas. -/
theorem Spec.Ready.start_species {P : Prepared} (hr : Ready s m smiles pybel props P) (h : extractMechanism text = .ok m)
    {n : ℕ} (hn : n = P.y0.length) {name : Str} {i : ℕ} (hi : m.tables.index.get? name = some i) :
    allPhases P.layout (stateOf (startVector P n)) i =
      if name = "H2O".toList then 0 else (s.conc.get? name).getD 0 * 25500000000 := by
  have hi' := (C01_inverse h _ _).1 hi
  have hlt := (C01_indices h i).1 ⟨name, hi⟩
  unfold allPhases
  rw [stateOf_start hn, List.getD_eq_getElem?_getD, hr.gases i name hi', Option.getD_some, Finset.sum_eq_zero, add_zero]
  intro j hj
  split
  · rename_i hji
    refine Finset.sum_eq_zero fun b hb => ?_
    rw [stateOf_start hn, hr.slot (Finset.mem_range.1 hb) (Finset.mem_range.1 hj), if_neg]
    intro he
    rw [show j = P.layout.numCond - 1 by omega, hr.water] at hji
    injection hji with hji
    omega
  · rfl

/-- And of water. -/
theorem Spec.Ready.start_water {P : Prepared} (hr : Ready s m smiles pybel props P) {n : ℕ} (hn : n = P.y0.length) :
    allPhases P.layout (stateOf (startVector P n)) m.tables.species.length =
      P.h2o + ∑ b ∈ Finset.range s.numBins, P.const.ycore b * s.coreDiss * (s.rh / (1 - s.rh)) := by
  have hc := hr.cond
  unfold allPhases
  rw [stateOf_start hn, List.getD_eq_getElem?_getD, hr.vapour.2, Option.getD_some]
  congr 1
  rw [Finset.sum_eq_single (P.layout.numCond - 1)]
  · rw [if_pos hr.water, hr.bins]
    refine Finset.sum_congr rfl fun b hb => ?_
    rw [stateOf_start hn, hr.slot (by rw [hr.bins]; exact Finset.mem_range.1 hb) (by omega), if_pos (by omega)]
  · intro j hj hne
    have hj' := Finset.mem_range.1 hj
    rw [if_neg]
    intro hji
    have h1 : j < P.layout.incl.length := by rw [hr.good.len]; exact hj'
    have h2 : P.layout.numCond - 1 < P.layout.incl.length := by rw [hr.good.len]; omega
    have e1 := hr.water
    rw [List.getElem?_eq_getElem h1] at hji
    rw [List.getElem?_eq_getElem h2] at e1
    injection hji with hji
    injection e1 with e1
    exact hne ((List.nodup_iff_injective_getElem.1 hr.good.nodup).eq_iff.1
      (show P.layout.incl[(⟨j, h1⟩ : Fin _)] = P.layout.incl[(⟨_, h2⟩ : Fin _)] from hji.trans e1.symm) |> Fin.mk.inj_iff.1)
  · intro hne
    exact absurd (Finset.mem_range.2 (by omega)) hne

variable {qs : List RawEqn} {cores : Option ℕ} {times : ℕ} {num : ℚ → Str} {P : Prepared} {f : AeroFiles} {junk : Vals}
  {start : ℝ} {M : ℝ → (ℕ → ℝ) → Machine P.layout} {n : ℕ} {F : ℝ → (Fin n → ℝ) → Fin n → ℝ}

/-- **C76**, the whole chain: mechanism file, structures, properties, settings, generated files, solver. With exact
solver calls every reported row is non-negative; every total the mechanism conserves is the one of the initial
concentrations in the settings; and the water in gas and particles together is what the relative humidity says. -/
theorem C76_run (h : extractMechanism text = .ok m) (hq : Reads text m.equations.toNat qs)
    (hw : Prints num id m.tables)
    (hpos : ∀ q ∈ qs, ∀ p ∈ chemReactants q ++ chemProducts q, 0 < p.1) (hone : WholeReactants qs)
    (hread : ReadableRates .fortran ((convertOf .fortran)^[times]) qs)
    (hs : Structures smiles pybel) (hg : GoodSettings s) (hl : GoodLibrary props) (hn : KnownNames s m)
    (hP : prepareRun s m smiles pybel props = .ok (some P)) (hf : f.WrittenFor m cores times num P.layout)
    (hnn : NonnegRates .fortran ((convertOf .fortran)^[times]) qs P.h2o s.temp)
    (hM : ∀ t y, (M t y).Orderly) (hF : FileSystem f m P.layout P.const junk M start P.h2o F)
    {solve : (Fin n → ℝ) → ℚ → Fin n → ℝ} {sim batch : ℚ} (hsim : 0 < sim) (hb : 0 < batch) {zero : Fin n → ℝ}
    {ts : List ℚ} {rows : List (Fin n → ℝ)}
    (hrun : runSimulation id solve zero (startVector P n) sim batch = .ok (ts, rows))
    (hex : ExactBatches F solve batch (startVector P n) rows.length) : ∀ row ∈ rows,
    (∀ i, 0 ≤ row i) ∧
    ((∀ q ∈ qs, GainGood q) → SameNet m → ∀ w : Str → ℝ, (∀ q ∈ qs, Spec.Balanced w q) → (∀ a ∈ heldConstant, w a = 0) →
      weightedTotal m w (allPhases P.layout (stateOf row)) =
        (m.tables.index.map (fun p => w p.1 *
          if p.1 = "H2O".toList then 0 else (s.conc.get? p.1).getD 0 * 25500000000)).sum) ∧
    allPhases P.layout (stateOf row) m.tables.species.length =
      P.h2o + ∑ b ∈ Finset.range s.numBins, P.const.ycore b * s.coreDiss * (s.rh / (1 - s.rh)) := by
  have hr := ready_of h hs hg hl hn hP
  have hsize : n = P.y0.length := by rw [hF.1, hr.length]
  have hwater : P.layout.numSpecies - 1 ∈ P.layout.incl := by
    rw [hr.species, Nat.add_sub_cancel]
    exact List.mem_of_getElem? hr.water
  have hy0 : ∀ i, 0 ≤ startVector P n i := by
    intro i
    unfold startVector
    have hi : (i : ℕ) < P.y0.length := by have := i.2; omega
    rw [List.getD_eq_getElem?_getD, List.getElem?_eq_getElem hi]
    exact hr.nonneg _ (List.getElem_mem hi)
  have hT : P.const.temp = s.temp := hr.humid.2.1
  intro row hrow
  refine ⟨?_, fun hgain hsame w hbal hconst => ?_, ?_⟩
  · exact C72_nonneg h hq hw hr.good hr.cond hr.phys hr.species hpos hone hf hread (hT ▸ hnn) hM hF hsim hb hy0 hrun hex
      row hrow
  · rw [C72_conserved h hq hgain hsame hw hr.good hr.cond hr.species hwater hf hread hM hF w hbal hconst hsim hb hrun hex
      row hrow]
    unfold weightedTotal
    congr 1
    refine List.map_congr_left fun p hp => ?_
    rw [hr.start_species h hsize (name := p.1) (i := p.2) (by
      obtain ⟨h2, -⟩ := extract_tables h hq
      rw [h2] at hp ⊢
      exact (index_mem_iff qs p.1 p.2).1 hp)]
  · obtain ⟨rates, hA, -⟩ := file_system h hq hw hr.good hr.cond hr.species hf hread hM hF
    have := C62_water h hr.good hr.species hwater hA hsim hb hrun hex row hrow
    rw [hr.species, Nat.add_sub_cancel] at this
    rw [this, hr.start_water hsize]

/-- C76: the prepared run has an exact solver for every length of batches, and all exact solvers report the same rows. -/
theorem C76_determined (h : extractMechanism text = .ok m) (hq : Reads text m.equations.toNat qs)
    (hless : GainsLess m) (hw : Prints num id m.tables)
    (hpos : ∀ q ∈ qs, ∀ p ∈ chemReactants q ++ chemProducts q, 0 < p.1) (hone : WholeReactants qs)
    (hweight : ∀ s i, m.tables.index.get? s = some i → s ∉ heldConstant → ∃ w : Str → ℝ,
      (∀ s, 0 ≤ w s) ∧ 0 < w s ∧ (∀ s ∈ heldConstant, w s = 0) ∧ ∀ q ∈ qs, NotGained w q)
    (hread : ReadableRates .fortran ((convertOf .fortran)^[times]) qs)
    (hs : Structures smiles pybel) (hg : GoodSettings s) (hl : GoodLibrary props) (hn : KnownNames s m)
    (hP : prepareRun s m smiles pybel props = .ok (some P)) (hf : f.WrittenFor m cores times num P.layout)
    (hnn : NonnegRates .fortran ((convertOf .fortran)^[times]) qs P.h2o s.temp)
    (hM : ∀ t y, (M t y).Orderly) (hF : FileSystem f m P.layout P.const junk M start P.h2o F) {batch : ℚ}
    (hb : 0 < batch) :
    (∃ solve : (Fin n → ℝ) → ℚ → Fin n → ℝ, ∀ k, ExactBatches F solve batch (startVector P n) k) ∧
    ∀ {cores' : Option ℕ} {num' : ℚ → Str} (_ : Prints num' id m.tables) {f' : AeroFiles}
      (_ : f'.WrittenFor m cores' times num' P.layout) {junk' : Vals} {M' : ℝ → (ℕ → ℝ) → Machine P.layout}
      (_ : ∀ t y, (M' t y).Orderly) {F' : ℝ → (Fin n → ℝ) → Fin n → ℝ}
      (_ : FileSystem f' m P.layout P.const junk' M' start P.h2o F')
      {solve solve' : (Fin n → ℝ) → ℚ → Fin n → ℝ} {sim : ℚ} (_ : 0 < sim) {zero : Fin n → ℝ} {ts ts' : List ℚ}
      {rows rows' : List (Fin n → ℝ)}
      (_ : runSimulation id solve zero (startVector P n) sim batch = .ok (ts, rows))
      (_ : runSimulation id solve' zero (startVector P n) sim batch = .ok (ts', rows'))
      (_ : ExactBatches F solve batch (startVector P n) rows.length)
      (_ : ExactBatches F' solve' batch (startVector P n) rows'.length), ts = ts' ∧ rows = rows' := by
  have hr := ready_of h hs hg hl hn hP
  have hsize : n = P.y0.length := by rw [hF.1, hr.length]
  have hwater : P.layout.numSpecies - 1 ∈ P.layout.incl := by
    rw [hr.species, Nat.add_sub_cancel]
    exact List.mem_of_getElem? hr.water
  have hy0 : ∀ i, 0 ≤ startVector P n i := by
    intro i
    unfold startVector
    have hi : (i : ℕ) < P.y0.length := by have := i.2; omega
    rw [List.getD_eq_getElem?_getD, List.getElem?_eq_getElem hi]
    exact hr.nonneg _ (List.getElem_mem hi)
  have hT : P.const.temp = s.temp := hr.humid.2.1
  constructor
  · obtain ⟨solve, hsolve⟩ := C72_exists h hq hless hw hr.good hr.cond hr.phys hr.species hwater hpos hone hweight
      hf hread (hT ▸ hnn) hM hF hb
    exact ⟨solve, hsolve _ hy0⟩
  · intro _ _ hw' _ hf' _ _ hM' _ hF' _ _ _ hsim _ _ _ _ _ hrun hrun' hex hex'
    exact C72_unique h hq hw hr.good hr.cond hr.phys hr.species hpos hone hf hread (hT ▸ hnn) hM hF hw' hf' hM' hF' hsim
      hb hy0 hrun hrun' hex hex'

end

/-! ## A case the theorems apply to -/

/-- The numbers of the driver with a given number of bins and given initial concentrations. -/
noncomputable def driverSettings (bins : ℕ) (conc : Dict Str ℝ) : Settings where
  temp := 288.15
  rh := 0.5
  rGas := 8.3144598
  sigma := 0.072
  na := 602214090000000000000000
  cutoff := -6
  numBins := bins
  total := 100
  mean := 0.2
  std := 2.2
  lower := 0.01
  upper := 1
  coreDensity := 1770
  coreMw := 132.14
  coreDiss := 3
  conc := conc

theorem driverSettings_good {bins : ℕ} (hb : 2 ≤ bins) {conc : Dict Str ℝ} (hk : conc.keys.Nodup)
    (hc : ∀ name v, conc.get? name = some v → 0 ≤ v) : GoodSettings (driverSettings bins conc) := by
  constructor <;> first | exact hb | exact hk | exact hc | (norm_num [driverSettings])

/-- The driver as it is: 16 bins, 18 ppb of ozone and 30 ppb of alpha-pinene. -/
example : GoodSettings (driverSettings 16 [("O3".toList, 18), ("APINENE".toList, 30)]) :=
  driverSettings_good (by norm_num) (by decide +kernel) (by
    intro name v hv
    have := Dict.mem_of_get?_eq_some hv
    simp only [List.mem_cons, Prod.mk.injEq, List.not_mem_nil, or_false] at this
    rcases this with ⟨-, rfl⟩ | ⟨-, rfl⟩ <;> norm_num)

/-- Two bins, 10 ppb of nitrogen oxide and 20 ppb of the radical of `radicalText`. -/
noncomputable def radicalSettings : Settings := driverSettings 2 [("NO".toList, 10), ("CH3O2".toList, 20)]

theorem radicalSettings_good : GoodSettings radicalSettings :=
  driverSettings_good le_rfl (by decide +kernel) (by
    intro name v hv
    have := Dict.mem_of_get?_eq_some hv
    simp only [List.mem_cons, Prod.mk.injEq, List.not_mem_nil, or_false] at this
    rcases this with ⟨-, rfl⟩ | ⟨-, rfl⟩ <;> norm_num)

theorem radicalSettings_known : KnownNames radicalSettings ⟨build radicalReactions, 2⟩ := by
  intro name hn
  right
  have : name = "NO".toList ∨ name = "CH3O2".toList := by
    simpa [radicalSettings, driverSettings, Dict.keys] using hn
  rcases this with rfl | rfl <;> decide +kernel

/-- A library in which the only structure is that of formaldehyde, with a low vapour pressure. -/
def radicalSmiles : Dict Str Str := [("HCHO".toList, "C=O".toList)]

def radicalPybel : Dict Str Unit := [("C=O".toList, ())]

def radicalProps : Unit → PureProps := fun _ => ⟨8 / 10, 30, -7⟩

theorem radical_structures : Structures radicalSmiles radicalPybel := by
  intro name sm hsm
  have := Dict.mem_of_get?_eq_some hsm
  simp only [radicalSmiles, List.mem_cons, Prod.mk.injEq, List.not_mem_nil, or_false] at this
  obtain ⟨-, rfl⟩ := this
  exact ⟨(), by decide +kernel⟩

/-- The run is prepared for the layout `radicalFiles` was generated for. -/
theorem radical_prepared : ∃ P, prepareRun radicalSettings ⟨build radicalReactions, 2⟩ radicalSmiles radicalPybel
    radicalProps = .ok (some P) ∧ P.layout = radicalLayout := by
  obtain ⟨P, hP, -⟩ := C76_prepared (props := radicalProps) radical_parses radical_structures radicalSettings_good
    (fun _ => by norm_num [radicalProps]) radicalSettings_known
  refine ⟨P, hP, ?_⟩
  obtain ⟨h2o, -, h1⟩ := bind_ok hP
  obtain ⟨r, hr, h2⟩ := bind_ok h1
  obtain ⟨w, hw, h3⟩ := bind_ok h2
  have hc : (do
      let r ← pureComponent1 5 (build radicalReactions).species (build radicalReactions).index radicalSmiles radicalPybel
        radicalProps true (-6)
      let w ← appendWater r true 5 (build radicalReactions).index 0
      return (w.numSpecies, w.numCond, w.incl)) = .ok (6, 2, [2, 5]) := by decide +kernel
  have hlen : (build radicalReactions).species.length = 5 := by decide +kernel
  dsimp only at hr hw
  rw [hlen] at hr hw
  rw [show radicalSettings.cutoff = -6 from rfl] at hr
  rw [hr] at hc
  simp only [bind, Except.bind, hw, pure, Except.pure, Except.ok.injEq, Prod.mk.injEq] at hc
  obtain ⟨c1, c2, c3⟩ := hc
  split at h3
  · cases h3
  · obtain ⟨cond, -, h4⟩ := bind_ok h3
    obtain ⟨y0, -, h5⟩ := bind_ok h4
    cases h5
    rw [c1, c2, c3]
    rfl

/-- The hypotheses of `C76_run` and `C76_determined` are met by `radicalText` with the files for two cores and any
threads: the prepared run has an exact solver; in two batches of a minute the total of `radicalWeight` over all phases
stays 50 ppb. -/
example : ∃ P, prepareRun radicalSettings ⟨build radicalReactions, 2⟩ radicalSmiles radicalPybel radicalProps =
      .ok (some P) ∧ ∀ (M : ℝ → (ℕ → ℝ) → Machine P.layout) (_ : ∀ t y, (M t y).Orderly) (junk : Vals),
    ∃ (F : ℝ → (Fin 10 → ℝ) → Fin 10 → ℝ) (solve : (Fin 10 → ℝ) → ℚ → Fin 10 → ℝ) (rows : List (Fin 10 → ℝ)),
      FileSystem radicalFiles ⟨build radicalReactions, 2⟩ P.layout P.const junk M 43200 P.h2o F ∧
      runSimulation id solve (fun _ => 0) (startVector P 10) (((2 : ℕ) : ℚ) * 60) 60 = .ok ([60, 120], rows) ∧
      ExactBatches F solve 60 (startVector P 10) rows.length ∧ rows.length = 2 ∧
      ∀ row ∈ rows, (∀ i, 0 ≤ row i) ∧ weightedTotal ⟨build radicalReactions, 2⟩ (fun s => (radicalWeight s : ℝ))
          (allPhases P.layout (stateOf row)) = 50 * 25500000000 := by
  obtain ⟨P, hP, hL⟩ := radical_prepared
  obtain ⟨lay, const, h2o, index, y0⟩ := P
  obtain rfl : lay = radicalLayout := hL
  refine ⟨_, hP, fun M hM junk => ?_⟩
  have hl : GoodLibrary radicalProps := fun _ => by norm_num [radicalProps]
  obtain ⟨-, c2, -⟩ := radical_rates
  obtain ⟨f1, f2⟩ := rateTextCheck_reads c2
  have hprint : Prints shortNum id (build radicalReactions) :=
    shortNum_prints (by decide +kernel) (by decide +kernel)
  have hg : ∀ q ∈ radicalReactions, GainGood q := fun q hq => (radical_regular q hq).gain
  have hr := ready_of radical_parses radical_structures radicalSettings_good hl radicalSettings_known hP
  have hh : 0 ≤ h2o := hr.nonneg h2o (List.mem_of_getElem? hr.vapour.2)
  have hnn := C66_nonneg (b := .fortran) (by decide) f1 f2 (h2o := h2o) (temp := radicalSettings.temp)
    (by norm_num [radicalSettings, driverSettings]) hh
  obtain ⟨F, hF⟩ : ∃ F : ℝ → (Fin 10 → ℝ) → Fin 10 → ℝ,
      FileSystem radicalFiles ⟨build radicalReactions, 2⟩ radicalLayout const junk M 43200 h2o F :=
    C72_handed (C := const) (junk := junk) (start := 43200) (h2o := h2o) radical_parses
      radical_reads (allWritten_of_good radical_parses radical_reads hg) hprint radicalLayout_good (by decide) (by decide +kernel) radicalFiles_written f1 (by decide +kernel)
      hM
  obtain ⟨⟨solve, hsolve⟩, -⟩ := C76_determined radical_parses radical_reads radical_sameNet.less hprint radical_positive.1
    radical_positive.2 radical_weights f1 radical_structures radicalSettings_good hl radicalSettings_known hP
    radicalFiles_written hnn hM hF (batch := 60) (by norm_num)
  have hrun := C32_C33_whole_batches (n := 2) (batch := 60) (by norm_num) (by norm_num)
    (exact_id 60 2) solve (fun _ => 0) (startVector ⟨radicalLayout, const, h2o, index, y0⟩ 10)
  have ht : (List.range 2).map (fun k : ℕ => ((k : ℚ) + 1) * 60) = [60, 120] := by decide +kernel
  rw [ht] at hrun
  refine ⟨F, solve, _, hF, hrun, hsolve _, by simp, fun row hrow => ?_⟩
  obtain ⟨r1, r2, -⟩ := C76_run radical_parses radical_reads hprint radical_positive.1
    radical_positive.2 f1 radical_structures radicalSettings_good hl radicalSettings_known hP
    radicalFiles_written hnn hM hF (by norm_num) (by norm_num) hrun (hsolve _) row hrow
  refine ⟨r1, (r2 hg radical_sameNet _ radical_balanced radical_held).trans ?_⟩
  have hi : (build radicalReactions).index = [("CH3O2".toList, 0), ("NO".toList, 1), ("HCHO".toList, 2),
      ("NO2".toList, 3), ("O".toList, 4)] := by decide +kernel
  have hd : (["CH3O2".toList, "NO".toList, "HCHO".toList, "NO2".toList, "O".toList].map fun a =>
      (radicalWeight a, decide (a = "H2O".toList), decide (a = "NO".toList), decide (a = "CH3O2".toList))) =
      [(2, false, false, true), (1, false, true, false), (1, false, false, false), (2, false, false, false),
        (1, false, false, false)] := by decide +kernel
  simp only [List.map_cons, List.map_nil, List.cons.injEq, Prod.mk.injEq, decide_eq_false_iff_not, decide_eq_true_eq,
    and_true] at hd
  have hget : ∀ a : Str, ((radicalSettings.conc.get? a).getD 0) =
      if a = "NO".toList then 10 else if a = "CH3O2".toList then 20 else 0 := by
    intro a
    show (Dict.get? [("NO".toList, (10 : ℝ)), ("CH3O2".toList, 20)] a).getD 0 = _
    unfold Dict.get? Dict.get? Dict.get?
    by_cases h1 : a = "NO".toList
    · rw [if_pos h1.symm, if_pos h1, Option.getD_some]
    · rw [if_neg (Ne.symm h1), if_neg h1]
      by_cases h2 : a = "CH3O2".toList
      · rw [if_pos h2.symm, if_pos h2, Option.getD_some]
      · rw [if_neg (Ne.symm h2), if_neg h2, Option.getD_none]
  dsimp only
  rw [hi]
  simp only [List.map_cons, List.map_nil, List.sum_cons, List.sum_nil, hget]
  obtain ⟨⟨a1, a2, a3⟩, ⟨b1, b2, b4⟩, ⟨c1, c2, c3, c4⟩, ⟨d1, d2, d3, d4⟩, e1, e2, e3, e4⟩ := hd
  rw [a1, b1, c1, d1, e1, if_neg a2, if_neg a3, if_pos trivial, if_neg b2, if_pos trivial, if_neg c2, if_neg c3, if_neg c4,
    if_neg d2, if_neg d3, if_neg d4, if_neg e2, if_neg e3, if_neg e4]
  norm_num

end PyBox
