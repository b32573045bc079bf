import Verif.Sim.YieldDriver
import Verif.Props.AerosolDriver

/-!
# C77: what the driver prepares for a simulation with fixed yields
-/

namespace PyBox

open Spec Aerosol Rl

namespace Spec

/-- Settings with a physical meaning. -/
structure GoodYield (s : YieldSettings) : Prop where
  temp : 34.85 < s.temp
  rh : 0 ≤ s.rh
  dry : s.rh < 1
  rGas : 0 < s.rGas
  na : 0 < s.na
  bins : 2 ≤ s.numBins
  total : 0 < s.total
  mean : 0 < s.mean
  std : 1 < s.std
  lower : 0 < s.lower
  upper : s.lower < s.upper
  coreDensity : 0 < s.coreDensity
  coreMw : 0 < s.coreMw
  coreDiss : 0 < s.coreDiss
  mass : 0 ≤ s.mass
  vocMw : 0 < s.vocMw

/-- Molecules per cc of a species with yield `c`: of the mass [microgram/m3] as many ppb as an ideal gas of that
molecular weight has, at 2.46E10 molecules per cc each. -/
noncomputable def yieldOf (s : YieldSettings) (c : ℝ) : ℝ :=
  c * (s.mass * s.temp / (12.187 * s.vocMw)) * 24600000000

/-- `dydt_func(t,y)` (`ODE_solver_fixedyield.py` 59–136) from the text of the generated partitioning file. -/
noncomputable def dydtOfYieldFile (strict : Prop) (file : Str) (L : Aerosol.Layout) (C : AeroConst) (M : Machine L)
    (y : ℕ → ℝ) : Option (ℕ → ℝ) :=
  (callPartition strict file M.mem M.threadMem M.thr M.tr
    (Ft.callArgs L (L.numSpecies + L.numBins * L.numCond) (partArgs L C y) M.unused)).bind (fun results =>
      match results with
      | [_, _, _, .arr part] => some (addUp L (fun _ => 0) (fun i => part.getD i 0))
      | _ => none)

/-- `F` is the function handed to the solver, computed from the file. Memory, threads and their order may be different
in every call. -/
def YieldFileSystem (file : Str) (L : Aerosol.Layout) (C : AeroConst) (M : ℝ → (ℕ → ℝ) → Machine L) {n : ℕ}
    (F : ℝ → (Fin n → ℝ) → Fin n → ℝ) : Prop :=
  n = L.numSpecies + L.numBins * L.numCond ∧ ∀ (time : ℝ) (y : Fin n → ℝ), ∃ out,
    dydtOfYieldFile False file L C (M time (stateOf y)) (stateOf y) = some out ∧ ∀ i : Fin n, F time y i = out i

/-- C77 for one result. -/
structure YieldReady {O : Type} (s : YieldSettings) (toFloat : Str → Except PyErr ℚ) (read : Str → Except PyErr O)
    (props : O → PureProps) (lines : List Str) (r : Snapshot O) (P : Prepared) : Prop where
  /-- all species and water are in the gas and in every bin, at the same places -/
  layout : P.layout = ⟨s.numBins, r.next + 1, r.next + 1, List.range (r.next + 1)⟩
  good : GoodLayout P.layout
  /-- all constants are physical -/
  phys : PhysConst P.layout P.const
  /-- every species has the properties of its structure and the yield on its first line -/
  entries : ∀ i, i < r.next → ∃ k name v c o, FirstLine lines k name v ∧ r.index.get? name = some i ∧
    toFloat v = .ok c ∧ read name = .ok o ∧
    P.const.densityInput i = (props o).density * 1000 ∧ P.const.mw i = (props o).mw ∧
    psatAtm P.layout P.const i = Real.rpow 10 (props o).vp ∧
    P.const.dStar i = diffusivity (props o).mw ∧ P.const.gamma i = meanFreePath s.rGas s.temp (props o).mw ∧
    P.y0[i]? = some (yieldOf s c)
  waterEntries : P.const.densityInput r.next = 1000 ∧ P.const.mw r.next = 18 ∧
    psatAtm P.layout P.const r.next = satVapWater s.temp * 0.00000986923
  number : ∑ b ∈ Finset.range s.numBins, P.const.nPerBin b = s.total
  shape : ∃ c : ℝ, ∀ b, b < s.numBins → P.const.nPerBin b * binRadius s.toSettings b *
    Real.exp (Real.log (binRadius s.toSettings b / s.mean) ^ 2 / (2 * Real.log s.std ^ 2)) = c
  core : ∀ b, b < s.numBins → P.const.ycore b =
    coreMolecules (binRadius s.toSettings b) s.coreDensity s.coreMw s.na (P.const.nPerBin b)
  length : P.y0.length = P.layout.numSpecies + P.layout.numBins * P.layout.numCond
  /-- the gases together are the given mass shared out -/
  gases : P.y0.take r.next = r.conc.map (fun c : ℚ => yieldOf s c)
  vapour : P.h2o = s.rh * s.na * satVapWater s.temp * 0.000001 / (8.314472 * s.temp) ∧ P.y0[r.next]? = some P.h2o
  particles : ∀ b j, b < s.numBins → j < r.next + 1 → P.y0[r.next + 1 + b * (r.next + 1) + j]? = some
      (if j = r.next then P.const.ycore b * s.coreDiss * (s.rh / (1 - s.rh)) else 0)
  humid : P.const.coreDiss = s.coreDiss ∧ P.const.temp = s.temp ∧ P.const.coreMw = (fun _ => s.coreMw) ∧
    P.const.coreDensity = (fun _ => s.coreDensity) ∧ P.const.na = s.na

end Spec

section

variable {O : Type} {s : YieldSettings} {toFloat : Str → Except PyErr ℚ} {read : Str → Except PyErr O}
  {props : O → PureProps} {lines : List Str} {r : Snapshot O}

theorem totalPpb_eq (s : YieldSettings) (c : ℝ) : c * totalPpb s * 24600000000 = yieldOf s c := by
  unfold totalPpb yieldOf
  rw [show (273.15 : ℝ) + (s.temp - 273.15) = s.temp by ring]

theorem snapshot_object (h : extractSpecies toFloat read lines = .ok r) {k : ℕ} (hk : k < r.pybel.length) :
    ∃ c o, r.pybel[k] = (r.array.getD k [], (k, o)) ∧ r.conc[k]? = some c ∧ r.concOf.get? k = some c ∧
      r.index.get? (r.array.getD k []) = some k := by
  have hi := snapInv lines r h
  have hlen : r.pybel.length = r.array.length := by rw [← hi.pybel_keys]; simp [Dict.keys]
  have hk' : k < r.array.length := by omega
  have hs := List.getElem?_eq_getElem hk'
  obtain ⟨_, _, c, o, -, -, -, h4, h5, -, h7⟩ := hi.entry k _ hs
  have hn : r.pybel.keys.Nodup := by rw [hi.pybel_keys]; exact hi.nodup
  have hkey : (r.pybel[k]).1 = r.array[k] := by
    have : r.pybel.keys[k]? = some (r.pybel[k]).1 := by
      unfold Dict.keys
      rw [List.getElem?_map, List.getElem?_eq_getElem hk]
      rfl
    rw [hi.pybel_keys, hs] at this
    exact (Option.some.inj this).symm
  have hmem : ((r.pybel[k]).1, (r.pybel[k]).2) ∈ r.pybel := List.getElem_mem hk
  have hval := Dict.get?_eq_some_of_mem hn hmem
  rw [hkey, h5] at hval
  injection hval with hval
  have hg : r.array.getD k [] = r.array[k] := by rw [List.getD_eq_getElem?_getD, hs]; rfl
  refine ⟨c, o, ?_, h4, h7, ?_⟩
  · rw [hg]
    exact Prod.ext hkey hval.symm
  · rw [hg, hi.index_eq, zipIdx_get?' _ hi.nodup]
    exact hs

theorem yieldGas_eq (h : extractSpecies toFloat read lines = .ok r) (hv : s.vocMw ≠ 0) :
    yieldGas s r = .ok (r.conc.map (fun c : ℚ => yieldOf s c)) := by
  obtain ⟨-, -, -, -, lc, -, -, lp, -⟩ := C45_dense h
  unfold yieldGas
  rw [if_neg (mul_ne_zero (by norm_num) hv)]
  have key : ∀ k ≤ r.pybel.length, (r.pybel.take k).foldlM (fun y p => do
      let c ← Aerosol.lookup r.concOf p.2.1
      let i ← Aerosol.lookup r.index p.1
      pyAssign y i ((c : ℝ) * totalPpb s * 24600000000)) (List.replicate r.next 0) =
      (.ok ((r.conc.take k).map (fun c : ℚ => yieldOf s c) ++ List.replicate (r.next - k) 0) : Except PyErr (List ℝ)) := by
    intro k
    induction k with
    | zero => intro _; simp; rfl
    | succ k ih =>
      intro hk
      obtain ⟨c, o, e1, e2, e3, e4⟩ := snapshot_object h (k := k) (by omega)
      rw [List.take_succ_eq_append_getElem (by omega), List.foldlM_append, ih (by omega)]
      simp only [bind, Except.bind, List.foldlM_cons, List.foldlM_nil, e1, Aerosol.lookup, e3, e4, pyAssign]
      have hl : (List.map (fun c : ℚ => yieldOf s c) (r.conc.take k)).length = k := by simp; omega
      rw [if_pos (by rw [List.length_append, hl, List.length_replicate]; omega)]
      simp only [pure, Except.pure]
      congr 1
      have hk' : k < r.conc.length := by omega
      rw [List.getElem?_eq_getElem hk'] at e2
      injection e2 with e2
      rw [List.take_succ_eq_append_getElem hk', List.map_append, List.append_assoc, totalPpb_eq,
        List.set_append_right _ _ (by omega), hl, Nat.sub_self, show r.next - k = (r.next - (k + 1)) + 1 by omega,
        List.replicate_succ, e2]
      rfl
  have := key r.pybel.length le_rfl
  rw [List.take_length, lp, List.take_of_length_le (by omega), Nat.sub_self, List.replicate_zero, List.append_nil] at this
  exact this

theorem mem_range_chosen (names : List Str) {sel : Str → Bool} (h : ∀ s ∈ names, sel s = true) :
    chosen names names.length sel = List.range names.length := by
  unfold chosen
  rw [List.filter_eq_self.2, List.zipIdx_map_snd, List.range_eq_range']
  intro p hp
  obtain ⟨i, hi, rfl⟩ := List.getElem_of_mem hp
  rw [List.length_zipIdx] at hi
  simp only [List.getElem_zipIdx, Nat.zero_add, hi, decide_true, Bool.true_and]
  exact h _ (List.getElem_mem _)

/-- The tables of a snapshot after water has been added. -/
theorem yield_tables (h : extractSpecies toFloat read lines = .ok r) (cutoff : ℚ) :
    ∃ p w, pureComponent1 r.next r.species r.index r.smiles r.pybel (fun o => props o.2) false cutoff = .ok p ∧
      appendWater p false r.next r.index 0 = .ok w ∧
      w.numSpecies = r.next + 1 ∧ w.numCond = r.next + 1 ∧ w.incl = List.range (r.next + 1) ∧
      w.density[r.next]? = some 1000 ∧ w.mw[r.next]? = some 18 ∧
      ∀ i, i < r.next → ∃ k name v c o, FirstLine lines k name v ∧ r.index.get? name = some i ∧ toFloat v = .ok c ∧
        read name = .ok o ∧ r.conc[i]? = some c ∧ w.density[i]? = some ((props o).density * 1000) ∧
        w.mw[i]? = some (props o).mw ∧ w.satVp[i]? = some (props o).vp := by
  have hi := snapInv lines r h
  have hget : ∀ (i : ℕ) (name : Str), r.array[i]? = some name → ∃ o, r.smiles.get? name = some name ∧
      r.pybel.get? name = some (i, o) := by
    intro i name hn
    obtain ⟨k, v, c, o, -, -, -, -, h5, -⟩ := hi.entry i name hn
    have hx : r.index.get? name = some i := by rw [hi.index_eq, zipIdx_get?' _ hi.nodup]; exact hn
    obtain ⟨_, _, _, _, -, -, -, -, g5, -⟩ := C45_first h hx
    exact ⟨o, g5, h5⟩
  have hs : Structures r.smiles r.pybel := by
    intro name sm hsm
    have hm := Dict.mem_of_get?_eq_some hsm
    rw [hi.smiles_eq, List.mem_map] at hm
    obtain ⟨a, ha, he⟩ := hm
    cases he
    obtain ⟨i, hi', he⟩ := List.getElem_of_mem ha
    obtain ⟨o, -, h2⟩ := hget i _ (List.getElem?_eq_getElem hi')
    exact ⟨_, he ▸ h2⟩
  have hp := pure1_eq r.array r.smiles r.pybel (fun o => props o.2) false cutoff hi.nodup hs
  rw [← hi.species_eq, ← hi.index_eq, ← hi.next_eq] at hp
  have hincl : ∀ name ∈ r.array, inclB r.smiles r.pybel (fun o => props o.2) false cutoff name = true := by
    intro name hn
    obtain ⟨i, hi', rfl⟩ := List.getElem_of_mem hn
    obtain ⟨o, h1, h2⟩ := hget i _ (List.getElem?_eq_getElem hi')
    exact (inclB_iff _ _ _ _ _ _).2 ⟨_, _, h1, h2, fun h => by cases h⟩
  have hfill : ∀ (dflt : ℚ) (f : PureProps → ℚ),
      (filled r.array r.smiles r.pybel (fun o => props o.2) r.next dflt f).length = r.next := by
    intro dflt f
    rw [filled_length, hi.next_eq]
  refine ⟨_, _, hp, rfl, rfl, ?_, ?_, ?_, ?_, ?_⟩
  · show (filled _ _ _ _ _ _ _ ++ [1000]).length = _
    rw [List.length_append, hfill]
    rfl
  · show (chosen r.array r.next _).mergeSort _ ++ [r.next + 1 - 1] = _
    rw [hi.next_eq, mem_range_chosen _ hincl, mergeSort_sorted _ List.pairwise_lt_range, Nat.add_sub_cancel,
      ← List.range_succ]
  · show (filled _ _ _ _ _ _ _ ++ [1000])[r.next]? = _
    rw [List.getElem?_append_right (by rw [hfill]), hfill, Nat.sub_self]
    rfl
  · show (filled _ _ _ _ _ _ _ ++ [18])[r.next]? = _
    rw [List.getElem?_append_right (by rw [hfill]), hfill, Nat.sub_self]
    rfl
  · intro i hlt
    have hlt' : i < r.array.length := by rw [← hi.next_eq]; exact hlt
    have hn := List.getElem?_eq_getElem hlt'
    obtain ⟨k, v, c, o, h1, h2, h3, h4, h5, -⟩ := hi.entry i _ hn
    obtain ⟨o', g1, g2⟩ := hget i _ hn
    have hk : known r.smiles r.pybel (fun o => props o.2) r.array[i] = some (props o) := by
      unfold known
      rw [g1, Option.bind_some, h5, Option.map_some]
    have hv : ∀ (dflt : ℚ) (f : PureProps → ℚ) (a : ℚ),
        (filled r.array r.smiles r.pybel (fun o => props o.2) r.next dflt f ++ [a])[i]? = some (f (props o)) := by
      intro dflt f a
      rw [List.getElem?_append_left (by rw [hfill]; exact hlt)]
      unfold filled
      rw [List.getElem?_map, List.getElem?_zipIdx, hn]
      simp only [Option.map_some, Nat.zero_add, hlt, if_true, hk, Option.getD_some]
    refine ⟨k, _, v, c, o, h1, ?_, h2, h3, h4, hv _ _ _, hv _ _ _, hv _ _ _⟩
    rw [hi.index_eq, zipIdx_get?' _ hi.nodup]
    exact hn

theorem yieldVapour_ok (ht : 34.85 < s.temp) :
    yieldVapour s.toSettings = .ok (s.rh * s.na * satVapWater s.temp * 0.000001 / (8.314472 * s.temp)) := by
  have h0 : s.temp ≠ 0 := by intro h; rw [h] at ht; norm_num at ht
  unfold yieldVapour waterVapour
  dsimp only
  rw [if_neg (by rintro (h | h) <;> norm_num at h ht ⊢ <;> linarith), if_neg h0]
  rfl

/-- **C77**: for physical settings, a library with positive densities and weights and a file that can be read, the
driver prepares a simulation that meets all requirements of the statements about simulations with particles, and every
array has at every place what belongs there. -/
theorem C77_prepared (h : extractSpecies toFloat read lines = .ok r) (hg : GoodYield s) (hl : GoodLibrary props) :
    ∃ P, prepareYield s toFloat read props lines = .ok (some P) ∧ YieldReady s toFloat read props lines r P := by
  have e1 := yieldVapour_ok hg.temp
  obtain ⟨p, w, e2, e3, ns, nc, incl, wd, wm, hplace⟩ := yield_tables (props := props) h s.cutoff
  have e6 := yieldGas_eq (s := s) h hg.vocMw.ne'
  obtain ⟨⟨numbers, x⟩, e4, hsz⟩ := C44_sizes_partial s.numBins s.total s.mean s.std s.lower s.upper hg.bins hg.total.le
    hg.std hg.lower hg.upper
  obtain ⟨l1, l2, p2, p3⟩ := lognormal_values (by have := hg.bins; omega) hg.total hg.std e4
  obtain ⟨cond, e5, lc, hc⟩ := C53_water_slots w.numCond s.numBins (by omega)
    (coreOf s.toSettings numbers x) s.coreDiss s.rh hg.dry.ne
  obtain ⟨-, -, -, -, lconc, -⟩ := C45_dense h
  have hnum : ∀ b, b < s.numBins → numbers[b]? = some (numbers.getD b 0) ∧ 0 < numbers.getD b 0 := by
    intro b hb
    have := List.getElem?_eq_getElem (l := numbers) (i := b) (by omega)
    rw [List.getD_eq_getElem?_getD, this]
    exact ⟨rfl, p2 _ (List.getElem_mem _)⟩
  have hxv : ∀ b, b < s.numBins → x[b]? = some (x.getD b 0) ∧ 0 < x.getD b 0 := by
    intro b hb
    have := List.getElem?_eq_getElem (l := x) (i := b) (by omega)
    rw [List.getD_eq_getElem?_getD, this]
    exact ⟨rfl, p3 _ (List.getElem_mem _)⟩
  have hcore : ∀ b, b < s.numBins → 0 < coreOf s.toSettings numbers x b := fun b hb =>
    coreMolecules_pos (hxv b hb).2 hg.coreDensity hg.coreMw hg.na (hnum b hb).2
  obtain ⟨hrad, c, hshape⟩ := C44_shape s.numBins s.total s.mean s.std s.lower s.upper hg.bins hg.mean hg.std hg.lower
    hg.upper e4
  have hwd : w.density.getD r.next 0 = 1000 := by rw [List.getD_eq_getElem?_getD, wd]; rfl
  have hwm : w.mw.getD r.next 0 = 18 := by rw [List.getD_eq_getElem?_getD, wm]; rfl
  have hpos : ∀ j, j < w.numCond → (0 : ℝ) < ((w.mw.getD j 0 : ℚ) : ℝ) ∧ (0 : ℝ) < ((w.density.getD j 0 : ℚ) : ℝ) := by
    intro j hj
    rcases Nat.lt_or_ge j r.next with h1 | h1
    · obtain ⟨_, _, _, _, o, -, -, -, -, -, h2, h3, -⟩ := hplace j h1
      rw [List.getD_eq_getElem?_getD, List.getD_eq_getElem?_getD, h2, h3, Option.getD_some, Option.getD_some]
      have := (hl o).1
      exact ⟨by exact_mod_cast (hl o).2, by exact_mod_cast mul_pos this (by norm_num)⟩
    · obtain rfl : j = r.next := by omega
      rw [hwd, hwm]
      norm_num
  have htemp : 0 < s.temp := by have := hg.temp; norm_num at this; linarith
  have hlayout : (⟨s.numBins, w.numSpecies, w.numCond, w.incl⟩ : Aerosol.Layout) =
      ⟨s.numBins, r.next + 1, r.next + 1, List.range (r.next + 1)⟩ := by rw [ns, nc, incl]
  have hgood : GoodLayout (⟨s.numBins, w.numSpecies, w.numCond, w.incl⟩ : Aerosol.Layout) := by
    rw [hlayout]
    exact ⟨List.length_range, List.nodup_range, fun i hi => List.mem_range.1 hi⟩
  have lg : (r.conc.map (fun c : ℚ => yieldOf s c)).length = r.next := by rw [List.length_map, lconc]
  refine ⟨⟨⟨s.numBins, w.numSpecies, w.numCond, w.incl⟩, inputDict s.toSettings w numbers x,
    s.rh * s.na * satVapWater s.temp * 0.000001 / (8.314472 * s.temp), w.index,
    r.conc.map (fun c : ℚ => yieldOf s c) ++
      [s.rh * s.na * satVapWater s.temp * 0.000001 / (8.314472 * s.temp)] ++ cond⟩, ?_, ?_⟩
  · simp only [prepareYield, e1, h, e2, e3, e4, e5, e6, bind, Except.bind, pure, Except.pure]
  · refine ⟨hlayout, hgood, ?_, ?_, ?_, ?_, ?_, ?_, ?_, ?_, ?_, ?_, rfl, rfl, rfl, rfl, rfl⟩
    · exact ⟨hg.na, hg.rGas, htemp, hg.coreDiss, hcore, fun _ _ => hg.coreMw, fun _ _ => hg.coreDensity,
        fun b hb => (hnum b hb).2, fun j hj => (hpos j hj).1, fun j hj => (hpos j hj).2,
        fun j hj => (C52_admissible s.rGas s.temp _ hg.rGas htemp (hpos j hj).1).1,
        fun j hj => (C52_admissible s.rGas s.temp _ hg.rGas htemp (hpos j hj).1).2.2.2,
        fun j hj => (C52_admissible s.rGas s.temp _ hg.rGas htemp (hpos j hj).1).2.2.1⟩
    · intro i hi
      obtain ⟨k, name, v, c, o, h1, h2, h3, h4, h5, h6, h7, h8⟩ := hplace i hi
      have hd : w.density.getD i 0 = (props o).density * 1000 := by rw [List.getD_eq_getElem?_getD, h6]; rfl
      have hm : w.mw.getD i 0 = (props o).mw := by rw [List.getD_eq_getElem?_getD, h7]; rfl
      have hv : w.satVp.getD i 0 = (props o).vp := by rw [List.getD_eq_getElem?_getD, h8]; rfl
      have hne : ¬ i + 1 = w.numCond := by omega
      refine ⟨k, name, v, c, o, h1, h2, h3, h4, ?_, ?_, ?_, ?_, ?_, ?_⟩
      · show ((w.density.getD i 0 : ℚ) : ℝ) = _
        rw [hd]; push_cast; rfl
      · show ((w.mw.getD i 0 : ℚ) : ℝ) = _
        rw [hm]
      · unfold psatAtm
        dsimp only
        rw [if_neg hne]
        show Real.rpow 10 (if i + 1 = w.numCond then _ else ((w.satVp.getD i 0 : ℚ) : ℝ)) = _
        rw [if_neg hne, hv]
      · show diffusivity ((w.mw.getD i 0 : ℚ) : ℝ) = _
        rw [hm]
      · show meanFreePath s.rGas s.temp ((w.mw.getD i 0 : ℚ) : ℝ) = _
        rw [hm]
      · rw [List.append_assoc, List.getElem?_append_left (by rw [lg]; exact hi), List.getElem?_map, h5]
        rfl
    · refine ⟨?_, ?_, ?_⟩
      · show ((w.density.getD r.next 0 : ℚ) : ℝ) = _
        rw [hwd]; norm_num
      · show ((w.mw.getD r.next 0 : ℚ) : ℝ) = _
        rw [hwm]; norm_num
      · unfold psatAtm
        dsimp only
        rw [if_pos nc.symm]
        refine Real.rpow_logb (by norm_num) (by norm_num) (mul_pos (Real.exp_pos _) (by norm_num))
    · rw [← hsz.sum, ← l1, Finset.sum_range, ← Fin.sum_univ_getElem]
      exact Finset.sum_congr rfl fun i _ => by
        show numbers.getD i 0 = _
        simp
    · exact ⟨c, fun b hb => hshape b _ _ (hnum b hb).1 (hrad b hb)⟩
    · intro b hb
      show coreMolecules (x.getD b 0) _ _ _ _ = _
      rw [List.getD_eq_getElem?_getD, hrad b hb]
      rfl
    · dsimp only
      rw [List.length_append, List.length_append, lg, lc, ns, Nat.mul_comm w.numCond]
      rfl
    · dsimp only
      rw [List.append_assoc, List.take_append_of_le_length (by rw [lg]), List.take_of_length_le (by rw [lg])]
    · refine ⟨rfl, ?_⟩
      dsimp only
      rw [List.append_assoc, List.getElem?_append_right (by rw [lg]), lg, Nat.sub_self]
      rfl
    · intro b j hb hj
      have := hc b j hb (by rw [nc]; exact hj)
      dsimp only
      rw [List.getElem?_append_right (by rw [List.length_append, lg, List.length_singleton]; omega), List.length_append,
        lg, List.length_singleton, show r.next + 1 + b * (r.next + 1) + j - (r.next + 1) = b * w.numCond + j by rw [nc]; omega,
        this, nc]
      congr 1
      by_cases hj' : j = r.next
      · rw [if_pos (by omega), if_pos hj']; rfl
      · rw [if_neg (by omega), if_neg hj']

theorem yield_ready_of (h : extractSpecies toFloat read lines = .ok r) (hg : GoodYield s) (hl : GoodLibrary props)
    {P : Prepared} (hP : prepareYield s toFloat read props lines = .ok (some P)) :
    YieldReady s toFloat read props lines r P := by
  obtain ⟨P', h1, h2⟩ := C77_prepared h hg hl
  rw [hP] at h1
  cases h1
  exact h2

/-- C77: with the generated file `dydt_func` computes the exchange with the particles and nothing else; in the strict
reading no operation is undefined for physical constants and non-negative states. -/
theorem C77_file {strict : Prop} {L : Aerosol.Layout} {C : AeroConst} {d : Str} (hd : '\n' ∉ d) (hL : GoodLayout L)
    (hc : 1 ≤ L.numCond) {M : Machine L} (hM : M.Orderly) (y : ℕ → ℝ) (hs : strict → PhysConst L C ∧ ∀ i, 0 ≤ y i) :
    dydtOfYieldFile strict (Ft.partText d L (L.numSpecies + L.numBins * L.numCond)) L C M y =
      some (fixedYieldRhs L C y) := by
  unfold dydtOfYieldFile fixedYieldRhs
  rw [C71_synced hd hL hc (fun h => (hs h).1.running (hs h).2) M.unused M.mem M.threadMem hM.order hM.synced,
    Option.bind_some]
  show some _ = some _
  rw [addUp_array]

theorem C77_system {L : Aerosol.Layout} {C : AeroConst} {d : Str} (hd : '\n' ∉ d) (hL : GoodLayout L)
    (hc : 1 ≤ L.numCond) {M : ℝ → (ℕ → ℝ) → Machine L} (hM : ∀ t y, (M t y).Orderly) {n : ℕ}
    {F : ℝ → (Fin n → ℝ) → Fin n → ℝ} :
    YieldFileSystem (Ft.partText d L (L.numSpecies + L.numBins * L.numCond)) L C M F ↔ FixedYieldSystem L C F := by
  refine and_congr Iff.rfl (forall_congr' fun t => forall_congr' fun y => ?_)
  rw [C77_file hd hL hc (hM t (stateOf y)) (stateOf y) (fun h => h.elim)]
  constructor
  · rintro ⟨out, ho, h⟩ i
    cases ho
    exact h i
  · exact fun h => ⟨_, rfl, h⟩

section Runs

variable {P : Prepared} {M : ℝ → (ℕ → ℝ) → Machine P.layout} {n : ℕ} {F : ℝ → (Fin n → ℝ) → Fin n → ℝ} {d : Str}

theorem Spec.YieldReady.nonneg (hr : YieldReady s toFloat read props lines r P) (hg : GoodYield s)
    (hc : ∀ c ∈ r.conc, 0 ≤ c) : ∀ v ∈ P.y0, 0 ≤ v := by
  have htemp : 0 < s.temp := by have := hg.temp; norm_num at this; linarith
  have hl := hr.length
  rw [hr.layout] at hl
  dsimp only at hl
  intro v hv
  obtain ⟨k, hk, rfl⟩ := List.getElem_of_mem hv
  have hget := List.getElem?_eq_getElem hk
  rcases Nat.lt_trichotomy k r.next with h1 | h1 | h1
  · have : P.y0[k] ∈ P.y0.take r.next := by
      rw [List.mem_take_iff_getElem]
      exact ⟨k, by omega, rfl⟩
    rw [hr.gases, List.mem_map] at this
    obtain ⟨c, hc', e⟩ := this
    rw [← e]
    have h0 : (0 : ℝ) ≤ c := by exact_mod_cast hc c hc'
    have := hg.mass
    have := hg.vocMw
    unfold yieldOf
    positivity
  · subst h1
    have := hr.vapour.2
    rw [hget] at this
    injection this with this
    rw [this, hr.vapour.1]
    have h0 := hg.rh
    have h1 := hg.na
    have h2 : 0 < satVapWater s.temp := Real.exp_pos _
    positivity
  · obtain ⟨j, rfl⟩ : ∃ j, k = r.next + 1 + j := ⟨k - (r.next + 1), by omega⟩
    have hj : j < s.numBins * (r.next + 1) := by omega
    have hb : j / (r.next + 1) < s.numBins := Nat.div_lt_of_lt_mul (by rw [Nat.mul_comm]; exact hj)
    have hm : j % (r.next + 1) < r.next + 1 := Nat.mod_lt _ (Nat.succ_pos _)
    have := hr.particles _ _ hb hm
    rw [add_assoc, Nat.mul_comm, Nat.div_add_mod, hget] at this
    injection this with this
    rw [this]
    split
    · have hb' : j / (r.next + 1) < P.layout.numBins := by rw [hr.layout]; exact hb
      exact mul_nonneg (mul_nonneg (hr.phys.ycore _ hb').le hg.coreDiss.le)
        (div_nonneg hg.rh (by have := hg.dry; linarith))
    · exact le_rfl

theorem Spec.YieldReady.start_phases (hr : YieldReady s toFloat read props lines r P) (hn : n = P.y0.length) {i : ℕ}
    (hi : i < r.next + 1) : allPhases P.layout (stateOf (startVector P n)) i = P.y0.getD i 0 +
      if i = r.next then ∑ b ∈ Finset.range s.numBins, P.const.ycore b * s.coreDiss * (s.rh / (1 - s.rh)) else 0 := by
  unfold allPhases
  rw [stateOf_start hn, hr.layout]
  dsimp only
  congr 1
  rw [Finset.sum_eq_single i]
  · rw [if_pos (by rw [List.getElem?_range hi])]
    have : ∀ b ∈ Finset.range s.numBins, stateOf (startVector P n) (r.next + 1 + b * (r.next + 1) + i) =
        if i = r.next then P.const.ycore b * s.coreDiss * (s.rh / (1 - s.rh)) else 0 := by
      intro b hb
      rw [stateOf_start hn, List.getD_eq_getElem?_getD, hr.particles b i (Finset.mem_range.1 hb) hi, Option.getD_some]
    rw [Finset.sum_congr rfl this]
    split
    · rfl
    · exact Finset.sum_const_zero
  · intro j hj hne
    rw [if_neg]
    rw [List.getElem?_range (Finset.mem_range.1 hj)]
    exact fun h => hne (Option.some.inj h)
  · intro h
    exact absurd (Finset.mem_range.2 hi) h

theorem firstLine_value {lines : List Str} {k k' : ℕ} {name v v' : Str} (h : FirstLine lines k name v)
    (h' : FirstLine lines k' name v') : v = v' := by
  have key : ∀ {k k' : ℕ} {v v' : Str}, FirstLine lines k name v → FirstLine lines k' name v' → ¬ k < k' := by
    intro k k' v v' h h' hlt
    obtain ⟨l, rest, e1, e2⟩ := h.here
    exact h'.first k l hlt e1 (by unfold lineName; rw [e2]; rfl)
  obtain rfl : k = k' := by
    have a := key h h'
    have b := key h' h
    omega
  obtain ⟨l, rest, e1, e2⟩ := h.here
  obtain ⟨l', rest', e1', e2'⟩ := h'.here
  rw [e1] at e1'
  cases e1'
  rw [e2] at e2'
  injection e2' with _ e
  injection e

/-- **C77**, the whole chain: yield file, structures, properties, settings, generated file, solver. With exact solver
calls every reported row is non-negative, every species has in gas and particles together what its yield gives it of the
precursor, and water what the relative humidity says. -/
theorem C77_run (h : extractSpecies toFloat read lines = .ok r) (hg : GoodYield s) (hl : GoodLibrary props)
    (hyield : ∀ c ∈ r.conc, 0 ≤ c) (hP : prepareYield s toFloat read props lines = .ok (some P)) (hd : '\n' ∉ d)
    (hM : ∀ t y, (M t y).Orderly) (hF : YieldFileSystem
      (Ft.partText d P.layout (P.layout.numSpecies + P.layout.numBins * P.layout.numCond)) P.layout P.const M F)
    {solve : (Fin n → ℝ) → ℚ → Fin n → ℝ} {sim batch : ℚ} (hsim : 0 < sim) (hb : 0 < batch) {zero : Fin n → ℝ}
    {ts : List ℚ} {rows : List (Fin n → ℝ)}
    (hrun : runSimulation id solve zero (startVector P n) sim batch = .ok (ts, rows))
    (hex : ExactBatches F solve batch (startVector P n) rows.length) : ∀ row ∈ rows,
    (∀ i, 0 ≤ row i) ∧
    (∀ k name v i c, FirstLine lines k name v → r.index.get? name = some i → toFloat v = .ok c →
      allPhases P.layout (stateOf row) i = yieldOf s c) ∧
    ∑ i ∈ Finset.range r.next, allPhases P.layout (stateOf row) i = yieldOf s ((r.conc.sum : ℚ) : ℝ) ∧
    allPhases P.layout (stateOf row) r.next = s.rh * s.na * satVapWater s.temp * 0.000001 / (8.314472 * s.temp) +
      ∑ b ∈ Finset.range s.numBins, P.const.ycore b * s.coreDiss * (s.rh / (1 - s.rh)) := by
  have hr := yield_ready_of h hg hl hP
  have hlen := (C45_dense h).2.2.2.2.1
  have hcond : 1 ≤ P.layout.numCond := by rw [hr.layout]; exact Nat.succ_le_succ (Nat.zero_le _)
  have hS := (C77_system hd hr.good hcond hM).1 hF
  have hsize : n = P.y0.length := by rw [hF.1, hr.length]
  have hwater : P.layout.numSpecies - 1 ∈ P.layout.incl := by
    rw [hr.layout]
    exact List.mem_range.2 (by simp)
  have hy0 : ∀ i, 0 ≤ startVector P n i := by
    intro i
    unfold startVector
    have hi : (i : ℕ) < P.y0.length := by have := i.2; omega
    rw [List.getD_eq_getElem?_getD, List.getElem?_eq_getElem hi]
    exact hr.nonneg hg hyield _ (List.getElem_mem hi)
  intro row hrow
  have hall : ∀ i, i < r.next + 1 → allPhases P.layout (stateOf row) i = P.y0.getD i 0 +
      if i = r.next then ∑ b ∈ Finset.range s.numBins, P.const.ycore b * s.coreDiss * (s.rh / (1 - s.rh)) else 0 := by
    intro i hi
    rw [C62_fixed_yield hr.good hwater hS hsim hb hrun hex row hrow i (by rw [hr.layout]; exact hi),
      hr.start_phases hsize hi]
  have hgas : ∀ i, i < r.next → ∀ c, r.conc[i]? = some c → allPhases P.layout (stateOf row) i = yieldOf s (c : ℚ) := by
    intro i hi c hc
    have : (P.y0.take r.next)[i]? = some (yieldOf s (c : ℚ)) := by
      rw [hr.gases, List.getElem?_map, hc]
      rfl
    rw [List.getElem?_take_of_lt hi] at this
    rw [hall i (by omega), if_neg (by omega), add_zero, List.getD_eq_getElem?_getD, this, Option.getD_some]
  refine ⟨C63_fixed_yield hr.good hr.phys hS hsim hb hy0 hrun hex row hrow, ?_, ?_, ?_⟩
  · intro k name v i c hf hi hv
    have hlt := ((C45_dense h).2.2.1 i).1 ⟨name, hi⟩
    obtain ⟨k', v', c', o, f1, f2, -, f4, -⟩ := C45_first h hi
    obtain rfl : v = v' := firstLine_value hf f1
    rw [hv] at f2
    cases f2
    exact hgas i hlt c f4
  · have : ∀ i ∈ Finset.range r.next, allPhases P.layout (stateOf row) i = yieldOf s ((r.conc.getD i 0 : ℚ) : ℝ) := by
      intro i hi
      have hi' := Finset.mem_range.1 hi
      have hc := List.getElem?_eq_getElem (l := r.conc) (i := i) (by omega)
      rw [hgas i hi' _ hc, List.getD_eq_getElem?_getD, hc, Option.getD_some]
    rw [Finset.sum_congr rfl this]
    unfold yieldOf
    rw [← Finset.sum_mul, ← Finset.sum_mul]
    congr 2
    rw [← hlen, Finset.sum_range, ← Fin.sum_univ_getElem]
    push_cast
    exact Finset.sum_congr rfl fun i _ => by simp
  · rw [hall r.next (by omega), if_pos rfl, List.getD_eq_getElem?_getD, hr.vapour.2, Option.getD_some, hr.vapour.1]

/-- C77: the prepared run can be handed to the solver, has an exact solver for every length of batches, and all exact
solvers report the same rows whatever memory, threads and date of the file. -/
theorem C77_determined (h : extractSpecies toFloat read lines = .ok r) (hg : GoodYield s) (hl : GoodLibrary props)
    (hyield : ∀ c ∈ r.conc, 0 ≤ c) (hP : prepareYield s toFloat read props lines = .ok (some P)) (hd : '\n' ∉ d)
    (hM : ∀ t y, (M t y).Orderly) {batch : ℚ} (hb : 0 < batch) :
    (∃ F : ℝ → (Fin P.y0.length → ℝ) → Fin P.y0.length → ℝ, YieldFileSystem
      (Ft.partText d P.layout (P.layout.numSpecies + P.layout.numBins * P.layout.numCond)) P.layout P.const M F ∧
      ∃ solve : (Fin P.y0.length → ℝ) → ℚ → Fin P.y0.length → ℝ, ∀ k,
        ExactBatches F solve batch (startVector P P.y0.length) k) ∧
    ∀ {F F' : ℝ → (Fin n → ℝ) → Fin n → ℝ} {d' : Str} (_ : '\n' ∉ d') {M' : ℝ → (ℕ → ℝ) → Machine P.layout}
      (_ : ∀ t y, (M' t y).Orderly)
      (_ : YieldFileSystem (Ft.partText d P.layout (P.layout.numSpecies + P.layout.numBins * P.layout.numCond)) P.layout
        P.const M F)
      (_ : YieldFileSystem (Ft.partText d' P.layout (P.layout.numSpecies + P.layout.numBins * P.layout.numCond)) P.layout
        P.const M' F')
      {solve solve' : (Fin n → ℝ) → ℚ → Fin n → ℝ} {sim : ℚ} (_ : 0 < sim) {zero : Fin n → ℝ} {ts ts' : List ℚ}
      {rows rows' : List (Fin n → ℝ)}
      (_ : runSimulation id solve zero (startVector P n) sim batch = .ok (ts, rows))
      (_ : runSimulation id solve' zero (startVector P n) sim batch = .ok (ts', rows'))
      (_ : ExactBatches F solve batch (startVector P n) rows.length)
      (_ : ExactBatches F' solve' batch (startVector P n) rows'.length), F = F' ∧ ts = ts' ∧ rows = rows' := by
  have hr := yield_ready_of h hg hl hP
  have hlen := (C45_dense h).2.2.2.2.1
  have hcond : 1 ≤ P.layout.numCond := by rw [hr.layout]; exact Nat.succ_le_succ (Nat.zero_le _)
  have hwater : P.layout.numSpecies - 1 ∈ P.layout.incl := by
    rw [hr.layout]
    exact List.mem_range.2 (by simp)
  have hy0 : ∀ (n : ℕ) (_ : n = P.y0.length), ∀ i, 0 ≤ startVector P n i := by
    intro n hsize i
    unfold startVector
    have hi : (i : ℕ) < P.y0.length := by have := i.2; omega
    rw [List.getD_eq_getElem?_getD, List.getElem?_eq_getElem hi]
    exact hr.nonneg hg hyield _ (List.getElem_mem hi)
  constructor
  · have hS : FixedYieldSystem P.layout P.const
        (fun _ (y : Fin P.y0.length → ℝ) (i : Fin P.y0.length) => fixedYieldRhs P.layout P.const (stateOf y) i) :=
      ⟨hr.length, fun _ _ _ => rfl⟩
    obtain ⟨solve, hsolve⟩ := C64_exists_fixed_yield hr.good hr.phys hwater hS hb
    exact ⟨_, (C77_system hd hr.good hcond hM).2 hS, solve, hsolve _ (hy0 _ rfl)⟩
  · intro F F' d' hd' M' hM' hF hF' solve solve' sim hsim zero ts ts' rows rows' hrun hrun' hex hex'
    have hS := (C77_system hd hr.good hcond hM).1 hF
    have hS' := (C77_system hd' hr.good hcond hM').1 hF'
    obtain rfl : F = F' := by
      funext t y i
      rw [hS.2, hS'.2]
    exact ⟨rfl, C64_unique_fixed_yield hr.good hr.phys hS hsim hb (hy0 _ (by rw [hF.1, hr.length])) hrun hrun' hex hex'⟩

end Runs

/-! ### Humidity, sizes and failures -/

/-- C77: in the first state the particles are in equilibrium with the humidity of the settings. -/
theorem C77_activity (h : extractSpecies toFloat read lines = .ok r) (hg : GoodYield s) (hl : GoodLibrary props)
    {P : Prepared} (hP : prepareYield s toFloat read props lines = .ok (some P)) {b : ℕ} (hb : b < s.numBins) :
    waterActivity P.layout (partArgs P.layout P.const (fun i => P.y0.getD i 0)) (b + 1) = s.rh := by
  have hr := yield_ready_of h hg hl hP
  have hbins : P.layout.numBins = s.numBins := by rw [hr.layout]
  have hc : P.layout.numCond = r.next + 1 := by rw [hr.layout]
  have hn : P.layout.numSpecies = r.next + 1 := by rw [hr.layout]
  have hpos : 0 < P.const.ycore b * P.const.coreDiss :=
    mul_pos (hr.phys.ycore b (by rw [hbins]; exact hb)) hr.phys.coreDiss
  obtain ⟨y, h1, h2, h3⟩ := C53_water_slots P.layout.numCond P.layout.numBins (by omega)
    P.const.ycore P.const.coreDiss s.rh hg.dry.ne
  refine C53_activity P.layout _ y s.rh hg.dry (by omega) h1 ?_ b (by rw [hbins]; exact hb) hpos
  intro k hk
  show P.y0.getD (P.layout.numSpecies + k + 1 - 1) 0 = _
  have hb' : k / P.layout.numCond < P.layout.numBins := Nat.div_lt_of_lt_mul hk
  have hm := Nat.mod_lt k (show 0 < P.layout.numCond by omega)
  have e := hr.particles (k / P.layout.numCond) (k % P.layout.numCond) (by rw [← hbins]; exact hb')
    (by rw [← hc]; exact hm)
  have e' := h3 _ _ hb' hm
  rw [show r.next + 1 + k / P.layout.numCond * (r.next + 1) + k % P.layout.numCond = P.layout.numSpecies + k by
    rw [hn, ← hc, add_assoc, Nat.mul_comm, Nat.div_add_mod]] at e
  rw [Nat.mul_comm, Nat.div_add_mod] at e'
  rw [Nat.add_sub_cancel, List.getD_eq_getElem?_getD, e, List.getD_eq_getElem?_getD, e', hr.humid.1, hc]
  by_cases hk' : k % (r.next + 1) = r.next
  · rw [if_pos hk', if_pos (by omega)]
  · rw [if_neg hk', if_neg (by omega)]

/-- C77: so is the gas, up to one part in ten thousand: the humidity reported for the first state is that of the
settings, but for the different values of the gas constant and the conversion to atmospheres. -/
theorem C77_humidity (h : extractSpecies toFloat read lines = .ok r) (hg : GoodYield s) (hl : GoodLibrary props)
    {P : Prepared} (hP : prepareYield s toFloat read props lines = .ok (some P)) :
    reportedRH P.layout P.const (fun i => P.y0.getD i 0) =
      s.rh * (8.314 / 8.314472 / (0.00000986923 * 101325)) ∧
    |reportedRH P.layout P.const (fun i => P.y0.getD i 0) - s.rh| ≤ 10 ^ (-4 : ℤ) * s.rh := by
  have hr := yield_ready_of h hg hl hP
  have hc : 0 < P.layout.numCond := by rw [hr.layout]; exact Nat.succ_pos _
  have hn : P.layout.numSpecies - 1 = r.next := by rw [hr.layout]; rfl
  have htemp : 0 < s.temp := by have := hg.temp; norm_num at this; linarith
  have hsat : 0 < satVapWater s.temp := Real.exp_pos _
  have hna := hg.na
  have key := (C58_saturation P.layout hc P.const (fun i => P.y0.getD i 0)).1
  rw [hn, List.getD_eq_getElem?_getD, hr.vapour.2, Option.getD_some, hr.vapour.1, hr.humid.2.1, hr.humid.2.2.2.2] at key
  have e : reportedRH P.layout P.const (fun i => P.y0.getD i 0) =
      s.rh * (8.314 / 8.314472 / (0.00000986923 * 101325)) := by
    have h0 : (0.00000986923 * 101325 : ℝ) ≠ 0 := by norm_num
    rw [← mul_left_inj' h0, key]
    field_simp
    ring
  refine ⟨e, ?_⟩
  rw [e, ← mul_sub_one, abs_mul, abs_of_nonneg hg.rh, mul_comm]
  refine mul_le_mul_of_nonneg_right ?_ hg.rh
  norm_num [abs_le]

/-- C77: the mass handed to the simulation [microgram/m3, at the molecular weight of the precursor]. The conversion to
ppb is for the temperature of the settings, that to molecules for 25 degrees: the mass is right at one temperature only. -/
theorem C77_mass (hg : GoodYield s) (c : ℝ) :
    yieldOf s c / s.na * s.vocMw * 10 ^ (12 : ℕ) = c * s.mass * (s.temp / (12.187 * s.na / (24600000000 * 10 ^ (12 : ℕ)))) ∧
    (c ≠ 0 → s.mass ≠ 0 → (yieldOf s c / s.na * s.vocMw * 10 ^ (12 : ℕ) = c * s.mass ↔
      s.temp = 12.187 * s.na / (24600000000 * 10 ^ (12 : ℕ)))) := by
  have h1 := hg.na.ne'
  have h2 := hg.vocMw.ne'
  have e : yieldOf s c / s.na * s.vocMw * 10 ^ (12 : ℕ) =
      c * s.mass * (s.temp / (12.187 * s.na / (24600000000 * 10 ^ (12 : ℕ)))) := by
    unfold yieldOf
    field_simp
  refine ⟨e, fun hc hm => ?_⟩
  rw [e, mul_eq_left₀ (mul_ne_zero hc hm), div_eq_one_iff_eq]
  positivity

/-- C77: a dry bin has the radius the settings ask for, up to one part in a hundred million. -/
theorem C77_radius (h : extractSpecies toFloat read lines = .ok r) (hg : GoodYield s) (hl : GoodLibrary props)
    {P : Prepared} (hP : prepareYield s toFloat read props lines = .ok (some P)) {b : ℕ} (hb : b < s.numBins) (y : ℕ → ℝ)
    (hy : ∀ j < P.layout.numCond, y (P.layout.numSpecies + b * P.layout.numCond + j) = 0) :
    |sizeArray P.layout (partArgs P.layout P.const y) (b + 1) - binRadius s.toSettings b * 10 ^ (-6 : ℤ)| ≤
      10 ^ (-8 : ℤ) * (binRadius s.toSettings b * 10 ^ (-6 : ℤ)) := by
  have hr := yield_ready_of h hg hl hP
  have hb' : b < P.layout.numBins := by rw [hr.layout]; exact hb
  obtain ⟨-, -, e1, e2, e3⟩ := hr.humid
  refine C54_close P.layout _ b (binRadius s.toSettings b) s.coreMw ?_ hg.coreMw hr.phys.na (hr.phys.number b hb')
    (hr.phys.coreDensity b hb') (fun j hj => ?_) ?_ ?_
  · exact mul_pos hg.lower (Real.rpow_pos_of_pos (div_pos (hg.lower.trans hg.upper) hg.lower) _)
  · rw [conc_partArgs]
    exact hy j hj
  · show P.const.ycore b = coreMolecules _ (P.const.coreDensity b) _ P.const.na _
    rw [hr.core b hb, e2, e3]
    rfl
  · show P.const.ycore b / P.const.na * P.const.coreMw b = _
    rw [e1]
    rfl

/-- C77: exactly when the preparation succeeds, and how it fails otherwise. -/
theorem C77_exact (ht : 34.85 < s.temp) (hb : 0 < s.numBins) (hstd : 0 < s.std) :
    ((∃ P, prepareYield s toFloat read props lines = .ok (some P)) ↔
      (∃ r, extractSpecies toFloat read lines = .ok r) ∧ s.vocMw ≠ 0 ∧ 1 < s.std ∧ s.rh ≠ 1) ∧
    (∀ e, extractSpecies toFloat read lines = .error e → prepareYield s toFloat read props lines = .error e) ∧
    ((∃ r, extractSpecies toFloat read lines = .ok r) →
      (s.vocMw = 0 → prepareYield s toFloat read props lines = .error .zeroDiv) ∧
      (s.vocMw ≠ 0 → s.std ≤ 1 → prepareYield s toFloat read props lines = .ok none) ∧
      (s.vocMw ≠ 0 → 1 < s.std → s.rh = 1 → prepareYield s toFloat read props lines = .error .zeroDiv)) := by
  have e1 := yieldVapour_ok ht
  have hfail : ∀ e, extractSpecies toFloat read lines = .error e →
      prepareYield s toFloat read props lines = .error e := fun e he => by
    simp only [prepareYield, e1, he, bind, Except.bind]
  have hweight : ∀ r, extractSpecies toFloat read lines = .ok r → s.vocMw = 0 →
      prepareYield s toFloat read props lines = .error .zeroDiv := fun r h h0 => by
    obtain ⟨p, w, e2, -⟩ := yield_tables (props := props) h s.cutoff
    have e3 : yieldGas s r = .error .zeroDiv := by
      unfold yieldGas
      rw [if_pos (by rw [h0, mul_zero])]
    simp only [prepareYield, e1, h, e2, e3, bind, Except.bind]
  have hnarrow : ∀ r, extractSpecies toFloat read lines = .ok r → s.vocMw ≠ 0 → s.std ≤ 1 →
      prepareYield s toFloat read props lines = .ok none := fun r h h0 h1 => by
    obtain ⟨p, w, e2, e3, -⟩ := yield_tables (props := props) h s.cutoff
    have e4 := C44_narrow s.numBins s.total s.mean s.std s.lower s.upper hb hstd h1
    simp only [prepareYield, e1, h, e2, yieldGas_eq h h0, e3, e4, bind, Except.bind, pure, Except.pure]
  have hsat : ∀ r, extractSpecies toFloat read lines = .ok r → s.vocMw ≠ 0 → 1 < s.std → s.rh = 1 →
      prepareYield s toFloat read props lines = .error .zeroDiv := fun r h h0 h1 h2 => by
    obtain ⟨p, w, e2, e3, -⟩ := yield_tables (props := props) h s.cutoff
    have e4 := lognormal_eq s.numBins s.total s.mean s.std s.lower s.upper h1
    have e5 := fun f => C53_saturated w.numCond s.numBins hb f s.coreDiss
    rw [← h2] at e5
    simp only [prepareYield, e1, h, e2, yieldGas_eq h h0, e3, e4, bind, Except.bind, e5]
  refine ⟨⟨?_, ?_⟩, hfail, fun ⟨r, h⟩ => ⟨hweight r h, hnarrow r h, hsat r h⟩⟩
  · rintro ⟨P, hP⟩
    cases h : extractSpecies toFloat read lines with
    | error e => rw [hfail e h] at hP; cases hP
    | ok r =>
      refine ⟨⟨r, rfl⟩, ?_⟩
      by_cases h0 : s.vocMw = 0
      · rw [hweight r h h0] at hP; cases hP
      by_cases h1 : 1 < s.std
      · by_cases h2 : s.rh = 1
        · rw [hsat r h h0 h1 h2] at hP; cases hP
        · exact ⟨h0, h1, h2⟩
      · rw [hnarrow r h h0 (not_lt.1 h1)] at hP; cases hP
  · rintro ⟨⟨r, h⟩, h0, h1, h2⟩
    obtain ⟨p, w, e2, e3, -, hc, -⟩ := yield_tables (props := props) h s.cutoff
    obtain ⟨⟨N, x⟩, e4⟩ : ∃ p, lognormal s.numBins s.total s.mean s.std s.lower s.upper = some p :=
      ⟨_, lognormal_eq s.numBins s.total s.mean s.std s.lower s.upper h1⟩
    obtain ⟨cond, e5, -⟩ := C53_water_slots w.numCond s.numBins (by omega) (coreOf s.toSettings N x) s.coreDiss s.rh h2
    exact ⟨⟨⟨s.numBins, w.numSpecies, w.numCond, w.incl⟩, inputDict s.toSettings w N x,
      s.rh * s.na * satVapWater s.temp * 0.000001 / (8.314472 * s.temp), w.index, r.conc.map (fun c : ℚ => yieldOf s c) ++
        [s.rh * s.na * satVapWater s.temp * 0.000001 / (8.314472 * s.temp)] ++ cond⟩, by
        simp only [prepareYield, e1, h, e2, yieldGas_eq h h0, e3, e4, e5, bind, Except.bind, pure, Except.pure]⟩

end

/-! ### The other driver -/

section

variable {O : Type} {s : Settings} {text : Str} {m : Mechanism} {smiles : Dict Str Str} {pybel : Dict Str O}
  {props : O → PureProps}

/-- C76: the humidity reported for the first state of the other driver is that of the settings times a function of the
temperature alone, as it computes water vapour with another formula for the saturation pressure. -/
theorem C76_reported (h : extractMechanism text = .ok m) (hs : Structures smiles pybel) (hg : GoodSettings s)
    (hl : GoodLibrary props) (hn : KnownNames s m) {P : Prepared}
    (hP : prepareRun s m smiles pybel props = .ok (some P)) :
    reportedRH P.layout P.const (fun i => P.y0.getD i 0) = s.rh * (602214090000000000000000 / s.na) *
      (610.78 * Real.exp ((s.temp - 273.15) / (s.temp - 34.85) * 17.2694) / satVapWater s.temp) *
      (s.temp / (s.temp + 0.01)) * (0.002166 / 0.018 * 8.314 / (0.00000986923 * 101325)) := by
  have hr := ready_of h hs hg hl hn hP
  have hc := hr.cond
  have htemp : 0 < s.temp := by have := hg.temp; norm_num at this; linarith
  have hsat : 0 < satVapWater s.temp := Real.exp_pos _
  have hna := hg.na
  have key := (C58_saturation P.layout (by omega) P.const (fun i => P.y0.getD i 0)).1
  have hv := hr.vapour.1
  unfold waterVapour at hv
  dsimp only at hv
  rw [if_neg (by have := hg.temp; rintro (h | h) <;> norm_num at h this ⊢ <;> linarith)] at hv
  injection hv with hv
  rw [show P.layout.numSpecies - 1 = m.tables.species.length by rw [hr.species]; rfl, List.getD_eq_getElem?_getD,
    hr.vapour.2, Option.getD_some, ← hv, hr.humid.2.1, hr.humid.2.2.2.2] at key
  have h0 : (0.00000986923 * 101325 : ℝ) ≠ 0 := by norm_num
  rw [← mul_left_inj' h0, key, show s.temp - 273.15 + 238.3 = s.temp - 34.85 by ring,
    show s.temp - 273.15 + 273.16 = s.temp + 0.01 by ring]
  have h1 : s.temp + 0.01 ≠ 0 := by positivity
  field_simp
  ring

end

/-! ### Examples -/

/-- The file `MCM_yield.txt` beside the driver. -/
def yieldLines : List Str :=
   ["O=CCC1CC(OO)(C(=O)C)C1(C)C 0.35051".toList,
    "OC(=O)CC1CC(C(=O)C)C1(C)C 0.18951".toList,
    "OCC1CC(OO)(C(=O)C)C1(C)C 0.15883".toList,
    "O=CCC1CC(C(=O)C)C1(C)C 0.10359".toList,
    "O=CCC(CC(=O)C(=O)C)C(C)(C)OO 0.11597".toList,
    "O=CCC1CC(C(=O)O)C1(C)C 0.07496".toList,
    "O=CCC1CC(O)(C(=O)C)C1(C)C 0.05317".toList,
    "OCC1CC(C(=O)C)C1(C)C 0.04570".toList,
    "O=CC1CC(C(=O)C)C1(C)C 0.04511".toList,
    "OC(=O)CC1CC(C(=O)O)C1(C)C 0.04554".toList,
    "OCC(=O)C1(OO)CC(CO)C1(C)C 0.03662".toList,
    "OOCC(=O)C1CC(CC=O)C1(C)C 0.02834".toList,
    "OOCC1CC(C(=O)C)C1(C)C 0.02614".toList,
    "O=CCC1CC(OO)C1(C)C 0.02538".toList,
    "OCC1CC(OO)(C(=O)O)C1(C)C 0.02977".toList,
    "OCC(=O)C1CC(CC(=O)O)C1(C)C 0.02205".toList,
    "O=CCC1CC(C(=O)C=O)C1(C)C 0.01877".toList,
    "O=CCC1CC(C(=O)CO)C1(C)C 0.01884".toList,
    "OCC1CC(C(=O)O)C1(C)C 0.01591".toList,
    "O=CC1CC(C(=O)O)C1(C)C 0.01572".toList,
    "OCC(CC(=O)C(=O)O)C(C)(C)OO 0.01249".toList]

/-- The settings of the driver with their 16 bins, 30 micrograms of alpha-pinene. -/
noncomputable def yieldSettings : YieldSettings where
  toSettings := driverSettings 16 []
  mass := 30
  vocMw := 136.24

theorem yieldSettings_good : GoodYield yieldSettings := by
  constructor <;> norm_num [yieldSettings, driverSettings]

/-- At 288.15 K it hands over three percent less than these. -/
example : 12.187 * yieldSettings.na / (24600000000 * 10 ^ (12 : ℕ)) > 298.3 ∧ yieldSettings.temp = 288.15 := by
  norm_num [yieldSettings, driverSettings]

theorem yieldLines_read : ∃ r, extractSpecies (fun v => Except.ok (pyFloat v)) (fun n => Except.ok n) yieldLines = .ok r ∧ r.next = 21 ∧
    (∀ c ∈ r.conc, 0 ≤ c) ∧ r.conc.sum = 1.43292 := by
  have hd : (match extractSpecies (fun v => Except.ok (pyFloat v)) (fun n => Except.ok n) yieldLines with
      | .ok r => decide (r.next = 21 ∧ (∀ c ∈ r.conc, 0 ≤ c) ∧ r.conc.sum = 1.43292)
      | .error _ => false) = true := by decide +kernel
  revert hd
  cases extractSpecies (fun v => Except.ok (pyFloat v)) (fun n => Except.ok n) yieldLines with
  | error e => simp
  | ok r => exact fun h => ⟨r, rfl, of_decide_eq_true h⟩

/-- The hypotheses of C77 are met by the file and the settings of the driver, any properties with positive densities and
weights and any threads. In 36 batches of 100 seconds the species together keep what their yields give them. -/
example (props : Str → PureProps) (hl : GoodLibrary props) : ∃ P,
    prepareYield yieldSettings (fun v => Except.ok (pyFloat v)) (fun n => Except.ok n) props yieldLines = .ok (some P) ∧
    ∀ (M : ℝ → (ℕ → ℝ) → Machine P.layout) (_ : ∀ t y, (M t y).Orderly) (d : Str) (_ : '\n' ∉ d),
    ∃ (F : ℝ → (Fin P.y0.length → ℝ) → Fin P.y0.length → ℝ) (solve : (Fin P.y0.length → ℝ) → ℚ → Fin P.y0.length → ℝ)
      (ts : List ℚ) (rows : List (Fin P.y0.length → ℝ)), YieldFileSystem
        (Ft.partText d P.layout (P.layout.numSpecies + P.layout.numBins * P.layout.numCond)) P.layout P.const M F ∧
      runSimulation id solve (fun _ => 0) (startVector P P.y0.length) 3600 100 = .ok (ts, rows) ∧
      ExactBatches F solve 100 (startVector P P.y0.length) rows.length ∧ rows.length = 36 ∧
      ∀ row ∈ rows, (∀ i, 0 ≤ row i) ∧ ∑ i ∈ Finset.range 21, allPhases P.layout (stateOf row) i =
        1.43292 * (30 * 288.15 / (12.187 * 136.24)) * 24600000000 := by
  obtain ⟨r, h, hn, hc, hsum⟩ := yieldLines_read
  obtain ⟨P, hP, -⟩ := C77_prepared (props := props) h yieldSettings_good hl
  refine ⟨P, hP, fun M hM d hd => ?_⟩
  obtain ⟨⟨F, hF, solve, hsolve⟩, -⟩ := C77_determined (n := 0) h yieldSettings_good hl hc hP hd hM (batch := 100)
    (by norm_num)
  have hrun := C32_C33_whole_batches (n := 36) (batch := 100) (by norm_num) (by norm_num)
    (exact_id 100 36) solve (fun _ => 0) (startVector P P.y0.length)
  rw [show ((36 : ℕ) : ℚ) * 100 = 3600 by norm_num] at hrun
  refine ⟨F, solve, _, _, hF, hrun, hsolve _, by simp, fun row hrow => ?_⟩
  obtain ⟨r1, -, r3, -⟩ := C77_run h yieldSettings_good hl hc hP hd hM hF (by norm_num) (by norm_num) hrun (hsolve _)
    row hrow
  rw [hn] at r3
  refine ⟨r1, r3.trans ?_⟩
  rw [hsum]
  norm_num [yieldOf, yieldSettings, driverSettings]

end PyBox
