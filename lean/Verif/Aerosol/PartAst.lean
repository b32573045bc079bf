import Verif.Aerosol.PartText

/-!
# The statements of the generated partitioning routine

What the reader of `Aerosol/Fortran.lean` makes of the text of `Partitioning.f90`.  Variables are numbered in the
order of their declarations (`partDecls`).
-/

namespace PyBox
namespace Ft

/-- The dummy arguments (3463–3470). -/
def partArgNames : List Str := [
  "y".toList, "ycore".toList, "core_diss".toList, "core_mass_array".toList,
  "density_input".toList, "core_density_array".toList, "ignore_index".toList, "mw_array".toList,
  "psat".toList, "dstar_org".toList, "alpha_d_org".toList, "c_g_i_t".toList,
  "n_perbin".toList, "gamma_gas".toList, "latent_heat".toList, "grav".toList,
  "updraft".toList, "sigma".toList, "na".toList, "kb".toList,
  "rv".toList, "r_gas".toList, "model_temp".toList, "cp".toList,
  "ra".toList, "lv_water_vapour".toList, "total_soa_mass".toList, "aw_array".toList,
  "size_array".toList, "dy_dt".toList]

/-- The declarations (3475–3517). -/
def partDecls (ρ : Hole → ℕ) : List Decl := [
  /- 0 -/ ⟨"y".toList, .real, .input, [ρ .total]⟩,
  /- 1 -/ ⟨"ycore".toList, .real, .input, [ρ .bins]⟩,
  /- 2 -/ ⟨"core_mass_array".toList, .real, .input, [ρ .bins]⟩,
  /- 3 -/ ⟨"core_density_array".toList, .real, .input, [ρ .bins]⟩,
  /- 4 -/ ⟨"n_perbin".toList, .real, .input, [ρ .bins]⟩,
  /- 5 -/ ⟨"density_input".toList, .real, .input, [ρ .cond]⟩,
  /- 6 -/ ⟨"dstar_org".toList, .real, .input, [ρ .cond]⟩,
  /- 7 -/ ⟨"alpha_d_org".toList, .real, .input, [ρ .cond]⟩,
  /- 8 -/ ⟨"gamma_gas".toList, .real, .input, [ρ .cond]⟩,
  /- 9 -/ ⟨"latent_heat".toList, .real, .input, [ρ .cond]⟩,
  /- 10 -/ ⟨"c_g_i_t".toList, .real, .input, [ρ .cond]⟩,
  /- 11 -/ ⟨"ignore_index".toList, .int, .input, [ρ .species]⟩,
  /- 12 -/ ⟨"mw_array".toList, .real, .input, [ρ .cond]⟩,
  /- 13 -/ ⟨"psat".toList, .real, .input, [ρ .cond]⟩,
  /- 14 -/ ⟨"core_diss".toList, .real, .input, []⟩,
  /- 15 -/ ⟨"grav".toList, .real, .input, []⟩,
  /- 16 -/ ⟨"updraft".toList, .real, .input, []⟩,
  /- 17 -/ ⟨"cp".toList, .real, .input, []⟩,
  /- 18 -/ ⟨"ra".toList, .real, .input, []⟩,
  /- 19 -/ ⟨"lv_water_vapour".toList, .real, .input, []⟩,
  /- 20 -/ ⟨"sigma".toList, .real, .input, []⟩,
  /- 21 -/ ⟨"na".toList, .real, .input, []⟩,
  /- 22 -/ ⟨"kb".toList, .real, .input, []⟩,
  /- 23 -/ ⟨"rv".toList, .real, .input, []⟩,
  /- 24 -/ ⟨"r_gas".toList, .real, .input, []⟩,
  /- 25 -/ ⟨"model_temp".toList, .real, .input, []⟩,
  /- 26 -/ ⟨"total_soa_mass".toList, .real, .output, []⟩,
  /- 27 -/ ⟨"aw_array".toList, .real, .output, [ρ .bins]⟩,
  /- 28 -/ ⟨"size_array".toList, .real, .output, [ρ .bins]⟩,
  /- 29 -/ ⟨"dy_dt".toList, .real, .output, [ρ .total]⟩,
  /- 30 -/ ⟨"inverse_kn".toList, .real, .plain, [ρ .cond]⟩,
  /- 31 -/ ⟨"correction_part1".toList, .real, .plain, [ρ .cond]⟩,
  /- 32 -/ ⟨"correction_part2".toList, .real, .plain, [ρ .cond]⟩,
  /- 33 -/ ⟨"correction_part3".toList, .real, .plain, [ρ .cond]⟩,
  /- 34 -/ ⟨"correction".toList, .real, .plain, [ρ .cond]⟩,
  /- 35 -/ ⟨"kn".toList, .real, .plain, [ρ .cond]⟩,
  /- 36 -/ ⟨"dm_dt".toList, .real, .plain, [ρ .cond]⟩,
  /- 37 -/ ⟨"k_i_m_t_part1".toList, .real, .plain, [ρ .cond]⟩,
  /- 38 -/ ⟨"k_i_m_t".toList, .real, .plain, [ρ .cond]⟩,
  /- 39 -/ ⟨"dy_dt_gas_matrix".toList, .real, .plain, [ρ .species, ρ .bins]⟩,
  /- 40 -/ ⟨"total_soa_mass_array".toList, .real, .plain, [ρ .bins]⟩,
  /- 41 -/ ⟨"total_moles".toList, .real, .plain, []⟩,
  /- 42 -/ ⟨"density".toList, .real, .plain, []⟩,
  /- 43 -/ ⟨"diameter".toList, .real, .plain, []⟩,
  /- 44 -/ ⟨"radius".toList, .real, .plain, []⟩,
  /- 45 -/ ⟨"water_moles".toList, .real, .plain, []⟩,
  /- 46 -/ ⟨"pressure_eq".toList, .real, .plain, [ρ .cond]⟩,
  /- 47 -/ ⟨"cstar_i_m_t".toList, .real, .plain, [ρ .cond]⟩,
  /- 48 -/ ⟨"kelvin_factor".toList, .real, .plain, [ρ .cond]⟩,
  /- 49 -/ ⟨"y_mole_fractions".toList, .real, .plain, [ρ .cond]⟩,
  /- 50 -/ ⟨"temp_array".toList, .real, .plain, [ρ .cond]⟩,
  /- 51 -/ ⟨"mass_array".toList, .real, .plain, [ρ .cond1]⟩,
  /- 52 -/ ⟨"density_array".toList, .real, .plain, [ρ .cond1]⟩,
  /- 53 -/ ⟨"mass_fractions_array".toList, .real, .plain, [ρ .cond1]⟩,
  /- 54 -/ ⟨"total_water_cond_mass".toList, .real, .plain, []⟩,
  /- 55 -/ ⟨"total_mass".toList, .real, .plain, []⟩,
  /- 56 -/ ⟨"size_step".toList, .int, .plain, []⟩,
  /- 57 -/ ⟨"index1".toList, .int, .plain, []⟩,
  /- 58 -/ ⟨"index2".toList, .int, .plain, []⟩,
  /- 59 -/ ⟨"pi".toList, .real, (.const (.real (31415927 / 10000000))), []⟩,
  /- 60 -/ ⟨"num_species".toList, .int, (.const (.int (ρ .species))), []⟩,
  /- 61 -/ ⟨"num_species_condensed".toList, .int, (.const (.int (ρ .cond))), []⟩]

/-- Before the loop (3519–3531). -/
def partPre : List Stmt := [
  ⟨.all 40, .real 0⟩,
  ⟨.all2 39, .real 0⟩,
  ⟨.all 46, .real 0⟩,
  ⟨.all 47, .real 0⟩,
  ⟨.all 48, .real 0⟩,
  ⟨.all 49, .real 0⟩,
  ⟨.all 50, .real 0⟩,
  ⟨.all 51, .real 0⟩,
  ⟨.all 52, .real 0⟩,
  ⟨.all 53, .real 0⟩,
  ⟨.all 27, .real 0⟩,
  ⟨.all 28, .real 0⟩,
  ⟨.all 29, .real 0⟩]

/-- The loop up to `dm_dt` (3550–3626). -/
def partBody1 : List Stmt := [
  ⟨.all 50, .sec 0 (.add (.add (.var 60) (.int 1)) (.mul (.sub (.var 56) (.int 1)) (.var 61))) (.add (.var 60) (.mul (.var 56) (.var 61)))⟩,
  ⟨.var 41, .add (.sum (.all 50)) (.mul (.elem 1 (.var 56)) (.var 14))⟩,
  ⟨.all 49, .div (.all 50) (.var 41)⟩,
  ⟨.sec 51 (.int 1) (.var 61), .mul (.div (.all 50) (.var 21)) (.all 12)⟩,
  ⟨.elem 51 (.add (.var 61) (.int 1)), .elem 2 (.var 56)⟩,
  ⟨.sec 52 (.int 1) (.var 61), .sec 5 (.int 1) (.var 61)⟩,
  ⟨.elem 52 (.add (.var 61) (.int 1)), .elem 3 (.var 56)⟩,
  ⟨.elem 40 (.var 56), .sum (.sec 51 (.int 1) (.sub (.var 61) (.int 1)))⟩,
  ⟨.var 54, .add (.var 54) (.elem 51 (.var 61))⟩,
  ⟨.elem 27 (.var 56), .div (.elem 50 (.var 61)) (.var 41)⟩,
  ⟨.var 55, .sum (.all 51)⟩,
  ⟨.all 53, .div (.all 51) (.var 55)⟩,
  ⟨.var 42, .div (.real 1) (.sum (.div (.all 53) (.all 52)))⟩,
  ⟨.elem 28 (.var 56), .pow (.div (.mul (.real 3) (.div (.mul (.var 55) (.real 1000)) (.mul (.elem 4 (.var 56)) (.real 1000000)))) (.mul (.mul (.real 4) (.var 59)) (.var 42))) (.div (.real 1) (.real 3))⟩,
  ⟨.all 35, .div (.all 8) (.elem 28 (.var 56))⟩,
  ⟨.all 30, .div (.real 1) (.all 35)⟩,
  ⟨.all 31, .div (.add (.real (133 / 100)) (.mul (.real (71 / 100)) (.all 30))) (.add (.real 1) (.all 30))⟩,
  ⟨.all 32, .div (.mul (.real 4) (.sub (.real 1) (.all 7))) (.mul (.real 3) (.all 7))⟩,
  ⟨.all 33, .add (.real 1) (.mul (.add (.all 31) (.all 32)) (.all 35))⟩,
  ⟨.all 34, .div (.real 1) (.all 33)⟩,
  ⟨.all 48, .exp (.div (.mul (.mul (.mul (.real 4) (.all 12)) (.real (1 / 1000))) (.var 20)) (.mul (.mul (.mul (.mul (.var 24) (.var 25)) (.elem 28 (.var 56))) (.real 2)) (.var 42)))⟩,
  ⟨.all 46, .mul (.mul (.mul (.all 48) (.all 49)) (.all 13)) (.real 101325)⟩,
  ⟨.all 47, .mul (.all 46) (.div (.var 21) (.mul (.real (41572299 / 5)) (.var 25)))⟩,
  ⟨.all 37, .mul (.all 6) (.all 34)⟩,
  ⟨.all 38, .mul (.mul (.mul (.mul (.mul (.real 4) (.var 59)) (.elem 28 (.var 56))) (.real 100)) (.elem 4 (.var 56))) (.all 37)⟩,
  ⟨.all 36, .mul (.all 38) (.sub (.all 10) (.all 47))⟩]

/-- `dy_dt_gas_matrix(num+1,size_step)=dm_dt(step+1)` (3635). -/
def gasStmt (p : ℕ × ℕ) : Stmt :=
  ⟨.elem2 39 (.int (p.1 + 1)) (.var 56), .elem 36 (.int (p.2 + 1))⟩

/-- The end of the loop (3639–3641). -/
def partBody2 : List Stmt := [
  ⟨.var 57, .add (.add (.var 60) (.int 1)) (.mul (.sub (.var 56) (.int 1)) (.var 61))⟩,
  ⟨.var 58, .add (.var 60) (.mul (.var 56) (.var 61))⟩,
  ⟨.sec 29 (.var 57) (.var 58), .sec 36 (.int 1) (.var 61)⟩]

/-- The variables of the `PRIVATE` clauses (3534–3541). -/
def partPriv : List ℕ := [56, 55, 41, 49, 50, 51, 53, 52, 42, 45, 35, 30, 31, 32, 33, 34, 48, 46, 47, 37, 38, 36]

/-- After the loop (3645–3646). -/
def partPost : List Stmt := [
  ⟨.sec 29 (.int 1) (.var 60), .sub (.sec 29 (.int 1) (.var 60)) (.rowSums 39)⟩,
  ⟨.var 26, .mul (.sum (.var 40)) (.real 1000000000000)⟩]

/-- The routine. -/
def partRoutine (L : Aerosol.Layout) (total : ℕ) : Routine where
  args := partArgNames
  decls := partDecls (holes L total)
  pre := partPre
  loop := ⟨56, .int 1, .int L.numBins, partBody1 ++ L.incl.zipIdx.map gasStmt ++ partBody2, partPriv⟩
  post := partPost

end Ft
end PyBox
