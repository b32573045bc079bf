import Verif.Aerosol.Source

/-!
# Fixed text of the partitioning routine for all species

Written by `/verif/tools/partition_source_all.py` from `write_partitioning_section_fortran`
(`/repo/Parse_eqn_file.py` 3203–3416), which no driver calls: one entry per `f.write`, without the line feed at
its end; the number before it is the line of the call.  The hole `cond1` is `num_species+1`.
-/

namespace PyBox
namespace Ft

/-- Comment before the line with the date. -/
def allTop : List (List Piece) := [
  /- 3221 -/ [.txt (chars% "!##################################################################################################### ")],
  /- 3222 -/ [.txt (chars% "! Fortran function to calculating dy/dt according to gas-to-particle partitioning                    # ")],
  /- 3223 -/ [.txt (chars% "!    Copyright (C) 2018  David Topping : david.topping@manchester.ac.uk                             # ")],
  /- 3224 -/ [.txt (chars% "!                                      : davetopp80@gmail.com                                       # ")],
  /- 3225 -/ [.txt (chars% "!    Personal website: davetoppingsci.com                                                           # ")],
  /- 3226 -/ [.txt (chars% "!                                                                                                   # ")],
  /- 3227 -/ [.txt (chars% "!    All Rights Reserved.                                                                           # ")],
  /- 3228 -/ [.txt (chars% "!    This file is part of PyBox.                                                                    # ")],
  /- 3229 -/ [.txt (chars% "!                                                                                                   # ")],
  /- 3230 -/ [.txt (chars% "!    PyBox is free software: you can redistribute it and/or modify it under                         # ")],
  /- 3231 -/ [.txt (chars% "!    the terms of the GNU General Public License as published by the Free Software                  # ")],
  /- 3232 -/ [.txt (chars% "!    Foundation, either version 3 of the License, or (at your option) any later                     # ")],
  /- 3233 -/ [.txt (chars% "!    version.                                                                                       # ")],
  /- 3234 -/ [.txt (chars% "!                                                                                                   # ")],
  /- 3235 -/ [.txt (chars% "!    PyBox is distributed in the hope that it will be useful, but WITHOUT                           # ")],
  /- 3236 -/ [.txt (chars% "!    ANY WARRANTY; without even the implied warranty of MERCHANTABILITY or FITNESS                  # ")],
  /- 3237 -/ [.txt (chars% "!    FOR A PARTICULAR PURPOSE.  See the GNU General Public License for more                         # ")],
  /- 3238 -/ [.txt (chars% "!    details.                                                                                       # ")],
  /- 3239 -/ [.txt (chars% "!                                                                                                   # ")],
  /- 3240 -/ [.txt (chars% "!    You should have received a copy of the GNU General Public License along with                   # ")],
  /- 3241 -/ [.txt (chars% "!    PyBox.  If not, see <http://www.gnu.org/licenses/>.                                            # ")],
  /- 3242 -/ [.txt (chars% "!                                                                                                   # ")],
  /- 3243 -/ [.txt (chars% "!##################################################################################################### ")]]

/-- After the line with the date. -/
def allRest : List (List Piece) := [
  /- 3245 -/ [.txt (chars% "")],
  /- 3247 -/ [.txt (chars% "")],
  /- 3248 -/ [.txt (chars% "subroutine dydt_partition(y,ycore,core_diss,core_mass_array,& ")],
  /- 3249 -/ [.txt (chars% "                          density_input,core_density_array,& ")],
  /- 3250 -/ [.txt (chars% "                          ignore_index,mw_array,Psat,& ")],
  /- 3251 -/ [.txt (chars% "                          DStar_org,alpha_d_org,C_g_i_t,N_perbin,& ")],
  /- 3252 -/ [.txt (chars% "                          gamma_gas,Latent_heat,GRAV,Updraft,& ")],
  /- 3253 -/ [.txt (chars% "                          sigma,NA,kb,Rv,R_gas,Model_temp,& ")],
  /- 3254 -/ [.txt (chars% "                          cp,Ra,Lv_water_vapour,total_SOA_mass,& ")],
  /- 3255 -/ [.txt (chars% "                          aw_array,size_array,dy_dt) ")],
  /- 3256 -/ [.txt (chars% "")],
  /- 3257 -/ [.txt (chars% "    implicit none ")],
  /- 3258 -/ [.txt (chars% "")],
  /- 3259 -/ [.txt (chars% "    !Define variables in order of appearance. Leave intent(out) until end ")],
  /- 3260 -/ [.txt (chars% "    REAL(8), intent(in), dimension("), .hole .total, .txt (chars% ") :: y ")],
  /- 3261 -/ [.txt (chars% "    !f2py intent(in) :: y ")],
  /- 3262 -/ [.txt (chars% "    REAL(8), intent(in), dimension("), .hole .bins, .txt (chars% ") :: ycore,core_mass_array,& ")],
  /- 3263 -/ [.txt (chars% "                         core_density_array, N_perbin ")],
  /- 3264 -/ [.txt (chars% "    !f2py intent(in) ::  ycore,core_mass_array ")],
  /- 3265 -/ [.txt (chars% "    !f2py intent(in) ::  core_density_array, N_perbin ")],
  /- 3266 -/ [.txt (chars% "    REAL(8), intent(in), dimension("), .hole .species, .txt (chars% ") :: density_input,DStar_org,& ")],
  /- 3267 -/ [.txt (chars% "                         alpha_d_org, gamma_gas, Latent_heat,C_g_i_t ")],
  /- 3268 -/ [.txt (chars% "    !f2py intent(in) ::  density_input,DStar_org ")],
  /- 3269 -/ [.txt (chars% "    !f2py intent(in) ::  alpha_d_org, gamma_gas, Latent_heat, C_g_i_t ")],
  /- 3270 -/ [.txt (chars% "    INTEGER(8), intent(in), dimension("), .hole .species, .txt (chars% ") :: ignore_index ")],
  /- 3271 -/ [.txt (chars% "    !f2py intent(in) ::  ignore_index ")],
  /- 3272 -/ [.txt (chars% "    REAL(8), intent(in), dimension("), .hole .species, .txt (chars% ") :: mw_array,Psat ")],
  /- 3273 -/ [.txt (chars% "    !f2py intent(in) ::  mw_array,Psat ")],
  /- 3274 -/ [.txt (chars% "    !Global variables - define in parent routine ")],
  /- 3275 -/ [.txt (chars% "    REAL(8), intent(in) :: core_diss, GRAV,Updraft,cp,Ra,Lv_water_vapour ")],
  /- 3276 -/ [.txt (chars% "    !f2py intent(in) :: core_diss,GRAV,Updraft,cp,Ra,Lv_water_vapour ")],
  /- 3277 -/ [.txt (chars% "    REAL(8), intent(in) :: sigma,NA,kb,Rv,R_gas,Model_temp ")],
  /- 3278 -/ [.txt (chars% "    !f2py intent(in) :: sigma,NA,kb,Rv,R_gas,Model_temp ")],
  /- 3279 -/ [.txt (chars% "    REAL(8), intent(out) :: total_SOA_mass ")],
  /- 3280 -/ [.txt (chars% "    REAL(8), intent(out), dimension("), .hole .bins, .txt (chars% ") :: aw_array ")],
  /- 3281 -/ [.txt (chars% "    REAL(8), intent(out), dimension("), .hole .bins, .txt (chars% ") :: size_array ")],
  /- 3282 -/ [.txt (chars% "    REAL(8), intent(out), dimension("), .hole .total, .txt (chars% ") :: dy_dt ")],
  /- 3283 -/ [.txt (chars% "    !f2py intent(out) :: total_SOA_mass,aw_array,size_array,dy_dt ")],
  /- 3284 -/ [.txt (chars% "")],
  /- 3285 -/ [.txt (chars% "    !temporary variables used in each size bin calculation ")],
  /- 3286 -/ [.txt (chars% "    REAL(8), dimension("), .hole .species, .txt (chars% ") :: Inverse_Kn, Correction_part1, &")],
  /- 3287 -/ [.txt (chars% "                              Correction_part2, Correction_part3,& ")],
  /- 3288 -/ [.txt (chars% "                              Correction, Kn, dm_dt,& ")],
  /- 3289 -/ [.txt (chars% "                              k_i_m_t_part1, k_i_m_t ")],
  /- 3290 -/ [.txt (chars% "    REAL(8), dimension("), .hole .species, .txt (chars% ","), .hole .bins, .txt (chars% ") :: dy_dt_gas_matrix ")],
  /- 3291 -/ [.txt (chars% "    REAL(8) total_moles, density, diameter, radius, water_moles  ")],
  /- 3292 -/ [.txt (chars% "    REAL(8), dimension("), .hole .species, .txt (chars% ") :: Pressure_eq, Cstar_i_m_t ")],
  /- 3293 -/ [.txt (chars% "    REAL(8), dimension("), .hole .species, .txt (chars% ") :: kelvin_factor,y_mole_fractions  ")],
  /- 3294 -/ [.txt (chars% "    REAL(8), dimension("), .hole .species, .txt (chars% ") :: temp_array  ")],
  /- 3295 -/ [.txt (chars% "    REAL(8), dimension("), .hole .cond1, .txt (chars% ") :: mass_array, density_array, mass_fractions_array ")],
  /- 3296 -/ [.txt (chars% "    REAL(8) total_water_cond_mass, total_mass ")],
  /- 3297 -/ [.txt (chars% "    INTEGER(8) size_step, index1, index2  ")],
  /- 3298 -/ [.txt (chars% "")],
  /- 3299 -/ [.txt (chars% "    REAL(8), PARAMETER :: Pi = 3.1415927 ")],
  /- 3300 -/ [.txt (chars% "    INTEGER(8), PARAMETER :: num_species = "), .hole .species, .txt (chars% " ")],
  /- 3301 -/ [.txt (chars% "")],
  /- 3302 -/ [.txt (chars% "    !Set all output variables to 0 ")],
  /- 3303 -/ [.txt (chars% "    total_SOA_mass_array(:)=0.0D0 ")],
  /- 3304 -/ [.txt (chars% "    dy_dt_gas_matrix(:,:)=0.0D0 ")],
  /- 3305 -/ [.txt (chars% "    Pressure_eq(:)=0.0D0 ")],
  /- 3306 -/ [.txt (chars% "    Cstar_i_m_t(:)=0.0D0 ")],
  /- 3307 -/ [.txt (chars% "    kelvin_factor(:)=0.0D0 ")],
  /- 3308 -/ [.txt (chars% "    y_mole_fractions(:)=0.0D0 ")],
  /- 3309 -/ [.txt (chars% "    temp_array(:)=0.0D0 ")],
  /- 3310 -/ [.txt (chars% "    mass_array(:)=0.0D0 ")],
  /- 3311 -/ [.txt (chars% "    density_array(:)=0.0D0 ")],
  /- 3312 -/ [.txt (chars% "    mass_fractions_array(:)=0.0D0 ")],
  /- 3313 -/ [.txt (chars% "    aw_array(:)=0.0D0 ")],
  /- 3314 -/ [.txt (chars% "    size_array(:)=0.0D0 ")],
  /- 3315 -/ [.txt (chars% "    dy_dt(:)=0.0D0 ")],
  /- 3316 -/ [.txt (chars% "!$OMP PARALLEL DO &")],
  /- 3317 -/ [.txt (chars% "!$OMP& PRIVATE(size_step,total_mass),& ")],
  /- 3318 -/ [.txt (chars% "!$OMP& PRIVATE(total_moles,y_mole_fractions,temp_array), & ")],
  /- 3319 -/ [.txt (chars% "!$OMP& PRIVATE(mass_array,mass_fractions_array,density_array), & ")],
  /- 3320 -/ [.txt (chars% "!$OMP& PRIVATE(density,water_moles), & ")],
  /- 3321 -/ [.txt (chars% "!$OMP& PRIVATE(Kn,Inverse_Kn,Correction_part1, Correction_part2), & ")],
  /- 3322 -/ [.txt (chars% "!$OMP& PRIVATE(Correction_part3,Correction,kelvin_factor), & ")],
  /- 3323 -/ [.txt (chars% "!$OMP& PRIVATE(Pressure_eq,Cstar_i_m_t,k_i_m_t_part1), & ")],
  /- 3324 -/ [.txt (chars% "!$OMP& PRIVATE(k_i_m_t,dm_dt), & ")],
  /- 3325 -/ [.txt (chars% "!$OMP& SHARED(total_SOA_mass,total_water_cond_mass,size_array), & ")],
  /- 3326 -/ [.txt (chars% "!$OMP& SHARED(ycore,core_diss,mw_array,density_input), & ")],
  /- 3327 -/ [.txt (chars% "!$OMP& SHARED(C_g_i_t,dy_dt,core_mass_array,R_gas,Psat), & ")],
  /- 3328 -/ [.txt (chars% "!$OMP& SHARED(gamma_gas,NA,alpha_d_org,Model_temp,DStar_org), & ")],
  /- 3329 -/ [.txt (chars% "!$OMP& SHARED(dy_dt_gas_matrix,aw_array) ")],
  /- 3330 -/ [.txt (chars% "    DO size_step=1,"), .hole .bins, .txt (chars% " ")],
  /- 3331 -/ [.txt (chars% "")],
  /- 3332 -/ [.txt (chars% "        ! 1) Select a slice of y that represents this size bin ")],
  /- 3333 -/ [.txt (chars% "        temp_array(:)=y(num_species+1+((size_step-1)*num_species):num_species+& ")],
  /- 3334 -/ [.txt (chars% "        ((size_step)*num_species))")],
  /- 3335 -/ [.txt (chars% "        total_moles=SUM(temp_array(:))+ycore(size_step)*core_diss")],
  /- 3336 -/ [.txt (chars% "        y_mole_fractions(:)=temp_array(:)/total_moles")],
  /- 3337 -/ [.txt (chars% "        ! 2) Now mask the array to set the mole fracs of some species to 0 [inc oxidants]")],
  /- 3338 -/ [.txt (chars% "        WHERE (ignore_index==1) y_mole_fractions = 0.0d0")],
  /- 3339 -/ [.txt (chars% "        mass_array(1:num_species)=(temp_array(:)/NA)*mw_array(:)")],
  /- 3340 -/ [.txt (chars% "        mass_array(num_species+1)=core_mass_array(size_step)")],
  /- 3341 -/ [.txt (chars% "        density_array(1:num_species)=density_input(1:num_species)")],
  /- 3342 -/ [.txt (chars% "        density_array(num_species+1)=core_density_array(size_step)")],
  /- 3343 -/ [.txt (chars% "")],
  /- 3344 -/ [.txt (chars% "        total_SOA_mass=total_SOA_mass+SUM(mass_array(1:num_species-1))")],
  /- 3345 -/ [.txt (chars% "        total_water_cond_mass=total_water_cond_mass+mass_array(num_species)")],
  /- 3346 -/ [.txt (chars% "        aw_array(size_step)=temp_array(num_species)/total_moles  ")],
  /- 3347 -/ [.txt (chars% "        total_mass=SUM(mass_array(:))")],
  /- 3348 -/ [.txt (chars% "        mass_fractions_array(:)=mass_array(:)/total_mass")],
  /- 3349 -/ [.txt (chars% "")],
  /- 3350 -/ [.txt (chars% "        density=1.0D0/(SUM(mass_fractions_array(:)/density_array(:)))")],
  /- 3351 -/ [.txt (chars% "")],
  /- 3352 -/ [.txt (chars% "        ! 3) In the below we need to remember that mass is in [g/cc] whilst density ")],
  /- 3353 -/ [.txt (chars% "        ! is in [kg/m3]. Thus we convert mass and number concentrations to kg/m3 and /m3 ")],
  /- 3354 -/ [.txt (chars% "        size_array(size_step)=((3.0D0*((total_mass*1.0D3)/ & ")],
  /- 3355 -/ [.txt (chars% "        (N_perbin(size_step)*1.0D6)))/(4.0D0*Pi*density))**(1.0D0/3.0D0)")],
  /- 3356 -/ [.txt (chars% "        ! 4) Knudsen number  ")],
  /- 3357 -/ [.txt (chars% "        ! Calculate the Knudsen number for all condensing molecules based on this new size ")],
  /- 3358 -/ [.txt (chars% "        ! This relies on mean free path for each species [cm] and particle radius [cm]")],
  /- 3359 -/ [.txt (chars% "        Kn(:)=gamma_gas(:)/size_array(size_step)")],
  /- 3360 -/ [.txt (chars% "")],
  /- 3361 -/ [.txt (chars% "        ! 5) Non-continuum regime correction  ")],
  /- 3362 -/ [.txt (chars% "        ! Calculate a correction factor according to the continuum versus non-continuum regimes")],
  /- 3363 -/ [.txt (chars% "        ! Expression taken from Jacobson et al (2000), page 457. They reference:")],
  /- 3364 -/ [.txt (chars% "        ! Fuchs and Sutugin 1971")],
  /- 3365 -/ [.txt (chars% "        ! Pruppacher and Klett 1997")],
  /- 3366 -/ [.txt (chars% "        Inverse_Kn(:)=1.0D0/Kn(:)")],
  /- 3367 -/ [.txt (chars% "        Correction_part1(:)=(1.33D0+0.71D0*Inverse_Kn(:))/(1.0D0+Inverse_Kn(:))")],
  /- 3368 -/ [.txt (chars% "        Correction_part2(:)=(4.0D0*(1.0D0-alpha_d_org(:)))/(3.0D0*alpha_d_org(:))")],
  /- 3369 -/ [.txt (chars% "        Correction_part3(:)=1.0E0+(Correction_part1(:)+Correction_part2(:))*Kn(:)")],
  /- 3370 -/ [.txt (chars% "        Correction(:)=1.0D0/Correction_part3(:)")],
  /- 3371 -/ [.txt (chars% "")],
  /- 3372 -/ [.txt (chars% "        ! 6) Kelvin factor  ")],
  /- 3373 -/ [.txt (chars% "        ! Now calculate a kelvin factor for every semi-volatile compound in this size bin")],
  /- 3374 -/ [.txt (chars% "        kelvin_factor(:)=EXP((4.0E0*mw_array(:)*1.0D-3*sigma)/ & ")],
  /- 3375 -/ [.txt (chars% "        (R_gas*Model_temp*size_array(size_step)*2.0D0*density)) ")],
  /- 3376 -/ [.txt (chars% "")],
  /- 3377 -/ [.txt (chars% "        ! 7) Equilibrium pressure above droplets  ")],
  /- 3378 -/ [.txt (chars% "        ! Now calculate an equilibrium RH for every compound in this size bin ")],
  /- 3379 -/ [.txt (chars% "        ! This is currently in atmospheres.  ")],
  /- 3380 -/ [.txt (chars% "        Pressure_eq(:)=kelvin_factor(:)*y_mole_fractions(:)*Psat(:)*101325.0D0 ")],
  /- 3381 -/ [.txt (chars% "")],
  /- 3382 -/ [.txt (chars% "        ! 8) Calculate the equilibrium concentration equivalent ")],
  /- 3383 -/ [.txt (chars% "        ! [Pa * molecules/mole * k mole  / Pa cm3 hence molecules/cm3] ")],
  /- 3384 -/ [.txt (chars% "        Cstar_i_m_t(:)=Pressure_eq(:)*(NA/(8.3144598D6*Model_temp))  ")],
  /- 3385 -/ [.txt (chars% "")],
  /- 3386 -/ [.txt (chars% "        ! 9) The droplet growth equation  ")],
  /- 3387 -/ [.txt (chars% "        ! The following calculates the change in mass, per particle of this size. ")],
  /- 3388 -/ [.txt (chars% "        ! The equation relies on the following parameters ")],
  /- 3389 -/ [.txt (chars% "        ! and units. Always check units ")],
  /- 3390 -/ [.txt (chars% "        ! radius [m] ")],
  /- 3391 -/ [.txt (chars% "        ! DStar_org [m2/s] - pass in [cm2/s] so needs to be converted by *1.0E-4 ")],
  /- 3392 -/ [.txt (chars% "        ! Pressure_gas [Pascals] ")],
  /- 3393 -/ [.txt (chars% "        ! Pressure_eq [Pascals] ")],
  /- 3394 -/ [.txt (chars% "        ! R_gas [m3 Pascals /(K mol)] ")],
  /- 3395 -/ [.txt (chars% "        ! molw [g/mol] ")],
  /- 3396 -/ [.txt (chars% "        ! T [K] ")],
  /- 3397 -/ [.txt (chars% "        ! The units of the equation should therefore be g/s ")],
  /- 3398 -/ [.txt (chars% "        ! ASTEM version - should be the same as the Jacobson version once coverted to molecules/cc/s ")],
  /- 3399 -/ [.txt (chars% "        k_i_m_t_part1(:) = DStar_org(:)*Correction(:) ")],
  /- 3400 -/ [.txt (chars% "        k_i_m_t(:)=4.0D0*Pi*size_array(size_step)*1.0D2*N_perbin(size_step)*k_i_m_t_part1(:) ")],
  /- 3401 -/ [.txt (chars% "        dm_dt(:)=k_i_m_t(:)*(C_g_i_t(:)-Cstar_i_m_t(:))   ")],
  /- 3402 -/ [.txt (chars% "")],
  /- 3403 -/ [.txt (chars% "        ! 10) Now update the contribution to the ODEs being solved  ")],
  /- 3404 -/ [.txt (chars% "        ! a) Add contributory loss from the gas phase to particle phase [this includes water] ")],
  /- 3405 -/ [.txt (chars% "        dy_dt_gas_matrix(1:num_species,size_step)=dm_dt(1:num_species) ")],
  /- 3406 -/ [.txt (chars% "        ! b) Add a contributory gain to the particle phase from the gas phase ")],
  /- 3407 -/ [.txt (chars% "        index1=num_species+1+((size_step-1)*num_species)  ")],
  /- 3408 -/ [.txt (chars% "        index2=num_species+((size_step)*num_species)  ")],
  /- 3409 -/ [.txt (chars% "        dy_dt(index1:index2)=dm_dt(1:num_species)  ")],
  /- 3410 -/ [.txt (chars% "")],
  /- 3411 -/ [.txt (chars% "    ENDDO ")],
  /- 3412 -/ [.txt (chars% "!$OMP END PARALLEL DO ")],
  /- 3413 -/ [.txt (chars% "   dy_dt(1:num_species)=dy_dt(1:num_species)-SUM(dy_dt_gas_matrix, DIM=2)  ")],
  /- 3414 -/ [.txt (chars% "")],
  /- 3415 -/ [.txt (chars% "end subroutine ")]]

end Ft
end PyBox
