import Verif.Py.Chars

/-!
# Fixed text of the generated partitioning routine

Written by `/verif/tools/partition_source.py` from `write_partitioning_section_fortran_ignore`
(`/repo/Parse_eqn_file.py` 3418–3650): one entry per `f.write` outside the loop over `include_index`, without
the line feed at its end; the number before it is the line of the call.
-/

namespace PyBox
namespace Ft

/-- The numbers the writer puts into the text: `total_length_y`, `num_bins`, `num_species`,
`num_species_condensed` and `num_species_condensed+1`. -/
inductive Hole where
  | total | bins | species | cond | cond1
  deriving DecidableEq

/-- A line is made of fixed text and numbers. -/
inductive Piece where
  | txt (s : Str)
  | hole (h : Hole)
  deriving DecidableEq

/-- Comment before the line with the date. -/
def partTop : List (List Piece) := [
  /- 3436 -/ [.txt (chars% "!##################################################################################################### ")],
  /- 3437 -/ [.txt (chars% "! Fortran function to calculating dy/dt according to gas-to-particle partitioning                    # ")],
  /- 3438 -/ [.txt (chars% "!    Copyright (C) 2018  David Topping : david.topping@manchester.ac.uk                             # ")],
  /- 3439 -/ [.txt (chars% "!                                      : davetopp80@gmail.com                                       # ")],
  /- 3440 -/ [.txt (chars% "!    Personal website: davetoppingsci.com                                                           # ")],
  /- 3441 -/ [.txt (chars% "!                                                                                                   # ")],
  /- 3442 -/ [.txt (chars% "!    All Rights Reserved.                                                                           # ")],
  /- 3443 -/ [.txt (chars% "!    This file is part of PyBox.                                                                    # ")],
  /- 3444 -/ [.txt (chars% "!                                                                                                   # ")],
  /- 3445 -/ [.txt (chars% "!    PyBox is free software: you can redistribute it and/or modify it under                         # ")],
  /- 3446 -/ [.txt (chars% "!    the terms of the GNU General Public License as published by the Free Software                  # ")],
  /- 3447 -/ [.txt (chars% "!    Foundation, either version 3 of the License, or (at your option) any later                     # ")],
  /- 3448 -/ [.txt (chars% "!    version.                                                                                       # ")],
  /- 3449 -/ [.txt (chars% "!                                                                                                   # ")],
  /- 3450 -/ [.txt (chars% "!    PyBox is distributed in the hope that it will be useful, but WITHOUT                           # ")],
  /- 3451 -/ [.txt (chars% "!    ANY WARRANTY; without even the implied warranty of MERCHANTABILITY or FITNESS                  # ")],
  /- 3452 -/ [.txt (chars% "!    FOR A PARTICULAR PURPOSE.  See the GNU General Public License for more                         # ")],
  /- 3453 -/ [.txt (chars% "!    details.                                                                                       # ")],
  /- 3454 -/ [.txt (chars% "!                                                                                                   # ")],
  /- 3455 -/ [.txt (chars% "!    You should have received a copy of the GNU General Public License along with                   # ")],
  /- 3456 -/ [.txt (chars% "!    PyBox.  If not, see <http://www.gnu.org/licenses/>.                                            # ")],
  /- 3457 -/ [.txt (chars% "!                                                                                                   # ")],
  /- 3458 -/ [.txt (chars% "!##################################################################################################### ")]]

/-- From the line after the date to the loop over `include_index`. -/
def partHead : List (List Piece) := [
  /- 3460 -/ [.txt (chars% "")],
  /- 3462 -/ [.txt (chars% "")],
  /- 3463 -/ [.txt (chars% "subroutine dydt_partition(y,ycore,core_diss,core_mass_array,& ")],
  /- 3464 -/ [.txt (chars% "                          density_input,core_density_array,& ")],
  /- 3465 -/ [.txt (chars% "                          ignore_index,mw_array,Psat,& ")],
  /- 3466 -/ [.txt (chars% "                          DStar_org,alpha_d_org,C_g_i_t,N_perbin,& ")],
  /- 3467 -/ [.txt (chars% "                          gamma_gas,Latent_heat,GRAV,Updraft,& ")],
  /- 3468 -/ [.txt (chars% "                          sigma,NA,kb,Rv,R_gas,Model_temp,& ")],
  /- 3469 -/ [.txt (chars% "                          cp,Ra,Lv_water_vapour,total_SOA_mass,& ")],
  /- 3470 -/ [.txt (chars% "                          aw_array,size_array,dy_dt) ")],
  /- 3471 -/ [.txt (chars% "")],
  /- 3472 -/ [.txt (chars% "    implicit none ")],
  /- 3473 -/ [.txt (chars% "")],
  /- 3474 -/ [.txt (chars% "    !Define variables in order of appearance. Leave intent(out) until end ")],
  /- 3475 -/ [.txt (chars% "    REAL(8), intent(in), dimension("), .hole .total, .txt (chars% ") :: y ")],
  /- 3476 -/ [.txt (chars% "    !f2py intent(in) :: y ")],
  /- 3477 -/ [.txt (chars% "    REAL(8), intent(in), dimension("), .hole .bins, .txt (chars% ") :: ycore,core_mass_array,& ")],
  /- 3478 -/ [.txt (chars% "                         core_density_array, N_perbin ")],
  /- 3479 -/ [.txt (chars% "    !f2py intent(in) ::  ycore,core_mass_array ")],
  /- 3480 -/ [.txt (chars% "    !f2py intent(in) ::  core_density_array, N_perbin ")],
  /- 3481 -/ [.txt (chars% "    REAL(8), intent(in), dimension("), .hole .cond, .txt (chars% ") :: density_input,DStar_org,& ")],
  /- 3482 -/ [.txt (chars% "                         alpha_d_org, gamma_gas, Latent_heat,C_g_i_t ")],
  /- 3483 -/ [.txt (chars% "    !f2py intent(in) ::  density_input,DStar_org ")],
  /- 3484 -/ [.txt (chars% "    !f2py intent(in) ::  alpha_d_org, gamma_gas, Latent_heat, C_g_i_t ")],
  /- 3485 -/ [.txt (chars% "    INTEGER(8), intent(in), dimension("), .hole .species, .txt (chars% ") :: ignore_index ")],
  /- 3486 -/ [.txt (chars% "    !f2py intent(in) ::  ignore_index ")],
  /- 3487 -/ [.txt (chars% "    REAL(8), intent(in), dimension("), .hole .cond, .txt (chars% ") :: mw_array,Psat ")],
  /- 3488 -/ [.txt (chars% "    !f2py intent(in) ::  mw_array,Psat ")],
  /- 3489 -/ [.txt (chars% "    !Global variables - define in parent routine ")],
  /- 3490 -/ [.txt (chars% "    REAL(8), intent(in) :: core_diss, GRAV,Updraft,cp,Ra,Lv_water_vapour ")],
  /- 3491 -/ [.txt (chars% "    !f2py intent(in) :: core_diss,GRAV,Updraft,cp,Ra,Lv_water_vapour ")],
  /- 3492 -/ [.txt (chars% "    REAL(8), intent(in) :: sigma,NA,kb,Rv,R_gas,Model_temp ")],
  /- 3493 -/ [.txt (chars% "    !f2py intent(in) :: sigma,NA,kb,Rv,R_gas,Model_temp ")],
  /- 3494 -/ [.txt (chars% "    REAL(8), intent(out) :: total_SOA_mass ")],
  /- 3495 -/ [.txt (chars% "    REAL(8), intent(out), dimension("), .hole .bins, .txt (chars% ") :: aw_array ")],
  /- 3496 -/ [.txt (chars% "    REAL(8), intent(out), dimension("), .hole .bins, .txt (chars% ") :: size_array ")],
  /- 3497 -/ [.txt (chars% "    REAL(8), intent(out), dimension("), .hole .total, .txt (chars% ") :: dy_dt ")],
  /- 3498 -/ [.txt (chars% "    !f2py intent(out) :: total_SOA_mass,aw_array,size_array,dy_dt ")],
  /- 3499 -/ [.txt (chars% "")],
  /- 3500 -/ [.txt (chars% "    !temporary variables used in each size bin calculation ")],
  /- 3501 -/ [.txt (chars% "    REAL(8), dimension("), .hole .cond, .txt (chars% ") :: Inverse_Kn, Correction_part1, &")],
  /- 3502 -/ [.txt (chars% "                              Correction_part2, Correction_part3,& ")],
  /- 3503 -/ [.txt (chars% "                              Correction, Kn, dm_dt,& ")],
  /- 3504 -/ [.txt (chars% "                              k_i_m_t_part1, k_i_m_t ")],
  /- 3505 -/ [.txt (chars% "    REAL(8), dimension("), .hole .species, .txt (chars% ","), .hole .bins, .txt (chars% ") :: dy_dt_gas_matrix ")],
  /- 3506 -/ [.txt (chars% "    REAL(8), dimension("), .hole .bins, .txt (chars% ") :: total_SOA_mass_array ")],
  /- 3507 -/ [.txt (chars% "    REAL(8) total_moles, density, diameter, radius, water_moles  ")],
  /- 3508 -/ [.txt (chars% "    REAL(8), dimension("), .hole .cond, .txt (chars% ") :: Pressure_eq, Cstar_i_m_t ")],
  /- 3509 -/ [.txt (chars% "    REAL(8), dimension("), .hole .cond, .txt (chars% ") :: kelvin_factor,y_mole_fractions  ")],
  /- 3510 -/ [.txt (chars% "    REAL(8), dimension("), .hole .cond, .txt (chars% ") :: temp_array  ")],
  /- 3511 -/ [.txt (chars% "    REAL(8), dimension("), .hole .cond1, .txt (chars% ") :: mass_array, density_array, mass_fractions_array ")],
  /- 3512 -/ [.txt (chars% "    REAL(8) total_water_cond_mass, total_mass ")],
  /- 3513 -/ [.txt (chars% "    INTEGER(8) size_step, index1, index2  ")],
  /- 3514 -/ [.txt (chars% "")],
  /- 3515 -/ [.txt (chars% "    REAL(8), PARAMETER :: Pi = 3.1415927 ")],
  /- 3516 -/ [.txt (chars% "    INTEGER(8), PARAMETER :: num_species = "), .hole .species, .txt (chars% " ")],
  /- 3517 -/ [.txt (chars% "    INTEGER(8), PARAMETER :: num_species_condensed = "), .hole .cond, .txt (chars% " ")],
  /- 3518 -/ [.txt (chars% "    !Set all output variables to 0 ")],
  /- 3519 -/ [.txt (chars% "    total_SOA_mass_array(:)=0.0D0 ")],
  /- 3520 -/ [.txt (chars% "    dy_dt_gas_matrix(:,:)=0.0D0 ")],
  /- 3521 -/ [.txt (chars% "    Pressure_eq(:)=0.0D0 ")],
  /- 3522 -/ [.txt (chars% "    Cstar_i_m_t(:)=0.0D0 ")],
  /- 3523 -/ [.txt (chars% "    kelvin_factor(:)=0.0D0 ")],
  /- 3524 -/ [.txt (chars% "    y_mole_fractions(:)=0.0D0 ")],
  /- 3525 -/ [.txt (chars% "    temp_array(:)=0.0D0 ")],
  /- 3526 -/ [.txt (chars% "    mass_array(:)=0.0D0 ")],
  /- 3527 -/ [.txt (chars% "    density_array(:)=0.0D0 ")],
  /- 3528 -/ [.txt (chars% "    mass_fractions_array(:)=0.0D0 ")],
  /- 3529 -/ [.txt (chars% "    aw_array(:)=0.0D0 ")],
  /- 3530 -/ [.txt (chars% "    size_array(:)=0.0D0 ")],
  /- 3531 -/ [.txt (chars% "    dy_dt(:)=0.0D0 ")],
  /- 3532 -/ [.txt (chars% "")],
  /- 3533 -/ [.txt (chars% "!$OMP PARALLEL DO &")],
  /- 3534 -/ [.txt (chars% "!$OMP& PRIVATE(size_step,total_mass),& ")],
  /- 3535 -/ [.txt (chars% "!$OMP& PRIVATE(total_moles,y_mole_fractions,temp_array), & ")],
  /- 3536 -/ [.txt (chars% "!$OMP& PRIVATE(mass_array,mass_fractions_array,density_array), & ")],
  /- 3537 -/ [.txt (chars% "!$OMP& PRIVATE(density,water_moles), & ")],
  /- 3538 -/ [.txt (chars% "!$OMP& PRIVATE(Kn,Inverse_Kn,Correction_part1, Correction_part2), & ")],
  /- 3539 -/ [.txt (chars% "!$OMP& PRIVATE(Correction_part3,Correction,kelvin_factor), & ")],
  /- 3540 -/ [.txt (chars% "!$OMP& PRIVATE(Pressure_eq,Cstar_i_m_t,k_i_m_t_part1), & ")],
  /- 3541 -/ [.txt (chars% "!$OMP& PRIVATE(k_i_m_t,dm_dt), & ")],
  /- 3542 -/ [.txt (chars% "!$OMP& SHARED(total_water_cond_mass,size_array), & ")],
  /- 3543 -/ [.txt (chars% "!$OMP& SHARED(ycore,core_diss,mw_array,density_input), & ")],
  /- 3544 -/ [.txt (chars% "!$OMP& SHARED(C_g_i_t,dy_dt,core_mass_array,R_gas,Psat), & ")],
  /- 3545 -/ [.txt (chars% "!$OMP& SHARED(gamma_gas,NA,alpha_d_org,Model_temp,DStar_org), & ")],
  /- 3546 -/ [.txt (chars% "!$OMP& SHARED(dy_dt_gas_matrix,aw_array,total_SOA_mass_array) ")],
  /- 3547 -/ [.txt (chars% "    DO size_step=1,"), .hole .bins, .txt (chars% " ")],
  /- 3548 -/ [.txt (chars% "")],
  /- 3549 -/ [.txt (chars% "        !print *, \"size\", size_step ")],
  /- 3550 -/ [.txt (chars% "        ! 1) Select a slice of y that represents this size bin ")],
  /- 3551 -/ [.txt (chars% "        temp_array(:)=y(num_species+1+((size_step-1)*num_species_condensed):& ")],
  /- 3552 -/ [.txt (chars% "        num_species+((size_step)*num_species_condensed))")],
  /- 3553 -/ [.txt (chars% "        total_moles=SUM(temp_array(:))+ycore(size_step)*core_diss")],
  /- 3554 -/ [.txt (chars% "        y_mole_fractions(:)=temp_array(:)/total_moles")],
  /- 3555 -/ [.txt (chars% "        ! 2) Now mask the array to set the mole fracs of some species to 0 [inc oxidants]")],
  /- 3556 -/ [.txt (chars% "        ! WHERE (ignore_index==1) y_mole_fractions = 0.0d0")],
  /- 3557 -/ [.txt (chars% "        mass_array(1:num_species_condensed)=(temp_array(:)/NA)*mw_array(:)")],
  /- 3558 -/ [.txt (chars% "        mass_array(num_species_condensed+1)=core_mass_array(size_step)")],
  /- 3559 -/ [.txt (chars% "        density_array(1:num_species_condensed)=density_input(1:num_species_condensed)")],
  /- 3560 -/ [.txt (chars% "        density_array(num_species_condensed+1)=core_density_array(size_step)")],
  /- 3561 -/ [.txt (chars% "")],
  /- 3562 -/ [.txt (chars% "        total_SOA_mass_array(size_step)=SUM(mass_array(1:num_species_condensed-1))")],
  /- 3563 -/ [.txt (chars% "        total_water_cond_mass=total_water_cond_mass+mass_array(num_species_condensed)")],
  /- 3564 -/ [.txt (chars% "        aw_array(size_step)=temp_array(num_species_condensed)/total_moles  ")],
  /- 3565 -/ [.txt (chars% "        total_mass=SUM(mass_array(:))")],
  /- 3566 -/ [.txt (chars% "        mass_fractions_array(:)=mass_array(:)/total_mass")],
  /- 3567 -/ [.txt (chars% "")],
  /- 3568 -/ [.txt (chars% "        density=1.0D0/(SUM(mass_fractions_array(:)/density_array(:)))")],
  /- 3569 -/ [.txt (chars% "")],
  /- 3570 -/ [.txt (chars% "        ! 3) In the below we need to remember that mass is in [g/cc] whilst density ")],
  /- 3571 -/ [.txt (chars% "        ! is in [kg/m3]. Thus we convert mass and number concentrations to kg/m3 and /m3 ")],
  /- 3572 -/ [.txt (chars% "        size_array(size_step)=((3.0D0*((total_mass*1.0D3)/ & ")],
  /- 3574 -/ [.txt (chars% "        (N_perbin(size_step)*1.0D6)))/(4.0D0*Pi*density))**(1.0D0/3.0D0)")],
  /- 3575 -/ [.txt (chars% "        ! 4) Knudsen number  ")],
  /- 3576 -/ [.txt (chars% "        ! Calculate the Knudsen number for all condensing molecules based on this new size ")],
  /- 3577 -/ [.txt (chars% "        ! This relies on mean free path for each species [cm] and particle radius [cm]")],
  /- 3578 -/ [.txt (chars% "        Kn(:)=gamma_gas(:)/size_array(size_step)")],
  /- 3579 -/ [.txt (chars% "")],
  /- 3580 -/ [.txt (chars% "        ! 5) Non-continuum regime correction  ")],
  /- 3581 -/ [.txt (chars% "        ! Calculate a correction factor according to the continuum versus non-continuum regimes")],
  /- 3582 -/ [.txt (chars% "        ! Expression taken from Jacobson et al (2000), page 457. They reference:")],
  /- 3583 -/ [.txt (chars% "        ! Fuchs and Sutugin 1971")],
  /- 3584 -/ [.txt (chars% "        ! Pruppacher and Klett 1997")],
  /- 3585 -/ [.txt (chars% "        Inverse_Kn(:)=1.0D0/Kn(:)")],
  /- 3586 -/ [.txt (chars% "        Correction_part1(:)=(1.33D0+0.71D0*Inverse_Kn(:))/(1.0D0+Inverse_Kn(:))")],
  /- 3587 -/ [.txt (chars% "        Correction_part2(:)=(4.0D0*(1.0D0-alpha_d_org(:)))/(3.0D0*alpha_d_org(:))")],
  /- 3588 -/ [.txt (chars% "        Correction_part3(:)=1.0E0+(Correction_part1(:)+Correction_part2(:))*Kn(:)")],
  /- 3589 -/ [.txt (chars% "        Correction(:)=1.0D0/Correction_part3(:)")],
  /- 3590 -/ [.txt (chars% "")],
  /- 3591 -/ [.txt (chars% "        ! 6) Kelvin factor  ")],
  /- 3592 -/ [.txt (chars% "        ! Now calculate a kelvin factor for every semi-volatile compound in this size bin")],
  /- 3593 -/ [.txt (chars% "        kelvin_factor(:)=EXP((4.0E0*mw_array(:)*1.0D-3*sigma)/ & ")],
  /- 3594 -/ [.txt (chars% "        (R_gas*Model_temp*size_array(size_step)*2.0D0*density)) ")],
  /- 3595 -/ [.txt (chars% "")],
  /- 3596 -/ [.txt (chars% "        ! 7) Equilibrium pressure above droplets  ")],
  /- 3597 -/ [.txt (chars% "        ! Now calculate an equilibrium RH for every compound in this size bin ")],
  /- 3598 -/ [.txt (chars% "        ! This is currently in atmospheres.  ")],
  /- 3599 -/ [.txt (chars% "        Pressure_eq(:)=kelvin_factor(:)*y_mole_fractions(:)*Psat(:)*101325.0D0 ")],
  /- 3600 -/ [.txt (chars% "        !print *, \"y_mole_fractions\", y_mole_fractions ")],
  /- 3601 -/ [.txt (chars% "        !print *, \"Psat\", Psat ")],
  /- 3602 -/ [.txt (chars% "        !print *, \"kelvin_factor\", kelvin_factor ")],
  /- 3603 -/ [.txt (chars% "        !print *, \"Pressure_eq\", Pressure_eq ")],
  /- 3604 -/ [.txt (chars% "        !print *, \"mass_array\", mass_array ")],
  /- 3605 -/ [.txt (chars% "")],
  /- 3606 -/ [.txt (chars% "        ! 8) Calculate the equilibrium concentration equivalent ")],
  /- 3607 -/ [.txt (chars% "        ! [Pa * molecules/mole * k mole  / Pa cm3 hence molecules/cm3] ")],
  /- 3608 -/ [.txt (chars% "        Cstar_i_m_t(:)=Pressure_eq(:)*(NA/(8.3144598D6*Model_temp))  ")],
  /- 3609 -/ [.txt (chars% "        !print *, \"Cstar_i_m_t\", Cstar_i_m_t ")],
  /- 3610 -/ [.txt (chars% "")],
  /- 3611 -/ [.txt (chars% "        ! 9) The droplet growth equation  ")],
  /- 3612 -/ [.txt (chars% "        ! The following calculates the change in mass, per particle of this size. ")],
  /- 3613 -/ [.txt (chars% "        ! The equation relies on the following parameters ")],
  /- 3614 -/ [.txt (chars% "        ! and units. Always check units ")],
  /- 3615 -/ [.txt (chars% "        ! radius [m] ")],
  /- 3616 -/ [.txt (chars% "        ! DStar_org [m2/s] - pass in [cm2/s] so needs to be converted by *1.0E-4 ")],
  /- 3617 -/ [.txt (chars% "        ! Pressure_gas [Pascals] ")],
  /- 3618 -/ [.txt (chars% "        ! Pressure_eq [Pascals] ")],
  /- 3619 -/ [.txt (chars% "        ! R_gas [m3 Pascals /(K mol)] ")],
  /- 3620 -/ [.txt (chars% "        ! molw [g/mol] ")],
  /- 3621 -/ [.txt (chars% "        ! T [K] ")],
  /- 3622 -/ [.txt (chars% "        ! The units of the equation should therefore be g/s ")],
  /- 3623 -/ [.txt (chars% "        ! ASTEM version - should be the same as the Jacobson version once coverted to molecules/cc/s ")],
  /- 3624 -/ [.txt (chars% "        k_i_m_t_part1(:) = DStar_org(:)*Correction(:) ")],
  /- 3625 -/ [.txt (chars% "        k_i_m_t(:)=4.0D0*Pi*size_array(size_step)*1.0D2*N_perbin(size_step)*k_i_m_t_part1(:) ")],
  /- 3626 -/ [.txt (chars% "        !print *, \"k_i_m_t\", k_i_m_t ")],
  /- 3627 -/ [.txt (chars% "        dm_dt(:)=k_i_m_t(:)*(C_g_i_t(:)-Cstar_i_m_t(:))   ")],
  /- 3628 -/ [.txt (chars% "        !print *, \"dm_dt\", dm_dt ")],
  /- 3629 -/ [.txt (chars% "        !print *, \"C_g_i_t\", C_g_i_t ")],
  /- 3630 -/ [.txt (chars% "")],
  /- 3631 -/ [.txt (chars% "        ! 10) Now update the contribution to the ODEs being solved  ")],
  /- 3632 -/ [.txt (chars% "        ! a) Add contributory loss from the gas phase to particle phase [this includes water] ")]]

/-- After the loop. -/
def partFoot : List (List Piece) := [
  /- 3638 -/ [.txt (chars% "        ! b) Add a contributory gain to the particle phase from the gas phase ")],
  /- 3639 -/ [.txt (chars% "        index1=num_species+1+((size_step-1)*num_species_condensed)  ")],
  /- 3640 -/ [.txt (chars% "        index2=num_species+((size_step)*num_species_condensed)  ")],
  /- 3641 -/ [.txt (chars% "        dy_dt(index1:index2)=dm_dt(1:num_species_condensed)  ")],
  /- 3642 -/ [.txt (chars% "")],
  /- 3643 -/ [.txt (chars% "    ENDDO ")],
  /- 3644 -/ [.txt (chars% "!$OMP END PARALLEL DO ")],
  /- 3645 -/ [.txt (chars% "   dy_dt(1:num_species)=dy_dt(1:num_species)-SUM(dy_dt_gas_matrix, DIM=2)  ")],
  /- 3646 -/ [.txt (chars% "   total_SOA_mass=SUM(total_SOA_mass_array)*(1.0D12)  ")],
  /- 3647 -/ [.txt (chars% "")],
  /- 3648 -/ [.txt (chars% "end subroutine ")]]

end Ft
end PyBox
