import Verif.Py.Chars

/-!
# Fixed text of the generated gas routines

Written by `/verif/tools/gas_sources.py` from `/repo/Parse_eqn_file.py`: one entry per `f.write` outside
the loops, the number before it is the line of the call.  `date` is the time of writing, `species` and
`reactions` are the numbers of species and of reactions as printed.
-/

namespace PyBox
namespace Rl

/-- `write_reactants_indices`: comment at the start of the file. -/
def reactantsPyTop : List Str := [
  /- 2182 -/ chars% "##################################################################################################### \n",
  /- 2183 -/ chars% "#    Copyright (C) 2018  David Topping : david.topping@manchester.ac.uk                             # \n",
  /- 2184 -/ chars% "#                                      : davetopp80@gmail.com                                       # \n",
  /- 2185 -/ chars% "#    Personal website: davetoppingsci.com                                                           # \n",
  /- 2186 -/ chars% "#                                                                                                   # \n",
  /- 2187 -/ chars% "#    All Rights Reserved.                                                                           # \n",
  /- 2188 -/ chars% "#    This file is part of PyBox.                                                                    # \n",
  /- 2189 -/ chars% "#                                                                                                   # \n",
  /- 2190 -/ chars% "#    PyBox is free software: you can redistribute it and/or modify it under                         # \n",
  /- 2191 -/ chars% "#    the terms of the GNU General Public License as published by the Free Software                  # \n",
  /- 2192 -/ chars% "#    Foundation, either version 3 of the License, or (at your option) any later                     # \n",
  /- 2193 -/ chars% "#    version.                                                                                       # \n",
  /- 2194 -/ chars% "#                                                                                                   # \n",
  /- 2195 -/ chars% "#    PyBox is distributed in the hope that it will be useful, but WITHOUT                           # \n",
  /- 2196 -/ chars% "#    ANY WARRANTY; without even the implied warranty of MERCHANTABILITY or FITNESS                  # \n",
  /- 2197 -/ chars% "#    FOR A PARTICULAR PURPOSE.  See the GNU General Public License for more                         # \n",
  /- 2198 -/ chars% "#    details.                                                                                       # \n",
  /- 2199 -/ chars% "#                                                                                                   # \n",
  /- 2200 -/ chars% "#    You should have received a copy of the GNU General Public License along with                   # \n",
  /- 2201 -/ chars% "#    PyBox.  If not, see <http://www.gnu.org/licenses/>.                                            # \n",
  /- 2202 -/ chars% "#                                                                                                   # \n",
  /- 2203 -/ chars% "##################################################################################################### \n"]

/-- `write_reactants_indices`: from the line after the date to the loop. -/
def reactantsPyHead (_ _ : Str) : List Str := [
  /- 2205 -/ chars% "\n",
  /- 2206 -/ chars% "import numpy as np\n",
  /- 2207 -/ chars% "import numba as nb",
  /- 2208 -/ chars% "\n",
  /- 2209 -/ chars% "@nb.jit('float64[:](float64[:],int32,float64[:])', nopython=True, cache=True)\n",
  /- 2210 -/ chars% "def reactants(y,equations,reactants_conc):\n",
  /- 2211 -/ chars% "    # Calculate reactant and stochiometric contribution for each reaction\n",
  /- 2212 -/ chars% "    # reactants_conc=numpy.zeros((len(equations)))\n"]

/-- `write_reactants_indices`: after the loop. -/
def reactantsPyFoot : List Str := [
  /- 2232 -/ chars% "    return reactants_conc \n"]

/-- `write_reactants_indices_fortran`: comment at the start of the file. -/
def reactantsFTop : List Str := [
  /- 2287 -/ chars% "!##################################################################################################### \n",
  /- 2288 -/ chars% "! Fortran function to hold indices for calculating reactant contributions to each equation          # \n",
  /- 2289 -/ chars% "!    Copyright (C) 2018  David Topping : david.topping@manchester.ac.uk                             # \n",
  /- 2290 -/ chars% "!                                      : davetopp80@gmail.com                                       # \n",
  /- 2291 -/ chars% "!    Personal website: davetoppingsci.com                                                           # \n",
  /- 2292 -/ chars% "!                                                                                                   # \n",
  /- 2293 -/ chars% "!    All Rights Reserved.                                                                           # \n",
  /- 2294 -/ chars% "!    This file is part of PyBox.                                                                    # \n",
  /- 2295 -/ chars% "!                                                                                                   # \n",
  /- 2296 -/ chars% "!    PyBox is free software: you can redistribute it and/or modify it under                         # \n",
  /- 2297 -/ chars% "!    the terms of the GNU General Public License as published by the Free Software                  # \n",
  /- 2298 -/ chars% "!    Foundation, either version 3 of the License, or (at your option) any later                     # \n",
  /- 2299 -/ chars% "!    version.                                                                                       # \n",
  /- 2300 -/ chars% "!                                                                                                   # \n",
  /- 2301 -/ chars% "!    PyBox is distributed in the hope that it will be useful, but WITHOUT                           # \n",
  /- 2302 -/ chars% "!    ANY WARRANTY; without even the implied warranty of MERCHANTABILITY or FITNESS                  # \n",
  /- 2303 -/ chars% "!    FOR A PARTICULAR PURPOSE.  See the GNU General Public License for more                         # \n",
  /- 2304 -/ chars% "!    details.                                                                                       # \n",
  /- 2305 -/ chars% "!                                                                                                   # \n",
  /- 2306 -/ chars% "!    You should have received a copy of the GNU General Public License along with                   # \n",
  /- 2307 -/ chars% "!    PyBox.  If not, see <http://www.gnu.org/licenses/>.                                            # \n",
  /- 2308 -/ chars% "!                                                                                                   # \n",
  /- 2309 -/ chars% "!##################################################################################################### \n"]

/-- `write_reactants_indices_fortran`: from the line after the date to the loop. -/
def reactantsFHead (species reactions : Str) : List Str := [
  /- 2313 -/ chars% "\n",
  /- 2314 -/ chars% "subroutine reactants(y,reactants_conc)\n",
  /- 2315 -/ chars% "    implicit none \n",
  /- 2318 -/ chars% "    ! Calculate reactant and stochiometric contribution for each reaction\n",
  /- 2319 -/ chars% "    REAL(8), intent(in), dimension(" ++ species ++ chars% ") :: y \n",
  /- 2320 -/ chars% "    !f2py intent(in) :: y \n",
  /- 2321 -/ chars% "    REAL(8), intent(out), dimension(" ++ reactions ++ chars% ") :: reactants_conc \n",
  /- 2322 -/ chars% "    !f2py intent(out) :: reactants_conc \n"]

/-- `write_reactants_indices_fortran`: after the loop. -/
def reactantsFFoot : List Str := [
  /- 2353 -/ chars% "end subroutine\n"]

/-- `write_loss_gain_matrix`: comment at the start of the file. -/
def lossGainPyTop : List Str := [
  /- 2417 -/ chars% "##################################################################################################### \n",
  /- 2418 -/ chars% "#    Copyright (C) 2018  David Topping : david.topping@manchester.ac.uk                             # \n",
  /- 2419 -/ chars% "#                                      : davetopp80@gmail.com                                       # \n",
  /- 2420 -/ chars% "#    Personal website: davetoppingsci.com                                                           # \n",
  /- 2421 -/ chars% "#                                                                                                   # \n",
  /- 2422 -/ chars% "#    All Rights Reserved.                                                                           # \n",
  /- 2423 -/ chars% "#    This file is part of PyBox.                                                                    # \n",
  /- 2424 -/ chars% "#                                                                                                   # \n",
  /- 2425 -/ chars% "#    PyBox is free software: you can redistribute it and/or modify it under                         # \n",
  /- 2426 -/ chars% "#    the terms of the GNU General Public License as published by the Free Software                  # \n",
  /- 2427 -/ chars% "#    Foundation, either version 3 of the License, or (at your option) any later                     # \n",
  /- 2428 -/ chars% "#    version.                                                                                       # \n",
  /- 2429 -/ chars% "#                                                                                                   # \n",
  /- 2430 -/ chars% "#    PyBox is distributed in the hope that it will be useful, but WITHOUT                           # \n",
  /- 2431 -/ chars% "#    ANY WARRANTY; without even the implied warranty of MERCHANTABILITY or FITNESS                  # \n",
  /- 2432 -/ chars% "#    FOR A PARTICULAR PURPOSE.  See the GNU General Public License for more                         # \n",
  /- 2433 -/ chars% "#    details.                                                                                       # \n",
  /- 2434 -/ chars% "#                                                                                                   # \n",
  /- 2435 -/ chars% "#    You should have received a copy of the GNU General Public License along with                   # \n",
  /- 2436 -/ chars% "#    PyBox.  If not, see <http://www.gnu.org/licenses/>.                                            # \n",
  /- 2437 -/ chars% "#                                                                                                   # \n",
  /- 2438 -/ chars% "##################################################################################################### \n"]

/-- `write_loss_gain_matrix`: from the line after the date to the loop. -/
def lossGainPyHead (_ _ : Str) : List Str := [
  /- 2440 -/ chars% "\n",
  /- 2441 -/ chars% "import numpy as np\n",
  /- 2442 -/ chars% "import numba as nb",
  /- 2443 -/ chars% "\n",
  /- 2444 -/ chars% "@nb.jit('float64[:](float64[:],float64[:])', nopython=True, cache=True)\n",
  /- 2445 -/ chars% "def dydt(loss_gain_list,r):\n",
  /- 2446 -/ chars% "    # Calculate loss and gain for each specie\n",
  /- 2447 -/ chars% "    # loss_gain_list=[0]*num_species\n"]

/-- `write_loss_gain_matrix`: after the loop. -/
def lossGainPyFoot : List Str := [
  /- 2498 -/ chars% "    return loss_gain_list \n"]

/-- `write_loss_gain_fortran`: comment at the start of the file. -/
def lossGainFTop : List Str := [
  /- 2525 -/ chars% "!##################################################################################################### \n",
  /- 2526 -/ chars% "! Fortran function to hold indices for calculating loss and gain for each species                    # \n",
  /- 2527 -/ chars% "!    Copyright (C) 2018  David Topping : david.topping@manchester.ac.uk                             # \n",
  /- 2528 -/ chars% "!                                      : davetopp80@gmail.com                                       # \n",
  /- 2529 -/ chars% "!    Personal website: davetoppingsci.com                                                           # \n",
  /- 2530 -/ chars% "!                                                                                                   # \n",
  /- 2531 -/ chars% "!    All Rights Reserved.                                                                           # \n",
  /- 2532 -/ chars% "!    This file is part of PyBox.                                                                    # \n",
  /- 2533 -/ chars% "!                                                                                                   # \n",
  /- 2534 -/ chars% "!    PyBox is free software: you can redistribute it and/or modify it under                         # \n",
  /- 2535 -/ chars% "!    the terms of the GNU General Public License as published by the Free Software                  # \n",
  /- 2536 -/ chars% "!    Foundation, either version 3 of the License, or (at your option) any later                     # \n",
  /- 2537 -/ chars% "!    version.                                                                                       # \n",
  /- 2538 -/ chars% "!                                                                                                   # \n",
  /- 2539 -/ chars% "!    PyBox is distributed in the hope that it will be useful, but WITHOUT                           # \n",
  /- 2540 -/ chars% "!    ANY WARRANTY; without even the implied warranty of MERCHANTABILITY or FITNESS                  # \n",
  /- 2541 -/ chars% "!    FOR A PARTICULAR PURPOSE.  See the GNU General Public License for more                         # \n",
  /- 2542 -/ chars% "!    details.                                                                                       # \n",
  /- 2543 -/ chars% "!                                                                                                   # \n",
  /- 2544 -/ chars% "!    You should have received a copy of the GNU General Public License along with                   # \n",
  /- 2545 -/ chars% "!    PyBox.  If not, see <http://www.gnu.org/licenses/>.                                            # \n",
  /- 2546 -/ chars% "!                                                                                                   # \n",
  /- 2547 -/ chars% "!##################################################################################################### \n"]

/-- `write_loss_gain_fortran`: from the line after the date to the loop. -/
def lossGainFHead (species reactions : Str) : List Str := [
  /- 2549 -/ chars% "\n",
  /- 2551 -/ chars% "\n",
  /- 2552 -/ chars% "subroutine loss_gain(r,loss_gain_array)\n",
  /- 2553 -/ chars% "    ! Calculate loss and gain for each specie\n",
  /- 2557 -/ chars% "    implicit none \n",
  /- 2561 -/ chars% "    REAL(8), intent(in), dimension(" ++ reactions ++ chars% ") :: r \n",
  /- 2562 -/ chars% "    !f2py intent(in) :: r \n",
  /- 2563 -/ chars% "    REAL(8), intent(out), dimension(" ++ species ++ chars% ") :: loss_gain_array \n",
  /- 2564 -/ chars% "    !f2py intent(out) :: loss_gain_array \n",
  /- 2575 -/ chars% "    !Set values to zero \n",
  /- 2576 -/ chars% "    loss_gain_array(:)=0.0D0 \n"]

/-- `write_loss_gain_fortran`: after the loop. -/
def lossGainFFoot : List Str := [
  /- 2644 -/ chars% "end subroutine \n"]

/-- `write_gas_jacobian_numba`: comment at the start of the file. -/
def jacobianPyTop : List Str := [
  /- 2965 -/ chars% "###################################################################################################### \n",
  /- 2966 -/ chars% "# Numba function to calculate jacobian function                                                    # \n",
  /- 2967 -/ chars% "#    Copyright (C) 2018  David Topping : david.topping@manchester.ac.uk                             # \n",
  /- 2968 -/ chars% "#                                      : davetopp80@gmail.com                                       # \n",
  /- 2969 -/ chars% "#    Personal website: davetoppingsci.com                                                           # \n",
  /- 2970 -/ chars% "#                                                                                                   # \n",
  /- 2971 -/ chars% "#    All Rights Reserved.                                                                           # \n",
  /- 2972 -/ chars% "#    This file is part of PyBox.                                                                    # \n",
  /- 2973 -/ chars% "#                                                                                                   # \n",
  /- 2974 -/ chars% "#    PyBox is free software: you can redistribute it and/or modify it under                         # \n",
  /- 2975 -/ chars% "#    the terms of the GNU General Public License as published by the Free Software                  # \n",
  /- 2976 -/ chars% "#    Foundation, either version 3 of the License, or (at your option) any later                     # \n",
  /- 2977 -/ chars% "#    version.                                                                                       # \n",
  /- 2978 -/ chars% "#                                                                                                   # \n",
  /- 2979 -/ chars% "#    PyBox is distributed in the hope that it will be useful, but WITHOUT                           # \n",
  /- 2980 -/ chars% "#    ANY WARRANTY; without even the implied warranty of MERCHANTABILITY or FITNESS                  # \n",
  /- 2981 -/ chars% "#    FOR A PARTICULAR PURPOSE.  See the GNU General Public License for more                         # \n",
  /- 2982 -/ chars% "#    details.                                                                                       # \n",
  /- 2983 -/ chars% "#                                                                                                   # \n",
  /- 2984 -/ chars% "#    You should have received a copy of the GNU General Public License along with                   # \n",
  /- 2985 -/ chars% "#    PyBox.  If not, see <http://www.gnu.org/licenses/>.                                            # \n",
  /- 2986 -/ chars% "#                                                                                                   # \n",
  /- 2987 -/ chars% "#                                                                                                   # \n",
  /- 2988 -/ chars% "###################################################################################################### \n"]

/-- `write_gas_jacobian_numba`: from the line after the date to the loop. -/
def jacobianPyHead (_ _ : Str) : List Str := [
  /- 2990 -/ chars% "\n",
  /- 2991 -/ chars% "import numpy as np\n",
  /- 2992 -/ chars% "import numba as nb",
  /- 2993 -/ chars% "\n",
  /- 2994 -/ chars% "@nb.jit('float64[:,:](float64[:],float64[:],float64[:,:])', nopython=True, cache=True)\n",
  /- 2995 -/ chars% "def jacobian(r,y,dy_dy):\n"]

/-- `write_gas_jacobian_numba`: after the loop. -/
def jacobianPyFoot : List Str := [
  /- 3199 -/ chars% "    return dy_dy \n"]

/-- `write_gas_jacobian_fortran`: comment at the start of the file. -/
def jacobianFTop : List Str := [
  /- 2676 -/ chars% "!##################################################################################################### \n",
  /- 2677 -/ chars% "! Fortran function to calculate jacobian function                                                    # \n",
  /- 2678 -/ chars% "!    Copyright (C) 2018  David Topping : david.topping@manchester.ac.uk                             # \n",
  /- 2679 -/ chars% "!                                      : davetopp80@gmail.com                                       # \n",
  /- 2680 -/ chars% "!    Personal website: davetoppingsci.com                                                           # \n",
  /- 2681 -/ chars% "!                                                                                                   # \n",
  /- 2682 -/ chars% "!    All Rights Reserved.                                                                           # \n",
  /- 2683 -/ chars% "!    This file is part of PyBox.                                                                    # \n",
  /- 2684 -/ chars% "!                                                                                                   # \n",
  /- 2685 -/ chars% "!    PyBox is free software: you can redistribute it and/or modify it under                         # \n",
  /- 2686 -/ chars% "!    the terms of the GNU General Public License as published by the Free Software                  # \n",
  /- 2687 -/ chars% "!    Foundation, either version 3 of the License, or (at your option) any later                     # \n",
  /- 2688 -/ chars% "!    version.                                                                                       # \n",
  /- 2689 -/ chars% "!                                                                                                   # \n",
  /- 2690 -/ chars% "!    PyBox is distributed in the hope that it will be useful, but WITHOUT                           # \n",
  /- 2691 -/ chars% "!    ANY WARRANTY; without even the implied warranty of MERCHANTABILITY or FITNESS                  # \n",
  /- 2692 -/ chars% "!    FOR A PARTICULAR PURPOSE.  See the GNU General Public License for more                         # \n",
  /- 2693 -/ chars% "!    details.                                                                                       # \n",
  /- 2694 -/ chars% "!                                                                                                   # \n",
  /- 2695 -/ chars% "!    You should have received a copy of the GNU General Public License along with                   # \n",
  /- 2696 -/ chars% "!    PyBox.  If not, see <http://www.gnu.org/licenses/>.                                            # \n",
  /- 2697 -/ chars% "!                                                                                                   # \n",
  /- 2698 -/ chars% "!##################################################################################################### \n"]

/-- `write_gas_jacobian_fortran`: from the line after the date to the loop. -/
def jacobianFHead (species reactions : Str) : List Str := [
  /- 2700 -/ chars% "\n",
  /- 2702 -/ chars% "\n",
  /- 2703 -/ chars% "subroutine jacobian(r,y,dy_dy)\n",
  /- 2704 -/ chars% "    ! Calculate loss and gain for each specie\n",
  /- 2708 -/ chars% "    implicit none \n",
  /- 2711 -/ chars% "    REAL(8), intent(in), dimension(" ++ reactions ++ chars% ") :: r \n",
  /- 2712 -/ chars% "    !f2py intent(in) :: r \n",
  /- 2713 -/ chars% "    REAL(8), intent(in), dimension(" ++ species ++ chars% ") :: y \n",
  /- 2714 -/ chars% "    !f2py intent(in) :: loss_gain_array \n",
  /- 2715 -/ chars% "    REAL(8), intent(out), dimension(" ++ species ++ chars% "," ++ species ++ chars% ") :: dy_dy \n",
  /- 2716 -/ chars% "    !f2py intent(out) :: dy_dy \n",
  /- 2717 -/ chars% "    dy_dy(:,:)=0.0D0 \n"]

/-- `write_gas_jacobian_fortran`: after the loop. -/
def jacobianFFoot : List Str := [
  /- 2938 -/ chars% "end subroutine \n"]

end Rl
end PyBox
