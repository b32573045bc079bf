import Verif.Aerosol.Fortran
import Verif.Aerosol.Partition
import Verif.Parse.Text

/-!
# The text of the generated partitioning routine

`write_partitioning_section_fortran_ignore` (`/repo/Parse_eqn_file.py` 3418–3650) as the characters it writes to
`Partitioning.f90`.
-/

namespace PyBox
namespace Ft

/-- `'%s'` of the numbers. -/
def Piece.text (ρ : Hole → ℕ) : Piece → Str
  | .txt s => s
  | .hole h => digits (ρ h)

def lineText (ρ : Hole → ℕ) (l : List Piece) : Str := l.flatMap (Piece.text ρ)

/-- The numbers for a layout and a length of `y`. -/
def holes (L : Aerosol.Layout) (total : ℕ) : Hole → ℕ
  | .total => total
  | .bins => L.numBins
  | .species => L.numSpecies
  | .cond => L.numCond
  | .cond1 => L.numCond + 1

/-- Lines 3633–3636, for entry `num` of `include_index` at position `step`. -/
def gasLine (num step : ℕ) : Str :=
  (chars% "        dy_dt_gas_matrix(") ++ digits (num + 1) ++ (chars% ",size_step)=dm_dt(") ++ digits (step + 1) ++
    (chars% ") ")

/-- Line 3459. -/
def createdLine (date : Str) : Str := (chars% "! File created at ") ++ date ++ [' ']

/-- The lines of `Partitioning.f90`. -/
def partLines (date : Str) (L : Aerosol.Layout) (total : ℕ) : List Str :=
  partTop.map (lineText (holes L total)) ++ createdLine date :: partHead.map (lineText (holes L total)) ++
    L.incl.zipIdx.map (fun p => gasLine p.1 p.2) ++ partFoot.map (lineText (holes L total))

/-- The text of `Partitioning.f90`. -/
def partText (date : Str) (L : Aerosol.Layout) (total : ℕ) : Str :=
  (partLines date L total).flatMap (fun l => l ++ ['\n'])

end Ft
end PyBox
