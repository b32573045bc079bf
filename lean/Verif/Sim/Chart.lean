import Verif.Sim.YieldDriver

/-!
# The bar charts of a simulation with fixed yields

Model of `stacked_bar` (`/repo/Aerosol/f2py/Fixed_yield/Plotting.py` 39-93; `/repo/Plotting.py` 33-77 computes the same
but cannot be imported) and of its call in `ODE_solver_fixedyield.py` (297-301).

Left out: colours, labels, rounding of the title to two decimals and what Matplotlib does with the bars.  Numbers are
reals; `nan` is `none` where the source can produce it for finite input, a quotient of zero by zero.
-/

namespace PyBox
namespace Aerosol

/-- `numpy` arithmetic on two arrays with one axis. -/
def elementwise (f : ℝ → ℝ → ℝ) (a b : List ℝ) : Except PyErr (List ℝ) :=
  if a.length = b.length then .ok (List.zipWith f a b)
  else match a, b with
    | [x], _ => .ok (b.map (f x))
    | _, [x] => .ok (a.map (f · x))
    | _, _ => .error .value

/-- Assignment of an array to a column with `n` entries. -/
def asColumn {α : Type} (n : ℕ) (v : List α) : Except PyErr (List α) :=
  if v.length = n then .ok v
  else match v with
    | [x] => .ok (List.replicate n x)
    | _ => .error .value

/-- `y_mass_array` of bin `size` (from zero) without its last entry (63-69), `n` is `num_species`. -/
noncomputable def massColumn (y : List ℝ) (n : ℕ) (molw : List ℝ) (na : ℝ) (size : ℕ) : Except PyErr (List ℝ) := do
  let part := (y.take (n + (size + 1) * n)).drop (n + size * n)
  let mass ← elementwise (· * ·) (part.map (· / na)) molw
  let mass := (mass.map (· * 1000000000000)).map (fun v => if v < 0 then 0 else v)
  return mass.take (n - 1)

/-- A column divided by its sum (70). -/
noncomputable def normColumn (v : List ℝ) : List (Option ℝ) :=
  v.map (fun x => if v.sum = 0 then none else some (x / v.sum))

/-- A sum in which one term may be `nan`. -/
def addNan (a b : Option ℝ) : Option ℝ := a.bind (fun x => b.map (x + ·))

/-- What is drawn for one time: the number in the title, and for every species the bottom and the height of its bar in
every bin. -/
structure Chart where
  title : ℝ
  bars : List (List (Option ℝ × Option ℝ))

/-- The bars (77-85): `norm org size` are the entries of `y_norm_matrix`. -/
noncomputable def drawBars (norm : ℕ → ℕ → Option ℝ) (numOrg numBins : ℕ) : List (List (Option ℝ × Option ℝ)) :=
  ((List.range numOrg).foldl (fun (st : (ℕ → Option ℝ) × List (List (Option ℝ × Option ℝ))) org =>
    if org = 0 then (st.1, st.2 ++ [(List.range numBins).map (fun b => (some 0, norm org b))])
    else
      let cummulative := fun b => addNan (st.1 b) (norm (org - 1) b)
      (cummulative, st.2 ++ [(List.range numBins).map (fun b => (cummulative b, norm org b))]))
    (fun _ => some 0, [])).2

/-- One chart (50-87). Without species there is no array of the size asked for. -/
noncomputable def drawChart (y : List ℝ) (n numBins : ℕ) (molw : List ℝ) (na : ℝ) : Except PyErr Chart :=
  if n = 0 then .error .value
  else do
    let cols ← (List.range numBins).mapM (fun size => do
      let mass ← massColumn y n molw na size
      let a ← asColumn (n - 1) mass
      let b ← asColumn (n - 1) (normColumn mass)
      return (a, b))
    return ⟨(cols.map (fun c => c.1.sum)).sum,
      drawBars (fun org b => ((cols[b]?).bind (fun c => c.2[org]?)).join) (n - 1) numBins⟩

/-- `stacked_bar(time,y_matrix,num_species,num_bins,molw_asnumpy,NA)`: one chart for every time. -/
noncomputable def stackedBar (times : List ℚ) (rows : List (List ℝ)) (n numBins : ℕ) (molw : List ℝ) (na : ℝ) :
    Except PyErr (List Chart) :=
  (List.range times.length).mapM (fun k =>
    match rows[k]? with
    | none => .error .index
    | some y => drawChart y n numBins molw na)

/-- The call in `run_simulation` (299): `y_mw[include_index]` of the molecular weights of the condensing species, whose
number stands for `num_species`. An exception ends in a message (300-301). -/
noncomputable def chartsOf (L : Layout) (C : AeroConst) (times : List ℚ) (rows : List (List ℝ)) :
    Except PyErr (List Chart) := do
  let molw ← L.incl.mapM (fun i => if i < L.numCond then Except.ok (C.mw i) else .error .index)
  stackedBar times rows L.numCond L.numBins molw C.na

end Aerosol
end PyBox
