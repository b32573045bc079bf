import Verif.Rate.Signs

/-!
# Facts about the three rate programs found by running the analyses

The programs are the fixed texts of `write_rate_file` (Parse_eqn_file.py lines 429–790),
`write_rate_file_numba` (lines 888–1262) and `write_rate_file_fortran` (lines 1312–1743).  The
theorems here say what the analyses of `Rate/Sym.lean` and `Rate/Signs.lean` answer on them; the
analyses are proved correct for every program and every input.
-/

namespace PyBox
namespace Rl

/-- The statements of the file written by a backend. -/
def rateProgram (b : Backend) : List Stmt := (program b (writesOf b)).getD []

def nm (s : String) : Var := ⟨s.toList, none⟩

/-- The name in a backend: Fortran names have no case. -/
def Backend.name (b : Backend) (s : Str) : Str := if b = .fortran then lower s else s

def Backend.var (b : Backend) (s : String) : Var := ⟨b.name s.toList, none⟩

/-- A photolysis slot. -/
def Backend.slot (b : Backend) (k : Nat) : Var := ⟨b.name "J".toList, some k⟩

/-- Variables of an expression. -/
def Ex.vars : Ex → List Var
  | .num _ => []
  | .var v => [v]
  | .neg a => a.vars
  | .add a b => a.vars ++ b.vars
  | .sub a b => a.vars ++ b.vars
  | .mul a b => a.vars ++ b.vars
  | .div a b => a.vars ++ b.vars
  | .pow a b => a.vars ++ b.vars
  | .call _ a => a.vars
  | .ite a b t e => a.vars ++ b.vars ++ t.vars ++ e.vars

theorem Ex.val_congr {env env' : Vals} (e : Ex) (h : ∀ v ∈ e.vars, env v = env' v) :
    e.val env = e.val env' := by
  induction e with
  | num q => rfl
  | var v => exact h v (List.mem_singleton_self v)
  | neg a iha => rw [Ex.val, Ex.val, iha h]
  | add a b iha ihb =>
    rw [Ex.val, Ex.val, iha (fun v hv => h v (List.mem_append_left _ hv)),
      ihb (fun v hv => h v (List.mem_append_right _ hv))]
  | sub a b iha ihb =>
    rw [Ex.val, Ex.val, iha (fun v hv => h v (List.mem_append_left _ hv)),
      ihb (fun v hv => h v (List.mem_append_right _ hv))]
  | mul a b iha ihb =>
    rw [Ex.val, Ex.val, iha (fun v hv => h v (List.mem_append_left _ hv)),
      ihb (fun v hv => h v (List.mem_append_right _ hv))]
  | div a b iha ihb =>
    rw [Ex.val, Ex.val, iha (fun v hv => h v (List.mem_append_left _ hv)),
      ihb (fun v hv => h v (List.mem_append_right _ hv))]
  | pow a b iha ihb =>
    rw [Ex.val, Ex.val, iha (fun v hv => h v (List.mem_append_left _ hv)),
      ihb (fun v hv => h v (List.mem_append_right _ hv))]
  | call f a iha => rw [Ex.val, Ex.val, iha h]
  | ite a b t e iha ihb iht ihe =>
    simp only [Ex.vars, List.mem_append] at h
    rw [Ex.val, Ex.val, iha (fun v hv => h v (Or.inl (Or.inl (Or.inl hv)))),
      ihb (fun v hv => h v (Or.inl (Or.inl (Or.inr hv)))),
      iht (fun v hv => h v (Or.inl (Or.inr hv))), ihe (fun v hv => h v (Or.inr hv))]

/-- Rename variables. -/
def Ex.rename (f : Var → Var) : Ex → Ex
  | .num q => .num q
  | .var v => .var (f v)
  | .neg a => .neg (a.rename f)
  | .add a b => .add (a.rename f) (b.rename f)
  | .sub a b => .sub (a.rename f) (b.rename f)
  | .mul a b => .mul (a.rename f) (b.rename f)
  | .div a b => .div (a.rename f) (b.rename f)
  | .pow a b => .pow (a.rename f) (b.rename f)
  | .call g a => .call g (a.rename f)
  | .ite a b t e => .ite (a.rename f) (b.rename f) (t.rename f) (e.rename f)

theorem Ex.val_rename (f : Var → Var) (env : Vals) (e : Ex) :
    (e.rename f).val env = e.val (fun v => env (f v)) := by
  induction e with
  | num q => rfl
  | var v => rfl
  | neg a iha => simp [Ex.rename, Ex.val, iha]
  | add a b iha ihb => simp [Ex.rename, Ex.val, iha, ihb]
  | sub a b iha ihb => simp [Ex.rename, Ex.val, iha, ihb]
  | mul a b iha ihb => simp [Ex.rename, Ex.val, iha, ihb]
  | div a b iha ihb => simp [Ex.rename, Ex.val, iha, ihb]
  | pow a b iha ihb => simp [Ex.rename, Ex.val, iha, ihb]
  | call f a iha => simp [Ex.rename, Ex.val, iha]
  | ite a b t e iha ihb iht ihe => simp [Ex.rename, Ex.val, iha, ihb, iht, ihe]

def lowVar (v : Var) : Var := ⟨lower v.name, v.idx⟩

/-! ### Coefficients -/

/-- The coefficients that rate expressions may use. -/
def coefficientNames : List String := ["M", "N2", "O2", "KRONO2", "KRO2NO", "KRO2HO2", "KAPHO2", "KAPNO",
  "KRO2NO3", "KNO3AL", "KDEC", "KROSEC", "KALKOXY", "KALKPXY", "KROPRIM", "KCH3O2", "K298CH3O2",
  "K14ISOM1", "KFPAN", "KBPAN", "KBPPN", "KMT01", "KMT02", "KMT03", "KMT04", "KMT05", "KMT06", "KMT07",
  "KMT08", "KMT09", "KMT10", "KMT11", "KMT12", "KMT13", "KMT14", "KMT15", "KMT16", "KMT17", "KMT18"]

/-- The normal form of a coefficient, in lower case. -/
def coefficientOf (b : Backend) (s : String) : Ex :=
  norm (((symRun [] (rateProgram b)).get (b.var s)).rename lowVar)

/-- Only the inputs occur, written as the backend writes them. -/
def closedIn (b : Backend) (e : Ex) : Bool :=
  e.vars.all (fun v => decide (v ∈ [b.var "temp", b.var "H2O"]))

def coefficientsClosed (b : Backend) : Bool :=
  coefficientNames.all (fun s => closedIn b ((symRun [] (rateProgram b)).get (b.var s)))

def coefficientsAgree (b c : Backend) : Bool :=
  coefficientNames.all (fun s => decide (coefficientOf b s = coefficientOf c s))


/-! ### Photolysis -/

def assignsJ (b : Backend) : Stmt → Bool
  | .asg v _ => decide (v.name = b.name "J".toList)
  | _ => false

/-- The part before the first photolysis rate, and the rest. -/
def solarPart (b : Backend) : List Stmt := (rateProgram b).takeWhile (fun s => !(assignsJ b s))
def ratePart (b : Backend) : List Stmt := (rateProgram b).dropWhile (fun s => !(assignsJ b s))

theorem parts (b : Backend) : rateProgram b = solarPart b ++ ratePart b :=
  (List.takeWhile_append_dropWhile).symm

theorem run_append (env : Vals) (p q : List Stmt) : run env (p ++ q) = run (run env p) q := by
  unfold run; rw [List.foldl_append]

/-- Slot, `l`, `m`, `n` of `J = l*cosx**m*exp(-n*secx)`: the MCM photolysis table. -/
def photolysisTable : List (Nat × ℚ × ℚ × ℚ) := [
  (1, 6.073e-5, 1.743, 0.474), (2, 4.775e-4, 0.298, 0.080), (3, 1.041e-5, 0.723, 0.279),
  (4, 1.165e-2, 0.244, 0.267), (5, 2.485e-2, 0.168, 0.108), (6, 1.747e-1, 0.155, 0.125),
  (7, 2.644e-3, 0.261, 0.288), (8, 9.312e-7, 1.230, 0.307), (11, 4.642e-5, 0.762, 0.353),
  (12, 6.853e-5, 0.477, 0.323), (13, 7.344e-6, 1.202, 0.417), (14, 2.879e-5, 1.067, 0.358),
  (15, 2.792e-5, 0.805, 0.338), (16, 1.675e-5, 0.805, 0.338), (17, 7.914e-5, 0.764, 0.364),
  (18, 1.482e-6, 0.396, 0.298), (19, 1.482e-5, 0.396, 0.298), (20, 7.600e-4, 0.396, 0.298),
  (21, 7.992e-7, 1.578, 0.271), (22, 5.804e-6, 1.092, 0.377), (23, 2.4246e-6, 0.395, 0.296),
  (24, 2.424e-6, 0.395, 0.296), (31, 6.845e-5, 0.130, 0.201), (32, 1.032e-5, 0.130, 0.201),
  (33, 3.802e-5, 0.644, 0.312), (34, 1.537e-4, 0.170, 0.208), (35, 3.326e-4, 0.148, 0.215),
  (41, 7.649e-6, 0.682, 0.279), (51, 1.588e-6, 1.154, 0.318), (52, 1.907e-6, 1.244, 0.335),
  (53, 2.485e-6, 1.196, 0.328), (54, 4.095e-6, 1.111, 0.316), (55, 1.135e-5, 0.974, 0.309),
  (56, 4.365e-5, 1.089, 0.323), (57, 3.363e-6, 1.296, 0.322), (61, 7.537e-4, 0.499, 0.266)]

def photolysisEx (l m n : ℚ) : Ex :=
  .mul (.mul (.num l) (.pow (.var (nm "cosx")) (.num m)))
    (.call .exp (.mul (.num (-n)) (.var (nm "secx"))))

def photolysisCheck (b : Backend) : Bool :=
  photolysisTable.all (fun r => decide (norm ((symRun [] (ratePart b)).get (b.slot r.1)) =
    norm (photolysisEx r.2.1 r.2.2.1 r.2.2.2)))


/-- Variables assigned by a program. -/
def Stmt.assigned : Stmt → List Var
  | .asg v _ => [v]
  | .ifLe _ _ t e => (t ++ e).map Prod.fst

/-- No other photolysis slot is assigned. -/
def slotsCheck (b : Backend) : Bool :=
  ((rateProgram b).flatMap Stmt.assigned).all (fun v =>
    decide (v.name = b.name "J".toList → ∃ k ∈ photolysisTable.map Prod.fst, v.idx = some k))


/-- The cosine of the zenith angle before the clamp, as an expression in the time; `f` cuts off the
whole days. -/
def zenithEx (f : Fn) : Ex :=
  let pi : Ex := .mul (.num 4) (.call .arctan (.num 1))
  let theta : Ex := .div (.mul (.mul (.num 2) pi) (.sub (.num 150) (.num 1))) (.num 365)
  let t (q : ℚ) (g : Fn) (m : ℚ) : Ex :=
    .mul (.num q) (.call g (if m = 1 then theta else .mul (.num m) theta))
  let dec : Ex := .add (.add (.add (.add (.add (.add (.num 0.006918) (t (-0.399912) .cos 1))
    (t 0.070257 .sin 1)) (t (-0.006758) .cos 2)) (t 0.000907 .sin 2)) (t (-0.002697) .cos 3))
    (t 0.001480 .sin 3)
  let eqtime : Ex := .add (.add (.add (.add (.num 0.000075) (t 0.001868 .cos 1)) (t (-0.032077) .sin 1))
    (t (-0.014615) .cos 2)) (t (-0.040849) .sin 2)
  let day : Ex := .add (.sub (.num 150) (.num 1)) (.div (.var (nm "ttime")) (.num 86400))
  let hour : Ex := .mul (.sub day (.call f day)) (.num 24)
  let lha : Ex := .add (.mul pi (.sub (.div hour (.num 12))
    (.add (.num 1) (.div (.num 0.13) (.num 180))))) eqtime
  let lat : Ex := .div (.mul (.num 51.51) pi) (.num 180)
  .add (.mul (.call .cos lha) (.mul (.call .cos lat) (.call .cos dec)))
    (.mul (.call .sin lat) (.call .sin dec))

/-- Which function cuts off the whole days. -/
def wholeDays : Backend → Fn
  | .numba => .trunc
  | _ => .floor

def solarCheck (b : Backend) : Bool :=
  decide (norm ((symRun [] (solarPart b)).get (nm "cosx")) =
    norm (.ite (zenithEx (wholeDays b)) (.num 1e-30) (.num 0) (zenithEx (wholeDays b)))) &&
  decide (norm ((symRun [] (solarPart b)).get (nm "secx")) =
    norm (.ite (zenithEx (wholeDays b)) (.num 1e-30) (.num 1e20)
      (.div (.num 1) (zenithEx (wholeDays b)))))


/-- `cosx` of the plain Python program. -/
def plainEx : Ex :=
  let pi : Ex := .mul (.num 4) (.call .arctan (.num 1))
  let radian : Ex := .div (.num 180) pi
  let lha : Ex := .mul (.add (.num 1) (.div (.var (nm "ttime")) (.num 43200))) pi
  let lat : Ex := .div (.num 50) radian
  let dec : Ex := .div (.num 23.79) radian
  .call .cos (.call .arccos (.add (.mul (.mul (.call .cos lha) (.call .cos dec)) (.call .cos lat))
    (.mul (.call .sin dec) (.call .sin lat))))

def plainCheck : Bool :=
  decide (norm ((symRun [] (solarPart .python)).get (nm "cosx")) = norm plainEx) &&
  decide ((ratePart .python).head? = some (.asg (Backend.python.slot 1)
    (.mul (.mul (.num 6.073e-5) (.pow (.var (nm "cosx")) (.num 1.743)))
      (.call .exp (.mul (.mul (.neg (.num 1)) (.num 0.474)) (.var (nm "secx")))))))

/-! ### Signs -/

/-- Positive temperature, water not negative. -/
def startInfo (b : Backend) : St := [(b.var "temp", ⟨.pos, none⟩), (b.var "H2O", ⟨.nonneg, none⟩)]

def signCheck (b : Backend) : Bool :=
  match absRun (startInfo b) (rateProgram b) with
  | some s => coefficientNames.all (fun c => decide ((s.get (b.var c)).sgn = .pos)) &&
      photolysisTable.all (fun r => (s.get (b.slot r.1)).sgn.isNonneg)
  | none => false


/-! ### Names -/

def scopedAsgs (known : List Var) : List (Var × Ex) → Option (List Var)
  | [] => some known
  | p :: l => if p.2.vars.all (fun v => decide (v ∈ known)) then scopedAsgs (p.1 :: known) l else none

/-- Every variable is read after it has been given a value on every path. -/
def wellScoped (known : List Var) : List Stmt → Bool
  | [] => true
  | .asg v e :: p => e.vars.all (fun v => decide (v ∈ known)) && wellScoped (v :: known) p
  | .ifLe a b t e :: p =>
    a.vars.all (fun v => decide (v ∈ known)) && b.vars.all (fun v => decide (v ∈ known)) &&
    match scopedAsgs known t, scopedAsgs known e with
    | some x, some y => wellScoped (x.filter (fun v => decide (v ∈ y))) p
    | _, _ => false

def argumentsOf (b : Backend) : List Var := [b.var "ttime", b.var "RO2", b.var "H2O", b.var "temp"]


/-- Names declared by the Fortran declarations. -/
def declaredNames (writes : List Str) : List Str :=
  ((codeLines .fortran writes).filter (fun l => (declaration l.2).isSome)).flatMap (fun l =>
    ((lexLine .fortran l.2).getD []).filterMap (fun t => match t with | .id s => some s | _ => none))

/-- `implicit none`: every name used is declared. -/
def declaredCheck : Bool := ((rateProgram .fortran).flatMap Stmt.assigned ++ argumentsOf .fortran).all
    (fun v => decide (v.name ∈ declaredNames fortranWrites))

/-! ### The answers -/

/-- What holds of all three programs. -/
def commonFacts (b : Backend) : Bool :=
  (program b (writesOf b)).isSome && coefficientsClosed b && photolysisCheck b && slotsCheck b &&
    wellScoped (argumentsOf b) (rateProgram b)

end Rl
end PyBox
