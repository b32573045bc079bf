import Verif.Aerosol.Vec

/-!
# The statements of the partitioning loop

What each statement of the parallel loop of `Partitioning.f90` computes, from what the statements before it have
computed.
-/

namespace PyBox
namespace Ft

open Aerosol

/-! ### Shapes -/

inductive Shape where
  | int | real | arr (n : ℕ) | ints (n : ℕ) | mat (n m : ℕ)
  deriving DecidableEq

def V.shape : V → Shape
  | .int _ => .int
  | .real _ => .real
  | .arr l => .arr l.length
  | .ints l => .ints l.length
  | .mat n m _ => .mat n m

theorem shape_int {v : V} (h : v.shape = .int) : ∃ z, v = .int z := by
  cases v <;> simp_all [V.shape]

theorem shape_real {v : V} (h : v.shape = .real) : ∃ x, v = .real x := by
  cases v <;> simp_all [V.shape]

theorem shape_arr {v : V} {n : ℕ} (h : v.shape = .arr n) : ∃ f, v = .arr (vec n f) := by
  cases v with
  | arr l =>
    simp only [V.shape, Shape.arr.injEq] at h
    subst h
    exact ⟨_, congrArg V.arr (list_vec l)⟩
  | _ => simp [V.shape] at h

theorem shape_mat {v : V} {n m : ℕ} (h : v.shape = .mat n m) : ∃ f, v = .mat n m f := by
  cases v <;> simp_all [V.shape]

theorem num_arr {v : V} {l : List ℝ} (h : v = .arr l) : v.num = none := by subst h; rfl

/-- Statements do not change types and sizes. -/
theorem step_shape {strict : Prop} {s : Stmt} {σ : Store} {v : V} (h : s.step strict σ = some v) :
    v.shape = (σ s.target.name).shape := by
  obtain ⟨t, e⟩ := s
  unfold Stmt.step at h
  simp only [Option.bind_eq_some_iff] at h
  obtain ⟨u, -, h⟩ := h
  cases t with
  | var x =>
    dsimp only [Target.name] at h ⊢
    split at h
    · rename_i hx; cases h; rw [hx]; rfl
    · rename_i hx
      rw [Option.map_eq_some_iff] at h
      obtain ⟨y, -, rfl⟩ := h
      rw [hx]; rfl
    · rename_i hx
      split at h
      · rename_i hl; cases h; rw [hx]; simp [V.shape, hl]
      · exact absurd h (by simp)
    · exact absurd h (by simp)
  | all x =>
    dsimp only [Target.name] at h ⊢
    split at h
    · rename_i hx
      split at h
      · rename_i hl; cases h; rw [hx]; simp [V.shape, hl]
      · exact absurd h (by simp)
    · rename_i hx _
      rw [Option.map_eq_some_iff] at h
      obtain ⟨y, -, rfl⟩ := h
      rw [hx]; simp [V.shape]
    · exact absurd h (by simp)
  | all2 x =>
    dsimp only [Target.name] at h ⊢
    split at h
    · rename_i n m f hx
      rw [Option.map_eq_some_iff] at h
      obtain ⟨y, -, rfl⟩ := h
      rw [hx]; rfl
    · exact absurd h (by simp)
  | elem x i =>
    dsimp only [Target.name] at h ⊢
    rw [Option.bind_eq_some_iff] at h
    obtain ⟨k, -, h⟩ := h
    split at h
    · rename_i l k hx
      rw [Option.bind_eq_some_iff] at h
      obtain ⟨y, -, h⟩ := h
      split at h
      · cases h; rw [hx]; simp [V.shape]
      · exact absurd h (by simp)
    · exact absurd h (by simp)
  | elem2 x i j =>
    dsimp only [Target.name] at h ⊢
    rw [Option.bind_eq_some_iff] at h
    obtain ⟨k, -, h⟩ := h
    rw [Option.bind_eq_some_iff] at h
    obtain ⟨k', -, h⟩ := h
    split at h
    · rename_i n m f k k' hx
      rw [Option.bind_eq_some_iff] at h
      obtain ⟨y, -, h⟩ := h
      split at h
      · cases h; rw [hx]; rfl
      · exact absurd h (by simp)
    · exact absurd h (by simp)
  | sec x a b =>
    dsimp only [Target.name] at h ⊢
    rw [Option.bind_eq_some_iff] at h
    obtain ⟨p, -, h⟩ := h
    rw [Option.bind_eq_some_iff] at h
    obtain ⟨q, -, h⟩ := h
    split at h
    · rename_i l p q r hx
      rw [Option.bind_eq_some_iff] at h
      obtain ⟨old, ho, h⟩ := h
      split at h
      · rename_i hl
        split at h
        · cases h; rw [hx]
        · rename_i hpq
          cases h
          rw [hx]
          unfold section? at ho
          rw [if_neg hpq] at ho
          split at ho
          · rename_i hin
            cases ho
            simp only [List.length_drop, List.length_take] at hl
            simp only [V.shape, List.length_append, List.length_take, List.length_drop, Shape.arr.injEq]
            obtain ⟨⟨h1, h2⟩, h3, h4⟩ := hin
            omega
          · exact absurd ho (by simp)
      · exact absurd h (by simp)
    · exact absurd h (by simp)

/-! ### What is known during a pass -/

/-- The arguments and the parameters. -/
structure Inputs (L : Aerosol.Layout) (P : PartInput) (total : ℕ) (σ : Store) : Prop where
  y : σ 0 = .arr (vec total P.y)
  ycore : σ 1 = .arr (vec L.numBins P.ycore)
  coreMass : σ 2 = .arr (vec L.numBins P.coreMass)
  coreDensity : σ 3 = .arr (vec L.numBins P.coreDensity)
  nPerBin : σ 4 = .arr (vec L.numBins P.nPerBin)
  densityInput : σ 5 = .arr (vec L.numCond P.densityInput)
  dStar : σ 6 = .arr (vec L.numCond P.dStar)
  alpha : σ 7 = .arr (vec L.numCond P.alpha)
  gamma : σ 8 = .arr (vec L.numCond P.gamma)
  cgas : σ 10 = .arr (vec L.numCond P.cgas)
  mw : σ 12 = .arr (vec L.numCond P.mw)
  psat : σ 13 = .arr (vec L.numCond P.psat)
  coreDiss : σ 14 = .real P.coreDiss
  sigma : σ 20 = .real P.sigma
  na : σ 21 = .real P.na
  rGas : σ 24 = .real P.rGas
  temp : σ 25 = .real P.temp
  pi : σ 59 = .real fPi
  species : σ 60 = .int L.numSpecies
  cond : σ 61 = .int L.numCond

/-- The declared shapes. -/
def shapeOf (d : Decl) : Shape :=
  match d.kind, d.dims with
  | .real, [] => .real
  | .real, [n] => .arr n
  | .real, n :: m :: _ => .mat n m
  | .int, [] => .int
  | .int, n :: _ => .ints n

def Typed (L : Aerosol.Layout) (total : ℕ) (σ : Store) : Prop :=
  ∀ x d, (partDecls (holes L total))[x]? = some d → (σ x).shape = shapeOf d

/-- The variable each statement assigns to; 0 stands for the counter. -/
def target (k : ℕ) : ℕ :=
  [56, 50, 41, 49, 51, 51, 52, 52, 40, 54, 27, 55, 53, 42, 28, 35, 30, 31, 32, 33, 34, 48, 46, 47, 37, 38, 36].getD k 0

variable (L : Aerosol.Layout) (P : PartInput) (b : ℕ)

/-- What is known about that variable afterwards, in pass `b`. -/
def Fact : ℕ → V → Prop
  | 0, v => v = .int b
  | 1, v => v = .arr (vec L.numCond (tempArray L P b))
  | 2, v => v = .real (totalMoles L P b)
  | 3, v => v = .arr (vec L.numCond (moleFraction L P b))
  | 4, v => ∃ z, v = .arr (vec (L.numCond + 1)
      (fun i => if i = L.numCond + 1 then z else tempArray L P b i / P.na * P.mw i))
  | 5, v => v = .arr (vec (L.numCond + 1) (massArray L P b))
  | 6, v => ∃ z, v = .arr (vec (L.numCond + 1) (fun i => if i = L.numCond + 1 then z else P.densityInput i))
  | 7, v => v = .arr (vec (L.numCond + 1) (densityArray L P b))
  | 8, _ => True
  | 9, _ => True
  | 10, _ => True
  | 11, v => v = .real (totalMass L P b)
  | 12, v => v = .arr (vec (L.numCond + 1) (massFraction L P b))
  | 13, v => v = .real (density L P b)
  | 14, v => ∃ f, v = .arr (vec L.numBins f) ∧ f b = sizeArray L P b
  | 15, v => v = .arr (vec L.numCond (knudsen L P b))
  | 16, v => v = .arr (vec L.numCond (inverseKn L P b))
  | 17, v => v = .arr (vec L.numCond (correction1 L P b))
  | 18, v => v = .arr (vec L.numCond (correction2 P))
  | 19, v => v = .arr (vec L.numCond (correction3 L P b))
  | 20, v => v = .arr (vec L.numCond (correction L P b))
  | 21, v => v = .arr (vec L.numCond (kelvin L P b))
  | 22, v => v = .arr (vec L.numCond (pressureEq L P b))
  | 23, v => v = .arr (vec L.numCond (cStar L P b))
  | 24, v => v = .arr (vec L.numCond (kPart1 L P b))
  | 25, v => v = .arr (vec L.numCond (kTransfer L P b))
  | 26, v => v = .arr (vec L.numCond (dmDt L P b))
  | _, _ => True

/-- After statement `k`. -/
def Known (k : ℕ) (σ : Store) : Prop := ∀ j ≤ k, j ≤ 26 → Fact L P b j (σ (target j))

/-- No division by zero and no power of a negative number in pass `b`. -/
structure Defined : Prop where
  moles : totalMoles L P b ≠ 0
  na : P.na ≠ 0
  mass : totalMass L P b ≠ 0
  dens : ∀ i, 1 ≤ i → i ≤ L.numCond + 1 → densityArray L P b i ≠ 0
  spec : fsum (L.numCond + 1) (fun i => massFraction L P b i / densityArray L P b i) ≠ 0
  number : P.nPerBin b * 1000000 ≠ 0
  vol : 4 * fPi * density L P b ≠ 0
  base : 0 < 3 * (totalMass L P b * 1000 / (P.nPerBin b * 1000000)) / (4 * fPi * density L P b) ∨
    3 * (totalMass L P b * 1000 / (P.nPerBin b * 1000000)) / (4 * fPi * density L P b) = 0
  size : sizeArray L P b ≠ 0
  kn : ∀ i, 1 ≤ i → i ≤ L.numCond → knudsen L P b i ≠ 0
  one : ∀ i, 1 ≤ i → i ≤ L.numCond → 1 + inverseKn L P b i ≠ 0
  acc : ∀ i, 1 ≤ i → i ≤ L.numCond → 3 * P.alpha i ≠ 0
  corr : ∀ i, 1 ≤ i → i ≤ L.numCond → correction3 L P b i ≠ 0
  curv : P.rGas * P.temp * sizeArray L P b * 2 * density L P b ≠ 0
  temp : 8314459.8 * P.temp ≠ 0

/-! ### Statements -/

/-- The result of an assignment to a whole array. -/
theorem step_all {strict : Prop} {σ : Store} {x n : ℕ} {e : Ex} {f : ℕ → ℝ} (hx : (σ x).shape = .arr n)
    (he : e.val strict σ = some (.arr (vec n f))) : Stmt.step strict ⟨.all x, e⟩ σ = some (.arr (vec n f)) := by
  obtain ⟨g, hg⟩ := shape_arr hx
  simp [Stmt.step, he, hg]

theorem step_var {strict : Prop} {σ : Store} {x : ℕ} {e : Ex} {y : ℝ} (hx : (σ x).shape = .real)
    (he : e.val strict σ = some (.real y)) : Stmt.step strict ⟨.var x, e⟩ σ = some (.real y) := by
  obtain ⟨g, hg⟩ := shape_real hx
  simp [Stmt.step, he, hg, V.num]

theorem step_int {strict : Prop} {σ : Store} {x : ℕ} {e : Ex} {z : ℤ} (hx : (σ x).shape = .int)
    (he : e.val strict σ = some (.int z)) : Stmt.step strict ⟨.var x, e⟩ σ = some (.int z) := by
  obtain ⟨g, hg⟩ := shape_int hx
  simp [Stmt.step, he, hg]

theorem step_elem {strict : Prop} {σ : Store} {x n k : ℕ} {i e : Ex} {f : ℕ → ℝ} {y : ℝ}
    (hx : σ x = .arr (vec n f)) (hi : i.val strict σ = some (.int k)) (h1 : 1 ≤ k) (h2 : k ≤ n)
    (he : e.val strict σ = some (.real y)) :
    Stmt.step strict ⟨.elem x i, e⟩ σ = some (.arr (vec n (Function.update f k y))) := by
  have := inside_nat h1 h2
  simp only [Stmt.step, he, hx, hi, V.num, Option.bind_some, vec_length, if_pos this, Int.toNat_natCast, vec_set h1]

theorem step_sec {strict : Prop} {σ : Store} {x n a c : ℕ} {p q e : Ex} {f g : ℕ → ℝ} {m : ℕ}
    (hx : σ x = .arr (vec n f)) (hp : p.val strict σ = some (.int a)) (hq : q.val strict σ = some (.int c))
    (h1 : 1 ≤ a) (h2 : c ≤ n) (h3 : a ≤ c) (hm : m = c + 1 - a)
    (he : e.val strict σ = some (.arr (vec m g))) :
    Stmt.step strict ⟨.sec x p q, e⟩ σ =
      some (.arr (vec n (fun i => if a ≤ i ∧ i ≤ c then g (i - a + 1) else f i))) := by
  have hn : ¬ ((c : ℤ) < (a : ℤ)) := by omega
  simp only [Stmt.step, he, hx, hp, hq, Option.bind_some, vec_section h1 h2 (by omega : a ≤ c + 1), vec_length,
    ← hm, if_true, if_neg hn, Int.toNat_natCast, vec_assign h1 h2 hm (by omega : a ≤ c + 1)]

theorem val_elem {strict : Prop} {σ : Store} {x n k : ℕ} {i : Ex} {f : ℕ → ℝ} (hx : σ x = .arr (vec n f))
    (hi : i.val strict σ = some (.int k)) (h1 : 1 ≤ k) (h2 : k ≤ n) :
    (Ex.elem x i).val strict σ = some (.real (f k)) := by
  have := inside_nat h1 h2
  simp only [Ex.val, hx, hi, Option.bind_some, vec_length, if_pos this, Int.toNat_natCast, vec_getD h1 h2]

theorem val_all {strict : Prop} {σ : Store} {x n : ℕ} {f : ℕ → ℝ} (hx : σ x = .arr (vec n f)) :
    (Ex.all x).val strict σ = some (.arr (vec n f)) := by
  simp only [Ex.val, hx]

theorem val_sec {strict : Prop} {σ : Store} {x n a c : ℕ} {p q : Ex} {f : ℕ → ℝ}
    (hx : σ x = .arr (vec n f)) (hp : p.val strict σ = some (.int a)) (hq : q.val strict σ = some (.int c))
    (h1 : 1 ≤ a) (h2 : c ≤ n) (h3 : a ≤ c + 1) :
    (Ex.sec x p q).val strict σ = some (.arr (vec (c + 1 - a) (fun i => f (a + (i - 1))))) := by
  simp only [Ex.val, hx, hp, hq, Option.bind_some, vec_section h1 h2 h3, Option.map_some]

theorem val_real {strict : Prop} {σ : Store} (q : ℚ) {x : ℝ} (h : (q : ℝ) = x) :
    (Ex.real q).val strict σ = some (.real x) := by
  simp only [Ex.val, h]

theorem val_var {strict : Prop} {σ : Store} {x : ℕ} {v : V} (h : σ x = v) : (Ex.var x).val strict σ = some v := by
  simp only [Ex.val, h]

theorem val_add {strict : Prop} {σ : Store} {a c : Ex} {u v w : V} (ha : a.val strict σ = some u)
    (hc : c.val strict σ = some v) (h : arith (· + ·) (· + ·) u v = some w) : (Ex.add a c).val strict σ = some w := by
  simp only [Ex.val, ha, hc, Option.bind_some, h]

theorem val_sub {strict : Prop} {σ : Store} {a c : Ex} {u v w : V} (ha : a.val strict σ = some u)
    (hc : c.val strict σ = some v) (h : arith (· - ·) (· - ·) u v = some w) : (Ex.sub a c).val strict σ = some w := by
  simp only [Ex.val, ha, hc, Option.bind_some, h]

theorem val_mul {strict : Prop} {σ : Store} {a c : Ex} {u v w : V} (ha : a.val strict σ = some u)
    (hc : c.val strict σ = some v) (h : arith (· * ·) (· * ·) u v = some w) : (Ex.mul a c).val strict σ = some w := by
  simp only [Ex.val, ha, hc, Option.bind_some, h]

theorem val_div {strict : Prop} {σ : Store} {a c : Ex} {u v w : V} (ha : a.val strict σ = some u)
    (hc : c.val strict σ = some v) (h : noInts (fun _ y => strict → y ≠ 0) (· / ·) u v = some w) :
    (Ex.div a c).val strict σ = some w := by
  simp only [Ex.val, ha, hc, Option.bind_some, h]

theorem val_sum {strict : Prop} {σ : Store} {a : Ex} {n : ℕ} {f : ℕ → ℝ} (ha : a.val strict σ = some (.arr (vec n f))) :
    (Ex.sum a).val strict σ = some (.real (fsum n f)) := by
  simp only [Ex.val, ha, Option.bind_some, vec_sum]

theorem val_exp {strict : Prop} {σ : Store} {a : Ex} {n : ℕ} {f : ℕ → ℝ} (ha : a.val strict σ = some (.arr (vec n f))) :
    (Ex.exp a).val strict σ = some (.arr (vec n (fun i => Real.exp (f i)))) := by
  simp only [Ex.val, ha, Option.bind_some, vec_map]

theorem val_pow {strict : Prop} {σ : Store} {a c : Ex} {x y : ℝ} (ha : a.val strict σ = some (.real x))
    (hc : c.val strict σ = some (.real y)) (h : strict → 0 < x ∨ (x = 0 ∧ 0 < y)) :
    (Ex.pow a c).val strict σ = some (.real (Real.rpow x y)) := by
  simp only [Ex.val, ha, hc, Option.bind_some, noInts_reals (ok := fun x y => strict → 0 < x ∨ (x = 0 ∧ 0 < y)) h]

section Pass

variable {L : Aerosol.Layout} {P : PartInput} {b total : ℕ} {strict : Prop} {σ : Store}

theorem val_first (I : Inputs L P total σ) (h0 : σ 56 = .int b) (hb : 1 ≤ b) :
    (Ex.add (.add (.var 60) (.int 1)) (.mul (.sub (.var 56) (.int 1)) (.var 61))).val strict σ =
      some (.int (firstIndex L b : ℕ)) := by
  simp only [Ex.val, I.species, I.cond, h0, Option.bind_some, arith_ints, firstIndex]
  congr 2
  push_cast [hb]
  ring

theorem val_last (I : Inputs L P total σ) (h0 : σ 56 = .int b) :
    (Ex.add (.var 60) (.mul (.var 56) (.var 61))).val strict σ = some (.int (lastIndex L b : ℕ)) := by
  simp only [Ex.val, I.species, I.cond, h0, Option.bind_some, arith_ints, lastIndex]
  congr 2

theorem last_first (hb : 1 ≤ b) : lastIndex L b + 1 - firstIndex L b = L.numCond := by
  unfold lastIndex firstIndex
  obtain ⟨c, rfl⟩ : ∃ c, b = c + 1 := ⟨b - 1, by omega⟩
  have : (c + 1) * L.numCond = c * L.numCond + L.numCond := by ring
  simp only [Nat.add_sub_cancel]
  omega

theorem first_le (hb : 1 ≤ b) : firstIndex L b ≤ lastIndex L b + 1 := by
  unfold lastIndex firstIndex
  obtain ⟨c, rfl⟩ : ∃ c, b = c + 1 := ⟨b - 1, by omega⟩
  have : (c + 1) * L.numCond = c * L.numCond + L.numCond := by ring
  simp only [Nat.add_sub_cancel]
  omega

theorem last_le (hb : b ≤ L.numBins) (ht : total = L.numSpecies + L.numBins * L.numCond) :
    lastIndex L b ≤ total := by
  unfold lastIndex
  have : b * L.numCond ≤ L.numBins * L.numCond := Nat.mul_le_mul_right _ hb
  omega

/-- The statement with number `k`, counted from 1. -/
def stmtAt (k : ℕ) : Stmt := (partBody1[k - 1]?).getD ⟨.var 0, .int 0⟩

theorem typed_get (T : Typed L total σ) (x : ℕ) {d : Decl} (h : (partDecls (holes L total))[x]? = some d) :
    (σ x).shape = shapeOf d := T x d h

/-- The situation in a pass. -/
structure Ctx (L : Aerosol.Layout) (P : PartInput) (b total : ℕ) (strict : Prop) (σ : Store) : Prop where
  I : Inputs L P total σ
  T : Typed L total σ
  lo : 1 ≤ b
  hi : b ≤ L.numBins
  size : total = L.numSpecies + L.numBins * L.numCond
  cond : 1 ≤ L.numCond
  D : strict → Defined L P b

theorem Known.get {k : ℕ} (K : Known L P b k σ) (j : ℕ) (h : j ≤ k) (h' : j ≤ 26) : Fact L P b j (σ (target j)) := K j h h'

variable (c : Ctx L P b total strict σ)

include c

theorem step1 (K : Known L P b 0 σ) : (stmtAt 1).step strict σ = some (.arr (vec L.numCond (tempArray L P b))) := by
  have h0 : σ 56 = .int b := K 0 (by omega) (by omega)
  have h := val_sec (strict := strict) c.I.y (val_first c.I h0 c.lo) (val_last c.I h0) (by unfold firstIndex; omega)
    (last_le c.hi c.size) (first_le c.lo)
  rw [last_first c.lo] at h
  exact step_all (typed_get c.T 50 rfl) h

theorem step2 (K : Known L P b 1 σ) : (stmtAt 2).step strict σ = some (.real (totalMoles L P b)) := by
  have h0 : σ 56 = .int b := K 0 (by omega) (by omega)
  have h1 : σ 50 = _ := K 1 (by omega) (by omega)
  exact step_var (typed_get c.T 41 rfl) (val_add (val_sum (val_all h1))
    (val_mul (val_elem c.I.ycore (val_var h0) c.lo c.hi) (val_var c.I.coreDiss) arith_reals) arith_reals)

theorem step3 (K : Known L P b 2 σ) : (stmtAt 3).step strict σ = some (.arr (vec L.numCond (moleFraction L P b))) := by
  have h1 : σ 50 = _ := K 1 (by omega) (by omega)
  have h2 : σ 41 = _ := K 2 (by omega) (by omega)
  exact step_all (typed_get c.T 49 rfl) (val_div (val_all h1) (val_var h2) (noInts_arr_real (fun _ _ _ h => (c.D h).moles)))

theorem step4 (K : Known L P b 3 σ) : ∃ z, (stmtAt 4).step strict σ = some (.arr (vec (L.numCond + 1)
    (fun i => if i = L.numCond + 1 then z else tempArray L P b i / P.na * P.mw i))) := by
  have h1 : σ 50 = _ := K 1 (by omega) (by omega)
  obtain ⟨f, hf⟩ := shape_arr (show (σ 51).shape = .arr (L.numCond + 1) from typed_get c.T 51 rfl)
  refine ⟨f (L.numCond + 1), (step_sec hf (show (Ex.int 1).val strict σ = some (.int (1 : ℕ)) from rfl) (val_var c.I.cond)
    (le_refl 1) (Nat.le_succ _) c.cond (by omega) (val_mul (val_div (val_all h1) (val_var c.I.na)
    (noInts_arr_real (fun _ _ _ h => (c.D h).na))) (val_all c.I.mw) arith_arrs)).trans ?_⟩
  congr 2
  refine vec_congr (fun i h1 h2 => ?_)
  by_cases h : i = L.numCond + 1
  · rw [if_neg (by omega), if_pos h, h]
  · rw [if_pos (by omega), if_neg h, Nat.sub_add_cancel h1]

theorem step5 (K : Known L P b 4 σ) : (stmtAt 5).step strict σ = some (.arr (vec (L.numCond + 1) (massArray L P b))) := by
  have h0 : σ 56 = .int b := K 0 (by omega) (by omega)
  obtain ⟨z, h4⟩ : ∃ z, σ 51 = _ := K 4 (by omega) (by omega)
  refine (step_elem (k := L.numCond + 1) h4 (val_add (val_var c.I.cond) rfl (arith_ints _ _)) (by omega) (le_refl _)
    (val_elem c.I.coreMass (val_var h0) c.lo c.hi)).trans ?_
  congr 2
  refine vec_congr (fun i h1 h2 => ?_)
  unfold massArray
  by_cases h : i = L.numCond + 1
  · rw [if_pos h, h, Function.update_self]
  · rw [if_neg h, Function.update_of_ne h, if_neg h]

theorem step6 : ∃ z, (stmtAt 6).step strict σ = some (.arr (vec (L.numCond + 1)
    (fun i => if i = L.numCond + 1 then z else P.densityInput i))) := by
  obtain ⟨f, hf⟩ := shape_arr (show (σ 52).shape = .arr (L.numCond + 1) from typed_get c.T 52 rfl)
  have h1 := val_sec (strict := strict) c.I.densityInput (show (Ex.int 1).val strict σ = some (.int (1 : ℕ)) from rfl)
    (val_var c.I.cond) (le_refl 1) (le_refl _) (by omega)
  refine ⟨f (L.numCond + 1), (step_sec hf (show (Ex.int 1).val strict σ = some (.int (1 : ℕ)) from rfl) (val_var c.I.cond)
    (le_refl 1) (Nat.le_succ _) c.cond rfl h1).trans ?_⟩
  congr 2
  refine vec_congr (fun i h1 h2 => ?_)
  by_cases h : i = L.numCond + 1
  · rw [if_neg (by omega), if_pos h, h]
  · rw [if_pos (by omega), if_neg h]
    congr 1
    omega

theorem step7 (K : Known L P b 6 σ) : (stmtAt 7).step strict σ = some (.arr (vec (L.numCond + 1) (densityArray L P b))) := by
  have h0 : σ 56 = .int b := K 0 (by omega) (by omega)
  obtain ⟨z, h4⟩ : ∃ z, σ 52 = _ := K 6 (by omega) (by omega)
  refine (step_elem (k := L.numCond + 1) h4 (val_add (val_var c.I.cond) rfl (arith_ints _ _)) (by omega) (le_refl _)
    (val_elem c.I.coreDensity (val_var h0) c.lo c.hi)).trans ?_
  congr 2
  refine vec_congr (fun i h1 h2 => ?_)
  unfold densityArray
  by_cases h : i = L.numCond + 1
  · rw [if_pos h, h, Function.update_self]
  · rw [if_neg h, Function.update_of_ne h, if_neg h]

theorem step8 (K : Known L P b 7 σ) {f : ℕ → ℝ} (hf : σ 40 = .arr (vec L.numBins f)) :
    (stmtAt 8).step strict σ = some (.arr (vec L.numBins (Function.update f b (soaMassBin L P b)))) := by
  have h0 : σ 56 = .int b := K 0 (by omega) (by omega)
  have h5 : σ 51 = _ := K 5 (by omega) (by omega)
  have hc := c.cond
  have hq : (Ex.sub (.var 61) (.int 1)).val strict σ = some (.int ((L.numCond - 1 : ℕ) : ℤ)) := by
    refine val_sub (val_var c.I.cond) rfl ((arith_ints _ _).trans ?_)
    congr 2
    push_cast [hc]
    rfl
  have h1 := val_sec (strict := strict) h5 (show (Ex.int 1).val strict σ = some (.int (1 : ℕ)) from rfl)
    hq (le_refl 1) (by omega) (by omega)
  have h2 : vec (L.numCond - 1 + 1 - 1) (fun i => massArray L P b (1 + (i - 1))) =
      vec (L.numCond - 1) (massArray L P b) := by
    rw [Nat.add_sub_cancel]
    exact vec_congr (fun i h1 _ => congrArg _ (by omega))
  rw [h2] at h1
  exact step_elem hf (val_var h0) c.lo c.hi (val_sum h1)

theorem step9 (K : Known L P b 8 σ) : ∃ v, (stmtAt 9).step strict σ = some v := by
  have h5 : σ 51 = _ := K 5 (by omega) (by omega)
  obtain ⟨x, hx⟩ := shape_real (typed_get c.T 54 rfl)
  exact ⟨_, step_var (typed_get c.T 54 rfl) (val_add (val_var hx) (val_elem h5 (val_var c.I.cond) c.cond (Nat.le_succ _))
    arith_reals)⟩

theorem step10 (K : Known L P b 9 σ) {f : ℕ → ℝ} (hf : σ 27 = .arr (vec L.numBins f)) :
    (stmtAt 10).step strict σ = some (.arr (vec L.numBins (Function.update f b (waterActivity L P b)))) := by
  have h0 : σ 56 = .int b := K 0 (by omega) (by omega)
  have h1 : σ 50 = _ := K 1 (by omega) (by omega)
  have h2 : σ 41 = _ := K 2 (by omega) (by omega)
  exact step_elem hf (val_var h0) c.lo c.hi (val_div (val_elem h1 (val_var c.I.cond) c.cond (le_refl _)) (val_var h2)
    (noInts_reals (fun h => (c.D h).moles)))

theorem step11 (K : Known L P b 10 σ) : (stmtAt 11).step strict σ = some (.real (totalMass L P b)) := by
  have h5 : σ 51 = _ := K 5 (by omega) (by omega)
  exact step_var (typed_get c.T 55 rfl) (val_sum (val_all h5))

theorem step12 (K : Known L P b 11 σ) :
    (stmtAt 12).step strict σ = some (.arr (vec (L.numCond + 1) (massFraction L P b))) := by
  have h5 : σ 51 = _ := K 5 (by omega) (by omega)
  have h11 : σ 55 = _ := K 11 (by omega) (by omega)
  exact step_all (typed_get c.T 53 rfl) (val_div (val_all h5) (val_var h11) (noInts_arr_real (fun _ _ _ h => (c.D h).mass)))

theorem step13 (K : Known L P b 12 σ) : (stmtAt 13).step strict σ = some (.real (density L P b)) := by
  have h7 : σ 52 = _ := K 7 (by omega) (by omega)
  have h12 : σ 53 = _ := K 12 (by omega) (by omega)
  exact step_var (typed_get c.T 42 rfl) (val_div (val_real 1 (by norm_num)) (val_sum (val_div (val_all h12) (val_all h7)
    (noInts_arrs (fun i h1 h2 h => (c.D h).dens i h1 h2)))) (noInts_reals (fun h => (c.D h).spec)))

theorem step14 (K : Known L P b 13 σ) {f : ℕ → ℝ} (hf : σ 28 = .arr (vec L.numBins f)) :
    (stmtAt 14).step strict σ = some (.arr (vec L.numBins (Function.update f b (sizeArray L P b)))) := by
  have h0 : σ 56 = .int b := K 0 (by omega) (by omega)
  have h11 : σ 55 = _ := K 11 (by omega) (by omega)
  have h13 : σ 42 = _ := K 13 (by omega) (by omega)
  exact step_elem hf (val_var h0) c.lo c.hi (val_pow
    (val_div (val_mul (val_real 3 (by norm_num)) (val_div (val_mul (val_var h11) (val_real 1000 (by norm_num)) arith_reals)
      (val_mul (val_elem c.I.nPerBin (val_var h0) c.lo c.hi) (val_real 1000000 (by norm_num)) arith_reals)
      (noInts_reals (fun h => (c.D h).number))) arith_reals)
      (val_mul (val_mul (val_real 4 (by norm_num)) (val_var c.I.pi) arith_reals) (val_var h13) arith_reals)
      (noInts_reals (fun h => (c.D h).vol)))
    (val_div (val_real 1 (by norm_num)) (val_real 3 (by norm_num)) (noInts_reals (fun _ => three_ne_zero)))
    (fun h => (c.D h).base.imp id (fun h => ⟨h, by norm_num⟩)))

theorem step15 (K : Known L P b 14 σ) : (stmtAt 15).step strict σ = some (.arr (vec L.numCond (knudsen L P b))) := by
  have h0 : σ 56 = .int b := K 0 (by omega) (by omega)
  obtain ⟨f, h14, hs⟩ : ∃ f, σ 28 = .arr (vec L.numBins f) ∧ f b = sizeArray L P b := K 14 (by omega) (by omega)
  have hv := val_elem (strict := strict) h14 (val_var h0) c.lo c.hi
  rw [hs] at hv
  exact step_all (typed_get c.T 35 rfl) (val_div (val_all c.I.gamma) hv (noInts_arr_real (fun _ _ _ h => (c.D h).size)))

theorem step16 (K : Known L P b 15 σ) : (stmtAt 16).step strict σ = some (.arr (vec L.numCond (inverseKn L P b))) := by
  have h15 : σ 35 = _ := K 15 (by omega) (by omega)
  exact step_all (typed_get c.T 30 rfl) (val_div (val_real 1 (by norm_num)) (val_all h15)
    (noInts_real_arr (fun i h1 h2 h => (c.D h).kn i h1 h2)))

theorem step17 (K : Known L P b 16 σ) : (stmtAt 17).step strict σ = some (.arr (vec L.numCond (correction1 L P b))) := by
  have h16 : σ 30 = _ := K 16 (by omega) (by omega)
  exact step_all (typed_get c.T 31 rfl) (val_div (val_add (val_real _ (by norm_num)) (val_mul (val_real _ (by norm_num))
    (val_all h16) arith_real_arr) arith_real_arr) (val_add (val_real 1 (by norm_num)) (val_all h16) arith_real_arr)
    (noInts_arrs (fun i h1 h2 h => (c.D h).one i h1 h2)))

theorem step18 : (stmtAt 18).step strict σ = some (.arr (vec L.numCond (correction2 P))) := by
  exact step_all (typed_get c.T 32 rfl) (val_div (val_mul (val_real 4 (by norm_num)) (val_sub (val_real 1 (by norm_num))
    (val_all c.I.alpha) arith_real_arr) arith_real_arr) (val_mul (val_real 3 (by norm_num)) (val_all c.I.alpha) arith_real_arr)
    (noInts_arrs (fun i h1 h2 h => (c.D h).acc i h1 h2)))

theorem step19 (K : Known L P b 18 σ) : (stmtAt 19).step strict σ = some (.arr (vec L.numCond (correction3 L P b))) := by
  have h15 : σ 35 = _ := K 15 (by omega) (by omega)
  have h17 : σ 31 = _ := K 17 (by omega) (by omega)
  have h18 : σ 32 = _ := K 18 (by omega) (by omega)
  exact step_all (typed_get c.T 33 rfl) (val_add (val_real 1 (by norm_num)) (val_mul (val_add (val_all h17) (val_all h18)
    arith_arrs) (val_all h15) arith_arrs) arith_real_arr)

theorem step20 (K : Known L P b 19 σ) : (stmtAt 20).step strict σ = some (.arr (vec L.numCond (correction L P b))) := by
  have h19 : σ 33 = _ := K 19 (by omega) (by omega)
  exact step_all (typed_get c.T 34 rfl) (val_div (val_real 1 (by norm_num)) (val_all h19)
    (noInts_real_arr (fun i h1 h2 h => (c.D h).corr i h1 h2)))

theorem step21 (K : Known L P b 20 σ) : (stmtAt 21).step strict σ = some (.arr (vec L.numCond (kelvin L P b))) := by
  have h0 : σ 56 = .int b := K 0 (by omega) (by omega)
  have h13 : σ 42 = _ := K 13 (by omega) (by omega)
  obtain ⟨f, h14, hs⟩ : ∃ f, σ 28 = .arr (vec L.numBins f) ∧ f b = sizeArray L P b := K 14 (by omega) (by omega)
  have hv := val_elem (strict := strict) h14 (val_var h0) c.lo c.hi
  rw [hs] at hv
  exact step_all (typed_get c.T 48 rfl) (val_exp (val_div
    (val_mul (val_mul (val_mul (val_real 4 (by norm_num)) (val_all c.I.mw) arith_real_arr) (val_real _ (by norm_num))
      arith_arr_real) (val_var c.I.sigma) arith_arr_real)
    (val_mul (val_mul (val_mul (val_mul (val_var c.I.rGas) (val_var c.I.temp) arith_reals) hv arith_reals)
      (val_real 2 (by norm_num)) arith_reals) (val_var h13) arith_reals)
    (noInts_arr_real (fun _ _ _ h => (c.D h).curv))))

theorem step22 (K : Known L P b 21 σ) : (stmtAt 22).step strict σ = some (.arr (vec L.numCond (pressureEq L P b))) := by
  have h3 : σ 49 = _ := K 3 (by omega) (by omega)
  have h21 : σ 48 = _ := K 21 (by omega) (by omega)
  exact step_all (typed_get c.T 46 rfl) (val_mul (val_mul (val_mul (val_all h21) (val_all h3) arith_arrs)
    (val_all c.I.psat) arith_arrs) (val_real _ (by norm_num)) arith_arr_real)

theorem step23 (K : Known L P b 22 σ) : (stmtAt 23).step strict σ = some (.arr (vec L.numCond (cStar L P b))) := by
  have h22 : σ 46 = _ := K 22 (by omega) (by omega)
  exact step_all (typed_get c.T 47 rfl) (val_mul (val_all h22) (val_div (val_var c.I.na) (val_mul (val_real _ (by norm_num))
    (val_var c.I.temp) arith_reals) (noInts_reals (fun h => (c.D h).temp))) arith_arr_real)

theorem step24 (K : Known L P b 23 σ) : (stmtAt 24).step strict σ = some (.arr (vec L.numCond (kPart1 L P b))) := by
  have h20 : σ 34 = _ := K 20 (by omega) (by omega)
  exact step_all (typed_get c.T 37 rfl) (val_mul (val_all c.I.dStar) (val_all h20) arith_arrs)

theorem step25 (K : Known L P b 24 σ) : (stmtAt 25).step strict σ = some (.arr (vec L.numCond (kTransfer L P b))) := by
  have h0 : σ 56 = .int b := K 0 (by omega) (by omega)
  have h24 : σ 37 = _ := K 24 (by omega) (by omega)
  obtain ⟨f, h14, hs⟩ : ∃ f, σ 28 = .arr (vec L.numBins f) ∧ f b = sizeArray L P b := K 14 (by omega) (by omega)
  have hv := val_elem (strict := strict) h14 (val_var h0) c.lo c.hi
  rw [hs] at hv
  exact step_all (typed_get c.T 38 rfl) (val_mul (val_mul (val_mul (val_mul (val_mul (val_real 4 (by norm_num))
    (val_var c.I.pi) arith_reals) hv arith_reals) (val_real 100 (by norm_num)) arith_reals)
    (val_elem c.I.nPerBin (val_var h0) c.lo c.hi) arith_reals) (val_all h24) arith_real_arr)

theorem step26 (K : Known L P b 25 σ) : (stmtAt 26).step strict σ = some (.arr (vec L.numCond (dmDt L P b))) := by
  have h23 : σ 47 = _ := K 23 (by omega) (by omega)
  have h25 : σ 38 = _ := K 25 (by omega) (by omega)
  exact step_all (typed_get c.T 36 rfl) (val_mul (val_all h25) (val_sub (val_all c.I.cgas) (val_all h23) arith_arrs) arith_arrs)

end Pass

end Ft
end PyBox
