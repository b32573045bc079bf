import Verif.Rate.FactsAgree

/-!
# Formulas of the generic rate coefficients

`Formula` is a kind of law with its parameters, `published` gives the law of every generic coefficient of
the rate files; the meaning of a law on the reals is in `Props/Published.lean`. `Formula.ex` writes a law as
an expression in the air temperature and the water concentration. The check at the end compares the normal
forms of these expressions with those of what the generated program computes
(/repo/Parse_eqn_file.py:903-1262, the Numba text; the other two agree with it by `facts_agree`).
-/

namespace PyBox
namespace Rl

/-- `A (T/300)^n exp(E/T)`. -/
structure Arrhenius where
  A : ℚ
  n : ℚ
  E : ℚ

/-- The laws of the rate coefficients. -/
inductive Formula where
  /-- A law in the temperature only. -/
  | thermal (k : Arrhenius)
  /-- Times the concentration of oxygen. -/
  | oxygen (k : Arrhenius)
  /-- Low-pressure limit per molecule of air, high-pressure limit, broadening factor. -/
  | falloff (low high : Arrhenius) (fc : ℚ)
  /-- The same; the broadening factor is `w exp(-a/T) + exp(-T/b)`. -/
  | falloffVar (low high : Arrhenius) (w a b : ℚ)
  /-- `a (1 + M/b)`. -/
  | pressure (a b : ℚ)
  /-- `1 + k [H2O]`. -/
  | water (k : Arrhenius)
  /-- `k1 + k3 M / (1 + k3 M / k4)`. -/
  | sum (k1 k3 k4 : Arrhenius)
  /-- `a O2 / (1 + b O2)`. -/
  | saturating (a b : Arrhenius)
  /-- A multiple of the concentration of air. -/
  | air (q : ℚ)

/-- The laws, by the name of the coefficient. -/
def published : List (String × Formula) := [
  ("M", .air 1), ("N2", .air 0.79), ("O2", .air 0.2095),
  ("KRONO2", .thermal ⟨2.7e-12, 0, 360⟩),
  ("KRO2NO", .thermal ⟨2.7e-12, 0, 360⟩),
  ("KRO2HO2", .thermal ⟨2.91e-13, 0, 1300⟩),
  ("KAPHO2", .thermal ⟨5.2e-13, 0, 980⟩),
  ("KAPNO", .thermal ⟨7.5e-12, 0, 290⟩),
  ("KRO2NO3", .thermal ⟨2.3e-12, 0, 0⟩),
  ("KNO3AL", .thermal ⟨1.4e-12, 0, -1860⟩),
  ("KDEC", .thermal ⟨1e6, 0, 0⟩),
  ("KROSEC", .thermal ⟨2.5e-14, 0, -300⟩),
  ("KALKOXY", .oxygen ⟨3.7e-14, 0, -460⟩),
  ("KALKPXY", .oxygen ⟨1.8e-14, 0, -260⟩),
  ("KROPRIM", .thermal ⟨2.5e-14, 0, -300⟩),
  ("KCH3O2", .thermal ⟨1.03e-13, 0, 365⟩),
  ("K298CH3O2", .thermal ⟨3.5e-13, 0, 0⟩),
  ("K14ISOM1", .thermal ⟨3e7, 0, -5300⟩),
  ("KFPAN", .falloff ⟨3.28e-28, -6.87, 0⟩ ⟨1.125e-11, -1.105, 0⟩ 0.30),
  ("KBPAN", .falloff ⟨1.1e-5, 0, -10100⟩ ⟨1.9e17, 0, -14100⟩ 0.30),
  ("KBPPN", .falloff ⟨1.7e-3, 0, -11280⟩ ⟨8.3e16, 0, -13940⟩ 0.36),
  ("KMT01", .falloff ⟨1e-31, -1.6, 0⟩ ⟨5e-11, 0.3, 0⟩ 0.85),
  ("KMT02", .falloff ⟨1.3e-31, -1.5, 0⟩ ⟨2.3e-11, 0.24, 0⟩ 0.6),
  ("KMT03", .falloff ⟨3.6e-30, -4.1, 0⟩ ⟨1.9e-12, 0.2, 0⟩ 0.35),
  ("KMT04", .falloff ⟨1.3e-3, -3.5, -11000⟩ ⟨9.7e14, 0.1, -11080⟩ 0.35),
  ("KMT05", .pressure 1.44e-13 4.2e19),
  ("KMT06", .water ⟨1.4e-21, 0, 2200⟩),
  ("KMT07", .falloff ⟨7.4e-31, -2.4, 0⟩ ⟨3.3e-11, -0.3, 0⟩ 0.81),
  ("KMT08", .falloff ⟨3.2e-30, -4.5, 0⟩ ⟨3e-11, 0, 0⟩ 0.41),
  ("KMT09", .falloff ⟨1.4e-31, -3.1, 0⟩ ⟨4e-12, 0, 0⟩ 0.4),
  ("KMT10", .falloff ⟨4.1e-5, 0, -10650⟩ ⟨6e15, 0, -11170⟩ 0.4),
  ("KMT11", .sum ⟨2.4e-14, 0, 460⟩ ⟨6.5e-34, 0, 1335⟩ ⟨2.7e-17, 0, 2199⟩),
  ("KMT12", .falloff ⟨2.5e-31, -2.6, 0⟩ ⟨2e-12, 0, 0⟩ 0.53),
  ("KMT13", .falloff ⟨2.5e-30, -5.5, 0⟩ ⟨1.8e-11, 0, 0⟩ 0.36),
  ("KMT14", .falloff ⟨9e-5, 0, -9690⟩ ⟨1.1e16, 0, -10560⟩ 0.36),
  ("KMT15", .falloff ⟨8.6e-29, -3.1, 0⟩ ⟨9e-12, -0.85, 0⟩ 0.48),
  ("KMT16", .falloff ⟨8e-27, -3.5, 0⟩ ⟨3e-11, -1, 0⟩ 0.5),
  ("KMT17", .falloffVar ⟨5e-30, -1.5, 0⟩ ⟨1e-12, 0, 0⟩ 0.17 51 204),
  ("KMT18", .saturating ⟨9.5e-39, 0, 5270⟩ ⟨7.5e-29, 0, 5610⟩)]

/-! ### As expressions -/

def tempEx : Ex := .var (Backend.fortran.var "temp")
def waterEx : Ex := .var (Backend.fortran.var "H2O")
def airEx : Ex := .num 2.55e19
def oxygenEx : Ex := .mul (.num 0.2095) airEx

/-- A zero exponent is left out. -/
def Arrhenius.ex (k : Arrhenius) : Ex :=
  let p := if k.n = 0 then .num k.A else .mul (.num k.A) (.pow (.div tempEx (.num 300)) (.num k.n))
  if k.E = 0 then p else .mul p (.call .exp (.div (.num k.E) tempEx))

def log10Ex (e : Ex) : Ex := .call .log10 e

/-- The falloff law from its two limits and the broadening factor. -/
def troeEx (k0 ki fc : Ex) : Ex :=
  .div (.mul (.mul k0 ki)
    (.pow (.num 10) (.div (log10Ex fc) (.add (.num 1)
      (.pow (.div (log10Ex (.div k0 ki)) (.sub (.num 0.75) (.mul (.num 1.27) (log10Ex fc)))) (.num 2))))))
    (.add k0 ki)

def Formula.ex : Formula → Ex
  | .thermal k => k.ex
  | .oxygen k => .mul k.ex oxygenEx
  | .falloff low high fc => troeEx (.mul low.ex airEx) high.ex (.num fc)
  | .falloffVar low high w a b => troeEx (.mul low.ex airEx) high.ex
      (.add (.mul (.num w) (.call .exp (.div (.num (-a)) tempEx)))
        (.call .exp (.div (.neg tempEx) (.num b))))
  | .pressure a b => .mul (.num a) (.add (.num 1) (.div airEx (.num b)))
  | .water k => .add (.num 1) (.mul k.ex waterEx)
  | .sum k1 k3 k4 => .add k1.ex (.div (.mul k3.ex airEx)
      (.add (.num 1) (.div (.mul k3.ex airEx) k4.ex)))
  | .saturating a b => .div (.mul a.ex oxygenEx) (.add (.num 1) (.mul b.ex oxygenEx))
  | .air q => .mul (.num q) airEx

/-- What the text has for `KBPPN`: the broadening factor is used as it stands. -/
def ppnEx : Ex :=
  let k0 := Ex.mul (Arrhenius.ex ⟨1.7e-3, 0, -11280⟩) airEx
  let ki := Arrhenius.ex ⟨8.3e16, 0, -13940⟩
  .div (.mul (.mul k0 ki) (.num 0.36)) (.add k0 ki)

def publishedCheck : Bool :=
  published.all (fun r => decide (coefficientOf .numba r.1 =
    norm (if r.1 = "KBPPN" then ppnEx else r.2.ex)))

theorem facts_published : publishedCheck = true := by
  decide +kernel

theorem published_names : published.map Prod.fst = coefficientNames := by decide

end Rl
end PyBox
