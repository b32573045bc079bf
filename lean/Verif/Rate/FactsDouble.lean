import Verif.Rate.FactsSun
import Verif.Rate.Doubles

/-!
# Rounding errors of the rate coefficients in Python

The rate function numba compiles, with all numbers in double precision.
-/

namespace PyBox
namespace Rl

/-- The fixed part of the numba rate file in double precision. -/
def dRateProgram : List KStmt := (doublesRun (rateProgram .numba)).getD []

/-- No whole part is taken. -/
def noTrunc : KEx → Bool
  | .num _ _ => true
  | .var _ => true
  | .neg a => noTrunc a
  | .bin _ a b => noTrunc a && noTrunc b
  | .call f a => decide (f ≠ .trunc) && noTrunc a

def KStmt.noTrunc : KStmt → Bool
  | .asg _ e => Rl.noTrunc e
  | .ifLe _ _ _ _ => true

def dDayVar : Var := ⟨chars% "currentFracDay", none⟩
def dHourVar : Var := ⟨chars% "currentFracHour", none⟩

/-- `currentFracHour = (currentFracDay - int(currentFracDay)) * 24.0` -/
def dHourStmt : KStmt := .asg dHourVar
  (.bin .mul (.bin .sub (.var dDayVar) (.call .trunc (.var dDayVar))) (.num 24 (.real .double)))

def dBefore : List KStmt := dRateProgram.takeWhile KStmt.noTrunc
def dAfter : List KStmt := (dRateProgram.dropWhile KStmt.noTrunc).tail

/-- `J[k] = l*cosx**(m)*numba_exp(-1.0*n*secx)` -/
def dRowEx (l m n : ℚ) : KEx :=
  .bin .mul (.bin .mul (.num l (.real .double)) (.bin .pow (.var cosxVar) (.num m (.real .double))))
    (.call .exp (.bin .mul (.bin .mul (.neg (.num 1 (.real .double))) (.num n (.real .double))) (.var secxVar)))

def dRowStmt (r : Nat × ℚ × ℚ × ℚ) : KStmt := .asg (Backend.numba.slot r.1) (dRowEx r.2.1 r.2.2.1 r.2.2.2)

def dSecxEx : KEx := .bin .div (.num 1 (.real .double)) (.var cosxVar)

/-- The branch on whether the sun is up. -/
def dUpStmt : KStmt := .ifLe (.var cosxVar) (.var limitVar)
  [(cosxVar, .num 0 (.real .double)), (secxVar, .num 1e20 (.real .double))] [(secxVar, dSecxEx)]

/-- From the hour to the height of the sun. -/
def dToSun : List KStmt := dAfter.take 5

/-- The hour, with the number of whole days given. -/
def dHourEx : Ex := .mul (.sub (.var dDayVar) (.var wholeVar)) (.num 24)

/-- On entry: the arguments are given as they are. -/
def dStart : ErrSt := [
  (⟨chars% "temp", none⟩, ⟨some 0, some (5.285, 5.806), some (200, 330, 0)⟩),
  (⟨chars% "H2O", none⟩, ⟨some 0, none, none⟩),
  (⟨chars% "RO2", none⟩, ⟨some 0, none, none⟩),
  (⟨chars% "ttime", none⟩, ⟨none, none, some (0, 1000000000, 0)⟩)]

/-- What the analysis confirms of the assignments before the hour. -/
def dErrors : List (Var × Err) := [
  (⟨chars% "M", none⟩, ⟨some 300e-18, some (44664e-3, 44687e-3), some (2550000e13, 2550000e13, 765e1)⟩),
  (⟨chars% "N2", none⟩, ⟨some 900e-18, some (44437e-3, 44459e-3), some (2014500e13, 2014500e13, 182e2)⟩),
  (⟨chars% "O2", none⟩, ⟨some 900e-18, some (43105e-3, 43127e-3), some (5342250e12, 5342250e12, 481e1)⟩),
  (⟨chars% "KRONO2", none⟩, ⟨some 144e-17, some (-25552e-3, -24821e-3), none⟩),
  (⟨chars% "KRO2NO", none⟩, ⟨some 144e-17, some (-25552e-3, -24821e-3), none⟩),
  (⟨chars% "KRO2HO2", none⟩, ⟨some 285e-17, some (-24943e-3, -22363e-3), none⟩),
  (⟨chars% "KAPHO2", none⟩, ⟨some 237e-17, some (-25331e-3, -23378e-3), none⟩),
  (⟨chars% "KAPNO", none⟩, ⟨some 134e-17, some (-24746e-3, -24153e-3), none⟩),
  (⟨chars% "KRO2NO3", none⟩, ⟨some 300e-18, some (-26806e-3, -26783e-3), none⟩),
  (⟨chars% "KNO3AL", none⟩, ⟨some 369e-17, some (-36604e-3, -32918e-3), none⟩),
  (⟨chars% "KDEC", none⟩, ⟨some 0, some (13797e-3, 13820e-3), some (1000000e0, 1000000e0, 0)⟩),
  (⟨chars% "KROSEC", none⟩, ⟨some 135e-17, some (-32822e-3, -32209e-3), none⟩),
  (⟨chars% "KALKOXY", none⟩, ⟨some 279e-17, some (9877e-3, 10813e-3), some (1956754e-2, 4960487e-2, 278e-12)⟩),
  (⟨chars% "KALKPXY", none⟩, ⟨some 249e-17, some (10148e-3, 10693e-3), some (2587841e-2, 4542529e-2, 233e-12)⟩),
  (⟨chars% "KROPRIM", none⟩, ⟨some 135e-17, some (-32822e-3, -32209e-3), none⟩),
  (⟨chars% "KCH3O2", none⟩, ⟨some 145e-17, some (-28819e-3, -28077e-3), none⟩),
  (⟨chars% "K298CH3O2", none⟩, ⟨some 300e-18, some (-28690e-3, -28668e-3), none⟩),
  (⟨chars% "K14ISOM1", none⟩, ⟨some 855e-17, some (-9302e-3, 1160e-3), some (9275962e-11, 3279199e-6, 561e-16)⟩),
  (⟨chars% "kc0", none⟩, ⟨some 441e-17, some (-19384e-3, -15767e-3), none⟩),
  (⟨chars% "kci", none⟩, ⟨some 137e-17, some (-25344e-3, -24747e-3), none⟩),
  (⟨chars% "krc", none⟩, ⟨some 608e-17, some (5363e-3, 9577e-3), some (2027845e-4, 1515070e-2, 185e-12)⟩),
  (⟨chars% "fcc", none⟩, ⟨some 300e-18, some (-1214e-3, -1191e-3), some (3000000e-7, 3000000e-7, 900e-19)⟩),
  (⟨chars% "nc", none⟩, ⟨some 170e-17, some (335e-3, 369e-3), some (1406455e-6, 1419904e-6, 120e-17)⟩),
  (⟨chars% "fc", none⟩, ⟨some 435e-17, some (-331e-3, -121e-3), some (6872678e-7, 9394170e-7, 818e-17)⟩),
  (⟨chars% "KFPAN", none⟩, ⟨some 158e-16, some (-29992e-3, -21251e-3), none⟩),
  (⟨chars% "kd0", none⟩, ⟨some 167e-16, some (-17251e-3, 2666e-3), some (3253800e-14, 1469819e-5, 490e-15)⟩),
  (⟨chars% "kdi", none⟩, ⟨some 221e-16, some (-30731e-3, -2936e-3), some (4408922e-20, 5508727e-8, 249e-17)⟩),
  (⟨chars% "krd", none⟩, ⟨some 391e-16, some (-14315e-3, 33397e-3), some (5906627e-13, 3333736e8, 261e-1)⟩),
  (⟨chars% "fcd", none⟩, ⟨some 300e-18, some (-1214e-3, -1191e-3), some (3000000e-7, 3000000e-7, 900e-19)⟩),
  (⟨chars% "ncd", none⟩, ⟨some 170e-17, some (335e-3, 369e-3), some (1406455e-6, 1419904e-6, 120e-17)⟩),
  (⟨chars% "fd", none⟩, ⟨some 760e-15, some (-1217e-3, -10e-3), some (2864749e-7, 1000000e-6, 152e-14)⟩),
  (⟨chars% "KBPAN", none⟩, ⟨some 823e-15, some (-51907e-3, 16971e-3), some (2700000e-29, 2393549e1, 398e-7)⟩),
  (⟨chars% "KPPN0", none⟩, ⟨some 185e-16, some (-18104e-3, 4137e-3), some (1342013e-14, 6571783e-5, 243e-14)⟩),
  (⟨chars% "KPPNI", none⟩, ⟨some 219e-16, some (-30754e-3, -3274e-3), some (4141777e-20, 3878266e-8, 170e-17)⟩),
  (⟨chars% "KRPPN", none⟩, ⟨some 407e-16, some (-14830e-3, 34891e-3), some (3462035e-13, 1494264e9, 122e0)⟩),
  (⟨chars% "FCPPN", none⟩, ⟨some 300e-18, some (-1040e-3, -1018e-3), some (3600000e-7, 3600000e-7, 108e-18)⟩),
  (⟨chars% "NCPPN", none⟩, ⟨some 170e-17, some (335e-3, 369e-3), some (1406455e-6, 1419904e-6, 120e-17)⟩),
  (⟨chars% "FPPN", none⟩, ⟨some 760e-15, some (-1217e-3, -10e-3), some (2864749e-7, 1000000e-6, 152e-14)⟩),
  (⟨chars% "KBPPN", none⟩, ⟨some 638e-16, some (-54098e-3, 17949e-3), some (3000000e-30, 6435522e1, 840e-8)⟩),
  (⟨chars% "k10", none⟩, ⟨some 218e-17, some (-26893e-3, -26016e-3), none⟩),
  (⟨chars% "k1i", none⟩, ⟨some 103e-17, some (-23853e-3, -23675e-3), none⟩),
  (⟨chars% "kr1", none⟩, ⟨some 351e-17, some (-3218e-3, -2163e-3), some (3876371e-8, 1194500e-7, 839e-18)⟩),
  (⟨chars% "fc1", none⟩, ⟨some 300e-18, some (-174e-3, -151e-3), some (8500000e-7, 8500000e-7, 255e-18)⟩),
  (⟨chars% "nc1", none⟩, ⟨some 122e-17, some (-195e-3, -151e-3), some (8332281e-7, 8460159e-7, 506e-18)⟩),
  (⟨chars% "f1", none⟩, ⟨some 101e-17, some (-79e-3, -39e-3), some (8824877e-7, 1000000e-6, 201e-17)⟩),
  (⟨chars% "KMT01", none⟩, ⟨some 760e-17, some (-27850e-3, -25877e-3), none⟩),
  (⟨chars% "k20", none⟩, ⟨some 195e-17, some (-26633e-3, -25808e-3), none⟩),
  (⟨chars% "k2i", none⟩, ⟨some 101e-17, some (-24609e-3, -24461e-3), none⟩),
  (⟨chars% "kr2", none⟩, ⟨some 326e-17, some (-2172e-3, -1199e-3), some (1121764e-7, 3050071e-7, 199e-17)⟩),
  (⟨chars% "fc2", none⟩, ⟨some 300e-18, some (-520e-3, -498e-3), some (6000000e-7, 6000000e-7, 180e-18)⟩),
  (⟨chars% "nc2", none⟩, ⟨some 144e-17, some (21e-3, 44e-3), some (1024487e-6, 1036944e-6, 735e-18)⟩),
  (⟨chars% "f2", none⟩, ⟨some 266e-17, some (-417e-3, -267e-3), some (6456250e-7, 7788139e-7, 413e-17)⟩),
  (⟨chars% "KMT02", none⟩, ⟨some 877e-17, some (-27898e-3, -25927e-3), none⟩),
  (⟨chars% "k30", none⟩, ⟨some 324e-17, some (-23590e-3, -21413e-3), none⟩),
  (⟨chars% "k3i", none⟩, ⟨some 985e-18, some (-27083e-3, -26956e-3), none⟩),
  (⟨chars% "kr3", none⟩, ⟨some 453e-17, some (3366e-3, 5670e-3), some (2744757e-5, 2952947e-4, 268e-14)⟩),
  (⟨chars% "fc3", none⟩, ⟨some 300e-18, some (-1062e-3, -1039e-3), some (3500000e-7, 3500000e-7, 105e-18)⟩),
  (⟨chars% "nc3", none⟩, ⟨some 166e-17, some (270e-3, 304e-3), some (1322676e-6, 1336028e-6, 110e-17)⟩),
  (⟨chars% "f3", none⟩, ⟨some 468e-17, some (-485e-3, -230e-3), some (6065054e-7, 8290396e-7, 775e-17)⟩),
  (⟨chars% "KMT03", none⟩, ⟨some 134e-16, some (-30445e-3, -25009e-3), none⟩),
  (⟨chars% "k40", none⟩, ⟨some 197e-16, some (-17354e-3, 6155e-3), some (2841220e-14, 4868789e-4, 192e-13)⟩),
  (⟨chars% "k4i", none⟩, ⟨some 179e-16, some (-20947e-3, 952e-3), some (7569310e-16, 2718509e-6, 972e-16)⟩),
  (⟨chars% "kr4", none⟩, ⟨some 379e-16, some (-18306e-3, 27102e-3), some (1112550e-14, 6042532e5, 459e-4)⟩),
  (⟨chars% "fc4", none⟩, ⟨some 300e-18, some (-1062e-3, -1039e-3), some (3500000e-7, 3500000e-7, 105e-18)⟩),
  (⟨chars% "nc4", none⟩, ⟨some 166e-17, some (270e-3, 304e-3), some (1322676e-6, 1336028e-6, 110e-17)⟩),
  (⟨chars% "f4", none⟩, ⟨some 530e-15, some (-1065e-3, -12e-3), some (3246220e-7, 1000000e-6, 106e-14)⟩),
  (⟨chars% "KMT04", none⟩, ⟨some 589e-15, some (-45572e-3, 24449e-3), some (1615800e-26, 4262677e4, 516e-4)⟩),
  (⟨chars% "KMT05", none⟩, ⟨some 180e-17, some (-29102e-3, -29079e-3), none⟩),
  (⟨chars% "KMT06", none⟩, ⟨some 480e-17, none, none⟩),
  (⟨chars% "k70", none⟩, ⟨some 252e-17, some (-24987e-3, -23694e-3), none⟩),
  (⟨chars% "k7i", none⟩, ⟨some 103e-17, some (-24185e-3, -24006e-3), none⟩),
  (⟨chars% "kr7", none⟩, ⟨some 385e-17, some (-981e-3, 491e-3), some (3678488e-7, 1648790e-6, 127e-16)⟩),
  (⟨chars% "fc7", none⟩, ⟨some 300e-18, some (-228e-3, -205e-3), some (8100000e-7, 8100000e-7, 243e-18)⟩),
  (⟨chars% "nc7", none⟩, ⟨some 126e-17, some (-163e-3, -119e-3), some (8629919e-7, 8758139e-7, 542e-18)⟩),
  (⟨chars% "f7", none⟩, ⟨some 142e-17, some (-229e-3, -163e-3), some (7787845e-7, 8825043e-7, 250e-17)⟩),
  (⟨chars% "KMT07", none⟩, ⟨some 869e-17, some (-26407e-3, -23678e-3), none⟩),
  (⟨chars% "k80", none⟩, ⟨some 285e-17, some (-23741e-3, -21356e-3), none⟩),
  (⟨chars% "k8i", none⟩, ⟨some 300e-18, some (-24239e-3, -24216e-3), none⟩),
  (⟨chars% "kr8", none⟩, ⟨some 345e-17, some (475e-3, 2883e-3), some (1548784e-6, 1887324e-5, 131e-15)⟩),
  (⟨chars% "fc8", none⟩, ⟨some 300e-18, some (-910e-3, -888e-3), some (4100000e-7, 4100000e-7, 123e-18)⟩),
  (⟨chars% "nc8", none⟩, ⟨some 161e-17, some (205e-3, 228e-3), some (1239447e-6, 1252152e-6, 994e-18)⟩),
  (⟨chars% "f8", none⟩, ⟨some 651e-17, some (-889e-3, -435e-3), some (3915750e-7, 6873066e-7, 895e-17)⟩),
  (⟨chars% "KMT08", none⟩, ⟨some 138e-16, some (-28213e-3, -22266e-3), none⟩),
  (⟨chars% "k90", none⟩, ⟨some 282e-17, some (-26731e-3, -25073e-3), none⟩),
  (⟨chars% "k9i", none⟩, ⟨some 300e-18, some (-26253e-3, -26231e-3), none⟩),
  (⟨chars% "kr9", none⟩, ⟨some 342e-17, some (-500e-3, 1180e-3), some (6065054e-7, 3279199e-6, 225e-16)⟩),
  (⟨chars% "fc9", none⟩, ⟨some 300e-18, some (-921e-3, -898e-3), some (4000000e-7, 4000000e-7, 120e-18)⟩),
  (⟨chars% "nc9", none⟩, ⟨some 161e-17, some (216e-3, 250e-3), some (1244959e-6, 1258222e-6, 101e-17)⟩),
  (⟨chars% "f9", none⟩, ⟨some 288e-17, some (-924e-3, -761e-3), some (3915750e-7, 4723903e-7, 272e-17)⟩),
  (⟨chars% "KMT09", none⟩, ⟨some 101e-16, some (-29535e-3, -25812e-3), none⟩),
  (⟨chars% "k100", none⟩, ⟨some 175e-16, some (-18680e-3, 2320e-3), some (7646204e-15, 1033394e-5, 376e-15)⟩),
  (⟨chars% "k10i", none⟩, ⟨some 174e-16, some (-19536e-3, 2488e-3), some (3187180e-15, 1218504e-5, 423e-15)⟩),
  (⟨chars% "kr10", none⟩, ⟨some 352e-16, some (-21168e-3, 21856e-3), some (6275080e-16, 3169444e3, 224e-6)⟩),
  (⟨chars% "fc10", none⟩, ⟨some 300e-18, some (-921e-3, -898e-3), some (4000000e-7, 4000000e-7, 120e-18)⟩),
  (⟨chars% "nc10", none⟩, ⟨some 161e-17, some (216e-3, 250e-3), some (1244959e-6, 1258222e-6, 101e-17)⟩),
  (⟨chars% "f10", none⟩, ⟨some 359e-15, some (-924e-3, -15e-3), some (3915750e-7, 1000000e-6, 717e-15)⟩),
  (⟨chars% "KMT10", none⟩, ⟨some 413e-15, some (-42260e-3, 23151e-3), some (4237580e-25, 1136194e4, 972e-5)⟩),
  (⟨chars% "k1", none⟩, ⟨some 159e-17, some (-29982e-3, -29054e-3), none⟩),
  (⟨chars% "k3", none⟩, ⟨some 291e-17, some (-72385e-3, -69733e-3), none⟩),
  (⟨chars% "k4", none⟩, ⟨some 420e-17, some (-31492e-3, -27141e-3), none⟩),
  (⟨chars% "k2", none⟩, ⟨some 122e-16, some (-34231e-3, -25468e-3), none⟩),
  (⟨chars% "KMT11", none⟩, ⟨some 125e-16, some (-29982e-3, -24768e-3), none⟩),
  (⟨chars% "k120", none⟩, ⟨some 261e-17, some (-26092e-3, -24694e-3), none⟩),
  (⟨chars% "k12i", none⟩, ⟨some 300e-18, some (-26947e-3, -26924e-3), none⟩),
  (⟨chars% "kr12", none⟩, ⟨some 321e-17, some (832e-3, 2253e-3), some (2253412e-6, 1010159e-5, 649e-16)⟩),
  (⟨chars% "fc12", none⟩, ⟨some 300e-18, some (-650e-3, -628e-3), some (5300000e-7, 5300000e-7, 159e-18)⟩),
  (⟨chars% "nc12", none⟩, ⟨some 150e-17, some (86e-3, 120e-3), some (1096141e-6, 1108680e-6, 821e-18)⟩),
  (⟨chars% "f12", none⟩, ⟨some 370e-17, some (-590e-3, -346e-3), some (5352335e-7, 7316310e-7, 541e-17)⟩),
  (⟨chars% "KMT12", none⟩, ⟨some 105e-16, some (-29635e-3, -25872e-3), none⟩),
  (⟨chars% "k130", none⟩, ⟨some 315e-17, some (-24099e-3, -21194e-3), none⟩),
  (⟨chars% "k13i", none⟩, ⟨some 300e-18, some (-24759e-3, -24736e-3), none⟩),
  (⟨chars% "kr13", none⟩, ⟨some 375e-17, some (637e-3, 3565e-3), some (1868167e-6, 3753606e-5, 282e-15)⟩),
  (⟨chars% "fc13", none⟩, ⟨some 300e-18, some (-1040e-3, -1018e-3), some (3600000e-7, 3600000e-7, 108e-18)⟩),
  (⟨chars% "nc13", none⟩, ⟨some 165e-17, some (259e-3, 293e-3), some (1311101e-6, 1323888e-6, 108e-17)⟩),
  (⟨chars% "f13", none⟩, ⟨some 890e-17, some (-999e-3, -421e-3), some (3678488e-7, 6873066e-7, 123e-16)⟩),
  (⟨chars% "KMT13", none⟩, ⟨some 167e-16, some (-29363e-3, -22252e-3), none⟩),
  (⟨chars% "k140", none⟩, ⟨some 161e-16, some (-13122e-3, 6010e-3), some (1992554e-12, 4279361e-4, 138e-13)⟩),
  (⟨chars% "k14i", none⟩, ⟨some 168e-16, some (-15880e-3, 4943e-3), some (1210000e-13, 1396050e-4, 498e-14)⟩),
  (⟨chars% "kr14", none⟩, ⟨some 332e-16, some (-18065e-3, 21890e-3), some (1427279e-14, 3373873e3, 225e-6)⟩),
  (⟨chars% "fc14", none⟩, ⟨some 300e-18, some (-1040e-3, -1018e-3), some (3600000e-7, 3600000e-7, 108e-18)⟩),
  (⟨chars% "nc14", none⟩, ⟨some 165e-17, some (259e-3, 293e-3), some (1311101e-6, 1323888e-6, 108e-17)⟩),
  (⟨chars% "f14", none⟩, ⟨some 358e-15, some (-1043e-3, -18e-3), some (3455601e-7, 1000000e-6, 715e-15)⟩),
  (⟨chars% "KMT14", none⟩, ⟨some 409e-15, some (-36392e-3, 24019e-3), some (1545031e-22, 2663657e4, 232e-4)⟩),
  (⟨chars% "k150", none⟩, ⟨some 282e-17, some (-20308e-3, -18651e-3), none⟩),
  (⟨chars% "k15i", none⟩, ⟨some 126e-17, some (-25544e-3, -25080e-3), none⟩),
  (⟨chars% "kr15", none⟩, ⟨some 438e-17, some (4772e-3, 6893e-3), some (1155474e-4, 1030787e-3, 903e-14)⟩),
  (⟨chars% "fc15", none⟩, ⟨some 300e-18, some (-748e-3, -725e-3), some (4800000e-7, 4800000e-7, 144e-18)⟩),
  (⟨chars% "nc15", none⟩, ⟨some 155e-17, some (129e-3, 163e-3), some (1149605e-6, 1162758e-6, 886e-18)⟩),
  (⟨chars% "f15", none⟩, ⟨some 185e-17, some (-180e-3, -92e-3), some (8290161e-7, 9394170e-7, 346e-17)⟩),
  (⟨chars% "KMT15", none⟩, ⟨some 995e-17, some (-28081e-3, -23515e-3), none⟩),
  (⟨chars% "k160", none⟩, ⟨some 255e-17, some (-15814e-3, -13948e-3), none⟩),
  (⟨chars% "k16i", none⟩, ⟨some 120e-17, some (-24347e-3, -23805e-3), none⟩),
  (⟨chars% "kr16", none⟩, ⟨some 405e-17, some (7991e-3, 10399e-3), some (2798861e-3, 3414493e-2, 277e-12)⟩),
  (⟨chars% "fc16", none⟩, ⟨some 0, some (-704e-3, -682e-3), some (5000000e-7, 5000000e-7, 0)⟩),
  (⟨chars% "nc16", none⟩, ⟨some 123e-17, some (108e-3, 141e-3), some (1125904e-6, 1138478e-6, 692e-18)⟩),
  (⟨chars% "f16", none⟩, ⟨some 753e-18, some (-69e-3, -39e-3), some (8824877e-7, 1000000e-6, 151e-17)⟩),
  (⟨chars% "KMT16", none⟩, ⟨some 826e-17, some (-26982e-3, -21978e-3), none⟩),
  (⟨chars% "k170", none⟩, ⟨some 195e-17, some (-22973e-3, -22147e-3), none⟩),
  (⟨chars% "k17i", none⟩, ⟨some 300e-18, some (-27640e-3, -27617e-3), none⟩),
  (⟨chars% "kr17", none⟩, ⟨some 255e-17, some (4644e-3, 5493e-3), some (1019711e-4, 2448041e-4, 125e-14)⟩),
  (⟨chars% "fc17", none⟩, ⟨some 158e-17, some (-1138e-3, -595e-3), some (3239989e-7, 5416560e-7, 137e-17)⟩),
  (⟨chars% "nc17", none⟩, ⟨some 344e-17, some (64e-3, 336e-3), some (1077952e-6, 1377966e-6, 186e-17)⟩),
  (⟨chars% "f17", none⟩, ⟨some 457e-17, some (-364e-3, -99e-3), some (6872678e-7, 9394170e-7, 858e-17)⟩),
  (⟨chars% "KMT17", none⟩, ⟨some 997e-17, some (-29530e-3, -26890e-3), none⟩),
  (⟨chars% "KMT18", none⟩, ⟨some 212e-16, some (-34945e-3, -18065e-3), none⟩),
  (⟨chars% "pi", none⟩, ⟨some 901e-18, some (1126e-3, 1159e-3), some (3140000e-6, 3144000e-6, 189e-17)⟩),
  (⟨chars% "currentDayOfYear", none⟩, ⟨some 0, some (4992e-3, 5015e-3), some (1500000e-4, 1500000e-4, 0)⟩),
  (⟨chars% "latitude", none⟩, ⟨some 300e-18, some (3931e-3, 3954e-3), some (5151000e-5, 5151000e-5, 155e-16)⟩),
  (⟨chars% "longitude", none⟩, ⟨some 300e-18, some (-2058e-3, -2036e-3), some (1300000e-7, 1300000e-7, 390e-19)⟩),
  (⟨chars% "cosx_threshold", none⟩, ⟨some 300e-18, some (-69088e-3, -69065e-3), none⟩),
  (⟨chars% "theta", none⟩, ⟨some 241e-17, some (931e-3, 954e-3), some (2563616e-6, 2566883e-6, 463e-17)⟩),
  (⟨chars% "b0", none⟩, ⟨some 300e-18, some (-4982e-3, -4960e-3), some (6918000e-9, 6918000e-9, 208e-20)⟩),
  (⟨chars% "b1", none⟩, ⟨none, none, some (-3999120e-7, -3999120e-7, 120e-18)⟩),
  (⟨chars% "b2", none⟩, ⟨some 300e-18, some (-2665e-3, -2642e-3), some (7025700e-8, 7025700e-8, 211e-19)⟩),
  (⟨chars% "b3", none⟩, ⟨none, none, some (-6758000e-9, -6758000e-9, 203e-20)⟩),
  (⟨chars% "b4", none⟩, ⟨some 300e-18, some (-7019e-3, -6996e-3), some (9070000e-10, 9070000e-10, 273e-21)⟩),
  (⟨chars% "b5", none⟩, ⟨none, none, some (-2697000e-9, -2697000e-9, 810e-21)⟩),
  (⟨chars% "b6", none⟩, ⟨some 300e-18, some (-6531e-3, -6509e-3), some (1480000e-9, 1480000e-9, 444e-21)⟩),
  (⟨chars% "dec", none⟩, ⟨none, none, some (-4750930e-7, 4889290e-7, 362e-17)⟩),
  (⟨chars% "c0", none⟩, ⟨some 300e-18, some (-9510e-3, -9487e-3), some (7500000e-11, 7500000e-11, 225e-22)⟩),
  (⟨chars% "c1", none⟩, ⟨some 300e-18, some (-6293e-3, -6270e-3), some (1868000e-9, 1868000e-9, 561e-21)⟩),
  (⟨chars% "c2", none⟩, ⟨none, none, some (-3207700e-8, -3207700e-8, 963e-20)⟩),
  (⟨chars% "c3", none⟩, ⟨none, none, some (-1461500e-8, -1461500e-8, 439e-20)⟩),
  (⟨chars% "c4", none⟩, ⟨none, none, some (-4084900e-8, -4084900e-8, 123e-19)⟩),
  (⟨chars% "eqtime", none⟩, ⟨none, none, some (-8933400e-8, 8948400e-8, 889e-18)⟩),
  (⟨chars% "currentFracDay", none⟩, ⟨none, none, some (149, 12000, 71e-13)⟩)]

/-- What is known before the hour. -/
def dState : ErrSt := dErrors.reverse ++ dStart

def dHeightErrors : List (Var × Err) := [
  (⟨chars% "lha", none⟩, ⟨none, none, some (-4, 4, 5e-11)⟩),
  (⟨chars% "lat", none⟩, ⟨some 181e-17, some (-120e-3, -97e-3), some (8985633e-7, 8997080e-7, 136e-17)⟩),
  (⟨chars% "sinld", none⟩, ⟨none, none, some (-1, 1, 589e-17)⟩),
  (⟨chars% "cosld", none⟩, ⟨none, none, some (-1, 1, 589e-17)⟩),
  (cosxVar, ⟨none, none, some (-2, 2, 6e-11)⟩)]

def dHourState : ErrSt := (dHourVar, ⟨none, none, some (-1, 25, 18e-11)⟩) :: dState

/-- What is known when the height of the sun has been computed. -/
def dHeightState : ErrSt := dHeightErrors.reverse ++ dHourState

/-- Nothing is said here of what depends on the hour. -/
def dUnknown : List (Var × Err) := (dHourVar, .top) :: dHeightErrors.map (fun p => (p.1, .top)) ++
  photolysisTable.map (fun r => (Backend.numba.slot r.1, .top)) ++
  [(⟨chars% "TEMP", none⟩, ⟨some 0, some (5.285, 5.806), some (200, 330, 0)⟩)]

/-- What is known after the fixed program. -/
def dKnown : ErrSt := (dUnknown.drop 6).reverse ++
  forget [cosxVar, secxVar, secxVar] ((dUnknown.take 6).reverse ++ dState)

def doubleFacts : Bool :=
  (doublesRun (rateProgram .numba)).isSome &&
  decide ((dRateProgram.dropWhile KStmt.noTrunc).head? = some dHourStmt) &&
  decide ((dAfter.drop 5).take 1 = [dUpStmt]) &&
  decide ((dAfter.drop 6).take 36 = photolysisTable.map dRowStmt) &&
  (dAfter.drop 42).all (KStmt.isAsg fun v => decide (v.name ≠ Backend.numba.name "J".toList)) &&
  decide (checkRun dErrors dBefore dStart = some dState) &&
  decide (checkRun dHeightErrors dToSun dHourState = some dHeightState) &&
  decide (checkRun dUnknown (dHourStmt :: dAfter) dState = some dKnown) &&
  decide ((symRun [] (dBefore.map KStmt.erase)).get wholeVar = .var wholeVar) &&
  decide ((symRun [] (dBefore.map KStmt.erase)).get dDayVar =
    .add (.sub (.num 150) (.num 1)) (.div (.var (nm "ttime")) (.num 86400))) &&
  decide (norm ((symRun [] (dBefore.map KStmt.erase ++ .asg dHourVar dHourEx :: dToSun.map KStmt.erase)).get cosxVar) =
    norm heightEx) &&
  dRateProgram.all KStmt.kinds && dRateProgram.all KStmt.noFloor

theorem facts_double : doubleFacts = true := by decide +kernel

/-! ### Rates for a height between two bounds -/

def dHeightErr (a b : ℚ) : Err := tidy ⟨none, none, some (a, b, 6e-11)⟩

def dBandState (a b : ℚ) : ErrSt :=
  [(secxVar, errOf [(cosxVar, dHeightErr a b)] dSecxEx), (cosxVar, dHeightErr a b)]

/-- Every rate has at most the errors `e`, of its ratio, and `x` times its scale. -/
def dBandOk (a b e x : ℚ) : Bool :=
  photolysisTable.all fun r =>
    forceErr (errOf (dBandState a b) (dRowEx r.2.1 r.2.2.1 r.2.2.2)) fun i =>
      match i.ratio, i.range with
      | some d, some p => decide (d ≤ e ∧ p.2.2 ≤ x * r.2.1)
      | _, _ => false

theorem facts_double_low : dBandOk 0.003 0.02 1 9e-9 = true := by decide +kernel

theorem facts_double_middle : dBandOk 0.02 0.1 1 9e-9 = true := by decide +kernel

theorem facts_double_high : dBandOk 0.1 1.1 5e-9 9e-9 = true := by decide +kernel

end Rl
end PyBox
