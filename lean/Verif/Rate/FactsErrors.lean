import Verif.Rate.ErrorRun
import Verif.Rate.FactsKinds

/-!
# Rounding errors of the fixed Fortran rate program
-/

namespace PyBox
namespace Rl

/-- What is known on entry: the temperature is between 200 and 330; water and peroxy radicals are not negative; all are
exact. -/
def startErrors : ErrSt := [
  (⟨chars% "temp", none⟩, ⟨some 0, some (5.285, 5.806), some (200, 330, 0)⟩),
  (⟨chars% "h2o", none⟩, ⟨some 0, none, none⟩),
  (⟨chars% "ro2", none⟩, ⟨some 0, none, none⟩)]

/-- Variables of the fixed program, up to the height of the sun: error of the logarithm, bounds of the logarithm, bounds
and error of the value. -/
def sunErrors : List (Var × Err) := [
  (⟨chars% "cosx_threshold", none⟩, ⟨some 121e-9, some (-69.088, -69.065), none⟩),
  (⟨chars% "m", none⟩, ⟨some 0.00000006, some (44.664, 44.687), some (255e17, 255e17, 154e10)⟩),
  (⟨chars% "n2", none⟩, ⟨some 0.00000006, some (44.437, 44.459), some (20145e15, 20145e15, 121e10)⟩),
  (⟨chars% "o2", none⟩, ⟨some 0.00000006, some (43.105, 43.127), some (534225e13, 534225e13, 321e9)⟩),
  (⟨chars% "pi", none⟩, ⟨some 181e-9, some (1.126, 1.159), some (3.14, 3.144, 378e-9)⟩),
  (⟨chars% "currentdayofyear", none⟩, ⟨some 0, some (4.992, 5.015), some (150, 150, 0)⟩),
  (⟨chars% "latitude", none⟩, ⟨some 0.00000006, some (3.931, 3.954), some (51.51, 51.51, 0.0000031)⟩),
  (⟨chars% "longitude", none⟩, ⟨some 0.00000006, some (-2.058, -2.036), some (0.13, 0.13, 781e-11)⟩),
  (⟨chars% "theta", none⟩, ⟨some 182e-9, some (0.931, 0.954), some (2.563616, 2.566883, 309e-9)⟩),
  (⟨chars% "b0", none⟩, ⟨some 0.00000006, some (-4.982, -4.96), some (0.006918, 0.006918, 416e-12)⟩),
  (⟨chars% "b1", none⟩, ⟨none, none, some (-0.399912, -0.399912, 24e-9)⟩),
  (⟨chars% "b2", none⟩, ⟨some 0.00000006, some (-2.665, -2.642), some (0.070257, 0.070257, 422e-11)⟩),
  (⟨chars% "b3", none⟩, ⟨none, none, some (-0.006758, -0.006758, 406e-12)⟩),
  (⟨chars% "b4", none⟩, ⟨some 0.00000006, some (-7.019, -6.996), some (0.000907, 0.000907, 545e-13)⟩),
  (⟨chars% "b5", none⟩, ⟨none, none, some (-0.002697, -0.002697, 162e-12)⟩),
  (⟨chars% "b6", none⟩, ⟨some 0.00000006, some (-6.531, -6.509), some (0.00148, 0.00148, 889e-13)⟩),
  (⟨chars% "dec", none⟩, ⟨none, none, some (-0.475093, 0.488929, 184e-9)⟩),
  (⟨chars% "c0", none⟩, ⟨some 0.00000006, some (-9.51, -9.487), some (0.000075, 0.000075, 451e-14)⟩),
  (⟨chars% "c1", none⟩, ⟨some 0.00000006, some (-6.293, -6.27), some (0.001868, 0.001868, 113e-12)⟩),
  (⟨chars% "c2", none⟩, ⟨none, none, some (-0.032077, -0.032077, 193e-11)⟩),
  (⟨chars% "c3", none⟩, ⟨none, none, some (-0.014615, -0.014615, 877e-12)⟩),
  (⟨chars% "c4", none⟩, ⟨none, none, some (-0.040849, -0.040849, 246e-11)⟩),
  (⟨chars% "eqtime", none⟩, ⟨none, none, some (-0.089334, 0.089484, 502e-10)⟩),
  (⟨chars% "currentfracday", none⟩, ⟨none, none, none⟩),
  (⟨chars% "currentfrachour", none⟩, ⟨none, none, none⟩),
  (⟨chars% "lha", none⟩, ⟨none, none, none⟩),
  (⟨chars% "lat", none⟩, ⟨some 242e-9, some (-0.12, -0.097), some (0.8985633, 0.899708, 163e-9)⟩),
  (⟨chars% "sinld", none⟩, ⟨none, none, some (-1, 1, 348e-9)⟩),
  (⟨chars% "cosld", none⟩, ⟨none, none, some (-1, 1, 348e-9)⟩),
  (⟨chars% "cosx", none⟩, ⟨none, none, none⟩)]

/-- Photolysis rates and generic coefficients. -/
def rateErrors : List (Var × Err) := [
  (⟨chars% "j", some 1⟩, ⟨none, none, none⟩),
  (⟨chars% "j", some 2⟩, ⟨none, none, none⟩),
  (⟨chars% "j", some 3⟩, ⟨none, none, none⟩),
  (⟨chars% "j", some 4⟩, ⟨none, none, none⟩),
  (⟨chars% "j", some 5⟩, ⟨none, none, none⟩),
  (⟨chars% "j", some 6⟩, ⟨none, none, none⟩),
  (⟨chars% "j", some 7⟩, ⟨none, none, none⟩),
  (⟨chars% "j", some 8⟩, ⟨none, none, none⟩),
  (⟨chars% "j", some 11⟩, ⟨none, none, none⟩),
  (⟨chars% "j", some 12⟩, ⟨none, none, none⟩),
  (⟨chars% "j", some 13⟩, ⟨none, none, none⟩),
  (⟨chars% "j", some 14⟩, ⟨none, none, none⟩),
  (⟨chars% "j", some 15⟩, ⟨none, none, none⟩),
  (⟨chars% "j", some 16⟩, ⟨none, none, none⟩),
  (⟨chars% "j", some 17⟩, ⟨none, none, none⟩),
  (⟨chars% "j", some 18⟩, ⟨none, none, none⟩),
  (⟨chars% "j", some 19⟩, ⟨none, none, none⟩),
  (⟨chars% "j", some 20⟩, ⟨none, none, none⟩),
  (⟨chars% "j", some 21⟩, ⟨none, none, none⟩),
  (⟨chars% "j", some 22⟩, ⟨none, none, none⟩),
  (⟨chars% "j", some 23⟩, ⟨none, none, none⟩),
  (⟨chars% "j", some 24⟩, ⟨none, none, none⟩),
  (⟨chars% "j", some 31⟩, ⟨none, none, none⟩),
  (⟨chars% "j", some 32⟩, ⟨none, none, none⟩),
  (⟨chars% "j", some 33⟩, ⟨none, none, none⟩),
  (⟨chars% "j", some 34⟩, ⟨none, none, none⟩),
  (⟨chars% "j", some 35⟩, ⟨none, none, none⟩),
  (⟨chars% "j", some 41⟩, ⟨none, none, none⟩),
  (⟨chars% "j", some 51⟩, ⟨none, none, none⟩),
  (⟨chars% "j", some 52⟩, ⟨none, none, none⟩),
  (⟨chars% "j", some 53⟩, ⟨none, none, none⟩),
  (⟨chars% "j", some 54⟩, ⟨none, none, none⟩),
  (⟨chars% "j", some 55⟩, ⟨none, none, none⟩),
  (⟨chars% "j", some 56⟩, ⟨none, none, none⟩),
  (⟨chars% "j", some 57⟩, ⟨none, none, none⟩),
  (⟨chars% "j", some 61⟩, ⟨none, none, none⟩),
  (⟨chars% "krono2", none⟩, ⟨some 601e-10, some (-25.552, -24.821), none⟩),
  (⟨chars% "kro2no", none⟩, ⟨some 601e-10, some (-25.552, -24.821), none⟩),
  (⟨chars% "kro2ho2", none⟩, ⟨some 601e-10, some (-24.943, -22.363), none⟩),
  (⟨chars% "kapho2", none⟩, ⟨some 601e-10, some (-25.331, -23.378), none⟩),
  (⟨chars% "kapno", none⟩, ⟨some 601e-10, some (-24.746, -24.153), none⟩),
  (⟨chars% "kro2no3", none⟩, ⟨some 0.00000006, some (-26.806, -26.783), none⟩),
  (⟨chars% "kno3al", none⟩, ⟨some 601e-10, some (-36.604, -32.918), none⟩),
  (⟨chars% "kdec", none⟩, ⟨some 0, some (13.797, 13.82), some (1000000, 1000000, 0)⟩),
  (⟨chars% "krosec", none⟩, ⟨some 601e-10, some (-32.822, -32.209), none⟩),
  (⟨chars% "kalkoxy", none⟩, ⟨some 121e-9, some (9.877, 10.813), some (19567.54, 49604.87, 0.00599)⟩),
  (⟨chars% "kalkpxy", none⟩, ⟨some 121e-9, some (10.148, 10.693), some (25878.41, 45425.29, 0.00546)⟩),
  (⟨chars% "kroprim", none⟩, ⟨some 601e-10, some (-32.822, -32.209), none⟩),
  (⟨chars% "kch3o2", none⟩, ⟨some 601e-10, some (-28.819, -28.077), none⟩),
  (⟨chars% "k298ch3o2", none⟩, ⟨some 0.00000006, some (-28.69, -28.668), none⟩),
  (⟨chars% "k14isom1", none⟩, ⟨some 601e-10, some (-9.302, 1.16), some (9275962e-11, 3.279199, 203e-9)⟩),
  (⟨chars% "kc0", none⟩, ⟨some 0.00000029, some (-19.384, -15.767), none⟩),
  (⟨chars% "kci", none⟩, ⟨some 873e-10, some (-25.344, -24.747), none⟩),
  (⟨chars% "krc", none⟩, ⟨some 378e-9, some (5.363, 9.577), some (202.7845, 15150.7, 0.0115)⟩),
  (⟨chars% "fcc", none⟩, ⟨some 0.00000006, some (-1.214, -1.191), some (0.3, 0.3, 181e-10)⟩),
  (⟨chars% "nc", none⟩, ⟨some 105e-9, some (0.335, 0.369), some (1.406455, 1.419904, 734e-10)⟩),
  (⟨chars% "fc", none⟩, ⟨some 0.00000016, some (-0.331, -0.121), some (0.6872678, 0.939417, 301e-9)⟩),
  (⟨chars% "kfpan", none⟩, ⟨some 828e-9, some (-29.992, -21.251), none⟩),
  (⟨chars% "kd0", none⟩, ⟨some 121e-9, some (-17.251, 2.666), some (32538e-12, 14.69819, 0.00000181)⟩),
  (⟨chars% "kdi", none⟩, ⟨some 601e-10, some (-30.731, -2.936), some (4408922e-20, 0.05508727, 678e-11)⟩),
  (⟨chars% "krd", none⟩, ⟨some 182e-9, some (-14.315, 33.397), some (5708169e-13, 3333736e8, 121e6)⟩),
  (⟨chars% "fcd", none⟩, ⟨some 0.00000006, some (-1.214, -1.191), some (0.3, 0.3, 181e-10)⟩),
  (⟨chars% "ncd", none⟩, ⟨some 105e-9, some (0.335, 0.369), some (1.406455, 1.419904, 734e-10)⟩),
  (⟨chars% "fd", none⟩, ⟨some 0.000015, some (-1.217, -0.01), some (0.2864749, 1, 0.00003)⟩),
  (⟨chars% "kbpan", none⟩, ⟨some 0.0000154, some (-51.907, 16.971), some (27e-24, 2418918e1, 741)⟩),
  (⟨chars% "kppn0", none⟩, ⟨some 121e-9, some (-18.126, 4.137), some (1260698e-14, 65.71784, 0.0000159)⟩),
  (⟨chars% "kppni", none⟩, ⟨some 601e-10, some (-30.754, -3.274), some (4141777e-20, 0.03878266, 466e-11)⟩),
  (⟨chars% "krppn", none⟩, ⟨some 182e-9, some (-14.852, 34.891), some (3462035e-13, 1494264e9, 542e6)⟩),
  (⟨chars% "fcppn", none⟩, ⟨some 0.00000006, some (-1.04, -1.018), some (0.36, 0.36, 217e-10)⟩),
  (⟨chars% "ncppn", none⟩, ⟨some 104e-9, some (0.259, 0.293), some (1.311101, 1.323888, 676e-10)⟩),
  (⟨chars% "fppn", none⟩, ⟨some 0.0000159, some (-1.043, -0.007), some (0.3455601, 1, 0.0000318)⟩),
  (⟨chars% "kbppn", none⟩, ⟨some 363e-9, some (-54.123, 17.971), some (3e-24, 6575848e1, 47.7)⟩),
  (⟨chars% "k10", none⟩, ⟨some 0.00000022, some (-26.893, -26.016), none⟩),
  (⟨chars% "k1i", none⟩, ⟨some 675e-10, some (-23.853, -23.675), none⟩),
  (⟨chars% "kr1", none⟩, ⟨some 288e-9, some (-3.218, -2.163), some (0.03876371, 0.11945, 687e-10)⟩),
  (⟨chars% "fc1", none⟩, ⟨some 0.00000006, some (-0.174, -0.151), some (0.85, 0.85, 511e-10)⟩),
  (⟨chars% "nc1", none⟩, ⟨some 933e-10, some (-0.195, -0.151), some (0.8332281, 0.8460159, 389e-10)⟩),
  (⟨chars% "f1", none⟩, ⟨some 539e-10, some (-0.079, -0.039), some (0.8824877, 1, 108e-9)⟩),
  (⟨chars% "kmt01", none⟩, ⟨some 562e-9, some (-27.85, -25.877), none⟩),
  (⟨chars% "k20", none⟩, ⟨some 181e-9, some (-26.633, -25.808), none⟩),
  (⟨chars% "k2i", none⟩, ⟨some 66e-9, some (-24.609, -24.461), none⟩),
  (⟨chars% "kr2", none⟩, ⟨some 248e-9, some (-2.172, -1.199), some (0.1121764, 0.3050071, 151e-9)⟩),
  (⟨chars% "fc2", none⟩, ⟨some 0.00000006, some (-0.52, -0.498), some (0.6, 0.6, 361e-10)⟩),
  (⟨chars% "nc2", none⟩, ⟨some 983e-10, some (0.021, 0.044), some (1.024487, 1.036944, 504e-10)⟩),
  (⟨chars% "f2", none⟩, ⟨some 141e-9, some (-0.417, -0.267), some (0.645625, 0.7788139, 219e-9)⟩),
  (⟨chars% "kmt02", none⟩, ⟨some 0.00000057, some (-27.898, -25.927), none⟩),
  (⟨chars% "k30", none⟩, ⟨some 222e-9, some (-23.59, -21.413), none⟩),
  (⟨chars% "k3i", none⟩, ⟨some 65e-9, some (-27.083, -26.956), none⟩),
  (⟨chars% "kr3", none⟩, ⟨some 288e-9, some (3.366, 5.67), some (27.44757, 295.2947, 0.00017)⟩),
  (⟨chars% "fc3", none⟩, ⟨some 0.00000006, some (-1.062, -1.039), some (0.35, 0.35, 211e-10)⟩),
  (⟨chars% "nc3", none⟩, ⟨some 104e-9, some (0.27, 0.304), some (1.322676, 1.336028, 683e-10)⟩),
  (⟨chars% "f3", none⟩, ⟨some 185e-9, some (-0.485, -0.23), some (0.6065054, 0.8290396, 306e-9)⟩),
  (⟨chars% "kmt03", none⟩, ⟨some 695e-9, some (-30.445, -25.009), none⟩),
  (⟨chars% "k40", none⟩, ⟨some 121e-9, some (-17.354, 6.155), some (284122e-13, 486.8789, 0.0000613)⟩),
  (⟨chars% "k4i", none⟩, ⟨some 625e-10, some (-20.947, 0.952), some (756931e-15, 2.718509, 0.00000018)⟩),
  (⟨chars% "kr4", none⟩, ⟨some 184e-9, some (-18.306, 27.102), some (111255e-13, 6042532e5, 222000)⟩),
  (⟨chars% "fc4", none⟩, ⟨some 0.00000006, some (-1.062, -1.039), some (0.35, 0.35, 211e-10)⟩),
  (⟨chars% "nc4", none⟩, ⟨some 104e-9, some (0.27, 0.304), some (1.322676, 1.336028, 683e-10)⟩),
  (⟨chars% "f4", none⟩, ⟨some 0.00000992, some (-1.065, -0.012), some (0.324622, 1, 0.0000199)⟩),
  (⟨chars% "kmt04", none⟩, ⟨some 0.0000103, some (-45.572, 24.449), some (15263e-24, 4376239e4, 895000)⟩),
  (⟨chars% "kmt05", none⟩, ⟨some 106e-9, some (-29.102, -29.079), none⟩),
  (⟨chars% "kmt06", none⟩, ⟨some 601e-10, none, none⟩),
  (⟨chars% "k70", none⟩, ⟨some 0.00000024, some (-24.987, -23.694), none⟩),
  (⟨chars% "k7i", none⟩, ⟨some 675e-10, some (-24.185, -24.006), none⟩),
  (⟨chars% "kr7", none⟩, ⟨some 308e-9, some (-0.981, 0.491), some (0.3678488, 1.64879, 0.00000102)⟩),
  (⟨chars% "fc7", none⟩, ⟨some 0.00000006, some (-0.228, -0.205), some (0.81, 0.81, 487e-10)⟩),
  (⟨chars% "nc7", none⟩, ⟨some 943e-10, some (-0.163, -0.119), some (0.8629919, 0.8758139, 407e-10)⟩),
  (⟨chars% "f7", none⟩, ⟨some 101e-9, some (-0.229, -0.163), some (0.7787845, 0.8825043, 178e-9)⟩),
  (⟨chars% "kmt07", none⟩, ⟨some 649e-9, some (-26.407, -23.678), none⟩),
  (⟨chars% "k80", none⟩, ⟨some 121e-9, some (-23.741, -21.356), none⟩),
  (⟨chars% "k8i", none⟩, ⟨some 0.00000006, some (-24.239, -24.216), none⟩),
  (⟨chars% "kr8", none⟩, ⟨some 182e-9, some (0.475, 2.883), some (1.548784, 18.87324, 0.00000684)⟩),
  (⟨chars% "fc8", none⟩, ⟨some 0.00000006, some (-0.91, -0.888), some (0.41, 0.41, 247e-10)⟩),
  (⟨chars% "nc8", none⟩, ⟨some 103e-9, some (0.205, 0.228), some (1.239447, 1.252152, 633e-10)⟩),
  (⟨chars% "f8", none⟩, ⟨some 261e-9, some (-0.889, -0.435), some (0.391575, 0.6873066, 358e-9)⟩),
  (⟨chars% "kmt08", none⟩, ⟨some 564e-9, some (-28.213, -22.266), none⟩),
  (⟨chars% "k90", none⟩, ⟨some 257e-9, some (-26.731, -25.073), none⟩),
  (⟨chars% "k9i", none⟩, ⟨some 0.00000006, some (-26.253, -26.231), none⟩),
  (⟨chars% "kr9", none⟩, ⟨some 318e-9, some (-0.5, 1.18), some (0.6065054, 3.279199, 0.00000208)⟩),
  (⟨chars% "fc9", none⟩, ⟨some 0.00000006, some (-0.921, -0.898), some (0.4, 0.4, 241e-10)⟩),
  (⟨chars% "nc9", none⟩, ⟨some 103e-9, some (0.216, 0.25), some (1.244959, 1.258222, 637e-10)⟩),
  (⟨chars% "f9", none⟩, ⟨some 161e-9, some (-0.924, -0.761), some (0.391575, 0.4723903, 152e-9)⟩),
  (⟨chars% "kmt09", none⟩, ⟨some 736e-9, some (-29.535, -25.812), none⟩),
  (⟨chars% "k100", none⟩, ⟨some 121e-9, some (-18.68, 2.32), some (7646204e-15, 10.33394, 0.00000125)⟩),
  (⟨chars% "k10i", none⟩, ⟨some 601e-10, some (-19.536, 2.488), some (318718e-14, 12.18504, 752e-9)⟩),
  (⟨chars% "kr10", none⟩, ⟨some 182e-9, some (-21.168, 21.856), some (627508e-15, 3169444e3, 1150)⟩),
  (⟨chars% "fc10", none⟩, ⟨some 0.00000006, some (-0.921, -0.898), some (0.4, 0.4, 241e-10)⟩),
  (⟨chars% "nc10", none⟩, ⟨some 103e-9, some (0.216, 0.25), some (1.244959, 1.258222, 637e-10)⟩),
  (⟨chars% "f10", none⟩, ⟨some 0.00000646, some (-0.924, -0.015), some (0.391575, 1, 0.000013)⟩),
  (⟨chars% "kmt10", none⟩, ⟨some 0.00000677, some (-42.26, 23.151), some (419164e-24, 117772e5, 160000)⟩),
  (⟨chars% "k1", none⟩, ⟨some 601e-10, some (-29.982, -29.054), none⟩),
  (⟨chars% "k3", none⟩, ⟨some 121e-9, some (-72.385, -69.733), none⟩),
  (⟨chars% "k4", none⟩, ⟨some 601e-10, some (-31.492, -27.141), none⟩),
  (⟨chars% "k2", none⟩, ⟨some 423e-9, some (-34.231, -25.468), none⟩),
  (⟨chars% "kmt11", none⟩, ⟨some 424e-9, some (-29.982, -24.768), none⟩),
  (⟨chars% "k120", none⟩, ⟨some 245e-9, some (-26.092, -24.694), none⟩),
  (⟨chars% "k12i", none⟩, ⟨some 0.00000006, some (-26.947, -26.924), none⟩),
  (⟨chars% "kr12", none⟩, ⟨some 306e-9, some (0.832, 2.253), some (2.253412, 10.10159, 0.00000617)⟩),
  (⟨chars% "fc12", none⟩, ⟨some 0.00000006, some (-0.65, -0.628), some (0.53, 0.53, 319e-10)⟩),
  (⟨chars% "nc12", none⟩, ⟨some 997e-10, some (0.086, 0.12), some (1.096141, 1.10868, 547e-10)⟩),
  (⟨chars% "f12", none⟩, ⟨some 213e-9, some (-0.59, -0.346), some (0.5352335, 0.731631, 311e-9)⟩),
  (⟨chars% "kmt12", none⟩, ⟨some 764e-9, some (-29.635, -25.872), none⟩),
  (⟨chars% "k130", none⟩, ⟨some 121e-9, some (-24.099, -21.194), none⟩),
  (⟨chars% "k13i", none⟩, ⟨some 0.00000006, some (-24.759, -24.736), none⟩),
  (⟨chars% "kr13", none⟩, ⟨some 182e-9, some (0.637, 3.565), some (1.868167, 37.53606, 0.0000136)⟩),
  (⟨chars% "fc13", none⟩, ⟨some 0.00000006, some (-1.04, -1.018), some (0.36, 0.36, 217e-10)⟩),
  (⟨chars% "nc13", none⟩, ⟨some 104e-9, some (0.259, 0.293), some (1.311101, 1.323888, 676e-10)⟩),
  (⟨chars% "f13", none⟩, ⟨some 332e-9, some (-0.999, -0.421), some (0.3678488, 0.6873066, 457e-9)⟩),
  (⟨chars% "kmt13", none⟩, ⟨some 635e-9, some (-29.363, -22.252), none⟩),
  (⟨chars% "k140", none⟩, ⟨some 121e-9, some (-13.122, 6.01), some (1992554e-12, 427.9361, 0.0000769)⟩),
  (⟨chars% "k14i", none⟩, ⟨some 601e-10, some (-15.88, 4.943), some (121e-9, 139.605, 0.00000839)⟩),
  (⟨chars% "kr14", none⟩, ⟨some 182e-9, some (-18.065, 21.89), some (1342013e-14, 3373873e3, 1230)⟩),
  (⟨chars% "fc14", none⟩, ⟨some 0.00000006, some (-1.04, -1.018), some (0.36, 0.36, 217e-10)⟩),
  (⟨chars% "nc14", none⟩, ⟨some 104e-9, some (0.259, 0.293), some (1.311101, 1.323888, 676e-10)⟩),
  (⟨chars% "f14", none⟩, ⟨some 0.00000663, some (-1.043, -0.018), some (0.3455601, 1, 0.0000133)⟩),
  (⟨chars% "kmt14", none⟩, ⟨some 0.00000694, some (-36.392, 24.019), some (1493058e-22, 2825409e4, 392000)⟩),
  (⟨chars% "k150", none⟩, ⟨some 197e-9, some (-20.308, -18.651), none⟩),
  (⟨chars% "k15i", none⟩, ⟨some 81e-9, some (-25.544, -25.08), none⟩),
  (⟨chars% "kr15", none⟩, ⟨some 279e-9, some (4.772, 6.893), some (115.5474, 1030.787, 0.000574)⟩),
  (⟨chars% "fc15", none⟩, ⟨some 0.00000006, some (-0.748, -0.725), some (0.48, 0.48, 289e-10)⟩),
  (⟨chars% "nc15", none⟩, ⟨some 101e-9, some (0.129, 0.163), some (1.149605, 1.162758, 579e-10)⟩),
  (⟨chars% "f15", none⟩, ⟨some 676e-10, some (-0.18, -0.092), some (0.8290161, 0.939417, 127e-9)⟩),
  (⟨chars% "kmt15", none⟩, ⟨some 543e-9, some (-28.081, -23.515), none⟩),
  (⟨chars% "k160", none⟩, ⟨some 121e-9, some (-15.814, -13.948), none⟩),
  (⟨chars% "k16i", none⟩, ⟨some 601e-10, some (-24.347, -23.805), none⟩),
  (⟨chars% "kr16", none⟩, ⟨some 182e-9, some (7.991, 10.399), some (2798.861, 34144.93, 0.0124)⟩),
  (⟨chars% "fc16", none⟩, ⟨some 0, some (-0.704, -0.682), some (0.5, 0.5, 0)⟩),
  (⟨chars% "nc16", none⟩, ⟨some 415e-10, some (0.108, 0.141), some (1.125904, 1.138478, 234e-10)⟩),
  (⟨chars% "f16", none⟩, ⟨some 824e-11, some (-0.069, -0.039), some (0.8824877, 1, 165e-10)⟩),
  (⟨chars% "kmt16", none⟩, ⟨some 311e-9, some (-26.982, -21.978), none⟩),
  (⟨chars% "k170", none⟩, ⟨some 121e-9, some (-22.973, -22.147), none⟩),
  (⟨chars% "k17i", none⟩, ⟨some 0.00000006, some (-27.64, -27.617), none⟩),
  (⟨chars% "kr17", none⟩, ⟨some 182e-9, some (4.644, 5.493), some (101.9711, 244.8041, 0.0000887)⟩),
  (⟨chars% "fc17", none⟩, ⟨some 556e-10, some (-1.138, -0.595), some (0.3239989, 0.541656, 901e-11)⟩),
  (⟨chars% "nc17", none⟩, ⟨some 127e-9, some (0.064, 0.336), some (1.077952, 1.377966, 684e-10)⟩),
  (⟨chars% "f17", none⟩, ⟨some 128e-9, some (-0.364, -0.099), some (0.6872678, 0.939417, 0.00000024)⟩),
  (⟨chars% "kmt17", none⟩, ⟨some 431e-9, some (-29.53, -26.89), none⟩),
  (⟨chars% "kmt18", none⟩, ⟨some 381e-9, some (-34.945, -18.065), none⟩)]

/-- What is known after the fixed program. -/
def knownErrors : ErrSt := rateErrors.reverse ++ forget [⟨chars% "cosx", none⟩, ⟨chars% "secx", none⟩,
  ⟨chars% "secx", none⟩] (sunErrors.reverse ++ startErrors)

theorem facts_errors : checkRun (sunErrors ++ rateErrors) kRateProgram startErrors = some knownErrors := by
  decide +kernel

end Rl
end PyBox
