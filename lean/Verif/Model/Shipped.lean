import Verif.Py
import Mathlib.Data.Rat.Defs

/-!
# The dictionaries of parameter_dicts.py, and the file of the benchmark bicycle

Simplification: the numbers are the decimal numbers of the source; the code has the nearest floating point numbers (`Spec.Nearest` in Props/Shipped covers these).
-/

namespace BP

/-- parameter_dicts.py:1-29 -/
def browserJason : Dict ℚ :=
  [("IBxx", 11.3557360401), ("IBxz", -1.96756380745), ("IByy", 12.2177848012), ("IBzz", 3.12354397008),
   ("IFxx", 0.0904106601579), ("IFyy", 0.149389340425), ("IHxx", 0.253379594731), ("IHxz", -0.0720452391817),
   ("IHyy", 0.246138810935), ("IHzz", 0.0955770796289), ("IRxx", 0.0883819364527), ("IRyy", 0.152467620286),
   ("c", 0.0685808540382), ("g", 9.81), ("lam", 0.399680398707), ("mB", 81.86), ("mF", 2.02), ("mH", 3.22),
   ("mR", 3.11), ("rF", 0.34352982332), ("rR", 0.340958858855), ("v", 1.0), ("w", 1.121), ("xB", 0.289099434117),
   ("xH", 0.866949640247), ("zB", -1.04029228321), ("zH", -0.748236400835)]

/-- parameter_dicts.py:31-74 -/
def moore2019BrowserJason : Dict ℚ :=
  [("alphaD", 1.1722101094171953), ("alphaH", 0.3699481738478786), ("alphaP", 0.18617531745505142),
   ("c", 0.0685808540382), ("g", 9.81), ("kDaa", 0.28586689), ("kDbb", 0.22079007), ("kDyy", 0.36538846),
   ("kFaa", 0.20917410328468122), ("kFyy", 0.27179382778091554), ("kHaa", 0.29556015), ("kHbb", 0.14493343),
   ("kHyy", 0.27630431), ("kPaa", 0.36717241), ("kPbb", 0.15276369), ("kPyy", 0.36796654),
   ("kRaa", 0.17050278555427911), ("kRyy", 0.22136034463264698), ("lP", 1.728), ("lam", 0.399680398707),
   ("mD", 9.86), ("mF", 2.02), ("mH", 3.22), ("mP", 83.50000000000001), ("mR", 3.11), ("rF", 0.34352982332),
   ("rR", 0.340958858855), ("v", 3.0), ("w", 1.121), ("wP", 0.483), ("xD", 0.275951285677), ("xH", 0.866949640247),
   ("xP", 0.3157679154070924), ("xR", 0.0), ("yD", 0.0), ("yF", 0.0), ("yH", 0.0), ("yP", 0.0), ("yR", 0.0),
   ("zD", -0.537842424305), ("zH", -0.748236400835), ("zP", -1.0989885659819278)]

/-- parameter_dicts.py:83-121 -/
def riderLeanBrowserJason : Dict ℚ :=
  [("c9", 0.0), ("d1", 0.9631492634872098), ("d2", 0.4338396131640938), ("d3", 0.0705000000001252),
   ("d4", -1.011421527346159 + 0.340958858855), ("g", 9.81), ("ic11", 2.296859222953584), ("ic22", 2.9922715238),
   ("ic31", 0.01594448114273473), ("ic33", 1.5101858377464155), ("id11", 0.0904106601579), ("id22", 0.152467620286),
   ("ie11", 0.2811355367159554), ("ie22", 0.246138810935), ("ie31", 0.0063377219110826045),
   ("ie33", 0.06782113764394461), ("if11", 0.0883819364527), ("if22", 0.149389340425), ("ig11", 2.038073562525466),
   ("ig22", 1.692108544034995), ("ig31", 0.002113501449812), ("ig33", 1.100753962972129), ("k9", 0.0),
   ("l1", 0.47759794513190806), ("l2", -0.1680324796714025), ("l3", -0.07654646159268344),
   ("l4", -0.47166687226492093), ("l5", 0.231223496809401),
   ("l6", -1.283035074598082 + 0.340958858855 - (-1.011421527346159 + 0.340958858855)), ("mc", 33.044), ("md", 3.11),
   ("me", 3.22), ("mf", 2.02), ("mg", 48.816), ("rf", 0.34352982332), ("rr", 0.340958858855), ("v", 1.0)]

/-- parameter_dicts.py:128-156 -/
def browserJasonLegs : Dict ℚ :=
  [("IBxx", 2.18917391377), ("IBxz", -0.27087131147), ("IByy", 2.9922715238), ("IBzz", 1.61787114693),
   ("IFxx", 0.0883819364527), ("IFyy", 0.149389340425), ("IHxx", 0.253379594731), ("IHxz", -0.0720452391817),
   ("IHyy", 0.246138810935), ("IHzz", 0.0955770796289), ("IRxx", 0.0904106601579), ("IRyy", 0.152467620286),
   ("c", 0.0685808540382), ("g", 9.81), ("lam", 0.399680398707), ("mB", 33.044), ("mF", 2.02), ("mH", 3.22),
   ("mR", 3.11), ("rF", 0.34352982332), ("rR", 0.340958858855), ("v", 1.0), ("w", 1.121), ("xB", 0.374570794542),
   ("xH", 0.866949640247), ("zB", -0.681592725778), ("zH", -0.748236400835)]

/-- data/bicycles/Benchmark/Parameters/BenchmarkBenchmark.txt:1-26; every deviation is 0. -/
def benchmarkBicycle : Dict ℚ :=
  [("w", 1.02), ("c", 0.08), ("lam", 0.314159265358979323846), ("g", 9.81), ("rR", 0.3), ("mR", 2.0),
   ("IRxx", 0.0603), ("IRyy", 0.12), ("xB", 0.3), ("zB", -0.9), ("mB", 85.0), ("IBxx", 9.2), ("IByy", 11.0),
   ("IBzz", 2.8), ("IBxz", 2.4), ("xH", 0.9), ("zH", -0.7), ("mH", 4.0), ("IHxx", 0.05892), ("IHyy", 0.06),
   ("IHzz", 0.00708), ("IHxz", -0.00756), ("rF", 0.35), ("mF", 3.0), ("IFxx", 0.1405), ("IFyy", 0.28)]

end BP
