import Verif.Lemmas.Laurent
import Verif.Gen.UprightPoly5

/-!
# Generated by tools/gen_upright_poly.py
-/

namespace BP.EL

/-- The polynomials of the cells. -/
def uprightPoly : Tr := .node (.node (.node (.node upr19 upr44) (.node upr65 upr82)) (.node (.node upr101 upr120) (.node upr137 upr155))) (.node (.node (.node upr173 upr194) (.node upr214 upr232)) (.node (.node upr253 upr275) (.node upr298 upr318)))

/-- The variables: primes, and the cells they stand for. -/
def uprightVars : List (ℕ × ℕ) :=
  [(7, 5082), (23, 5041), (29, 5048), (31, 5051), (37, 5052), (41, 5053), (43, 5054), (47, 5055), (53, 5056), (59, 5057), (61, 5058), (67, 5059), (71, 5060), (73, 5061), (79, 5062), (83, 5063), (89, 5064), (97, 5065), (101, 5066), (103, 5067), (107, 5068), (109, 5069), (113, 5070), (127, 5071), (131, 5072), (137, 5073), (139, 5074), (149, 5075), (151, 5076), (157, 5077), (163, 5078), (167, 5079), (173, 5080), (179, 5081), (181, 5083), (191, 949), (193, 951), (197, 945), (199, 977), (211, 979), (223, 973), (227, 981), (229, 983), (233, 905), (239, 964)]

end BP.EL
