import Verif.Model.Zoo
import Verif.Model.Texts

set_option autoImplicit false

/-
The information which zoo.py gives about its curves: moments, gates, depth and the number of junctions.
-/
namespace Peano.Zoo

/-- Keys of the declared dilations, zoo.py:15-18. -/
inductive Metric
  | l1
  | l2
  | l2Squared
  | linf
deriving DecidableEq

/-- Declared values, zoo.py:21-26, 30: a `Fraction` or an `int` (also as the only field `eq` of a `SpecValue`, whose `spec` is for the arguments
of the estimator in the tests), or a list of two floats, written here as decimal fractions. -/
inductive DilationValue
  | eq (v : ℚ)
  | between (lo up : ℚ)

/-- `CurveInfo`, zoo.py:29-38.  `none` and a missing entry are `None`.  A gate is the argument of
`Link.parse_gates`; the keys of `moments` are dimensions of faces, negative for the last moments (see tests/test_curves.py:149-153). -/
structure CurveInfo (d : ℕ) where
  curve : FCurve d
  dilation : List (Metric × DilationValue) := []
  moments : List (ℤ × List ℚ) := []
  gates : Option (List String) := none
  depth : Option ℕ := none
  junctionsCount : Option ℕ := none

/-- `[Fraction(k, n) for k in l]`. -/
def overN (n : ℚ) (l : List ℚ) : List ℚ := l.map (· / n)

/-- Three exact values. -/
def exact3 (l1 l2 linf : ℚ) : List (Metric × DilationValue) := [(.l1, .eq l1), (.l2, .eq l2), (.linf, .eq linf)]

/-- zoo.py:71-81 -/
def hilbertInfo : CurveInfo 2 := { curve := hilbert, dilation := exact3 9 6 6, depth := some 2 }
/-- zoo.py:84-91 -/
def peanoInfo : CurveInfo 2 := { curve := peano, dilation := exact3 (32 / 3) 8 8, depth := some 1 }
/-- zoo.py:159-173 -/
def yeInfo : CurveInfo 2 := { curve := ye, dilation := [(.l2, .eq (408 / 73))], depth := some 1 }
/-- zoo.py:176-193 -/
def betaOmegaInfo : CurveInfo 2 := { curve := betaOmega, dilation := exact3 9 5 5, gates := some ["(0,1/3)->(1,1/3)", "(0,1/3)->(2/3,0)"] }
/-- zoo.py:214-226 -/
def haverkortA26Info : CurveInfo 3 :=
  { curve := haverkortA26,
    dilation := [(.l1, .eq (99 / 1 + 5 / 9)), (.l2, .between 22.7 22.9), (.linf, .eq (12 / 1 + 4 / 9))],
    moments := [(0, overN 28 [0, 5, 9, 12, 16, 19, 23, 28])], gates := some ["(0,0,0)->(1,0,0)"] }
/-- zoo.py:229-242 -/
def haverkortFInfo : CurveInfo 3 :=
  { curve := haverkortF,
    dilation := [(.l1, .between 89.754 89.758), (.l2, .between 18.5 18.7), (.linf, .eq 14)],
    moments := [(0, overN 28 [1, 6, 8, 13, 15, 20, 22, 27])], gates := some ["(0,1/3,1/3)->(2/3,1/3,0)"] }
/-- zoo.py:245-275 -/
def tokarevInfo : CurveInfo 3 :=
  { curve := tokarev,
    dilation := [(.l1, .between 98.2 98.4), (.l2Squared, .eq ((8694 / 2753) ^ 2 * 69)), (.linf, .eq (896 / 37))],
    moments := [
      (0, overN 126 [0, 22, 41, 50, 76, 85, 104, 126]),
      (1, overN 4194176 [0, 693632, 1364617, 1659520] ++ overN 65534 [0, 11433, 38292, 44200] ++
        overN 524272 [0, 169360, 316073, 431496]),
      (-1, overN 4194176 [2534656, 2829559, 3500544, 4194176] ++ overN 65534 [21334, 27242, 54101, 65534] ++
        overN 524272 [92776, 208199, 354912, 524272]),
      (2, overN 224 [0, 0, 0, 37, 72, 128]),
      (-2, overN 224 [96, 152, 187, 224, 224, 224])],
    depth := some 3, junctionsCount := some 9 }
/-- zoo.py:280-291 -/
def neptunusInfo : CurveInfo 3 := { curve := neptunus, dilation := [(.l1, .between 88.8 89.0), (.l2, .between 18.2 18.4), (.linf, .eq (945 / 100))], gates := some ["(0,0,0)->(1,0,0)", "(0,0,0)->(1,1,1)"] }
/-- zoo.py:294-304 -/
def lunaInfo : CurveInfo 3 := { curve := luna, dilation := [(.l1, .between 75.5 75.7), (.l2, .between 18.2 18.4), (.linf, .eq 14)], gates := some ["(0,0,0)->(1,0,0)", "(0,0,0)->(1,1,1)"] }
/-- zoo.py:307-337 -/
def iupiterInfo : CurveInfo 3 :=
  { curve := iupiter,
    dilation := [(.l1, .between 88.6 88.8), (.l2, .between 24.8 30.0), (.linf, .between 16.9 17.1)],
    gates := some ["(0,2/5,1/5)->(4/5,2/5,0)", "(0,2/5,1/5)->(4/5,0,2/5)", "(0,2/5,1/5)->(1,2/5,1/5)", "(0,1/5,2/5)->(4/5,2/5,0)",
      "(0,2/5,1/5)->(4/5,1,3/5)"] }

/-- zoo.py:94-102 -/
def baumanInfo : CurveInfo 2 := { curve := bauman, dilation := [(.l2, .eq (17 / 3)), (.linf, .eq (9 / 2))] }
/-- zoo.py:105-113 -/
def scepinBaumanInfo : CurveInfo 2 := { curve := scepinBauman, dilation := exact3 (32 / 3) (17 / 3) (16 / 3) }
/-- zoo.py:116-124 -/
def peano5Info : CurveInfo 2 := { curve := peano5 }
/-- zoo.py:127-133 -/
def meurtheInfo : CurveInfo 2 := { curve := meurthe, dilation := exact3 (32 / 3) (17 / 3) (16 / 3) }
/-- zoo.py:136-142 -/
def coilInfo : CurveInfo 2 := { curve := coil, dilation := exact3 (32 / 3) (20 / 3) (20 / 3) }
/-- zoo.py:145-151 -/
def serpentineInfo : CurveInfo 2 := { curve := serpentine, dilation := exact3 10 (25 / 4) (45 / 8) }
/-- zoo.py:154-160 -/
def rInfo : CurveInfo 2 := { curve := rCurve, dilation := exact3 (32 / 3) (20 / 3) (20 / 3) }
/-- zoo.py:196-207 -/
def arwInfo : CurveInfo 2 := { curve := arw, dilation := exact3 12 (260 / 43) (27 / 5) }
/-- zoo.py:341-350 -/
def springInfo : CurveInfo 3 := { curve := spring, dilation := [(.l1, .between 82.9 83.0), (.l2, .between 16.9 17.0)] }
/-- zoo.py:353-362 -/
def best3dL1Info : CurveInfo 3 := { curve := best3dL1, dilation := [(.l1, .between 89.742 89.745)] }
/-- zoo.py:365-372 -/
def facetGated4dInfo : CurveInfo 4 := { curve := facetGated4d, dilation := [(.l2, .between 61.9 62.0)] }

/-- `get_all_curves`, zoo.py:41-64: the information about the plane curves, -/
def infos2 : List (CurveInfo 2) :=
  [hilbertInfo, peanoInfo, baumanInfo, scepinBaumanInfo, peano5Info, meurtheInfo, coilInfo, serpentineInfo, rInfo, yeInfo, betaOmegaInfo, arwInfo]
/-- about the curves in space, -/
def infos3 : List (CurveInfo 3) :=
  [haverkortA26Info, haverkortFInfo, tokarevInfo, neptunusInfo, lunaInfo, iupiterInfo, springInfo, best3dL1Info]
/-- and about the 4d curve. -/
def infos4 : List (CurveInfo 4) := [facetGated4dInfo]

end Peano.Zoo
