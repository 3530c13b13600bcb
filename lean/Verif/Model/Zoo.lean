import Verif.Model.ChainCode

set_option autoImplicit false

/-
Model of the table of curves in `peano/zoo.py`: the texts passed to `Curve.parse` (the attached data on dilation, moments and gates
are in `Props/Zoo.lean` where they are used).
-/
namespace Peano.Zoo

/-- A curve from its texts; an empty curve if the texts do not parse (theorem C57 shows that they do). -/
def mk (d : ℕ) (t : List (String × String)) : FCurve d := (FCurve.parse d t).getD ⟨0, [], 0, .curve⟩

/-- zoo.py:71-81 -/
def hilbert : FCurve 2 := mk 2 [("jiJ", "ji,ij,ij,JI")]
/-- zoo.py:84-91 -/
def peano : FCurve 2 := mk 2 [("jjiJJijj", "ij,Ij,ij,iJ,IJ,iJ,ij,Ij,ij")]
/-- zoo.py:94-102 -/
def bauman : FCurve 2 := mk 2 [("ijIjiiJJ", "ij,ji,Ji~,iJ~,ij,ij,Ij~,jI~,jI~")]
/-- zoo.py:105-113 -/
def scepinBauman : FCurve 2 := mk 2 [("jjiJJijj", "ij,jI,ji,iJ,JI,Ji,ij,jI,ji")]
/-- zoo.py:116-124 (the spaces after some commas are removed by `strip` in `BaseMap.parse`) -/
def peano5 : FCurve 2 := mk 2 [("jjjjiJJJJijjjjiJJJJijjjj",
  "ij,Ij,ij,Ij,ij, iJ,IJ,iJ,IJ,iJ, ij,Ij,ij,Ij,ij, iJ,IJ,iJ,IJ,iJ, ij,Ij,ij,Ij,ij")]
/-- zoo.py:127-133 -/
def meurthe : FCurve 2 := mk 2 [("jjiJJijj", "ji,jI,ij,Ji,JI,iJ,ji,jI,ij")]
/-- zoo.py:136-142 -/
def coil : FCurve 2 := mk 2 [("jjiJJijj", "ji,jI,ji,Ji,JI,Ji,ji,jI,ji")]
/-- zoo.py:145-151 -/
def serpentine : FCurve 2 := mk 2 [("jjiJJijj", "ij,jI,ji,iJ,JI,iJ,ji,jI,ij")]
/-- zoo.py:154-160 -/
def rCurve : FCurve 2 := mk 2 [("jjiiJIJi", "ji,ji,ij,ij,ij,IJ,JI,JI,ij")]
/-- zoo.py:163-173 -/
def ye : FCurve 2 := mk 2 [("jiJijjIIjjiJijiiJIJiJIJi",
  "0Ji~,0ij,0ij,0jI~,0Ji~,0Ji~,0Ji~,0IJ,0IJ,0Ji~,0ij,0ij,0jI~,0Ji~,0ij,0ij,0ij,0IJ,0jI~,0jI~,0ij,0IJ,0jI~,0jI~,0ij")]
/-- zoo.py:178-193 -/
def betaOmega : FCurve 2 := mk 2 [("jiJ", "1iJ,1jI,1ji~,1IJ~"), ("jiJ", "1iJ,1jI,1ji~,0Ji")]
/-- zoo.py:196-207 -/
def arw : FCurve 2 := mk 2 [("i(Ij)i", "3ij,1Ji~,2jI,1iJ"), ("jiJ", "3ji,2Ij~,1ij,1JI"), ("jiJ", "0ji,1jI,0Ji,1JI"),
  ("jiJ", "0ij,2jI,0Ji,3jI~")]
/-- zoo.py:214-226 -/
def haverkortA26 : FCurve 3 := mk 3 [("jkJijKJ", "Jki~,Kij~,kij,IKJ~,iKJ,kIj~,KIj,JIk")]
/-- zoo.py:229-242 -/
def haverkortF : FCurve 3 := mk 3 [("jkJijKJ", "iKJ,jIK,jIk~,JkI,Jki~,jik,jiK~,kiJ~")]
/-- zoo.py:245-275 -/
def tokarev : FCurve 3 := mk 3 [("jkJijKJ", "jki,kij,kij,iJK,iJK,KIj,KIj,JkI")]
/-- zoo.py:280-291 -/
def neptunus : FCurve 3 := mk 3 [("jkJijKJ", "1ijk,0jIK,1kJI,1JiK,1ijk,1jKI,1KJi,0JIk"),
  ("jkJiKjk", "1ijk,0jIK,1kJI,1JiK,0ijk,1KjI,1jki,0kIJ")]
/-- zoo.py:294-304 -/
def luna : FCurve 3 := mk 3 [("jkJijKJ", "1kji,0jIK,1JIk,1iKJ,1ijk,1jKI,0JiK,1KiJ"),
  ("jkJiKjk", "1kji,0jIK,1JIk,1iKJ,0ijk,1KjI,0kij,1jik")]
/-- zoo.py:307-337 (the list assignments are carried out; spec texts joined by commas) -/
def iupiter : FCurve 3 := mk 3 [("jkJijKJ", "0ikJ,4jkI,1jki~,0IkJ~,0ikJ,1jkI,0jIK~,0kIJ~"),
  ("jkJijKJ", "0ikJ,4jkI,1jki~,0IkJ~,0ikJ,1jkI,0jIK~,2JIK"),
  ("jkJijKJ", "0ikJ,4jkI,1jki~,0IkJ~,0ikJ,1jkI,4jki~,0IkJ~"),
  ("jkJijKJ", "4ijK,4jkI,1jki~,0IkJ~,0ikJ,1jkI,0jIK~,0kIJ~"),
  ("jkJiKjk", "0ikJ,4jkI,1jki~,0IkJ~,3iJk,1KJI,0KIj~,0JIk~")]
/-- zoo.py:341-350 -/
def spring : FCurve 3 := mk 3 [("jikIJiK", "1KIJ~,0KIj,1kji,0Jki~,1JkI,0kIJ,1KJi,1JiK"),
  ("jkJijKJ", "1KIJ~,0ijK~,0Ikj~,0KJI~,0kiJ~,0Ijk~,0IjK,1iKJ")]
/-- zoo.py:353-362 -/
def best3dL1 : FCurve 3 := mk 3 [("jiJkjIJ", "ikJ~,kjI~,kjI~,JIk,JIK~,KjI,jKi~,iKj~")]
/-- zoo.py:365-372 -/
def facetGated4d : FCurve 4 := mk 4 [("kljKLkiKlkJLKlI",
  "iKLJ,kLij,lJki,jklI,lKjI~,LKIj,IkLj~,ikLj,LKij~,lKji,kjlI,lJkI~,LkIJ,LKji~,iljk~,jIlK~")]

/-- `get_all_curves`, zoo.py:41-64: the plane curves, -/
def curves2 : List (FCurve 2) :=
  [hilbert, peano, bauman, scepinBauman, peano5, meurthe, coil, serpentine, rCurve, ye, betaOmega, arw]
/-- the curves in space, -/
def curves3 : List (FCurve 3) :=
  [haverkortA26, haverkortF, tokarev, neptunus, luna, iupiter, spring, best3dL1]
/-- and the 4d curve. -/
def curves4 : List (FCurve 4) := [facetGated4d]

end Peano.Zoo
