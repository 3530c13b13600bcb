import Verif.Lemmas.DilRow

set_option autoImplicit false

/-
Curves of least dilation, found by a search.
-/
namespace Peano.Best
open DilFast

/-- `[("ijIjiiJJ", "ij,ji,Ji~,iJ~,Ij~,ij,Ij~,JI,jI~")]` -/
def side3L1 : FCurve 2 := curve 3 [
  [⟨0, 0, 0, 0⟩, ⟨1, 0, 8, 0⟩, ⟨1, 1, 13, 0⟩, ⟨0, 1, 5, 0⟩, ⟨0, 2, 3, 0⟩, ⟨1, 2, 0, 0⟩, ⟨2, 2, 3, 0⟩, ⟨2, 1, 14, 0⟩, ⟨2, 0, 11, 0⟩]]

/-- `[("ijIjiiJJ", "ij,ji,Ji~,iJ~,ij,Ij~,Ij~,JI,jI~")]` -/
def side3L2Linf : FCurve 2 := curve 3 [
  [⟨0, 0, 0, 0⟩, ⟨1, 0, 8, 0⟩, ⟨1, 1, 13, 0⟩, ⟨0, 1, 5, 0⟩, ⟨0, 2, 0, 0⟩, ⟨1, 2, 3, 0⟩, ⟨2, 2, 3, 0⟩, ⟨2, 1, 14, 0⟩, ⟨2, 0, 11, 0⟩]]

/-- `[("jjiJJijj", "ji,jI,JI~,Ij~,ji~,iJ,IJ~,jI,ij")]` -/
def diag3L1 : FCurve 2 := curve 3 [
  [⟨0, 0, 8, 0⟩, ⟨0, 1, 10, 0⟩, ⟨0, 2, 15, 0⟩, ⟨1, 2, 3, 0⟩, ⟨1, 1, 9, 0⟩, ⟨1, 0, 4, 0⟩, ⟨2, 0, 7, 0⟩, ⟨2, 1, 10, 0⟩, ⟨2, 2, 0, 0⟩]]

/-- `[("iijIIjii", "ij,Ji,ji,Ij,JI,jI,ij,Ji,ji")]` -/
def diag3L2Linf : FCurve 2 := curve 3 [
  [⟨0, 0, 0, 0⟩, ⟨1, 0, 12, 0⟩, ⟨2, 0, 8, 0⟩, ⟨2, 1, 2, 0⟩, ⟨1, 1, 14, 0⟩, ⟨0, 1, 10, 0⟩, ⟨0, 2, 0, 0⟩, ⟨1, 2, 12, 0⟩, ⟨2, 2, 8, 0⟩]]

/-- `[("ijIjjiJijiJJIJi", "Ij~,ji,Ji~,IJ,ji,Ij~,Ij~,JI,Ji~,Ij~,ij,jI~,IJ,JI,JI,Ij~")]` -/
def side4aL1 : FCurve 2 := curve 4 [
  [⟨0, 0, 3, 0⟩, ⟨1, 0, 8, 0⟩, ⟨1, 1, 13, 0⟩, ⟨0, 1, 6, 0⟩, ⟨0, 2, 8, 0⟩, ⟨0, 3, 3, 0⟩, ⟨1, 3, 3, 0⟩, ⟨1, 2, 14, 0⟩, ⟨2, 2, 13, 0⟩, ⟨2, 3, 3, 0⟩, ⟨3, 3, 0, 0⟩, ⟨3, 2, 11, 0⟩, ⟨3, 1, 6, 0⟩, ⟨2, 1, 14, 0⟩, ⟨2, 0, 14, 0⟩, ⟨3, 0, 3, 0⟩]]

/-- `[("jjjiJijiJJIIJii", "Ji~,ji,ji,Ij~,ij,JI,Ji~,Ij~,ij,JI,iJ~,IJ,jI~,JI,ij,ij")]` -/
def side4aL2 : FCurve 2 := curve 4 [
  [⟨0, 0, 13, 0⟩, ⟨0, 1, 8, 0⟩, ⟨0, 2, 8, 0⟩, ⟨0, 3, 3, 0⟩, ⟨1, 3, 0, 0⟩, ⟨1, 2, 14, 0⟩, ⟨2, 2, 13, 0⟩, ⟨2, 3, 3, 0⟩, ⟨3, 3, 0, 0⟩, ⟨3, 2, 14, 0⟩, ⟨3, 1, 5, 0⟩, ⟨2, 1, 6, 0⟩, ⟨1, 1, 11, 0⟩, ⟨1, 0, 14, 0⟩, ⟨2, 0, 0, 0⟩, ⟨3, 0, 0, 0⟩]]

/-- `[("jjjiJijiJJIIJii", "Ji~,ji,ji,Ij~,ij,JI,Ji~,Ij~,ij,JI,iJ~,iJ~,jI~,JI,Ij~,ij")]` -/
def side4aLinf : FCurve 2 := curve 4 [
  [⟨0, 0, 13, 0⟩, ⟨0, 1, 8, 0⟩, ⟨0, 2, 8, 0⟩, ⟨0, 3, 3, 0⟩, ⟨1, 3, 0, 0⟩, ⟨1, 2, 14, 0⟩, ⟨2, 2, 13, 0⟩, ⟨2, 3, 3, 0⟩, ⟨3, 3, 0, 0⟩, ⟨3, 2, 14, 0⟩, ⟨3, 1, 5, 0⟩, ⟨2, 1, 5, 0⟩, ⟨1, 1, 11, 0⟩, ⟨1, 0, 14, 0⟩, ⟨2, 0, 3, 0⟩, ⟨3, 0, 0, 0⟩]]

/-- `[("j(iJ)j(ij)IIjiiiJJIJi", "Ji~,ij,iJ,JI~,Ji~,IJ,IJ,ij,ij,ij,ij,jI~,IJ,jI~,jI~,ij")]` -/
def side4Linf : FCurve 2 := curve 4 [
  [⟨0, 0, 13, 0⟩, ⟨0, 1, 0, 0⟩, ⟨1, 0, 4, 0⟩, ⟨1, 1, 15, 0⟩, ⟨2, 2, 13, 0⟩, ⟨1, 2, 6, 0⟩, ⟨0, 2, 6, 0⟩, ⟨0, 3, 0, 0⟩, ⟨1, 3, 0, 0⟩, ⟨2, 3, 0, 0⟩, ⟨3, 3, 0, 0⟩, ⟨3, 2, 11, 0⟩, ⟨3, 1, 6, 0⟩, ⟨2, 1, 11, 0⟩, ⟨2, 0, 11, 0⟩, ⟨3, 0, 0, 0⟩]]

/-- `[("ijIjjjiJJijjiiJIJiJIIJii", "Ij~,Ji~,Ji~,iJ~,Ji~,Ji~,Ij~,Ij~,jI~,jI~,Ji~,Ji~,Ij~,Ij~,Ij~,iJ~,jI~,jI~,Ij~,iJ~,iJ~,jI~,jI~,Ij~,Ij~")]` -/
def side5aL1 : FCurve 2 := curve 5 [
  [⟨0, 0, 3, 0⟩, ⟨1, 0, 13, 0⟩, ⟨1, 1, 13, 0⟩, ⟨0, 1, 5, 0⟩, ⟨0, 2, 13, 0⟩, ⟨0, 3, 13, 0⟩, ⟨0, 4, 3, 0⟩, ⟨1, 4, 3, 0⟩, ⟨1, 3, 11, 0⟩, ⟨1, 2, 11, 0⟩, ⟨2, 2, 13, 0⟩, ⟨2, 3, 13, 0⟩, ⟨2, 4, 3, 0⟩, ⟨3, 4, 3, 0⟩, ⟨4, 4, 3, 0⟩, ⟨4, 3, 5, 0⟩, ⟨3, 3, 11, 0⟩, ⟨3, 2, 11, 0⟩, ⟨4, 2, 3, 0⟩, ⟨4, 1, 5, 0⟩, ⟨3, 1, 5, 0⟩, ⟨2, 1, 11, 0⟩, ⟨2, 0, 11, 0⟩, ⟨3, 0, 3, 0⟩, ⟨4, 0, 3, 0⟩]]

/-- `[("ijIjjiJ(iJ)Jij(Ij)jiJ", "ij,IJ~,Ij,iJ~,ji,JI~,Ji,jI~,Ji,jI~,ji,Ji~,jI,JI~,Ji,jI~")]` -/
def med4L1L2Linf : FCurve 2 := curve 4 [
  [⟨0, 0, 0, 0⟩, ⟨1, 0, 7, 0⟩, ⟨1, 1, 2, 0⟩, ⟨0, 1, 5, 0⟩, ⟨0, 2, 8, 0⟩, ⟨0, 3, 15, 0⟩, ⟨1, 3, 12, 0⟩, ⟨1, 2, 11, 0⟩, ⟨2, 1, 12, 0⟩, ⟨2, 0, 11, 0⟩, ⟨3, 0, 8, 0⟩, ⟨3, 1, 13, 0⟩, ⟨2, 2, 10, 0⟩, ⟨2, 3, 15, 0⟩, ⟨3, 3, 12, 0⟩, ⟨3, 2, 11, 0⟩]]

/-- `[("iijIIjijIjiiiiJIIJiJJijj", "ij,Ij~,ji,Ji~,IJ,iJ~,ij,IJ~,Ij,iJ~,ij,Ij~,ij,IJ~,Ji,ji~,Ij,ij~,iJ,Ij~,JI,jI~,ji,Ji~,ij")]` -/
def med5L1 : FCurve 2 := curve 5 [
  [⟨0, 0, 0, 0⟩, ⟨1, 0, 3, 0⟩, ⟨2, 0, 8, 0⟩, ⟨2, 1, 13, 0⟩, ⟨1, 1, 6, 0⟩, ⟨0, 1, 5, 0⟩, ⟨0, 2, 0, 0⟩, ⟨1, 2, 7, 0⟩, ⟨1, 3, 2, 0⟩, ⟨0, 3, 5, 0⟩, ⟨0, 4, 0, 0⟩, ⟨1, 4, 3, 0⟩, ⟨2, 4, 0, 0⟩, ⟨3, 4, 7, 0⟩, ⟨4, 4, 12, 0⟩, ⟨4, 3, 9, 0⟩, ⟨3, 3, 2, 0⟩, ⟨2, 3, 1, 0⟩, ⟨2, 2, 4, 0⟩, ⟨3, 2, 3, 0⟩, ⟨3, 1, 14, 0⟩, ⟨3, 0, 11, 0⟩, ⟨4, 0, 8, 0⟩, ⟨4, 1, 13, 0⟩, ⟨4, 2, 0, 0⟩]]

/-- `[("ijIjijIjiiiiJIIJiJIJiijj", "ij,IJ~,Ij,iJ~,ij,IJ~,Ij,iJ~,ij,Ij~,ij,IJ~,Ji,ji~,Ij,ij~,iJ,Ij~,IJ,ij~,iJ,Ij~,ji,Ji~,ij")]` -/
def med5L2Linf : FCurve 2 := curve 5 [
  [⟨0, 0, 0, 0⟩, ⟨1, 0, 7, 0⟩, ⟨1, 1, 2, 0⟩, ⟨0, 1, 5, 0⟩, ⟨0, 2, 0, 0⟩, ⟨1, 2, 7, 0⟩, ⟨1, 3, 2, 0⟩, ⟨0, 3, 5, 0⟩, ⟨0, 4, 0, 0⟩, ⟨1, 4, 3, 0⟩, ⟨2, 4, 0, 0⟩, ⟨3, 4, 7, 0⟩, ⟨4, 4, 12, 0⟩, ⟨4, 3, 9, 0⟩, ⟨3, 3, 2, 0⟩, ⟨2, 3, 1, 0⟩, ⟨2, 2, 4, 0⟩, ⟨3, 2, 3, 0⟩, ⟨3, 1, 6, 0⟩, ⟨2, 1, 1, 0⟩, ⟨2, 0, 4, 0⟩, ⟨3, 0, 3, 0⟩, ⟨4, 0, 8, 0⟩, ⟨4, 1, 13, 0⟩, ⟨4, 2, 0, 0⟩]]

/-- `[("jjjjiJJiiJIIJiiijjjIIjii", "JI~,jI,ji,jI,ji,iJ,ji~,Ij~,ij,iJ,ij~,Ij,IJ,Ij~,IJ~,Ij~,ij,jI,ji,iJ~,ij~,Ij,IJ~,iJ,ij")]` -/
def diag5aL2 : FCurve 2 := curve 5 [
  [⟨0, 0, 15, 0⟩, ⟨0, 1, 10, 0⟩, ⟨0, 2, 8, 0⟩, ⟨0, 3, 10, 0⟩, ⟨0, 4, 8, 0⟩, ⟨1, 4, 4, 0⟩, ⟨1, 3, 9, 0⟩, ⟨1, 2, 3, 0⟩, ⟨2, 2, 0, 0⟩, ⟨3, 2, 4, 0⟩, ⟨3, 1, 1, 0⟩, ⟨2, 1, 2, 0⟩, ⟨1, 1, 6, 0⟩, ⟨1, 0, 3, 0⟩, ⟨2, 0, 7, 0⟩, ⟨3, 0, 3, 0⟩, ⟨4, 0, 0, 0⟩, ⟨4, 1, 10, 0⟩, ⟨4, 2, 8, 0⟩, ⟨4, 3, 5, 0⟩, ⟨3, 3, 1, 0⟩, ⟨2, 3, 2, 0⟩, ⟨2, 4, 7, 0⟩, ⟨3, 4, 4, 0⟩, ⟨4, 4, 0, 0⟩]]

/-- `[("jiJiijIjjIJIjjjiJijiJijiJJIIJiiJIJi", "Ji~,ij,ij,jI~,ij,Ji~,Ji~,IJ,Ji~,Ji~,JI,iJ~,iJ~,ji,Ji~,ij,Ij~,jI~,ji,ij,Ij~,jI~,ji,Ij~,Ij~,JI,iJ~,iJ~,JI,jI~,ij,Ij~,IJ,JI,jI~,ij")]` -/
def side6aL2 : FCurve 2 := curve 6 [
  [⟨0, 0, 13, 0⟩, ⟨0, 1, 0, 0⟩, ⟨1, 1, 0, 0⟩, ⟨1, 0, 11, 0⟩, ⟨2, 0, 0, 0⟩, ⟨3, 0, 13, 0⟩, ⟨3, 1, 13, 0⟩, ⟨2, 1, 6, 0⟩, ⟨2, 2, 13, 0⟩, ⟨2, 3, 13, 0⟩, ⟨1, 3, 14, 0⟩, ⟨1, 2, 5, 0⟩, ⟨0, 2, 5, 0⟩, ⟨0, 3, 8, 0⟩, ⟨0, 4, 13, 0⟩, ⟨0, 5, 0, 0⟩, ⟨1, 5, 3, 0⟩, ⟨1, 4, 11, 0⟩, ⟨2, 4, 8, 0⟩, ⟨2, 5, 0, 0⟩, ⟨3, 5, 3, 0⟩, ⟨3, 4, 11, 0⟩, ⟨4, 4, 8, 0⟩, ⟨4, 5, 3, 0⟩, ⟨5, 5, 3, 0⟩, ⟨5, 4, 14, 0⟩, ⟨5, 3, 5, 0⟩, ⟨4, 3, 5, 0⟩, ⟨3, 3, 14, 0⟩, ⟨3, 2, 11, 0⟩, ⟨4, 2, 0, 0⟩, ⟨5, 2, 3, 0⟩, ⟨5, 1, 6, 0⟩, ⟨4, 1, 14, 0⟩, ⟨4, 0, 11, 0⟩, ⟨5, 0, 0, 0⟩]]

/-- `[("jiJijjIIjiijIIjiiiJijiJJIIJJJiijIji", "ji,JI~,Ji,jI~,ji,JI~,Ij,ij~,jI,JI~,iJ,IJ~,Ij,ij~,jI,JI~,iJ,IJ~,Ji,jI~,ji,JI~,Ji,jI~,IJ,iJ~,JI,ji~,Ji,jI~,ij,IJ~,Ij,iJ~,ij,IJ~")]` -/
def med6aL2 : FCurve 2 := curve 6 [
  [⟨0, 0, 8, 0⟩, ⟨0, 1, 15, 0⟩, ⟨1, 1, 12, 0⟩, ⟨1, 0, 11, 0⟩, ⟨2, 0, 8, 0⟩, ⟨2, 1, 15, 0⟩, ⟨2, 2, 2, 0⟩, ⟨1, 2, 1, 0⟩, ⟨0, 2, 10, 0⟩, ⟨0, 3, 15, 0⟩, ⟨1, 3, 4, 0⟩, ⟨2, 3, 7, 0⟩, ⟨2, 4, 2, 0⟩, ⟨1, 4, 1, 0⟩, ⟨0, 4, 10, 0⟩, ⟨0, 5, 15, 0⟩, ⟨1, 5, 4, 0⟩, ⟨2, 5, 7, 0⟩, ⟨3, 5, 12, 0⟩, ⟨3, 4, 11, 0⟩, ⟨4, 4, 8, 0⟩, ⟨4, 5, 15, 0⟩, ⟨5, 5, 12, 0⟩, ⟨5, 4, 11, 0⟩, ⟨5, 3, 6, 0⟩, ⟨4, 3, 5, 0⟩, ⟨3, 3, 14, 0⟩, ⟨3, 2, 9, 0⟩, ⟨3, 1, 12, 0⟩, ⟨3, 0, 11, 0⟩, ⟨4, 0, 0, 0⟩, ⟨5, 0, 7, 0⟩, ⟨5, 1, 2, 0⟩, ⟨4, 1, 5, 0⟩, ⟨4, 2, 0, 0⟩, ⟨5, 2, 7, 0⟩]]

/-- `[("jiJijjjIJIjjjiJijiJijiJJJIjIJJJijiJ", "Ji~,Ij~,ij,JI,Ji~,ji,Ji~,ji,jI~,IJ,IJ,ji,Ji~,Ij~,ij,JI,Ji~,ij,Ij~,jI~,ji,ij,ij,JI,jI~,IJ,iJ~,ji,JI,jI~,jI~,jI~,Ji~,ij,ij,jI~")]` -/
def side6aL1 : FCurve 2 := curve 6 [
  [⟨0, 0, 13, 0⟩, ⟨0, 1, 3, 0⟩, ⟨1, 1, 0, 0⟩, ⟨1, 0, 14, 0⟩, ⟨2, 0, 13, 0⟩, ⟨2, 1, 8, 0⟩, ⟨2, 2, 13, 0⟩, ⟨2, 3, 8, 0⟩, ⟨1, 3, 11, 0⟩, ⟨1, 2, 6, 0⟩, ⟨0, 2, 6, 0⟩, ⟨0, 3, 8, 0⟩, ⟨0, 4, 13, 0⟩, ⟨0, 5, 3, 0⟩, ⟨1, 5, 0, 0⟩, ⟨1, 4, 14, 0⟩, ⟨2, 4, 13, 0⟩, ⟨2, 5, 0, 0⟩, ⟨3, 5, 3, 0⟩, ⟨3, 4, 11, 0⟩, ⟨4, 4, 8, 0⟩, ⟨4, 5, 0, 0⟩, ⟨5, 5, 0, 0⟩, ⟨5, 4, 14, 0⟩, ⟨5, 3, 11, 0⟩, ⟨5, 2, 6, 0⟩, ⟨4, 2, 5, 0⟩, ⟨4, 3, 8, 0⟩, ⟨3, 3, 14, 0⟩, ⟨3, 2, 11, 0⟩, ⟨3, 1, 11, 0⟩, ⟨3, 0, 11, 0⟩, ⟨4, 0, 13, 0⟩, ⟨4, 1, 0, 0⟩, ⟨5, 1, 0, 0⟩, ⟨5, 0, 11, 0⟩]]

/-- `[("jiJiijIjIIjiijIIjiiiJijiJJIIJiiJIJi", "Ji~,ij,ij,jI~,ij,Ji~,Ji~,IJ,Ji~,IJ,IJ,ij,ij,Ji~,Ji~,IJ,IJ,ij,ij,ij,ij,jI~,Ji~,ij,ij,jI~,IJ,IJ,jI~,jI~,ij,ij,IJ,jI~,jI~,ij")]` -/
def side6aLinf : FCurve 2 := curve 6 [
  [⟨0, 0, 13, 0⟩, ⟨0, 1, 0, 0⟩, ⟨1, 1, 0, 0⟩, ⟨1, 0, 11, 0⟩, ⟨2, 0, 0, 0⟩, ⟨3, 0, 13, 0⟩, ⟨3, 1, 13, 0⟩, ⟨2, 1, 6, 0⟩, ⟨2, 2, 13, 0⟩, ⟨1, 2, 6, 0⟩, ⟨0, 2, 6, 0⟩, ⟨0, 3, 0, 0⟩, ⟨1, 3, 0, 0⟩, ⟨2, 3, 13, 0⟩, ⟨2, 4, 13, 0⟩, ⟨1, 4, 6, 0⟩, ⟨0, 4, 6, 0⟩, ⟨0, 5, 0, 0⟩, ⟨1, 5, 0, 0⟩, ⟨2, 5, 0, 0⟩, ⟨3, 5, 0, 0⟩, ⟨3, 4, 11, 0⟩, ⟨4, 4, 13, 0⟩, ⟨4, 5, 0, 0⟩, ⟨5, 5, 0, 0⟩, ⟨5, 4, 11, 0⟩, ⟨5, 3, 6, 0⟩, ⟨4, 3, 6, 0⟩, ⟨3, 3, 11, 0⟩, ⟨3, 2, 11, 0⟩, ⟨4, 2, 0, 0⟩, ⟨5, 2, 0, 0⟩, ⟨5, 1, 6, 0⟩, ⟨4, 1, 11, 0⟩, ⟨4, 0, 11, 0⟩, ⟨5, 0, 0, 0⟩]]

end Peano.Best
