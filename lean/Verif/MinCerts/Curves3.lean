import Verif.Lemmas.DilRow

set_option autoImplicit false

/-
Curves with two patterns on the grid 3, found by a search.
-/
namespace Peano.Best
open DilFast

/-- `[("jiJijjII", "0ij,0ji,0jI~,0Ij~,0iJ~,0ij,0iJ~,0JI,0Ji~"), ("iijjIJIj", "0JI~,0Ji,0JI~,0Ij,0jI,0ji~,0ij~,0Ij,0jI")]` -/
def tri6L1 : FCurve 2 := curve 3 [
  [⟨0, 0, 0, 0⟩, ⟨0, 1, 8, 0⟩, ⟨1, 1, 11, 0⟩, ⟨1, 0, 3, 0⟩, ⟨2, 0, 5, 0⟩, ⟨2, 1, 0, 0⟩, ⟨2, 2, 5, 0⟩, ⟨1, 2, 14, 0⟩, ⟨0, 2, 13, 0⟩],
  [⟨0, 0, 15, 0⟩, ⟨1, 0, 12, 0⟩, ⟨2, 0, 15, 0⟩, ⟨2, 1, 2, 0⟩, ⟨2, 2, 10, 0⟩, ⟨1, 2, 9, 0⟩, ⟨1, 1, 1, 0⟩, ⟨0, 1, 2, 0⟩, ⟨0, 2, 10, 0⟩]]

/-- `[("iijjIJIj", "0jI~,0ji,0iJ~,0ij,0ij,0Ij~,0Ji~,0JI,0ij"), ("jiJijjII", "0Ji,0Ij,0ij~,0JI~,0Ji,0Ij,0ji~,0ji~,0ji~")]` -/
def tri6L2 : FCurve 2 := curve 3 [
  [⟨0, 0, 11, 0⟩, ⟨1, 0, 8, 0⟩, ⟨2, 0, 5, 0⟩, ⟨2, 1, 0, 0⟩, ⟨2, 2, 0, 0⟩, ⟨1, 2, 3, 0⟩, ⟨1, 1, 13, 0⟩, ⟨0, 1, 14, 0⟩, ⟨0, 2, 0, 0⟩],
  [⟨0, 0, 12, 0⟩, ⟨0, 1, 2, 0⟩, ⟨1, 1, 1, 0⟩, ⟨1, 0, 15, 0⟩, ⟨2, 0, 12, 0⟩, ⟨2, 1, 2, 0⟩, ⟨2, 2, 9, 0⟩, ⟨1, 2, 9, 0⟩, ⟨0, 2, 9, 0⟩]]

/-- `[("jiJijjII", "0ij,0ji,0jI~,0Ij~,0ij,0iJ~,0iJ~,0JI,0Ji~"), ("iijjIJIj", "0Ji,0Ji,0JI~,0IJ~,0jI,0ji~,0ij~,0Ij,0jI")]` -/
def tri6Linf : FCurve 2 := curve 3 [
  [⟨0, 0, 0, 0⟩, ⟨0, 1, 8, 0⟩, ⟨1, 1, 11, 0⟩, ⟨1, 0, 3, 0⟩, ⟨2, 0, 0, 0⟩, ⟨2, 1, 5, 0⟩, ⟨2, 2, 5, 0⟩, ⟨1, 2, 14, 0⟩, ⟨0, 2, 13, 0⟩],
  [⟨0, 0, 12, 0⟩, ⟨1, 0, 12, 0⟩, ⟨2, 0, 15, 0⟩, ⟨2, 1, 7, 0⟩, ⟨2, 2, 10, 0⟩, ⟨1, 2, 9, 0⟩, ⟨1, 1, 1, 0⟩, ⟨0, 1, 2, 0⟩, ⟨0, 2, 10, 0⟩]]

/-- `[("jiJijjII", "0ij,0ji,0jI~,0Ij~,0iJ~,0ij,0iJ~,0JI,0Ji~"), ("jiJijjII", "0JI~,0IJ~,0iJ,0Ji,0JI~,0Ij,0jI,0ji~,0Ij")]` -/
def tri7L1 : FCurve 2 := curve 3 [
  [⟨0, 0, 0, 0⟩, ⟨0, 1, 8, 0⟩, ⟨1, 1, 11, 0⟩, ⟨1, 0, 3, 0⟩, ⟨2, 0, 5, 0⟩, ⟨2, 1, 0, 0⟩, ⟨2, 2, 5, 0⟩, ⟨1, 2, 14, 0⟩, ⟨0, 2, 13, 0⟩],
  [⟨0, 0, 15, 0⟩, ⟨0, 1, 7, 0⟩, ⟨1, 1, 4, 0⟩, ⟨1, 0, 12, 0⟩, ⟨2, 0, 15, 0⟩, ⟨2, 1, 2, 0⟩, ⟨2, 2, 10, 0⟩, ⟨1, 2, 9, 0⟩, ⟨0, 2, 2, 0⟩]]

/-- `[("jiJijjII", "0ij,0ji,0jI~,0Ij~,0ij,0iJ~,0iJ~,0JI,0Ji~"), ("iijjIJIj", "0Ji,0Ji,0JI~,0IJ~,0jI,0ji~,0ij~,0Ij,0Ij")]` -/
def tri7L2 : FCurve 2 := curve 3 [
  [⟨0, 0, 0, 0⟩, ⟨0, 1, 8, 0⟩, ⟨1, 1, 11, 0⟩, ⟨1, 0, 3, 0⟩, ⟨2, 0, 0, 0⟩, ⟨2, 1, 5, 0⟩, ⟨2, 2, 5, 0⟩, ⟨1, 2, 14, 0⟩, ⟨0, 2, 13, 0⟩],
  [⟨0, 0, 12, 0⟩, ⟨1, 0, 12, 0⟩, ⟨2, 0, 15, 0⟩, ⟨2, 1, 7, 0⟩, ⟨2, 2, 10, 0⟩, ⟨1, 2, 9, 0⟩, ⟨1, 1, 1, 0⟩, ⟨0, 1, 2, 0⟩, ⟨0, 2, 2, 0⟩]]

/-- `[("jiJijjII", "0ij,0ji,0jI~,0Ij~,0ij,0iJ~,0iJ~,0JI,0Ji~"), ("iijjIJIj", "0Ji,0JI~,0JI~,0IJ~,0jI,0ji~,0ij~,0Ij,0Ij")]` -/
def tri7Linf : FCurve 2 := curve 3 [
  [⟨0, 0, 0, 0⟩, ⟨0, 1, 8, 0⟩, ⟨1, 1, 11, 0⟩, ⟨1, 0, 3, 0⟩, ⟨2, 0, 0, 0⟩, ⟨2, 1, 5, 0⟩, ⟨2, 2, 5, 0⟩, ⟨1, 2, 14, 0⟩, ⟨0, 2, 13, 0⟩],
  [⟨0, 0, 12, 0⟩, ⟨1, 0, 15, 0⟩, ⟨2, 0, 15, 0⟩, ⟨2, 1, 7, 0⟩, ⟨2, 2, 10, 0⟩, ⟨1, 2, 9, 0⟩, ⟨1, 1, 1, 0⟩, ⟨0, 1, 2, 0⟩, ⟨0, 2, 2, 0⟩]]

/-- `[("iijjIJIj", "0jI~,0ji,0iJ~,0ij,0iJ~,0Ij~,0Ji~,0JI,0ij"), ("jjiiJIJi", "0Ji,0IJ~,0Ij,0Ji,0ij~,0iJ,0ji~,0JI~,0Ji")]` -/
def tri8L1 : FCurve 2 := curve 3 [
  [⟨0, 0, 11, 0⟩, ⟨1, 0, 8, 0⟩, ⟨2, 0, 5, 0⟩, ⟨2, 1, 0, 0⟩, ⟨2, 2, 5, 0⟩, ⟨1, 2, 3, 0⟩, ⟨1, 1, 13, 0⟩, ⟨0, 1, 14, 0⟩, ⟨0, 2, 0, 0⟩],
  [⟨0, 0, 12, 0⟩, ⟨0, 1, 7, 0⟩, ⟨0, 2, 2, 0⟩, ⟨1, 2, 12, 0⟩, ⟨2, 2, 1, 0⟩, ⟨2, 1, 4, 0⟩, ⟨1, 1, 9, 0⟩, ⟨1, 0, 15, 0⟩, ⟨2, 0, 12, 0⟩]]

/-- `[("iijjIJIj", "0jI~,0ji,0iJ~,0ij,0ij,0Ij~,0Ji~,0JI,0ij"), ("jjiiJIJi", "0Ji,0Ij,0Ij,0Ji,0ij~,0iJ,0jI,0JI~,0Ji")]` -/
def tri8L2 : FCurve 2 := curve 3 [
  [⟨0, 0, 11, 0⟩, ⟨1, 0, 8, 0⟩, ⟨2, 0, 5, 0⟩, ⟨2, 1, 0, 0⟩, ⟨2, 2, 0, 0⟩, ⟨1, 2, 3, 0⟩, ⟨1, 1, 13, 0⟩, ⟨0, 1, 14, 0⟩, ⟨0, 2, 0, 0⟩],
  [⟨0, 0, 12, 0⟩, ⟨0, 1, 2, 0⟩, ⟨0, 2, 2, 0⟩, ⟨1, 2, 12, 0⟩, ⟨2, 2, 1, 0⟩, ⟨2, 1, 4, 0⟩, ⟨1, 1, 10, 0⟩, ⟨1, 0, 15, 0⟩, ⟨2, 0, 12, 0⟩]]

/-- `[("jiJijjII", "0ij,0ji,0jI~,0Ij~,0ij,0iJ~,0iJ~,0JI,0Ji~"), ("ijIjiiJJ", "0JI~,0JI~,0jI,0Ij,0IJ~,0JI~,0iJ,0iJ,0Ji")]` -/
def tri8Linf : FCurve 2 := curve 3 [
  [⟨0, 0, 0, 0⟩, ⟨0, 1, 8, 0⟩, ⟨1, 1, 11, 0⟩, ⟨1, 0, 3, 0⟩, ⟨2, 0, 0, 0⟩, ⟨2, 1, 5, 0⟩, ⟨2, 2, 5, 0⟩, ⟨1, 2, 14, 0⟩, ⟨0, 2, 13, 0⟩],
  [⟨0, 0, 15, 0⟩, ⟨1, 0, 15, 0⟩, ⟨1, 1, 10, 0⟩, ⟨0, 1, 2, 0⟩, ⟨0, 2, 7, 0⟩, ⟨1, 2, 15, 0⟩, ⟨2, 2, 4, 0⟩, ⟨2, 1, 4, 0⟩, ⟨2, 0, 12, 0⟩]]

/-- `[("jiJijjII", "0JI~,0IJ~,0iJ,0Ji,0JI~,1JI~,0jI,1ij~,0Ij"), ("jjiiJIJi", "0JI~,1jI,0IJ~,1iJ,0iJ,0ij~,0ji~,0Ji,1iJ")]` -/
def tri12L1L2Linf : FCurve 2 := curve 3 [
  [⟨0, 0, 15, 0⟩, ⟨0, 1, 7, 0⟩, ⟨1, 1, 4, 0⟩, ⟨1, 0, 12, 0⟩, ⟨2, 0, 15, 0⟩, ⟨2, 1, 15, 1⟩, ⟨2, 2, 10, 0⟩, ⟨1, 2, 1, 1⟩, ⟨0, 2, 2, 0⟩],
  [⟨0, 0, 15, 0⟩, ⟨0, 1, 10, 1⟩, ⟨0, 2, 7, 0⟩, ⟨1, 2, 4, 1⟩, ⟨2, 2, 4, 0⟩, ⟨2, 1, 1, 0⟩, ⟨1, 1, 9, 0⟩, ⟨1, 0, 12, 0⟩, ⟨2, 0, 4, 1⟩]]

/-- `[("jiJijjII", "0JI~,0IJ~,0iJ,0Ji,0JI~,1Ji~,0iJ~,1ij~,0Ij"), ("jjiJJijj", "0JI~,1jI,0ji,0jI~,1JI,0Ji,0JI~,1jI,0ji")]` -/
def tri13L1L2Linf : FCurve 2 := curve 3 [
  [⟨0, 0, 15, 0⟩, ⟨0, 1, 7, 0⟩, ⟨1, 1, 4, 0⟩, ⟨1, 0, 12, 0⟩, ⟨2, 0, 15, 0⟩, ⟨2, 1, 13, 1⟩, ⟨2, 2, 5, 0⟩, ⟨1, 2, 1, 1⟩, ⟨0, 2, 2, 0⟩],
  [⟨0, 0, 15, 0⟩, ⟨0, 1, 10, 1⟩, ⟨0, 2, 8, 0⟩, ⟨1, 2, 11, 0⟩, ⟨1, 1, 14, 1⟩, ⟨1, 0, 12, 0⟩, ⟨2, 0, 15, 0⟩, ⟨2, 1, 10, 1⟩, ⟨2, 2, 8, 0⟩]]

/-- `[("iijjIJIj", "0jI~,0ji,0iJ~,0ij,0ij,0Ij~,0Ji~,0JI,0ij"), ("iijjIJIj", "1jI~,1ji,1iJ~,1ij,1ij,1Ij~,1Ji~,1JI,1ij")]` -/
def tri3L2 : FCurve 2 := curve 3 [
  [⟨0, 0, 11, 0⟩, ⟨1, 0, 8, 0⟩, ⟨2, 0, 5, 0⟩, ⟨2, 1, 0, 0⟩, ⟨2, 2, 0, 0⟩, ⟨1, 2, 3, 0⟩, ⟨1, 1, 13, 0⟩, ⟨0, 1, 14, 0⟩, ⟨0, 2, 0, 0⟩],
  [⟨0, 0, 11, 1⟩, ⟨1, 0, 8, 1⟩, ⟨2, 0, 5, 1⟩, ⟨2, 1, 0, 1⟩, ⟨2, 2, 0, 1⟩, ⟨1, 2, 3, 1⟩, ⟨1, 1, 13, 1⟩, ⟨0, 1, 14, 1⟩, ⟨0, 2, 0, 1⟩]]

/-- `[("jiJijjII", "0ij,0ji,0jI~,0Ij~,0ij,0iJ~,0iJ~,0JI,0Ji~"), ("jiJijjII", "1ij,1ji,1jI~,1Ij~,1ij,1iJ~,1iJ~,1JI,1Ji~")]` -/
def tri3Linf : FCurve 2 := curve 3 [
  [⟨0, 0, 0, 0⟩, ⟨0, 1, 8, 0⟩, ⟨1, 1, 11, 0⟩, ⟨1, 0, 3, 0⟩, ⟨2, 0, 0, 0⟩, ⟨2, 1, 5, 0⟩, ⟨2, 2, 5, 0⟩, ⟨1, 2, 14, 0⟩, ⟨0, 2, 13, 0⟩],
  [⟨0, 0, 0, 1⟩, ⟨0, 1, 8, 1⟩, ⟨1, 1, 11, 1⟩, ⟨1, 0, 3, 1⟩, ⟨2, 0, 0, 1⟩, ⟨2, 1, 5, 1⟩, ⟨2, 2, 5, 1⟩, ⟨1, 2, 14, 1⟩, ⟨0, 2, 13, 1⟩]]

end Peano.Best
