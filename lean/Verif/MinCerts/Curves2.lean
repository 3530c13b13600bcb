import Verif.Lemmas.DilRow

set_option autoImplicit false

/-
Curves of least dilation with two patterns, found by a search.
-/
namespace Peano.Best
open DilFast

/-- `[("ijI", "1ji,0iJ~,0ij,1ji~"), ("ijI", "1ji,1JI~,1jI,0IJ~")]` -/
def bi1L1L2 : FCurve 2 := curve 2 [
  [⟨0, 0, 8, 1⟩, ⟨1, 0, 5, 0⟩, ⟨1, 1, 0, 0⟩, ⟨0, 1, 9, 1⟩],
  [⟨0, 0, 8, 1⟩, ⟨1, 0, 15, 1⟩, ⟨1, 1, 10, 1⟩, ⟨0, 1, 7, 0⟩]]

/-- `[("ijI", "1ji,1JI~,1jI,1ji~"), ("ijI", "1ji,1JI~,1jI,0IJ~")]` -/
def bi1Linf : FCurve 2 := curve 2 [
  [⟨0, 0, 8, 1⟩, ⟨1, 0, 15, 1⟩, ⟨1, 1, 10, 1⟩, ⟨0, 1, 9, 1⟩],
  [⟨0, 0, 8, 1⟩, ⟨1, 0, 15, 1⟩, ⟨1, 1, 10, 1⟩, ⟨0, 1, 7, 0⟩]]

/-- `[("ijI", "1jI~,1ij,0iJ~,1JI"), ("ijI", "0jI~,1iJ~,1ij,0Ji~")]` -/
def bi2L1L2Linf : FCurve 2 := curve 2 [
  [⟨0, 0, 11, 1⟩, ⟨1, 0, 0, 1⟩, ⟨1, 1, 5, 0⟩, ⟨0, 1, 14, 1⟩],
  [⟨0, 0, 11, 0⟩, ⟨1, 0, 5, 1⟩, ⟨1, 1, 0, 1⟩, ⟨0, 1, 13, 0⟩]]

/-- `[("ijI", "0jI~,0ij,0iJ~,0JI"), ("ijI", "1ji,1JI~,0ji~,0Ij")]` -/
def bi3L1L2 : FCurve 2 := curve 2 [
  [⟨0, 0, 11, 0⟩, ⟨1, 0, 0, 0⟩, ⟨1, 1, 5, 0⟩, ⟨0, 1, 14, 0⟩],
  [⟨0, 0, 8, 1⟩, ⟨1, 0, 15, 1⟩, ⟨1, 1, 9, 0⟩, ⟨0, 1, 2, 0⟩]]

/-- `[("ijI", "1ji,1JI~,1jI,1Ji~"), ("ijI", "1ji,1JI~,0jI,0IJ~")]` -/
def bi3Linf : FCurve 2 := curve 2 [
  [⟨0, 0, 8, 1⟩, ⟨1, 0, 15, 1⟩, ⟨1, 1, 10, 1⟩, ⟨0, 1, 13, 1⟩],
  [⟨0, 0, 8, 1⟩, ⟨1, 0, 15, 1⟩, ⟨1, 1, 10, 0⟩, ⟨0, 1, 7, 0⟩]]

/-- `[("ijI", "0jI~,0ij,0iJ~,0JI"), ("j(iJ)j", "0iJ~,0jI~,0Ji,1Ij")]` -/
def bi4L1L2 : FCurve 2 := curve 2 [
  [⟨0, 0, 11, 0⟩, ⟨1, 0, 0, 0⟩, ⟨1, 1, 5, 0⟩, ⟨0, 1, 14, 0⟩],
  [⟨0, 0, 5, 0⟩, ⟨0, 1, 11, 0⟩, ⟨1, 0, 12, 0⟩, ⟨1, 1, 2, 1⟩]]

/-- `[("ijI", "0ji,1ij,1iJ~,0JI"), ("j(iJ)j", "0iJ~,0jI~,0Ji,1Ij")]` -/
def bi4Linf : FCurve 2 := curve 2 [
  [⟨0, 0, 8, 0⟩, ⟨1, 0, 0, 1⟩, ⟨1, 1, 5, 1⟩, ⟨0, 1, 14, 0⟩],
  [⟨0, 0, 5, 0⟩, ⟨0, 1, 11, 0⟩, ⟨1, 0, 12, 0⟩, ⟨1, 1, 2, 1⟩]]

/-- `[("ijI", "0jI~,0ij,0iJ~,0JI"), ("j(iJ)j", "0iJ~,0jI~,0Ji,0Ij")]` -/
def bi5L1L2 : FCurve 2 := curve 2 [
  [⟨0, 0, 11, 0⟩, ⟨1, 0, 0, 0⟩, ⟨1, 1, 5, 0⟩, ⟨0, 1, 14, 0⟩],
  [⟨0, 0, 5, 0⟩, ⟨0, 1, 11, 0⟩, ⟨1, 0, 12, 0⟩, ⟨1, 1, 2, 0⟩]]

/-- `[("ijI", "0jI~,1ji,1Ij,0JI"), ("j(iJ)j", "0ij,0ji,0JI~,0Ij")]` -/
def bi5Linf : FCurve 2 := curve 2 [
  [⟨0, 0, 11, 0⟩, ⟨1, 0, 8, 1⟩, ⟨1, 1, 2, 1⟩, ⟨0, 1, 14, 0⟩],
  [⟨0, 0, 0, 0⟩, ⟨0, 1, 8, 0⟩, ⟨1, 0, 15, 0⟩, ⟨1, 1, 2, 0⟩]]

/-- `[("ijI", "0jI~,0ij,0iJ~,0JI"), ("ijI", "0JI~,0JI~,0ji~,0ji~")]` -/
def bi6L1L2Linf : FCurve 2 := curve 2 [
  [⟨0, 0, 11, 0⟩, ⟨1, 0, 0, 0⟩, ⟨1, 1, 5, 0⟩, ⟨0, 1, 14, 0⟩],
  [⟨0, 0, 15, 0⟩, ⟨1, 0, 15, 0⟩, ⟨1, 1, 9, 0⟩, ⟨0, 1, 9, 0⟩]]

/-- `[("ijI", "0jI~,0ij,0iJ~,0JI"), ("jiJ", "0JI~,0IJ~,0ij~,0ij~")]` -/
def bi7L1L2Linf : FCurve 2 := curve 2 [
  [⟨0, 0, 11, 0⟩, ⟨1, 0, 0, 0⟩, ⟨1, 1, 5, 0⟩, ⟨0, 1, 14, 0⟩],
  [⟨0, 0, 15, 0⟩, ⟨0, 1, 7, 0⟩, ⟨1, 1, 1, 0⟩, ⟨1, 0, 1, 0⟩]]

/-- `[("ijI", "0jI~,0ij,0iJ~,0JI"), ("jiJ", "0JI~,0IJ~,0ij~,0Ji")]` -/
def bi8L1L2Linf : FCurve 2 := curve 2 [
  [⟨0, 0, 11, 0⟩, ⟨1, 0, 0, 0⟩, ⟨1, 1, 5, 0⟩, ⟨0, 1, 14, 0⟩],
  [⟨0, 0, 15, 0⟩, ⟨0, 1, 7, 0⟩, ⟨1, 1, 1, 0⟩, ⟨1, 0, 12, 0⟩]]

/-- `[("ijI", "1IJ~,0JI~,0jI,0Ij"), ("jiJ", "0JI~,0IJ~,0iJ,0Ji")]` -/
def bi9L1L2Linf : FCurve 2 := curve 2 [
  [⟨0, 0, 7, 1⟩, ⟨1, 0, 15, 0⟩, ⟨1, 1, 10, 0⟩, ⟨0, 1, 2, 0⟩],
  [⟨0, 0, 15, 0⟩, ⟨0, 1, 7, 0⟩, ⟨1, 1, 4, 0⟩, ⟨1, 0, 12, 0⟩]]

end Peano.Best
