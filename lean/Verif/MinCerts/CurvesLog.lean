import Verif.Lemmas.DilRow

set_option autoImplicit false

/-
The curves of logs/ye-proof.log.
-/
namespace Peano.YeLog
open DilFast

/-- `ijI | 0jI~,0ij,0ij,0JI` -/
def c0 : FCurve 2 := curve 2 [
  [⟨0, 0, 11, 0⟩, ⟨1, 0, 0, 0⟩, ⟨1, 1, 0, 0⟩, ⟨0, 1, 14, 0⟩]]

/-- `jiJijjII | 0ij,0ji,0jI~,0Ij~,0ij,0iJ~,0iJ~,0JI,0Ji~` -/
def c2 : FCurve 2 := curve 3 [
  [⟨0, 0, 0, 0⟩, ⟨0, 1, 8, 0⟩, ⟨1, 1, 11, 0⟩, ⟨1, 0, 3, 0⟩, ⟨2, 0, 0, 0⟩, ⟨2, 1, 5, 0⟩, ⟨2, 2, 5, 0⟩, ⟨1, 2, 14, 0⟩, ⟨0, 2, 13, 0⟩]]

/-- `jjiJJiijIjijIII | 0ij,0iJ~,0ji,0jI~,0Ij~,0Ij~,0ji,0ij,0iJ~,0Ji~,0ji,0ij,0iJ~,0Ji~,0Ji~,0Ji~` -/
def c3 : FCurve 2 := curve 4 [
  [⟨0, 0, 0, 0⟩, ⟨0, 1, 5, 0⟩, ⟨0, 2, 8, 0⟩, ⟨1, 2, 11, 0⟩, ⟨1, 1, 3, 0⟩, ⟨1, 0, 3, 0⟩, ⟨2, 0, 8, 0⟩, ⟨3, 0, 0, 0⟩, ⟨3, 1, 5, 0⟩, ⟨2, 1, 13, 0⟩, ⟨2, 2, 8, 0⟩, ⟨3, 2, 0, 0⟩, ⟨3, 3, 5, 0⟩, ⟨2, 3, 13, 0⟩, ⟨1, 3, 13, 0⟩, ⟨0, 3, 13, 0⟩]]

/-- `ijIjiijIIjjiJijiJijiJJJIjIJJIJiijiJ | 0ij,0Ji~,0ji,0IJ,0ij,0ij,0Ji~,0ji,0iJ~,0IJ,0Ji~,0Ij~,0ij,0JI,0Ji~,0Ij~,0ij,0JI,0Ji~,0Ij~,0ij,0jI~,0JI,0iJ~,0IJ,0ji,0jI~,0JI,0iJ~,0jI~,0jI~,0ij,0Ji~,0ij,0ij,0jI~` -/
def c4 : FCurve 2 := curve 6 [
  [⟨0, 0, 0, 0⟩, ⟨1, 0, 13, 0⟩, ⟨1, 1, 8, 0⟩, ⟨0, 1, 6, 0⟩, ⟨0, 2, 0, 0⟩, ⟨1, 2, 0, 0⟩, ⟨2, 2, 13, 0⟩, ⟨2, 3, 8, 0⟩, ⟨1, 3, 5, 0⟩, ⟨0, 3, 6, 0⟩, ⟨0, 4, 13, 0⟩, ⟨0, 5, 3, 0⟩, ⟨1, 5, 0, 0⟩, ⟨1, 4, 14, 0⟩, ⟨2, 4, 13, 0⟩, ⟨2, 5, 3, 0⟩, ⟨3, 5, 0, 0⟩, ⟨3, 4, 14, 0⟩, ⟨4, 4, 13, 0⟩, ⟨4, 5, 3, 0⟩, ⟨5, 5, 0, 0⟩, ⟨5, 4, 11, 0⟩, ⟨5, 3, 14, 0⟩, ⟨5, 2, 5, 0⟩, ⟨4, 2, 6, 0⟩, ⟨4, 3, 8, 0⟩, ⟨3, 3, 11, 0⟩, ⟨3, 2, 14, 0⟩, ⟨3, 1, 5, 0⟩, ⟨2, 1, 11, 0⟩, ⟨2, 0, 11, 0⟩, ⟨3, 0, 0, 0⟩, ⟨4, 0, 13, 0⟩, ⟨4, 1, 0, 0⟩, ⟨5, 1, 0, 0⟩, ⟨5, 0, 11, 0⟩]]

/-- `jiJijjIIjiijIIjiiiJijiJJIIJJJiijIji | 0ji,0JI~,0Ji,0jI~,0ji,0JI~,0Ij,0ij~,0jI,0JI~,0iJ,0IJ~,0Ij,0ij~,0jI,0JI~,0iJ,0IJ~,0Ji,0jI~,0ji,0JI~,0Ji,0jI~,0IJ,0iJ~,0JI,0jI~,0JI,0jI~,0ij,0IJ~,0Ij,0iJ~,0ij,0IJ~` -/
def c5 : FCurve 2 := curve 6 [
  [⟨0, 0, 8, 0⟩, ⟨0, 1, 15, 0⟩, ⟨1, 1, 12, 0⟩, ⟨1, 0, 11, 0⟩, ⟨2, 0, 8, 0⟩, ⟨2, 1, 15, 0⟩, ⟨2, 2, 2, 0⟩, ⟨1, 2, 1, 0⟩, ⟨0, 2, 10, 0⟩, ⟨0, 3, 15, 0⟩, ⟨1, 3, 4, 0⟩, ⟨2, 3, 7, 0⟩, ⟨2, 4, 2, 0⟩, ⟨1, 4, 1, 0⟩, ⟨0, 4, 10, 0⟩, ⟨0, 5, 15, 0⟩, ⟨1, 5, 4, 0⟩, ⟨2, 5, 7, 0⟩, ⟨3, 5, 12, 0⟩, ⟨3, 4, 11, 0⟩, ⟨4, 4, 8, 0⟩, ⟨4, 5, 15, 0⟩, ⟨5, 5, 12, 0⟩, ⟨5, 4, 11, 0⟩, ⟨5, 3, 6, 0⟩, ⟨4, 3, 5, 0⟩, ⟨3, 3, 14, 0⟩, ⟨3, 2, 11, 0⟩, ⟨3, 1, 14, 0⟩, ⟨3, 0, 11, 0⟩, ⟨4, 0, 0, 0⟩, ⟨5, 0, 7, 0⟩, ⟨5, 1, 2, 0⟩, ⟨4, 1, 5, 0⟩, ⟨4, 2, 0, 0⟩, ⟨5, 2, 7, 0⟩]]

/-- `iijIIjjjiJJiiJJijjjIIjii | 0ij,0Ji,0ij,0jI,0IJ,0jI,0ij,0jI,0ij,0Ji,0IJ,0Ji,0ij,0Ji,0IJ,0Ji,0ij,0jI,0ij,0jI,0IJ,0jI,0ij,0Ji,0ij` -/
def c7 : FCurve 2 := curve 5 [
  [⟨0, 0, 0, 0⟩, ⟨1, 0, 12, 0⟩, ⟨2, 0, 0, 0⟩, ⟨2, 1, 10, 0⟩, ⟨1, 1, 6, 0⟩, ⟨0, 1, 10, 0⟩, ⟨0, 2, 0, 0⟩, ⟨0, 3, 10, 0⟩, ⟨0, 4, 0, 0⟩, ⟨1, 4, 12, 0⟩, ⟨1, 3, 6, 0⟩, ⟨1, 2, 12, 0⟩, ⟨2, 2, 0, 0⟩, ⟨3, 2, 12, 0⟩, ⟨3, 1, 6, 0⟩, ⟨3, 0, 12, 0⟩, ⟨4, 0, 0, 0⟩, ⟨4, 1, 10, 0⟩, ⟨4, 2, 0, 0⟩, ⟨4, 3, 10, 0⟩, ⟨3, 3, 6, 0⟩, ⟨2, 3, 10, 0⟩, ⟨2, 4, 0, 0⟩, ⟨3, 4, 12, 0⟩, ⟨4, 4, 0, 0⟩]]

/-- `iiiijIIjjIJJIjjjiiiJJijj | 0JI~,0Ji,0ji,0Ji,0ji,0Ij,0ji~,0iJ~,0IJ~,0Ji~,0JI,0Ij~,0IJ,0iJ~,0ij,0Ij,0ij,0jI~,0ji,0Ji,0IJ,0iJ,0IJ~,0iJ~,0ij` -/
def c8 : FCurve 2 := curve 5 [
  [⟨0, 0, 15, 0⟩, ⟨1, 0, 12, 0⟩, ⟨2, 0, 8, 0⟩, ⟨3, 0, 12, 0⟩, ⟨4, 0, 8, 0⟩, ⟨4, 1, 2, 0⟩, ⟨3, 1, 9, 0⟩, ⟨2, 1, 5, 0⟩, ⟨2, 2, 7, 0⟩, ⟨2, 3, 13, 0⟩, ⟨1, 3, 14, 0⟩, ⟨1, 2, 3, 0⟩, ⟨1, 1, 6, 0⟩, ⟨0, 1, 5, 0⟩, ⟨0, 2, 0, 0⟩, ⟨0, 3, 2, 0⟩, ⟨0, 4, 0, 0⟩, ⟨1, 4, 11, 0⟩, ⟨2, 4, 8, 0⟩, ⟨3, 4, 12, 0⟩, ⟨3, 3, 6, 0⟩, ⟨3, 2, 4, 0⟩, ⟨4, 2, 7, 0⟩, ⟨4, 3, 5, 0⟩, ⟨4, 4, 0, 0⟩]]

/-- `ijIjijIjiiiiJIIJiJIJiijj | 0ij,0IJ~,0Ij,0iJ~,0ij,0IJ~,0Ij,0iJ~,0ij,0IJ~,0iJ,0IJ~,0Ji,0ji~,0Ij,0ij~,0iJ,0Ij~,0IJ,0ij~,0iJ,0Ij~,0ji,0Ji~,0ij` -/
def c10 : FCurve 2 := curve 5 [
  [⟨0, 0, 0, 0⟩, ⟨1, 0, 7, 0⟩, ⟨1, 1, 2, 0⟩, ⟨0, 1, 5, 0⟩, ⟨0, 2, 0, 0⟩, ⟨1, 2, 7, 0⟩, ⟨1, 3, 2, 0⟩, ⟨0, 3, 5, 0⟩, ⟨0, 4, 0, 0⟩, ⟨1, 4, 7, 0⟩, ⟨2, 4, 4, 0⟩, ⟨3, 4, 7, 0⟩, ⟨4, 4, 12, 0⟩, ⟨4, 3, 9, 0⟩, ⟨3, 3, 2, 0⟩, ⟨2, 3, 1, 0⟩, ⟨2, 2, 4, 0⟩, ⟨3, 2, 3, 0⟩, ⟨3, 1, 6, 0⟩, ⟨2, 1, 1, 0⟩, ⟨2, 0, 4, 0⟩, ⟨3, 0, 3, 0⟩, ⟨4, 0, 8, 0⟩, ⟨4, 1, 13, 0⟩, ⟨4, 2, 0, 0⟩]]

end Peano.YeLog
