import Mathlib.Data.Nat.Notation
import Verif.Model.BaseMap

set_option autoImplicit false

/-
Literal (list level) model of the data and text forms in `peano/base_maps.py`: coords are any tuple of pairs, as in
the code, so that invalid coords are representable.  `none` is a raised exception.
-/
namespace Peano

/-- `BASIS_LETTERS`, utils.py:14. -/
def basisLetters : List Char := ['i', 'j', 'k', 'l', 'm', 'n']

/-- Characters removed by `str.strip()`. -/
def isPySpace (c : Char) : Bool :=
  let n := c.toNat
  (9 ≤ n && n ≤ 13) || (28 ≤ n && n ≤ 32) || n == 0x85 || n == 0xA0 || n == 0x1680 || (0x2000 ≤ n && n ≤ 0x200A) ||
    n == 0x2028 || n == 0x2029 || n == 0x202F || n == 0x205F || n == 0x3000

/-- `str.lower()` of one character.  Only its effect on membership in `BASIS_LETTERS` matters: besides `A`-`Z` the only character
whose lower case is one of the letters is U+212A (Kelvin sign, lower case `k`). -/
def pyLower (c : Char) : Char :=
  if 'A' ≤ c ∧ c ≤ 'Z' then Char.ofNat (c.toNat + 32) else if c.toNat = 0x212A then 'k' else c

/-- `str.upper()` on a basis letter. -/
def pyUpper (c : Char) : Char := if 'a' ≤ c ∧ c ≤ 'z' then Char.ofNat (c.toNat - 32) else c

/-- `str.strip()`. -/
def pyStrip (s : List Char) : List Char := ((s.dropWhile isPySpace).reverse.dropWhile isPySpace).reverse

/-- The data of a `BaseMap` object: `_key = (coords, time_rev)`, base_maps.py:44-58. -/
structure RawBaseMap where
  coords : List (ℕ × Bool)
  timeRev : Bool
deriving DecidableEq, Repr

namespace RawBaseMap

/-- The loop filling `cmap`, base_maps.py:100-105, as an association list (latest first). `none` is `KeyError`. -/
def parseLoop : ℕ → List Char → List (ℕ × (ℕ × Bool)) → Option (List (ℕ × (ℕ × Bool)))
  | _, [], cmap => some cmap
  | k, l :: rest, cmap => do
    let i ← basisLetters.idxOf? (pyLower l)
    let b := decide (l ≠ pyLower l)
    parseLoop (k + 1) rest (cmap.filter (fun e => e.1 ≠ i) ++ [(i, (k, b))])

/-- `BaseMap.parse`, base_maps.py:75-108.  `none`: `IndexError` (empty text), `AssertionError` (too long), `KeyError`. -/
def parse (text : List Char) : Option RawBaseMap := do
  let text := pyStrip text
  let lastc ← text.getLast?
  let timeRev := decide (lastc = '~')
  let basis := if timeRev then text.dropLast else text
  if basis.length ≤ basisLetters.length then
    let cmap ← parseLoop 0 basis []
    let coords ← (List.range cmap.length).mapM fun i => cmap.lookup i
    return ⟨coords, timeRev⟩
  else none

/-- The loop of `__str__`, base_maps.py:121-124. `none` is `IndexError`. -/
def strLoop : ℕ → List (ℕ × Bool) → List (Option Char) → Option (List (Option Char))
  | _, [], basis => some basis
  | i, (k, b) :: rest, basis => do
    let img ← basisLetters[i]?
    if k < basis.length then strLoop (i + 1) rest (basis.set k (some (if b then pyUpper img else img))) else none

/-- `BaseMap.__str__`, base_maps.py:120-125. `none` is `IndexError` or `TypeError` (joining a `None`). -/
def str (a : RawBaseMap) : Option (List Char) := do
  let basis ← strLoop 0 a.coords (List.replicate a.coords.length none)
  let letters ← basis.mapM id
  return letters ++ (if a.timeRev then ['~'] else [])

/-- `BaseMap.__mul__` on the data, base_maps.py:134-141. `none` is `AssertionError` or `IndexError`. -/
def mul (a b : RawBaseMap) : Option RawBaseMap :=
  if a.coords.length = b.coords.length then do
    let coords ← a.coords.mapM fun (p, b1) => (b.coords[p]?).map fun (k, b2) => (k, xor b1 b2)
    return ⟨coords, xor a.timeRev b.timeRev⟩
  else none

/-- Loop of `get_inverse`, base_maps.py:148-150. -/
def invLoop : ℕ → List (ℕ × Bool) → List (Option (ℕ × Bool)) → Option (List (Option (ℕ × Bool)))
  | _, [], coords => some coords
  | i, (k, b) :: rest, coords =>
    if k < coords.length then invLoop (i + 1) rest (coords.set k (some (i, b))) else none

/-- `BaseMap.get_inverse` on the data, base_maps.py:144-152.  `none` is `IndexError`; a left-over `None` coordinate (only for
coords that are not a permutation), which the code would store, is also reported as `none`. -/
def inverse (a : RawBaseMap) : Option RawBaseMap := do
  let coords ← invLoop 0 a.coords (List.replicate a.coords.length none)
  let coords ← coords.mapM id
  return ⟨coords, a.timeRev⟩

/-- `BaseMap.id_map` on the data, base_maps.py:71. -/
def idMap (dim : ℕ) : RawBaseMap := ⟨(List.range dim).map fun k => (k, false), false⟩

/-- `BaseMap.__invert__` on the data, base_maps.py:168-170. -/
def invert (a : RawBaseMap) : RawBaseMap := ⟨a.coords, !a.timeRev⟩

end RawBaseMap

/-- Data of a typed base map. -/
def BaseMap.toRaw {d : ℕ} (a : BaseMap d) : RawBaseMap := ⟨List.ofFn fun i => ((a.coords i).1.val, (a.coords i).2), a.timeRev⟩

/-- Decimal text of a natural number, `'{}'.format(n)`. -/
def decimal (n : ℕ) : List Char := if h : n < 10 then [Char.ofNat (48 + n)] else decimal (n / 10) ++ [Char.ofNat (48 + n % 10)]
decreasing_by omega

/-- Data of a `Spec`: `_key`, base_maps.py:289-301. -/
structure RawSpec where
  baseMap : RawBaseMap
  pnum : ℕ
deriving DecidableEq, Repr

namespace RawSpec

/-- `Spec.parse`, base_maps.py:309-318; digits are the ASCII ones. -/
def parse (text : List Char) : Option RawSpec := do
  let c ← text.head?
  if '0' ≤ c ∧ c ≤ '9' then
    let bm ← RawBaseMap.parse text.tail
    return ⟨bm, c.toNat - 48⟩
  else
    let bm ← RawBaseMap.parse text
    return ⟨bm, 0⟩

/-- `Spec.__str__`, base_maps.py:320-321. -/
def str (s : RawSpec) : Option (List Char) := do
  let t ← s.baseMap.str
  return decimal s.pnum ++ t

end RawSpec

/-- Data of a typed spec. -/
def Spec.toRaw {d : ℕ} (s : Spec d) : RawSpec := ⟨s.baseMap.toRaw, s.pnum⟩

end Peano
