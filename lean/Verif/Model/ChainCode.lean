import Verif.Model.RawBaseMap
import Verif.Model.Curves

set_option autoImplicit false

/-
Text forms of prototypes, patterns and curves: `Proto.parse`, `Proto.__str__` of `peano/paths.py`, `Pattern.parse`, `Curve.parse` of
`peano/curves.py`.  Strings are lists of characters; `none` is a raised exception.
-/
namespace Peano

/-- `\w` of the regular expression, paths.py:67.  Simplification: ASCII only (a non-ASCII word character would be a `KeyError`
in the code, unless it is the Kelvin sign; here it is skipped). -/
def isWord (c : Char) : Bool :=
  ('a' ≤ c && c ≤ 'z') || ('A' ≤ c && c ≤ 'Z') || ('0' ≤ c && c ≤ '9') || c == '_'

/-- `[grp.strip('()') for grp in re.findall('\w|\(\w+\)', chain_code)]`, paths.py:67: at each position a word character is a
group; `(`, at least one word character, `)` is a group; any other character is skipped. The first argument bounds the
number of steps (the length of the text suffices). -/
def chainGroups : ℕ → List Char → List (List Char)
  | 0, _ => []
  | _, [] => []
  | n + 1, c :: rest =>
    if isWord c then [c] :: chainGroups n rest
    else if c = '(' then
      let w := rest.takeWhile isWord
      let after := rest.dropWhile isWord
      match w, after with
      | _ :: _, ')' :: after' => w :: chainGroups n after'
      | _, _ => chainGroups n rest
    else chainGroups n rest

/-- A prototype as parsed: `dim`, `div` and the cubes, paths.py:33-38. -/
structure RawProto where
  dim : ℕ
  div : ℤ
  cubes : List (List ℤ)
deriving DecidableEq, Repr

namespace RawProto

/-- The inner loop, paths.py:74-77: `delta` for one group. `none` is `KeyError` or `IndexError`. -/
def groupDelta (dim : ℕ) (bases : List Char) : Option (List ℤ) :=
  bases.foldlM (fun delta basis => do
    let i ← basisLetters.idxOf? (pyLower basis)
    if i < delta.length then return delta.set i (if basis = pyLower basis then 1 else -1) else none) (List.replicate dim 0)

/-- The loop over the groups, paths.py:72-80. -/
def cubesLoop (dim : ℕ) : List ℤ → List (List Char) → Option (List (List ℤ))
  | _, [] => some []
  | last, g :: gs => do
    let delta ← groupDelta dim g
    let next := List.zipWith (· + ·) last delta
    let rest ← cubesLoop dim next gs
    return next :: rest

/-- Lexicographic comparison of tuples of integers. -/
def tupleLt (a b : List ℤ) : Bool := decide (a < b)

/-- `Proto.parse`, paths.py:52-87. -/
def parse (chainCode : List Char) : Option RawProto := do
  let groups := chainGroups chainCode.length chainCode
  let dim := ((groups.flatten.map pyLower).dedup).length
  if dim ≤ basisLetters.length then
    let start := List.replicate dim 0
    let tail ← cubesLoop dim start groups
    let cubes := start :: tail
    let minCube ← pyMin tupleLt cubes
    let cubes := cubes.map fun cube => List.zipWith (· - ·) cube minCube
    let mx ← cubes.flatten.max?
    return ⟨dim, 1 + mx, cubes⟩
  else none

/-- Letters of one step, paths.py:92-98. -/
def stepLetters (a b : List ℤ) : List Char :=
  ((List.zipWith (fun n c => n - c) b a).zip basisLetters).filterMap fun e =>
    if e.1 = 1 then some e.2 else if e.1 = -1 then some (pyUpper e.2) else none

/-- One group of `Proto.__str__`, paths.py:99. -/
def groupStr (bases : List Char) : List Char :=
  match bases with
  | [c] => [c]
  | _ => ['('] ++ bases ++ [')']

/-- `Proto.__str__`, paths.py:89-100. -/
def str (cubes : List (List ℤ)) : List Char :=
  ((cubes.zip cubes.tail).map fun e => groupStr (stepLetters e.1 e.2)).flatten

end RawProto

/-- The typed base map with the given data: `none` if the data are not a permutation of `d` coordinates with flips. -/
def RawBaseMap.toTyped (d : ℕ) (a : RawBaseMap) : Option (BaseMap d) := do
  let l ← a.coords.mapM fun e => if h : e.1 < d then some ((⟨e.1, h⟩ : Fin d), e.2) else none
  BaseMap.ofList l a.timeRev

/-- The typed spec with the given data. -/
def RawSpec.toTyped (d : ℕ) (s : RawSpec) : Option (Spec d) := do
  let b ← s.baseMap.toTyped d
  return ⟨b, s.pnum⟩

/-- The typed prototype with the given cubes: `none` if some cube is not a `d`-tuple. -/
def RawProto.toTyped (d : ℕ) (p : RawProto) : Option (Proto d) :=
  p.cubes.mapM fun cube => if cube.length = d then some (some fun j : Fin d => cube.getD j 0) else none

/-- `str.split(',')`. -/
def pySplitComma : List Char → List (List Char)
  | [] => [[]]
  | c :: rest =>
    if c = ',' then [] :: pySplitComma rest
    else match pySplitComma rest with
      | [] => [[c]]
      | w :: ws => (c :: w) :: ws

namespace FCurve
variable {d : ℕ}

/-- `Pattern.parse` with a list of spec texts, curves.py:32-51 (the prototype keeps its own `dim` and `div`, returned first). -/
def parsePattern (d : ℕ) (chain : List Char) (specs : List (List Char)) : Option (RawProto × Pattern d) := do
  let raw ← RawProto.parse chain
  let proto ← raw.toTyped d
  let specs ← specs.mapM fun t => do
    let s ← RawSpec.parse t
    let s ← s.toTyped d
    return some s
  return (raw, ⟨proto, specs⟩)

/-- `Curve.parse`, curves.py:537-551, for specs given as comma-separated text.  Simplification: a curve whose parts are of another
dimension than `d`, or whose prototypes have different `div`, is not representable (`none`). -/
def parse (d : ℕ) (patternsBases : List (String × String)) : Option (FCurve d) := do
  let parsed ← patternsBases.mapM fun e => parsePattern d e.1.toList (pySplitComma e.2.toList)
  let first ← parsed.head?
  if parsed.all fun e => e.1.dim = d ∧ e.1.div = first.1.div then
    return { div := first.1.div.toNat, patterns := parsed.map Prod.snd, pnum := 0, kind := .curve }
  else none

end FCurve
end Peano
