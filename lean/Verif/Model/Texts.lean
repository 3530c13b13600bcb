import Verif.Model.ChainCode
import Verif.Model.Search

set_option autoImplicit false

/-
Text forms of points, gates, patterns and curves (`peano/subsets.py`, `peano/curves.py`) and the part of `search.py` that turns command line
arguments into arguments of `run_search`.  Strings are lists of characters; `none` is a raised exception.
-/
namespace Peano
variable {d : ℕ}

/-! ### Python strings -/

/-- `text.split(c)` for a one-character separator. -/
def pySplitOn (c : Char) : List Char → List (List Char)
  | [] => [[]]
  | a :: rest =>
    if a = c then [] :: pySplitOn c rest
    else match pySplitOn c rest with
      | [] => [[a]]
      | w :: ws => (a :: w) :: ws

/-- `text.split('->')`. -/
def pySplitArrow : List Char → List (List Char)
  | [] => [[]]
  | '-' :: '>' :: rest => [] :: pySplitArrow rest
  | a :: rest => match pySplitArrow rest with
      | [] => [[a]]
      | w :: ws => (a :: w) :: ws

/-- `text.strip('()')`. -/
def stripParens (s : List Char) : List Char :=
  ((s.dropWhile fun c => c == '(' || c == ')').reverse.dropWhile fun c => c == '(' || c == ')').reverse

/-- `sep.join(tokens)`. -/
def pyJoin (sep : List Char) : List (List Char) → List Char
  | [] => []
  | [t] => t
  | t :: ts => t ++ sep ++ pyJoin sep ts

/-- A decimal digit (ASCII only, see `Model/RawBaseMap.lean`). -/
def isDigit (c : Char) : Bool := '0' ≤ c && c ≤ '9'

/-- Value of a sequence of digits. -/
def digitsValue (s : List Char) : ℕ := s.foldl (fun n c => 10 * n + (c.toNat - 48)) 0

/-- `str` of an integer. -/
def intText (z : ℤ) : List Char := if z < 0 then '-' :: decimal z.natAbs else decimal z.natAbs

/-- `str` of a `Fraction` (of the library): the numerator alone if the denominator is 1. -/
def fractionText (q : ℚ) : List Char := if q.den = 1 then intText q.num else intText q.num ++ ['/'] ++ decimal q.den

/-- `Fraction(text)` (of the library): spaces around, a sign, digits, possibly `/` and digits.  Simplification: decimal points, exponents,
underscores and spaces inside, which the library accepts as well, are errors here. -/
def fractionParse (text : List Char) : Option ℚ :=
  let s := pyStrip text
  let neg := s.head? = some '-'
  let rest := if s.head? = some '-' ∨ s.head? = some '+' then s.tail else s
  let num := rest.takeWhile isDigit
  let sign : ℚ := if neg then -1 else 1
  if num.isEmpty then none
  else match rest.dropWhile isDigit with
    | [] => some (sign * digitsValue num)
    | '/' :: den =>
      if den.isEmpty || !(den.all isDigit) || digitsValue den == 0 then none
      else some (sign * (digitsValue num : ℚ) / digitsValue den)
    | _ => none

/-! ### Points and gates -/

/-- `Point.__str__`, subsets.py:123-124. -/
def Point.text (p : Point d) : List Char := ['('] ++ pyJoin [','] ((List.ofFn p).map fractionText) ++ [')']

/-- `Point.parse`, subsets.py:126-130.  Simplification: a point of another dimension than `d` is not representable (`none`). -/
def Point.parse (d : ℕ) (text : List Char) : Option (Point d) := do
  let coords ← (pySplitOn ',' (stripParens (pyStrip text))).mapM fractionParse
  if coords.length = d then return fun j : Fin d => coords.getD j 0 else none

/-- `Link.__str__` for points, subsets.py:352-353. -/
def Link.text (l : Link (Point d)) : List Char := l.entrance.text ++ " -> ".toList ++ l.exit.text

/-- `Link.parse_gates`, subsets.py:366-372. -/
def Link.parseGates (d : ℕ) (text : List Char) : Option (Link (Point d)) := do
  let points ← (pySplitArrow text).mapM (Point.parse d)
  match points with
  | [entr, exit] => return ⟨entr, exit⟩
  | _ => none

/-! ### Patterns and curves -/

/-- `str` of a spec of a pattern; `None` is printed for an undefined one.  The inner `none` is an exception (dimension above 6). -/
def specText : Option (Spec d) → Option (List Char)
  | none => some "None".toList
  | some s => s.toRaw.str

/-- `Pattern.__str__`, curves.py:53-54; `none` is TypeError at an undefined cube of the prototype, or IndexError. -/
def Pattern.text (p : Pattern d) : Option (List Char) := do
  let cubes ← p.proto.mapM fun cube? => cube?.map fun cube => List.ofFn cube
  let specs ← p.specs.mapM specText
  return RawProto.str cubes ++ " | ".toList ++ pyJoin [','] specs

/-- `FuzzyCurve.__str__`, curves.py:115-116. -/
def FCurve.text (c : FCurve d) : Option (List Char) := do
  let lines ← c.patterns.zipIdx.mapM fun e => e.1.text.map fun t => ['@'] ++ decimal e.2 ++ ": ".toList ++ t
  return pyJoin ['\n'] lines

/-! ### The command line of `search.py` -/
namespace Search
variable {n : ℕ}

/-- One printed line of gates, search.py:38, with the line end of `print`. -/
def gatesLine (gates : GateTuple d) : List Char := pyJoin " | ".toList (gates.map Link.text) ++ ['\n']

/-- What `--output-gates` prints, search.py:36-39. -/
def gatesOutput (l : List (GateTuple d)) : List Char := (l.map gatesLine).flatten

/-- Iteration over the lines of a text file, with line ends.  Simplification: the only line end is `\n`. -/
def fileLines : List Char → List (List Char)
  | [] => []
  | c :: rest =>
    if c = '\n' then ['\n'] :: fileLines rest
    else match fileLines rest with
      | [] => [[c]]
      | w :: ws => (c :: w) :: ws

/-- `[Link.parse_gates(token) for token in line.strip().split('|')]`, search.py:156, 162. -/
def parseGatesLine (d : ℕ) (line : List Char) : Option (GateTuple d) := (pySplitOn '|' (pyStrip line)).mapM (Link.parseGates d)

/-- Choices of `--metric`, search.py:114. -/
inductive Metric
  | l1 | l2 | l2Squared | linf
  deriving DecidableEq

/-- `funcs`, search.py:126-131. -/
def Metric.ratio : Metric → Ratio
  | .l1 => .l1
  | .l2 => .l2
  | .l2Squared => .l2sq
  | .linf => .linf

/-- The command line after `parse_args`, search.py:100-125 (types and required arguments are checked by `argparse`); `gatesFile` is the
content of the file.  The verbosity is left out. -/
structure Args where
  dim : ℕ
  mult : ℕ
  div : ℕ
  facetGated : Bool := false
  gates : Option (List Char) := none
  gatesFile : Option (List Char) := none
  maxCdist : Option ℤ := none
  finishMaxCount : Option ℤ := none
  metric : Option Metric := none
  upperBound : Option (List Char) := none
  relTolInv : Option ℤ := none
  relTolInvMult : Option ℤ := none
  cacheMaxSize : Option ℤ := none
  groupByGates : Bool := false
  outputGates : Bool := false

/-- The list of gates from the file, search.py:152-158. -/
def fileGates (a : Args) : Option (Option (List (GateTuple (n + 1)))) :=
  match a.gatesFile with
  | none => some none
  | some text => ((fileLines text).mapM (parseGatesLine (n + 1))).map some

/-- The list of gates from the command line, search.py:160-163, with the list from the file. -/
def lineGates (a : Args) (fromFile : Option (List (GateTuple (n + 1)))) : Option (Option (List (GateTuple (n + 1)))) :=
  match a.gates with
  | none => some fromFile
  | some text => (parseGatesLine (n + 1) text).map fun gates => some [gates]

/-- The upper bound, search.py:165-166. -/
def upperArg (a : Args) : Option (Option ℚ) :=
  match a.upperBound with
  | none => some none
  | some text => (fractionParse text).map some

/-- The arguments of `run_search` with the given list of gates and upper bound (`kwargs`, search.py:136). -/
def paramsOf (nextSat : ℕ → ℕ) (a : Args) (gateList : Option (List (GateTuple (n + 1)))) (upper : Option ℚ) : Params n :=
  { div := a.div, mult := a.mult, finishMaxCount := a.finishMaxCount, relTolInv := a.relTolInv, relTolInvMult := a.relTolInvMult,
    gateList := gateList, facetGated := a.facetGated, maxCdist := a.maxCdist, upperBound := upper, groupByGates := a.groupByGates,
    outputGates := a.outputGates, nextSat := nextSat }

/-- The arguments of the call of `run_search`, search.py:126-168: the ratio function and the rest; `none` is an exception.
`nextSat` stands for the schedule of the solver, see `Params`. -/
def mainArgs (nextSat : ℕ → ℕ) (a : Args) : Option (Option Ratio × Params n) := do
  if a.dim % 2 = 1 ∧ a.metric = some .l2 then none
  else if a.outputGates = false ∧ a.metric = none then none
  else
    let fromFile ← fileGates a
    let gateList ← lineGates a fromFile
    let upper ← upperArg a
    return (a.metric.map Metric.ratio, paramsOf nextSat a gateList upper)

/-- The script as a whole, search.py:99-170: what is printed (as data) and how the run ends; `none` is an exception.  Without a metric
`ratio_func` is `None`; using it would be an exception.  Simplification: bounds are computed without the cache. -/
def main (Q : HeapQ (HNode (BoundedPair (n + 1))) HNode.lt) (S : SatSolver) (H : HeapQ (Dilation.SeqItem (n + 1)) Dilation.SeqItem.lt) (hash : Hashes n)
    (nextSat : ℕ → ℕ) (fuel : ℕ) (a : Args) : Option (List (Printed n) × Ending) := do
  let (r, p) ← mainArgs nextSat a
  runSearch (m := Option) Q (match r with
    | none => fun _ => none
    | some r => Dilation.keyBounds r) S H hash fuel p

end Search
end Peano
