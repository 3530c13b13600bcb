import Verif.Model.Curves
import Mathlib.Data.Rat.Defs
import Mathlib.Algebra.Field.Rat

set_option autoImplicit false

/-
Model of `plots.py`: which axes are made and what is drawn on them.  The picture is a list of axes and a list of items (texts and lines with
coordinates); rendering by matplotlib is not modelled.  Coordinates are exact rationals, the code uses floats.  `none` is an exception.  Ticks,
limits, aspects, line widths and transparency (plots.py:37-38, 48-75, 16-26) have no influence on what is drawn where and are left out, apart from
the title (plots.py:60), which may raise IndexError.
-/
namespace Peano
namespace Plot
variable {d : ℕ}

/-- Points of the picture. -/
abbrev Pt (d : ℕ) := Fin d → ℚ

/-- The keyword arguments of the three calls of `draw_lines`: of the line of a fraction (plots.py:103), of the dotted connection (plots.py:101-102)
and of the prototype (plots.py:108). -/
inductive Style
  | fraction | connection | proto
deriving DecidableEq, Repr

/-- A line: the coordinates given to `ax.plot` (plots.py:129), point by point. -/
structure Line (d : ℕ) where
  style : Style
  color : String
  points : List (Pt d)
deriving DecidableEq

/-- What is put on an axis: `glob_ax.text` (plots.py:96) or `ax.plot` (plots.py:129). -/
inductive Item (d : ℕ)
  | text (at_ : Pt d) (s : String)
  | line (l : Line d)
deriving DecidableEq

/-- `fig.add_subplot(rows, cols, index)`, plots.py:42-46. -/
structure Axis where
  rows : ℕ
  cols : ℕ
  index : ℕ
  title : Option String
deriving DecidableEq, Repr

/-- `pattern_names`, plots.py:17. -/
def patternNames : List String := ["a", "b", "c", "d"]
/-- `colors`, plots.py:18. -/
def colors : List String := ["tab:cyan", "orange", "green", "pink"]

/-- `_get_proto_center_line`, plots.py:136-141; iteration over a cube that is `None` raises TypeError. -/
def protoCenterLine (div : ℕ) (p : Proto d) : Option (List (Pt d)) :=
  p.mapM fun cube => cube.map fun cube j => ((cube j : ℚ) + 1 / 2) / (div : ℚ)

/-- `_get_abs_point`, plots.py:132-133. -/
def absPoint (pt shift : Pt d) (scale : ℚ) : Pt d := fun j => (pt j + shift j) * scale

/-- `t[j]` for a tuple of `d` coordinates; `none` is IndexError. -/
def coord (t : Pt d) (j : ℕ) : Option ℚ := if h : j < d then some (t ⟨j, h⟩) else none

/-- `zip(curr, delta, orth)` where `orth` has three coordinates, plots.py:119-120: the result has `min d 3` coordinates.  The picture is
drawn for `d ≤ 3` only. -/
def orthAt (orth : ℚ × ℚ × ℚ) (j : Fin d) : ℚ := if j.1 = 0 then orth.1 else if j.1 = 1 then orth.2.1 else orth.2.2

/-- `get_arr`, plots.py:114-121. -/
def getArr (prev curr : Pt d) : Option (List (Pt d)) := do
  let delta : Pt d := fun j => (curr j - prev j) / 5
  let orth : ℚ × ℚ × ℚ := (← coord delta 1, -(← coord delta 0), 0)
  let orth ← if orth = (0, 0, 0) then (do return (0, ← coord delta 2, -(← coord delta 1))) else some orth
  let l1 : Pt d := fun j => curr j - delta j + orthAt orth j
  let l2 : Pt d := fun j => curr j - delta j - orthAt orth j
  return [l1, curr, l2, curr]

/-- `draw_lines`, plots.py:124-129: `len(points[0])` needs a point, an arrow needs two. -/
def drawLines (points : List (Pt d)) (arrow : Bool) (style : Style) (color : String) : Option (Item d) := do
  let _ ← points.head?
  let points ← if arrow then (do
      if points.length < 2 then none
      return points ++ (← getArr (← points[points.length - 2]?) (← points.getLast?)))
    else some points
  return .line { style, color, points }

/-- `enumerate(l)` with the number of the first element. -/
def enumFrom {α : Type} : ℕ → List α → List (ℕ × α)
  | _, [] => []
  | n, a :: l => (n, a) :: enumFrom (n + 1) l

/-- The axes, plots.py:39-73: `axs` in the order of creation. -/
def axes (mult : ℕ) (separate : Bool) : Option (List Axis) := do
  let l ← (List.range mult).mapM fun pnum => do
    let title ← if mult > 1 then (patternNames[pnum]?).map fun n => some ("pattern (" ++ n ++ ")") else some none
    return if separate then [(⟨mult, 2, pnum + 1, title⟩ : Axis), ⟨mult, 2, pnum + 1 + mult, none⟩] else [⟨mult, 1, pnum + 1, title⟩]
  return l.flatten

/-- `pname`, plots.py:92-94. -/
def pname (s : Spec d) : Option String := do
  let pname ← patternNames[s.pnum]?
  return if s.baseMap.timeRev then "$\\overline{\\mathrm{" ++ pname ++ "}}$" else pname

/-- Items on `glob_ax` and on `detail_ax`, and the variables `prev_line`, `prev_color`. -/
structure St (d : ℕ) where
  glob : List (Item d)
  detail : List (Item d)
  prev : Option (List (Pt d) × String)

/-- One turn of the loop over fractions, plots.py:91-105.  `prev_line` is empty or not there at the first turn only if lines are not empty; both are
tested by `if prev_line`. -/
def fractionStep (c sub : FCurve d) (st : St d) (x : ℕ × Option (Cube d) × Option (Spec d)) : Option (St d) := do
  let cnum := x.1
  let cube ← x.2.1
  let s ← x.2.2
  let name ← pname s
  let glob := if c.mult > 1 then st.glob ++ [.text (fun j => ((cube j : ℚ) + 37 / 100) / (c.div : ℚ)) name] else st.glob
  let pat ← sub.patterns[s.pnum]?
  let line ← protoCenterLine sub.div (pat.proto.act sub.div s.baseMap)
  let absLine := line.map fun pt => absPoint pt (fun j => (cube j : ℚ)) (1 / (c.div : ℚ))
  let connect : List (Item d) ← match st.prev with
    | some (p :: ps, prevColor) => do
      let a ← (p :: ps).getLast?
      let b ← absLine.head?
      let med : Pt d := fun j => (a j + b j) / 2
      let i1 ← drawLines [a, med] false .connection prevColor
      let i2 ← drawLines [med, b] false .connection (← colors[s.pnum]?)
      pure [i1, i2]
    | _ => pure []
  let color ← colors[s.pnum]?
  let item ← drawLines absLine (cnum == c.genus - 1) .fraction color
  return { glob := glob, detail := st.detail ++ connect ++ [item], prev := some (absLine, color) }

/-- The drawing of one pattern, plots.py:82-108: items on `glob_ax` and on `detail_ax`. -/
def patternItems (c sub : FCurve d) (separate : Bool) (pnum : ℕ) (pattern : Pattern d) : Option (List (Item d) × List (Item d)) := do
  let st ← (enumFrom 0 (pattern.proto.zip pattern.specs)).foldlM (fractionStep c sub) { glob := [], detail := [], prev := none }
  let protoCol ← if separate then colors[pnum]? else some "gray"
  let item ← drawLines (← protoCenterLine c.div pattern.proto) true .proto protoCol
  return (st.glob ++ [item], st.detail)

/-- The picture: the axes, and for every axis what is drawn on it.  When a pattern has one axis (`separate` is false), `glob_ax` is
`detail_ax`, plots.py:83-87; items of different `glob`/`detail` parts are then listed one part after the other. -/
structure Picture (d : ℕ) where
  axes : List Axis
  items : ℕ → List (Item d)

/-- Items on the axis number `i`: `axs[pnum]` for both purposes, or `axs[2*pnum]` and `axs[2*pnum+1]`, plots.py:83-87. -/
def itemsAt (separate : Bool) (l : List (List (Item d) × List (Item d))) (i : ℕ) : List (Item d) :=
  if separate then
    match l[i / 2]? with
    | some x => if i % 2 = 0 then x.1 else x.2
    | none => []
  else
    match l[i]? with
    | some x => x.1 ++ x.2
    | none => []

/-- `plot_curve`, plots.py:5-111.  Indices of axes in `axs[...]` are always there (one or two axes were made per pattern). -/
def plotCurve (c : FCurve d) (separate : Bool) (subdivision : ℕ) : Option (Picture d) := do
  if d > 3 then none
  let axs ← axes c.mult separate
  let sub ← if subdivision ≠ 0 then c.getSubdivision subdivision else some c
  let items ← (enumFrom 0 c.patterns).mapM fun x => patternItems c sub separate x.1 x.2
  return { axes := axs, items := itemsAt separate items }

end Plot
end Peano
