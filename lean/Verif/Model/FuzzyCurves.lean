import Verif.Model.Curves

set_option autoImplicit false

/-
Model of the construction of path-fuzzy curves, `peano/curves.py`: `PathFuzzyCurve.init_from_paths`, `Curve.forget`.
-/
namespace Peano
variable {d : ℕ}

/-- `dict[key][sub] = v` for a `defaultdict(dict)` when `sub` is new: append to the inner dictionary (association lists in insertion
order). -/
def dictAdd {α β : Type} [DecidableEq α] (key : α) (v : β) : List (α × List β) → List (α × List β)
  | [] => [(key, [v])]
  | (k, ws) :: l => if k = key then (k, ws ++ [v]) :: l else (k, ws) :: dictAdd key v l

namespace FCurve

/-- The group of base maps in use, curves.py:714-717. -/
def effectiveGroup (d : ℕ) (group : Option (List (BaseMap d))) (disableTimeRev : Bool) : List (BaseMap d) :=
  let g := group.getD (BaseMap.genBaseMaps d none)
  if disableTimeRev then g.filter fun bm => !bm.timeRev else g

/-- `min(bm * link for bm in base_maps_group)`, curves.py:721, 734. `none` is ValueError (empty group). -/
def stdLink (g : List (BaseMap d)) (l : Link (Point d)) : Option (Link (Point d)) := pyMin Link.lt (g.map fun bm => Link.act bm l)

/-- `links_std`, curves.py:719-723.  (`pnum` is new in each iteration.) -/
def buildLinksStd (g : List (BaseMap d)) (paths : List (Path (Point d) d)) : Option (List (Link (Point d) × List (ℕ × BaseMap d))) :=
  paths.zipIdx.foldlM (fun acc pp => do
    let std ← stdLink g pp.1.link
    let m ← g.find? fun bm => decide (Link.act bm pp.1.link = std)
    return dictAdd std (pp.2, m) acc) []

/-- One fraction link, curves.py:733-741: its repr and standard link.  `none` is KeyError or StopIteration. -/
def fractionLink (g : List (BaseMap d)) (linksStd : List (Link (Point d) × List (ℕ × BaseMap d))) (l : Link (Point d)) :
    Option (BaseMap d × Link (Point d)) := do
  let std ← stdLink g l
  let _ ← linksStd.lookup std
  let r ← g.find? fun bm => decide (Link.act bm std = l)
  return (r, std)

/-- `PathFuzzyCurve.init_from_paths`, curves.py:700-750.  `none` is an exception.  `base_maps_group` is a list (or absent): a generator
passed here would be consumed by the first `min`. -/
def initFromPaths (paths : List (Path (Point d) d)) (group : Option (List (BaseMap d))) (disableTimeRev : Bool) : Option (FCurve d) := do
  let first ← paths.head?
  let g := effectiveGroup d group disableTimeRev
  let linksStd ← buildLinksStd g paths
  let symmetries := linksStd.map fun e => (e.1, g.filter fun bm => decide (Link.act bm e.1 = e.1))
  let fr ← paths.mapM fun path => path.links.mapM fun l => fractionLink g linksStd l
  return {
    div := first.div
    patterns := paths.map fun path => ⟨path.proto, List.replicate path.proto.length none⟩
    pnum := 0
    kind := .path {
      linksSymmetries := symmetries
      linksStd := linksStd
      patternLinks := fr.map fun l => l.map Prod.snd
      patternReprs := fr.map fun l => l.map Prod.fst } }

/-- `Curve.forget`, curves.py:565-567. -/
def forget (c : FCurve d) (group : Option (List (BaseMap d))) (disableTimeRev : Bool) : Option (FCurve d) := do
  initFromPaths (← c.getPaths) group disableTimeRev

end FCurve
end Peano
