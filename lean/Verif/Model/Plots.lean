/- Scatter plots of the stars (util/plots.py `starplot` 575-771 and `skyplot` 774-869).  matplotlib is not modelled: a figure is what
is handed to `plt.plot` and to `plt.xlabel`.  Limits, legend, transparency, title and file name are ignored. -/
import Verif.Model.Ops

namespace CT

noncomputable section

/-- What a call draws: per panel the points of the stars and the points marked besides them, and the unit written on the axes (`none`:
no axis is labelled). -/
structure Figure where
  stars : List (List (ℝ × ℝ))
  marks : List (List (ℝ × ℝ))
  unit : Option String

/-- The `coords` argument of `starplot` (plots.py:627-651, 701): every other string is treated as `"xy"`. -/
inductive StarCoords
  | xyz | xz | yz | xy
  deriving DecidableEq

/-- The two coordinates of a row in a panel (plots.py:633-651, 720, 743). -/
def StarCoords.proj : StarCoords → Ph → ℝ × ℝ
  | .xz, p => (p.x, p.z)
  | .yz, p => (p.y, p.z)
  | .xyz, p => (p.x, p.y)
  | .xy, p => (p.x, p.y)

/-- The unit on the axes (plots.py:660-671, 703-714). -/
def axisUnit (u : Option Units) : String :=
  if u = some .nbody then "(NBODY)"
  else if u = some .pckms then "(pc)"
  else if u = some .kpckms then "(kpc)"
  else if u = some .galpy then "(GALPY)"
  else if u = some .radec then "(degree)"
  else ""

/-- The rows marked by `do_centre` in the two-panel plot (plots.py:722-728, 745-751). -/
def starMarks (doCentre : Bool) (c : Cluster) : List Ph :=
  if c.origin = some .galaxy ∧ doCentre = true then [c.gc, c.gc.add c.c]
  else if c.origin ≠ some .centre ∧ doCentre = true then [c.c]
  else []

/-- The two-panel figure (plots.py:701-764). -/
def starFigure2 (doCentre : Bool) (c : Cluster) : Figure :=
  { stars := [c.st.map (StarCoords.proj .xz), c.st.map (StarCoords.proj .xy)]
    marks := [(starMarks doCentre c).map (StarCoords.proj .xz), (starMarks doCentre c).map (StarCoords.proj .xy)]
    unit := some (axisUnit c.units) }

/-- The one-panel figure (plots.py:627-699): when drawn over an existing figure there is no mark and no axis is labelled. -/
def starFigure1 (k : StarCoords) (overplot doCentre : Bool) (c : Cluster) : Figure :=
  { stars := [c.st.map k.proj]
    marks := [if overplot = false ∧ doCentre = true then [k.proj c.gc] else []]
    unit := if overplot then none else some (axisUnit c.units) }

/-- `starplot` (plots.py:575-771).  `amuse` units are left first; only the two-panel branch goes back to them (plots.py:761-762). -/
def starplot (g : Galpy) (k : StarCoords) (overplot doCentre : Bool) (c : Cluster) : Except Err (Figure × Cluster) := do
  let c1 ← if c.units = some .amuse then toPckms g true c else .ok c
  if k = .xyz then
    let c2 ← if c.units = some .amuse then toAmuse g true c1 else .ok c1
    return (starFigure2 doCentre c1, c2)
  else return (starFigure1 k overplot doCentre c1, c1)

/-- The `coords` argument of `skyplot` (plots.py:830-835). -/
inductive SkyCoords
  | radec | pm
  deriving DecidableEq

/-- plots.py:830-835: `ra`, `dec` or `pmra`, `pmdec`. -/
def SkyCoords.proj : SkyCoords → Ph → ℝ × ℝ
  | .radec, p => (p.x, p.y)
  | .pm, p => (p.vx, p.vy)

/-- plots.py:853-858. -/
def SkyCoords.unit : SkyCoords → String
  | .radec => "(degree)"
  | .pm => "(mas yr^-1)"

/-- The figure of `skyplot` (plots.py:830-862).  The mark is `(ra_gc, dec_gc)` for both kinds of coordinates. -/
def skyFigure (k : SkyCoords) (overplot doCentre : Bool) (c : Cluster) : Figure :=
  { stars := [c.sky.map k.proj]
    marks := [if overplot = false ∧ doCentre = true then [(c.skyGc.x, c.skyGc.y)] else []]
    unit := if overplot then none else some k.unit }

/-- `skyplot` (plots.py:774-869). -/
def skyplot (g : Galpy) (k : SkyCoords) (overplot doCentre : Bool) (c : Cluster) : Except Err (Figure × Cluster) := do
  let c1 ← toRadec g false none true c
  let c2 ← returnCluster g (saveCluster c) false none c1
  return (skyFigure k overplot doCentre c1, c2)

end

end CT
