/- New N-body scales: `reset_nbody_scale` with keywords, and `sub_cluster(…, reset_nbody*=True)`. -/
import Verif.Model.Subset
import Verif.Model.Nbody6ppH5
import Verif.Model.Crash
import Verif.Model.Centre

namespace CT

noncomputable section

/-- The keywords that `reset_nbody_scale` reads from its `**kwargs` (operations.py:1423-1430).  Lines 1432-1434 name every one of them in the call of
`virial_radius` to which they also pass `**kwargs`, so one of them in `kwargs` is given twice, which is a `TypeError`.  Other keywords go to
`virial_radius`, which does not read them. -/
inductive VirialKw
  | method | full | hubble | omega | overdens | nrad | plot
deriving DecidableEq

/-- `reset_nbody_scale(cluster, …, **kwargs)` (operations.py:1374-1448) for keywords `kw`, with the clusters on the way.  `rm` is the half-mass
radius stored by `analyze`. -/
def resetNbodyScaleT (g : Galpy) (mass radii rvirial projected : Bool) (kw : List VirialKw) (c : Cluster) : Tr Cluster := do
  let c1 ← if c.origin ≠ some .cluster ∧ c.origin ≠ some .centre then Tr.step (toCentre true none c) else Tr.ok c
  let c2 ← Tr.step (toPckms g true c1)
  let zmbar := if mass then c2.m.sum else c2.zmbar
  let rbar ←
    if radii then
      if rvirial then
        if kw ≠ [] then Tr.error .typeError else Tr.ok (virialRadius true projected c2.m c2.st)
      else match c2.d.rm with
        | some rm => Tr.ok (4 * rm / 3)
        | none => Tr.error .valueError
    else Tr.ok c2.rbar
  let vbar := 0.06557 * Real.sqrt (zmbar / rbar)
  let tbar := rbar / (1.023 * vbar)
  let c3 ← retT g (saveCluster c) false none c2
  Tr.step (.ok { c3 with zmbar := zmbar, rbar := rbar, vbar := vbar, tbar := tbar })

/-- The arguments of `sub_cluster` about scales (cluster.py:3970-3975). -/
structure ResetArgs where
  nbody : Bool := false
  mass : Bool := false
  radii : Bool := false
  rvirial : Bool := false
  projected : Bool := false
  kw : List VirialKw := []

/-- Lines 4209-4216 of cluster.py.  The method `reset_nbody_scale` has no parameter `radius`: what is given under that name goes into its `**kwargs`,
from there to `virial_radius`, where it is not read, and `radii` keeps its default `True`. -/
def newScales (g : Galpy) (a : ResetArgs) (c : Cluster) : Except Err Cluster :=
  if a.nbody then do
    let c ← toPckms g true c
    let c ← analyze true c
    (resetNbodyScaleT g true true a.rvirial a.projected a.kw c).value
  else if a.mass || a.radii then do
    let c ← toPckms g true c
    let c ← analyze true c
    (resetNbodyScaleT g a.mass true a.rvirial a.projected a.kw c).value
  else .ok c

/-- Lines 4209-4224 of cluster.py: `units0` is the unit system of the parent; the origin is never different. -/
def finishSub (g : Galpy) (a : ResetArgs) (sort : Bool) (units0 : Option Units) (c : Cluster) : Except Err Cluster := do
  let c ← newScales g a c
  let c ← if c.units ≠ units0 then
      match units0 with
      | some u => toUnits g u c
      | none => .ok c
    else .ok c
  analyze sort c

/-- `sub_cluster(cluster, …)` (cluster.py:3953-4229) with the arguments about scales and `reset_centre=False`. -/
def subClusterReset (g : Galpy) (a : ResetArgs) (q : SubArgs) (sort : Bool) (p : Full) (indx : Option ℕ) (mem : Mem) :
    Except Err (Full × Mem) := do
  let (r, mem) ← getSubset q p.view indx mem
  match r with
  | none => return (newFull (newCluster none none none p.tab.base.tphys), mem)
  | some k =>
    let mask := mem[k]!
    if 0 < mask.count true then
      let s := newTab (newCluster p.tab.base.units p.tab.base.origin (bunitsOfUnits p.tab.base.units) p.tab.base.tphys)
      let t ← addStars (subArgs mask p.tab) 0 sort true s
      let s := { newFull s.base with tab := t }
      let s := subOrbit p (subEnergies mask p (subBse mask p (subSse mask p (subNbody6 mask p s))))
      let t ← onCluster (finishSub g a sort p.tab.base.units) s.tab
      return ({ s with tab := t }, mem)
    else return (newFull (newCluster none none none p.tab.base.tphys), mem)

/-- The branch `reset_centre=True` of lines 4170-4179: of the orbit and the centre of the parent only the position in the galaxy is copied. -/
def subOrbitGc (p s : Full) : Full := { s with tab := { s.tab with base := { s.tab.base with gc := p.tab.base.gc } } }

/-- `subcluster.find_centre(…, reset_centre=reset_centre)` (lines 4180-4183): the starting point given in one branch is the default of the other. -/
def recentreSub (g : Galpy) (fuel : ℕ) (ids : List ℤ) (c : Cluster) : Except Err Cluster := do
  let r ← findCentreMethod g {} .harfst fuel none ids true c
  return r.2

/-- `sub_cluster(cluster, …, reset_centre=True)` (cluster.py:3953-4229), with or without new scales. -/
def subClusterRecentre (g : Galpy) (fuel : ℕ) (a : ResetArgs) (q : SubArgs) (sort : Bool) (p : Full) (indx : Option ℕ) (mem : Mem) :
    Except Err (Full × Mem) := do
  let (r, mem) ← getSubset q p.view indx mem
  match r with
  | none => return (newFull (newCluster none none none p.tab.base.tphys), mem)
  | some k =>
    let mask := mem[k]!
    if 0 < mask.count true then
      let s := newTab (newCluster p.tab.base.units p.tab.base.origin (bunitsOfUnits p.tab.base.units) p.tab.base.tphys)
      let t ← addStars (subArgs mask p.tab) 0 sort true s
      let s := { newFull s.base with tab := t }
      let s := subOrbitGc p (subEnergies mask p (subBse mask p (subSse mask p (subNbody6 mask p s))))
      let t ← onCluster (fun c => do
        let c ← recentreSub g fuel s.tab.id c
        finishSub g a sort p.tab.base.units c) s.tab
      return ({ s with tab := t }, mem)
    else return (newFull (newCluster none none none p.tab.base.tphys), mem)

end

end CT
