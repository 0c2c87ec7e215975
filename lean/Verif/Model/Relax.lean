/- Relaxation times (analysis/functions.py). -/
import Verif.Model.Convert
import Verif.Model.Grav
import Verif.Model.History
import Mathlib.Analysis.SpecialFunctions.Pow.Real

namespace CT

noncomputable section

/-- First steps of `relaxation_time`, `half_mass_relaxation_time` and `core_relaxation_time` (functions.py:485-493, 557-565, 622-630):
centre the cluster unless it is given from its position or centre already (then only order the stars), then go to pc and km/s. -/
def pcStart (g : Galpy) (c : Cluster) : Except Err Cluster := do
  let c1 ← if c.origin ≠ some .cluster ∧ c.origin ≠ some .centre then toCentre true none c
    else .ok (sortstars true c.d.r c.d.rpro c)
  toPckms g true c1

/-- Seconds in a parsec per km/s, over the seconds in 10⁶ years of 365 days (functions.py:523, 581, 646). -/
def myrFactor : ℝ := 3.086e13 / (3600.0 * 24.0 * 365.0 * 1000000.0)

/-- An attribute that may be `None`; arithmetic with `None` raises `TypeError`. -/
def attr (x : Option ℝ) : Except Err ℝ := x.elim (.error .typeError) .ok

/-- `half_mass_relaxation_time` (functions.py:531-591); the prints are not modelled. -/
def halfMassRelaxationTime (g : Galpy) (coulomb : ℝ) (projected : Bool) (c : Cluster) : Except Err (ℝ × Cluster) := do
  let c2 ← pcStart g c
  let grav := getGrav c2.units
  let mass := c2.m.sum
  let ntot : ℝ := c2.st.length
  let mbar := mass / ntot
  let lnlambda := Real.log (coulomb * ntot)
  let rm ← attr (if projected then c2.d.rmpro else c2.d.rm)
  let trh := 0.138 * mass ^ (0.5 : ℝ) * rm ^ (1.5 : ℝ) / (mbar * Real.sqrt grav * lnlambda) * myrFactor
  let c3 ← returnCluster g (saveCluster c) false none c2
  return (c3.units.elim trh (fun t => convertTime g c3 .pckms t trh), c3)

/-- `cluster.m[r <= rad]`. -/
def innerMasses (m r : List ℝ) (rad : ℝ) : List ℝ := ((List.zip m r).filter (fun x => decide (x.2 ≤ rad))).map Prod.fst

/-- `relaxation_time` (functions.py:456-529).  With `rad` given the variable `vel` of line 514 is never set: `UnboundLocalError`, a
`NameError`.  The argument `method` is not used. -/
def relaxationTime (g : Galpy) (rad : Option ℝ) (coulomb : ℝ) (projected : Bool) (c : Cluster) : Except Err (ℝ × Cluster) := do
  let c2 ← pcStart g c
  let grav := getGrav c2.units
  if rad.isSome then throw .nameError
  let rad ← attr (if projected then c2.d.rmpro else c2.d.rm)
  let vel := if projected then c2.d.vpro else c2.d.v
  let inner := innerMasses c2.m (if projected then c2.d.rpro else c2.d.r) rad
  let mbar := mean inner
  let vol := 4.0 * Real.pi * rad ^ 3 / 3.0
  let rho := (inner.length : ℝ) / vol
  let v2 := mean (vel.map (· ^ 2))
  let lnlambda := Real.log (coulomb * c2.st.length)
  let trelax := v2 ^ (3 / 2 : ℝ) / (15.4 * grav ^ 2 * mbar ^ 2 * rho * lnlambda) * myrFactor
  let c3 ← returnCluster g (saveCluster c) false none c2
  return (c3.units.elim trelax (fun t => convertTime g c3 .pckms t trelax), c3)

end

end CT
