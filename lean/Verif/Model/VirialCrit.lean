/- The radius of a given overdensity (analysis/functions.py). -/
import Verif.Model.Relax
import Verif.Model.Vcirc

namespace CT

noncomputable section

/-- `conversion.dens_in_msolpc3(vo, ro)` of galpy (trusted): the density unit in Msun/pc³. -/
def densMsolPc3 (g : Galpy) : ℝ := g.vo ^ 2 / g.ro ^ 2 / 4.302e-3 * 1e-6

/-- `conversion.dens_in_criticaldens(vo, ro, H)` of galpy (trusted): the density unit in critical densities. -/
def densCritical (g : Galpy) (H : ℝ) : ℝ := g.vo ^ 2 / g.ro ^ 2 * 1e6 / H ^ 2 * 8 * Real.pi / 3

/-- `pprof` of functions.py:1266-1274: cumulated mass over the volume of the sphere through each star, along the order. -/
def densProfile (m r : List ℝ) (o : List ℕ) : List ℝ :=
  List.zipWith (fun s x => s / (4.0 / 3.0 * Real.pi * x ^ 3)) (cumsum (o.map (fun i => m.getD i 0))) (o.map (fun i => r.getD i 0))

open Classical in
/-- Lines 1279-1300 of functions.py: the radius at which the profile has the density `rho`. -/
def critRadius (R D : List ℝ) (rho : ℝ) : Except Err ℝ := do
  let k ← argminE (D.map (fun d => |d - rho|))
  if k = D.length - 1 ∨ k = 0 then return R[k]!
  if D[k]! = rho then return R[k]!
  let j := if D[k]! < rho then k - 1 else k
  let m := (D[j + 1]! - D[j]!) / (R[j + 1]! - R[j]!)
  let b := D[j + 1]! - m * R[j + 1]!
  return (rho - b) / m

/-- `virial_radius_critical_density(cluster, H, Om, overdens, projected=False)` (functions.py:1203-1335), without the plot; `Om` is
not used by the code.  `projected=True` (projected radii with spherical volumes) is not modelled.  Division by a zero radius gives
`inf` in numpy and zero here (excluded in the theorems). -/
def virialCrit (g : Galpy) (H overdens : ℝ) (c : Cluster) : Except Err (ℝ × Cluster) := do
  let c2 ← pcStart g c
  let rhocrit := densMsolPc3 g / densCritical g H
  let o ← c2.rorder.elim (.error .indexError) .ok
  let rv ← critRadius (o.map (fun i => c2.d.r.getD i 0)) (densProfile c2.m c2.d.r o) (rhocrit * overdens)
  let c3 ← returnCluster g (saveCluster c) false none c2
  return (c3.units.elim rv (fun t => convertLength g c3 .pckms t rv), c3)

end

end CT
