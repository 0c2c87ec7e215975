/- Radii read off a density profile: `rcore` from the central density and `rlimiting` (analysis/functions.py). -/
import Verif.Model.Tidal
import Verif.Model.Lagrange
import Verif.Model.Neighbours

namespace CT

noncomputable section

/-- `_rho_prof` of functions.py:2689-2864 without plotting: `rho_prof` of profiles.py, but in AMUSE units the numbers stay those in pc and
solar masses. -/
def rhoProfRaw (g : Galpy) (a : ProfArgs) (e : PStars) (indx : Option ℕ) (mem : Mem) (c : Cluster) :
    Except Err ((List ℝ × List ℝ × List ℕ) × After) := do
  let c1 ← profStart g a.normalize a.normalize c
  let sel ← getSubset a.sub (viewOf c1 e) indx mem
  let B ← profBinned a (if a.sub.projected then c1.d.rpro else c1.d.r) sel
  let rho := (List.range B.mid.length).map (fun i =>
    ((maskSel (B.at i) c1.m).map (· / shell a.sub.projected B.lower[i]! B.upper[i]!)).sum)
  let c2 ← returnCluster g (saveCluster c) false none c1
  let r ← if a.normalize then divRm c2.d.rm B.mid else .ok B.mid
  return ((r, rho, (List.range B.mid.length).map (fun i => (B.at i).count true)), ⟨c2, sel.2, a.bins.map (fun _ => r)⟩)

/-- `rlagrange(cluster, mfrac=f, projected)` (functions.py:978-1045): the radius of the first star, in order of radius, with
`msum/mtot >= mfrac`; as `mtot` is positive this is the test `msum >= mfrac*mtot`.  Lines 1041-1042 convert from pc to AMUSE units at the
end; both measure lengths in pc, so the number stays. -/
def rlagrangeFrac (g : Galpy) (f : ℝ) (projected : Bool) (c : Cluster) : Except Err (ℝ × Cluster) := do
  let c1 ← if c.units = some .amuse then toPckms g true c else .ok c
  let c2 ←
    if c.origin ≠ some .cluster ∧ c.origin ≠ some .centre then toCentre true none c1
    else .ok (sortstars true c1.d.r c1.d.rpro c1)
  let o ← (if projected then c2.rproorder else c2.rorder).elim (.error .indexError) .ok
  let r ← massFracRadius f c2.d.mtot c2.m (if projected then c2.d.rpro else c2.d.r) o
  let c3 ← returnCluster g (saveCluster c) false none c2
  return (r, c3)

/-- Lines 2183-2199 of functions.py: interpolation between the last bin that is not below `rc` and the first bin below it; an empty
selection raises `IndexError`. -/
def coreEdge (rs ds : List ℝ) (rc : ℝ) : Except Err ℝ := do
  let k1 ← ((List.range ds.length).filter (fun k => !decide (ds[k]! < rc))).getLast?.elim (.error .indexError) .ok
  let k2 ← ((List.range ds.length).filter (fun k => decide (ds[k]! < rc))).head?.elim (.error .indexError) .ok
  let m := (ds[k2]! - ds[k1]!) / (rs[k2]! - rs[k1]!)
  let b := ds[k2]! - m * rs[k2]!
  return (rc - b) / m

/-- Lines 2114-2121 of functions.py: without a known centre `cluster.find_centre()` is called first (here any function `find`). -/
def coreStart (find : Cluster → Except Err Cluster) (c1 : Cluster) : Except Err Cluster :=
  if c1.origin ≠ some .centre then
    (if c1.c.x = 0 ∧ c1.c.y = 0 ∧ c1.c.z = 0 then find c1 else .ok c1).bind (toCentre true none)
  else .ok c1

/-- `rcore(method≠'casertano', mfrac, projected)` (functions.py:2062-2122, 2157-2204) without plotting or further keywords; `nrad` is
`ceil(1/mfrac)`. -/
def rcoreDensity (g : Galpy) (find : Cluster → Except Err Cluster) (e : PStars) (mfrac : ℝ) (projected : Bool) (c : Cluster) :
    Except Err (ℝ × Cluster) := do
  let c1 ← if c.units = some .amuse then toPckms g true c else .ok c
  let c2 ← coreStart find c1
  let c3 ← toPckms g true c2
  let rl ← rlagrangeFrac g mfrac projected c3
  let pr ← rhoProfRaw g { sub := { projected := projected }, nrad := ⌈1 / mfrac⌉₊ } e none [] rl.2
  if pr.1.2.1 = [] then throw .indexError
  let rc ← coreEdge pr.1.1 pr.1.2.1 (if projected then (0.5 : ℝ) * (pr.1.2.1[0]! : ℝ) else (pr.1.2.1[0]! : ℝ) / 3)
  let c4 ← returnCluster g (saveCluster c) false none pr.2.cluster
  return (c4.units.elim rc (fun t => convertLength g c4 .pckms t rc), c4)

/-- Lines 2582-2591 of functions.py. -/
def limitEdge (rs ds : List ℝ) (rho : ℝ) : Except Err ℝ :=
  if rho < ds.getLastD 0 then .ok (rs.getLastD 0)
  else if ds[0]! < rho then .ok 0
  else do
    let k ← ((List.range ds.length).filter (fun k => decide (ds[k]! < rho))).head?.elim (.error .indexError) .ok
    return interpolate rs[k - 1]! ds[k - 1]! rs[k]! ds[k]! none (some rho)

/-- `rlimiting(cluster, pot, rgc, zgc, nrad, projected, from_centre)` (functions.py:2491-2595, 2687) without plotting; `dens R z` is galpy's
`evaluateDensities(pot, R, z, use_physical=False)`.  `k - 1` in `limitEdge` is never reached with `k = 0`. -/
def rlimiting (g : Galpy) (dens : ℝ → ℝ → ℝ) (a : TideArgs) (nrad : ℕ) (projected : Bool) (e : PStars) (c : Cluster) :
    Except Err (ℝ × Cluster) := do
  let c1 ← if c.origin ≠ some .cluster ∧ c.origin ≠ some .centre then toCentre false none c else .ok c
  let c2 ← toGalpy g c1
  let pr ← rhoProfRaw g { sub := { projected := projected }, nrad := nrad } e none [] c2
  if pr.1.2.1 = [] then throw .indexError
  let rho := dens (tideR g a c2) (tideZ g a c2) * (if projected then 4 * pr.1.1.getLastD 0 / 3 else 1)
  let rl ← limitEdge pr.1.1 pr.1.2.1 rho
  let c3 ← returnCluster g (saveCluster c) false none pr.2.cluster
  return (c3.units.elim rl (fun t => convertLength g c3 .galpy t rl), c3)

end

end CT
