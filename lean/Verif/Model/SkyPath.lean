/- Matching stars to the path of the cluster on the sky: `orbital_path_match` with `skypath` (orbits.py:769-1013). -/
import Verif.Model.Orbits

namespace CT

noncomputable section

/-- The path used by `orbital_path_match(skypath=True)` (orbits.py:855-870). -/
def matchPathSky (g : Galpy) (flow : ℝ → Ph → Ph) (a : MatchArgs) (c : Cluster) : Except Err (List PathPt × Cluster) :=
  a.path.elim (orbitalPathSky g flow a.toPathArgs c) (fun p => .ok (p, c))

/-- `orbital_path_match(skypath=True)` (orbits.py:838-1013) without plotting: `to_radec` (lines 848-850) in place of kpc and km/s, `projected` is
set, the rows of stars and path are `ra, dec, dist, …`; `dprog` and `dpath` go through the same conversion from kpc (lines 1009-1011). -/
def orbitalPathMatchSky (g : Galpy) (flow : ℝ → Ph → Ph) (a : MatchArgs) (c : Cluster) : Except Err (List Matched × Cluster) := do
  let c1 ← toRadec g true none true c
  let r ← matchPathSky g flow a c1
  let out ← matchStars true a.toPath a.doFull r.1 r.2.st
  let c4 ← returnCluster g (saveCluster c) false none r.2
  return (out.map (convertMatch g c4), c4)

end

end CT
