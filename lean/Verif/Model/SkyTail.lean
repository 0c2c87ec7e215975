/- Tidal tails on the sky: `tail_path` and `tail_path_match` with `skypath` (tidaltail/tails.py). -/
import Verif.Model.SkyPath
import Verif.Model.Tails

namespace CT

noncomputable section

/-- `tail_path(skypath=True)` (tails.py:91-260) without plotting.  `sky` is `cart_to_sky` (coordinates.py:255-288): the coordinate map of an `Orbit`
made with the constants of that file, whatever those of the cluster.  (An `Orbit` of no rows, when no bin holds a star, is not modelled.) -/
def tailPathSky (g : Galpy) (flow : ℝ → Ph → Ph) (sky : Ph → Ph) (a : TailArgs) (c : Cluster) : Except Err (List PathPt × Cluster) := do
  let c1 ← toGalaxy g false c
  let c2 ← toKpckms g true c1
  let dmax := a.dmax.map (fun d => c.units.elim d (fun u => convertLength g c2 u .kpckms d))
  let o ← orbitalPathSky g flow a.pathArgs c2
  let T ← tailBins a (o.1.map PathPt.t)
  let m ← orbitalPathMatchSky g flow (a.matchArgs (some o.1)) o.2
  let rows ← tailRows T (tailMask dmax m.1) (m.1.map Matched.t) m.2.st
  let c' ← returnCluster g (saveCluster c) false none m.2
  return (rows.map (fun q => { t := (convertTail g c' q).t, p := sky q.p }), c')

/-- `tail_path_match(skypath=True)` (tails.py:263-352); `to_path`, `do_full` and `projected` are not passed on to `tail_path`. -/
def tailPathMatchSky (g : Galpy) (flow : ℝ → Ph → Ph) (sky : Ph → Ph) (a : TailArgs) (path : Option (List PathPt)) (c : Cluster) :
    Except Err (List Matched × Cluster) := do
  let o ← path.elim (tailPathSky g flow sky { a with toPath := false, doFull := false, projected := false } c) (fun p => .ok (p, c))
  orbitalPathMatchSky g flow (a.matchArgs (some o.1)) o.2

end

end CT
