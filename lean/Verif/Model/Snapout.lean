/- `snapout` with its options (util/output.py:25-165) and `sky_coords` (util/coordinates.py:227-253). -/
import Verif.Model.Output

namespace CT

noncomputable section

/-- The arrays `cluster.kin`, `cluster.pot`, `cluster.etot`: empty until energies are calculated or added (cluster.py:281-283, 1272-1320). -/
structure EnCols where
  kin : List ℝ
  pot : List ℝ
  etot : List ℝ

/-- `np.column_stack` of one-dimensional arrays: they must have the same length. -/
def stackCols : List (List ℝ) → Except Err (List (List ℝ))
  | [] => .error .valueError
  | c :: cs =>
    if ∀ d ∈ cs, d.length = c.length then .ok ((List.range c.length).map (fun i => (c :: cs).map (fun d : List ℝ => d[i]!)))
    else .error .valueError

/-- `cluster.m, cluster.x, …, cluster.vz, cluster.id` (output.py:110-118). -/
def starCols (r : Run) : List (List ℝ) :=
  [r.base.m, r.base.st.map Ph.x, r.base.st.map Ph.y, r.base.st.map Ph.z, r.base.st.map Ph.vx, r.base.st.map Ph.vy, r.base.st.map Ph.vz,
    r.id.map (fun k : ℤ => (k : ℝ))]

/-- `sky_coords(cluster)` (coordinates.py:227-253): it calls `cluster.to_radec(ro=…, vo=…, solarmotion=…)`, a method without these keywords
(cluster.py:1664), which raises `TypeError` whatever the cluster.  `save_cluster` before it sets `units0`, … only. -/
def skyCoords (_c : Cluster) : Except Err (List (List ℝ)) := .error .typeError

/-- The columns `snapout(cluster, filename, energies, radec)` stacks (output.py:54-163). -/
def snapoutCols (r : Run) (e : EnCols) (energies radec : Bool) : Except Err (List (List ℝ)) := do
  let sky ← if radec then skyCoords r.base else .ok []
  if energies then
    return starCols r ++ [r.kw, e.kin, e.pot, e.etot] ++ sky
  else if radec then
    return starCols r ++ [r.kw] ++ sky
  else if r.kw.length = r.ntot then
    return starCols r ++ [r.kw]
  else
    return starCols r

/-- `snapout(cluster, filename, energies, radec)`: the files afterwards and the exception raised, if any.  `np.savetxt` is taken to write the
numbers exactly; when stacking raises it has not been called. -/
def snapoutFull (r : Run) (e : EnCols) (energies radec : Bool) (filename : String) (fs : FS) : FS × Option Err :=
  match (snapoutCols r e energies radec).bind stackCols with
  | .error x => (fs, some x)
  | .ok rows => (fs.write filename rows, none)

end

end CT
