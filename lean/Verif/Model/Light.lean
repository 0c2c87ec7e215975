/- Half-light radii: `analyze` of a cluster with luminosities (cluster.py:1370-1440, 1106-1183). -/
import Verif.Model.Session

namespace CT

noncomputable section

/-- A cluster with luminosities.  `rh`, `rhpro` are `None` at first (cluster.py:369-370), `rh10`, `rh10pro` do not exist: `none`. -/
structure LCluster where
  c : Cluster
  logl : List ℝ
  lum : List ℝ
  ltot : ℝ
  rh : Option ℝ
  rh10 : Option ℝ
  rhpro : Option ℝ
  rh10pro : Option ℝ
  ntot : ℕ

/-- The part of `add_sse(kw, logl, logr)` that concerns luminosities (cluster.py:1167-1173). -/
def addLights (logl : List ℝ) (x : LCluster) : LCluster :=
  let l := x.logl ++ logl
  { x with
    logl := l
    lum := l.map (fun q : ℝ => (10 : ℝ) ^ q)
    ltot := (l.map (fun q : ℝ => (10 : ℝ) ^ q)).sum }

/-- The half-light block of `analyze` (cluster.py:1424-1440), after the rest of it. -/
def lightBlock (x : LCluster) : Except Err LCluster :=
  if x.lum = [] then .ok x
  else x.c.rorder.elim (.ok x) (fun o => do
    let rh ← massFracRadius 0.5 x.ltot x.lum x.c.d.r o
    let rh10 ← massFracRadius 0.1 x.ltot x.lum x.c.d.r o
    x.c.rproorder.elim
      (.ok { x with
        rh := some rh
        rh10 := some rh10
        rhpro := some 0
        rh10pro := some 0 })
      (fun p => do
        let a ← massFracRadius 0.5 x.ltot x.lum x.c.d.rpro p
        let b ← massFracRadius 0.1 x.ltot x.lum x.c.d.rpro p
        return { x with
          rh := some rh
          rh10 := some rh10
          rhpro := some a
          rh10pro := some b }))

/-- `analyze(sortstars, projected)` of a cluster with luminosities (cluster.py:1370-1440). -/
def analyzeLight (sort projected : Bool) (x : LCluster) : Except Err LCluster :=
  (analyze sort x.c projected).bind (fun c => lightBlock { x with c := c })

/-- `add_stars(x, …, vz, m, sortstars, analyze)` for complete arrays and no binaries (cluster.py:520-689), with what is left if it raises: rows
are appended, the cluster is analysed, then `ntot` is set.  What `analyze` set before it raised is not modelled. -/
def addRows (m : List ℝ) (st : List Ph) (sort an : Bool) (x : LCluster) : LCluster × Option Err :=
  let y : LCluster := { x with c := { x.c with m := x.c.m ++ m, st := x.c.st ++ st } }
  if an then
    match analyzeLight sort true y with
    | .error e => (y, some e)
    | .ok z => ({ z with ntot := z.c.st.length }, none)
  else ({ y with ntot := y.c.st.length }, none)

end

end CT
