/- Tidal tails (tidaltail/tails.py). -/
import Verif.Model.Orbits

namespace CT

noncomputable section

/-- A 3×3 matrix, `rot[i][j]`. -/
abbrev Mat3 := Fin 3 → Fin 3 → ℝ

/-- Lines 66-83 of tails.py: rows times matrix, positions and velocities. -/
def rotateRow (rot : Mat3) (p : Ph) : Ph :=
  { x := p.x * rot 0 0 + p.y * rot 1 0 + p.z * rot 2 0
    y := p.x * rot 0 1 + p.y * rot 1 1 + p.z * rot 2 1
    z := p.x * rot 0 2 + p.y * rot 1 2 + p.z * rot 2 2
    vx := p.vx * rot 0 0 + p.vy * rot 1 0 + p.vz * rot 2 0
    vy := p.vx * rot 0 1 + p.vy * rot 1 1 + p.vz * rot 2 1
    vz := p.vx * rot 0 2 + p.vy * rot 1 2 + p.vz * rot 2 2 }

/-- `to_tail` (tails.py:33-89).  `rotTo v` is galpy's `_rotate_to_arbitrary_vector(v, [1, 0, 0])`, of which only the properties in the
specification are used. -/
def toTail (g : Galpy) (rotTo : ℝ × ℝ × ℝ → Mat3) (c : Cluster) : Except Err (List Ph × Cluster) := do
  let c1 ← if c.origin ≠ some .cluster ∧ c.origin ≠ some .centre then toCentre false none c else .ok c
  let out := c1.st.map (rotateRow (rotTo (c1.gc.vx, c1.gc.vy, c1.gc.vz)))
  let c2 ← returnCluster g (saveCluster c) false none c1
  return (out, c2)

/-- The arguments of `tail_path` (tails.py:91-101); `num` is `bintype='num'`, otherwise `'fix'`. -/
structure TailArgs where
  tfinal : Option ℝ := some 0.1
  no : ℕ := 1000
  nt : ℕ := 100
  ntail : ℕ := 100
  dmax : Option ℝ := none
  num : Bool := false
  fromCentre : Bool := false
  toPath : Bool := false
  doFull : Bool := false
  projected : Bool := false

/-- What `tail_path` passes to `orbital_path` (tails.py:171-183). -/
def TailArgs.pathArgs (a : TailArgs) : PathArgs := { tfinal := a.tfinal, nt := a.no, fromCentre := a.fromCentre }

/-- What `tail_path` passes to `orbital_path_match` (tails.py:200-202). -/
def TailArgs.matchArgs (a : TailArgs) (path : Option (List PathPt)) : MatchArgs :=
  { toPathArgs := a.pathArgs, path := path, toPath := a.toPath, doFull := a.doFull, projected := a.projected }

/-- Lines 188-197 of tails.py: bins of the times of the path. -/
def tailBins (a : TailArgs) (top : List ℝ) : Except Err BinTable :=
  if a.num then
    if a.nt < a.ntail then roamingNbinmaker top a.nt a.ntail else nbinmaker top a.nt
  else if a.nt < a.ntail then roamingBinmaker top a.nt a.ntail true
  else binmaker top a.nt true

/-- `dindx` (tails.py:204-207); comparisons with NaN are false. -/
def tailMask (dmax : Option ℝ) (ms : List Matched) : List Bool :=
  ms.map (fun q => dmax.elim true (fun d => q.dpath.elim false (fun x => decide (|x| ≤ d))))

/-- Lines 209-227 of tails.py: the mean rows of the bins that hold stars. -/
def tailRows (T : BinTable) (mask : List Bool) (tstar : List ℝ) (st : List Ph) : Except Err (List PathPt) := do
  let idx := maskSel mask (binIndex tstar T.lower T.upper)
  let sum := fun (f : Ph → ℝ) => bincount idx (maskSel mask (st.map f)) T.mid.length
  let counts ← sum (fun _ => 1)
  let x ← sum Ph.x
  let y ← sum Ph.y
  let z ← sum Ph.z
  let vx ← sum Ph.vx
  let vy ← sum Ph.vy
  let vz ← sum Ph.vz
  return ((List.range T.mid.length).filter (fun k => decide ((0 : ℝ) < counts[k]!))).map (fun k =>
    { t := T.mid[k]!
      p := ⟨x[k]! / counts[k]!, y[k]! / counts[k]!, z[k]! / counts[k]!, vx[k]! / counts[k]!, vy[k]! / counts[k]!, vz[k]! / counts[k]!⟩ })

/-- Lines 249-255 of tails.py. -/
def convertTail (g : Galpy) (c : Cluster) (q : PathPt) : PathPt :=
  c.units.elim q (fun u =>
    { t := convertTime g c .kpckms u q.t
      p := { x := convertLength g c .kpckms u q.p.x, y := convertLength g c .kpckms u q.p.y, z := convertLength g c .kpckms u q.p.z
             vx := convertVelocity g c .kpckms u q.p.vx, vy := convertVelocity g c .kpckms u q.p.vy
             vz := convertVelocity g c .kpckms u q.p.vz } })

/-- `tail_path` (tails.py:91-260) without `skypath` and plotting. -/
def tailPath (g : Galpy) (flow : ℝ → Ph → Ph) (a : TailArgs) (c : Cluster) : Except Err (List PathPt × Cluster) := do
  let c1 ← toGalaxy g false c
  let c2 ← toKpckms g true c1
  let dmax := a.dmax.map (fun d => c.units.elim d (fun u => convertLength g c2 u .kpckms d))
  let o ← orbitalPath g flow a.pathArgs c2
  let T ← tailBins a (o.1.map PathPt.t)
  let m ← orbitalPathMatch g flow (a.matchArgs (some o.1)) o.2
  let rows ← tailRows T (tailMask dmax m.1) (m.1.map Matched.t) m.2.st
  let c' ← returnCluster g (saveCluster c) false none m.2
  return (rows.map (convertTail g c'), c')

/-- `tail_path_match` (tails.py:263-352) without `skypath` and plotting.  `to_path`, `do_full` and `projected` are not passed on to
`tail_path`. -/
def tailPathMatch (g : Galpy) (flow : ℝ → Ph → Ph) (a : TailArgs) (path : Option (List PathPt)) (c : Cluster) :
    Except Err (List Matched × Cluster) := do
  let o ← path.elim (tailPath g flow { a with toPath := false, doFull := false, projected := false } c) (fun p => .ok (p, c))
  orbitalPathMatch g flow (a.matchArgs (some o.1)) o.2

end

end CT
