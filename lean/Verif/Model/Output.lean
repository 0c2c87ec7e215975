/- Writing files for other codes (util/output.py:167-376): `gyrout`, `fortout`, `sseout`. -/
import Verif.Model.IO
import Verif.Model.Convert
import Verif.Model.Grav

namespace CT

noncomputable section

/-! ### gyrout -/

/-- The argument `eps` of `gyrout`: a float, an integer or an array of floats. -/
inductive Eps
  | float (e : ℝ)
  | int (e : ℤ)
  | arr (l : List ℝ)

/-- `_convert_length(eps, units, cluster)` (output.py:335, units.py:22-114).  An integer becomes a float when it is multiplied or divided;
between kpc units and for unknown units it stays an integer. -/
def convertEps (g : Galpy) (c : Cluster) (u : Units) : Eps → Eps
  | .float e => .float (convertLength g c u (c.units.getD .other) e)
  | .int e => if u = c.units.getD .other ∨ (u.isKpc ∧ (c.units.getD .other).isKpc) ∨ u = .other then .int e
      else .float (convertLength g c u (c.units.getD .other) e)
  | .arr l => .arr (l.map (convertLength g c u (c.units.getD .other)))

/-- The caller's object after `_convert_length`: `x*=…` and `x/=…` work in place on an array.  From AMUSE quantities and from degrees a new
array is made first (units.py:60, 101). -/
def epsAfter (g : Galpy) (c : Cluster) (u : Units) : Eps → Eps
  | .arr l => if u = .amuse ∨ u = .radec then .arr l else convertEps g c u (.arr l)
  | e => e

/-- The last column of `np.column_stack` (output.py:337-355): a float was made an array (`isinstance(eps, float)`); anything else must fit. -/
def epsColumn (n : ℕ) : Eps → Except Err (List ℝ)
  | .float e => .ok (List.replicate n e)
  | .int e => if n = 1 then .ok [(e : ℝ)] else .error .valueError
  | .arr l => if l.length = n then .ok l else .error .valueError

/-- What `gyrout` leaves behind: the rows of the file (`none`: not written), the cluster, the caller's `eps`, the exception raised. -/
structure GyrOut where
  rows : Option (List (List ℝ))
  cluster : Cluster
  eps : Option Eps
  raised : Option Err

/-- `m/mcon, x, y, z, vx/vcon, vy/vcon, vz/vcon` of star `i` (output.py:341-350, 360-369). -/
def gyrRow (vcon : ℝ) (c : Cluster) (i : ℕ) : List ℝ :=
  let p := c.st[i]!
  [c.m[i]! / mconWD, p.x, p.y, p.z, p.vx / vcon, p.vy / vcon, p.vz / vcon]

/-- `vcon` (output.py:320); `vk` is `conversion.velocity_in_kpcGyr(vo=solar_vo, ro=solar_ro)`. -/
def gyrVcon (vk : ℝ) : ℝ := 220 / vk

/-- `gyrout(cluster, filename, eps, epsunits)` (output.py:291-376); `np.savetxt` is taken to write the numbers exactly. -/
def gyrout (g : Galpy) (vk : ℝ) (eps : Option Eps) (epsunits : Option Units) (c : Cluster) : Except Err GyrOut := do
  let c1 ← toGalaxy g false c
  let c2 ← toKpckms g true c1
  let n := c2.st.length
  let u := (epsunits.or c.units).getD .other
  let after := eps.map (epsAfter g c2 u)
  match eps.elim (.ok ((List.range n).map (gyrRow (gyrVcon vk) c2)))
      (fun e => (epsColumn n (convertEps g c2 u e)).map (fun l => (List.range n).map (fun i => gyrRow (gyrVcon vk) c2 i ++ [l[i]!]))) with
  | .error x => return { rows := none, cluster := c2, eps := after, raised := some x }
  | .ok rows => do
    let c3 ← returnCluster g (saveCluster c) false none c2
    return { rows := some rows, cluster := c3, eps := after, raised := none }

/-! ### fortout, sseout -/

/-- `np.savetxt(name, rows)`. -/
def FS.write (fs : FS) (name : String) (rows : List (List ℝ)) : FS :=
  { fs with file := fun f => if f = name then some (rows.map Line.row) else fs.file f }

/-- The columns of a stellar evolution file that are not in `Run`: `cluster.ep`, `cluster.ospin` (both may be empty). -/
structure Evo where
  ep : List ℝ
  ospin : List ℝ

/-- How `'%f'` and `'%i'` print a number, read back. -/
structure Fmt where
  f : ℝ → ℝ
  i : ℝ → ℝ

/-- `np.column_stack([m0, kw, m, ep, ospin])` with `fmt='%f %i %f %f %f'` (output.py:192-203, 272-283). -/
def sseRows (F : Fmt) (r : Run) (e : Evo) (m : List ℝ) : Except Err (List (List ℝ)) :=
  if r.kw.length = r.m0.length ∧ m.length = r.m0.length ∧ e.ep.length = r.m0.length ∧ e.ospin.length = r.m0.length then
    .ok ((List.range r.m0.length).map (fun i => [F.f r.m0[i]!, F.i r.kw[i]!, F.f m[i]!, F.f e.ep[i]!, F.f e.ospin[i]!]))
  else .error .valueError

/-- `m, x, y, z, vx, vy, vz` of star `i` (output.py:255-263). -/
def fortRow (c : Cluster) (i : ℕ) : List ℝ :=
  let p := c.st[i]!
  [c.m[i]!, p.x, p.y, p.z, p.vx, p.vy, p.vz]

/-- `sseout(cluster, filename)` (output.py:167-206): the file system and the cluster afterwards, and the exception raised. -/
def sseout (g : Galpy) (F : Fmt) (r : Run) (e : Evo) (filename : String) (fs : FS) : Except Err (FS × Run × Option Err) := do
  let c ← toPckms g true r.base
  match sseRows F r e c.m with
  | .error x => return (fs, { r with base := c }, some x)
  | .ok rows => do
    let d ← returnCluster g (saveCluster r.base) false none c
    return (fs.write filename rows, { r with base := d }, none)

/-- The arguments of `fortout` (output.py:208-216). -/
structure FortArgs where
  filename : String := "fort.10"
  sse : Bool := false
  sseFilename : String := "fort.12"
  reset : Bool := false
  resetMass : Bool := true
  resetRadii : Bool := true

/-- `fortout(cluster, …)` (output.py:208-288); `reset_nbody_scale` is called with `rvirial=True` and `projected=cluster.projected`
(cluster.py:2012-2049). -/
def fortout (g : Galpy) (F : Fmt) (a : FortArgs) (projected : Bool) (r : Run) (e : Evo) (fs : FS) : Except Err (FS × Run × Option Err) := do
  let c1 ← toCentre false none r.base
  let c2 ← if a.reset then resetNbodyScale g a.resetMass a.resetRadii true projected c1 else .ok c1
  let c3 ← toNbody g c2
  let fs := fs.write (r.wdir ++ a.filename) ((List.range c3.st.length).map (fortRow c3))
  let c4 ← toPckms g true c3
  match if a.sse then (sseRows F r e c4.m).map some else .ok none with
  | .error x => return (fs, { r with base := c4 }, some x)
  | .ok rows => do
    let d ← returnCluster g (saveCluster r.base) false none c4
    return (rows.elim fs (fun rows => fs.write (r.wdir ++ a.sseFilename) rows), { r with base := d }, none)

end

end CT
