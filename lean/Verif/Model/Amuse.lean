/- Making a cluster of AMUSE particles (io/amuse.py, util/units.py `_convert_amuse`, io/load.py:240-247, 576-582). -/
import Verif.Model.Galpydf

namespace CT

noncomputable section

/-- One AMUSE particle.  Its quantities carry their units, so they are represented by their values in parsec, km/s and solar masses;
the key is an integer. -/
structure APart where
  key : ℤ
  m : ℝ
  p : Ph

instance : Inhabited APart := ⟨⟨0, 0, ⟨0, 0, 0, 0, 0, 0⟩⟩⟩

/-- The columns for positions multiplied by `l` and velocities by `v`; the keys are the ids. -/
def amuseScaled (l v : ℝ) (ps : List APart) : ATCols :=
  { x := ps.map (fun a => a.p.x * l)
    y := ps.map (fun a => a.p.y * l)
    z := ps.map (fun a => a.p.z * l)
    vx := ps.map (fun a => a.p.vx * v)
    vy := ps.map (fun a => a.p.vy * v)
    vz := ps.map (fun a => a.p.vz * v)
    m := some (ps.map (·.m))
    id := some (ps.map (fun a => (a.key : ℝ))) }

/-- `_convert_amuse` (units.py:563-613): `value_in` the units of the label.  `A` is AMUSE's number of parsec per Myr (kpc per Gyr) in
one km/s.  For every other label the local variables have no value: `UnboundLocalError`, a `NameError`. -/
def convertAmuse (A : ℝ) (u : Units) (ps : List APart) : Except Err ATCols :=
  match u with
  | .pckms => .ok (amuseScaled 1 1 ps)
  | .kpckms => .ok (amuseScaled (1 / 1000) 1 ps)
  | .kpcgyr => .ok (amuseScaled (1 / 1000) A ps)
  | .pcmyr => .ok (amuseScaled 1 A ps)
  | _ => .error .nameError

/-- `cluster.add_stars(particles.x, …, sortstars=False)` with quantities (amuse.py:66-67, cluster.py:474-490, 682-685) in a new
cluster: the numbers are pc and km/s, `to_amuse` makes quantities of them.  The label `bunits` is that of a cluster in `amuse`
units.  Simplified: `analyze` runs once before `to_amuse` as well. -/
def amuseQuantities (g : Galpy) (origin : Option Origin) (ps : List APart) : Except Err Tab := do
  let k ← convertAmuse 1 .pckms ps
  let T ← addStars k.args 0 false true (blankTab (some .pckms) origin 0)
  let b ← toAmuse g true T.base
  let b ← analyze false b
  return { T with base := b }

/-- `_get_amuse_particles` (amuse.py:26-96) up to the addition of the stars.  A cluster without unit label is in `amuse` units
(cluster.py:143-146). -/
def amuseTab (g : Galpy) (A : ℝ) (units : Option Units) (origin : Option Origin) (ps : List APart) : Except Err Tab :=
  units.elim (amuseQuantities g origin ps) (fun u =>
    if u = .amuse then amuseQuantities g origin ps else do
      let k ← convertAmuse A u ps
      addStars k.args 0 false true (blankTab units origin 0))

/-- `_get_amuse_particles` (amuse.py:26-96); the end is the same as for galpy orbits (amuse.py:72-94, `advance` has no value).
`StarCluster(tphys=0.0, …, **kwargs)` raises `TypeError` when `tphys` is among the keyword arguments. -/
def getAmuse (g : Galpy) (fc : Cluster → Except Err Cluster) (A : ℝ) (ps : List APart) (units : Option Units) (origin : Option Origin)
    (ofile : Option (List Line)) (kw : Kw) : Except Err Run := do
  if kw.tphys.isSome then throw .typeError
  let T ← amuseTab g A units origin ps
  let c ← settleGalpy g fc kw origin ofile T.base
  return { runOf kw (some (units.getD .amuse)) origin T [] c with ofile := ofile }

/-- The file system: the particle sets stored in files. -/
structure AFS where
  file : String → Option (List APart)

/-- `_get_filename` (load.py:649-709) and the file of that name: the first that exists.  The default `nzfill` is 1. -/
def amuseFile (fs : AFS) (filename : Option String) (kw : Kw) : Option (List APart) :=
  let wdir := dirSlash (kw.wdir.getD "")
  let snapdir := dirSlash (kw.snapdir.getD "")
  let num := zfill (kw.nzfill.getD 1) (kw.nsnap.getD 0)
  let base := kw.snapbase.getD ""
  let ext := kw.snapend.getD ".dat"
  filename.elim
    ((fs.file (wdir ++ (snapdir ++ (base ++ (num ++ ext))))).or (fs.file (wdir ++ (base ++ (num ++ ext)))))
    (fun f => ((fs.file f).or (fs.file (wdir ++ (snapdir ++ f)))).or (fs.file (wdir ++ f)))

/-- `load_cluster('amuse', particles=…, filename=…, …)` without `orbit` and `initialize` (load.py:240-247): a file that is found is read
even when particles are given.  A file name that does not exist fails in `read_set_from_file`; without file and particles
`None.key` raises. -/
def loadAmuse (g : Galpy) (fc : Cluster → Except Err Cluster) (A : ℝ) (fs : AFS) (particles : Option (List APart))
    (filename : Option String) (units : Option Units) (origin : Option Origin) (ofile : Option (List Line)) (kw : Kw) : Except Err Run :=
  (amuseFile fs filename kw).elim
    (if filename.isSome then .error .osError
      else particles.elim (if kw.tphys.isSome then .error .typeError else .error .attributeError)
        (fun ps => getAmuse g fc A ps units origin ofile kw))
    (fun ps => getAmuse g fc A ps units origin ofile kw)

/-- `advance_cluster` of such a cluster without `orbit` and `ofilename` (load.py:396-420, 576-582, 620-624).  Without a file the old
cluster is returned.  Not modelled: the restart from `cont/` of a cluster without stars. -/
def advanceAmuse (g : Galpy) (fc : Cluster → Except Err Cluster) (A : ℝ) (fs : AFS) (filename : Option String) (a : Kw)
    (ofile : Option (List Line)) (c : Run) : Except Err Run :=
  (amuseFile fs filename (advKw a c)).elim
    (if filename.isSome then .error .osError else .ok { c with ofile := ofile.or c.ofile })
    (fun ps => getAmuse g fc A ps c.unitsInit c.originInit (ofile.or c.ofile) (advKw a c))

/-- `k` advances with the same arguments. -/
def advanceAmuseMany (g : Galpy) (fc : Cluster → Except Err Cluster) (A : ℝ) (fs : AFS) (a : Kw) : ℕ → Run → Except Err Run
  | 0, c => .ok c
  | k + 1, c => do
    let c ← advanceAmuse g fc A fs none a none c
    advanceAmuseMany g fc A fs a k c

end

end CT
