/- Reading NBODY6++ output: the binary files conf.3_<n> (io/nbody6pp.py), and loading and advancing a cluster from them
(io/load.py).  HDF5 output is not modelled. -/
import Verif.Model.Nbody6

namespace CT

noncomputable section

/-- What `_get_nbody6pp_conf3` returns: as for NBODY6, with densities, neighbour numbers and the array `phi`. -/
structure PPSnap where
  base : Snap
  rhos : List ℝ
  xns : List ℝ
  phi : List ℤ

/-- `return 0,np.zeros(20),0,0,0,0,0,0,0,0,0,0,0` (nbody6pp.py:241, 311). -/
def emptyPP : PPSnap := ⟨emptySnap, [], [], []⟩

/-- The data block (nbody6pp.py:257-305): the array `phi` is read with the format `'i'`.  Different sizes at its ends make the
reader return `-1`, which the caller cannot unpack (`TypeError`). -/
def readDataPP (n nk : ℤ) (f : Bytes) : Except Err PPSnap := do
  let s ← readInt f
  let a ← readFloats nk.toNat s.2
  let m ← readFloats n.toNat a.2
  let rhos ← readFloats n.toNat m.2
  let xns ← readFloats n.toNat rhos.2
  let p ← readTriples n.toNat xns.2
  let v ← readTriples n.toNat p.2
  let phi ← readInts n.toNat v.2
  let i ← readInts n.toNat phi.2
  let e ← readInt i.2
  if s.1 ≠ e.1 then throw .typeError
  return ⟨⟨n, a.1, p.1, v.1, m.1, i.1⟩, rhos.1, xns.1, phi.1⟩

/-- The rest of `_get_nbody6pp_conf3` after the first word (nbody6pp.py:243-311). -/
def conf3Rest (h : ℤ) (f : Bytes) : Except Err PPSnap := do
  let n ← readInt f
  let model ← readInt n.2
  let nrun ← readInt model.2
  let nk ← readInt nrun.2
  let e ← readInt nk.2
  if h ≠ e.1 then throw .typeError
  if 0 < n.1 then readDataPP n.1 nk.1 e.2 else return emptyPP

/-- `_get_nbody6pp_conf3` (nbody6pp.py:233-311); `none` when there is no file: `f.read` then raises inside `try`. -/
def readConf3 (f : Option Bytes) : Except Err PPSnap :=
  f.elim (.ok emptyPP) (fun f =>
    match readInt f with
    | .error _ => .ok emptyPP
    | .ok h => conf3Rest h.1 h.2)

/-- `a[binargs]=l[binargs1]+l[binargs2]; a[nb:]=l[2*nb:]` (nbody6pp.py:174-185). -/
def joinPairs (nb : ℕ) (l : List ℝ) : List ℝ :=
  (List.range nb).map (fun (k : ℕ) => l[2 * k]! + l[2 * k + 1]!) ++ l.drop (2 * nb)

/-- `ek=0.5*cluster.m*v**2.` with `v=np.sqrt(cluster.vx**2.+cluster.vy**2.+cluster.vz**2.)` (nbody6pp.py:187-188). -/
def kinCol (t : Tab) : List ℝ :=
  (List.range t.x.length).map (fun (i : ℕ) => 0.5 * t.m[i]! * Real.sqrt (t.vx[i]! ^ 2 + t.vy[i]! ^ 2 + t.vz[i]! ^ 2) ^ 2)

/-- A cluster loaded from NBODY6++ output. -/
structure PPRun where
  tab : Tab
  rhos : List ℝ
  kin : List ℝ
  pot : List ℝ
  /-- `np.sum(kin)`, `np.sum(pot)/2` (cluster.py:1313-1314) -/
  ektot : ℝ
  ptot : ℝ
  nsnap : ℕ
  wdir : String
  snapdir : String
  ofile : Option (List Line)

/-- The block `if ntot > 0` (nbody6pp.py:167-189): scales, stars, densities and energies.  A negative number of binaries counts
as none. -/
def addPP (s : PPSnap) (t : Tab) : Except Err (Tab × List ℝ × List ℝ × List ℝ) :=
  if 0 < s.base.n then do
    let t ← addHeader s.base t
    let b ← alistAt s.base 1
    let nb := (truncZ b).toNat
    let t ← addStars (snapStars s.base) nb true false t
    return (t, joinPairs nb s.rhos, kinCol t, joinPairs nb (s.phi.map (fun (z : ℤ) => (z : ℝ))))
  else .ok (t, [], [], [])

/-- `_get_nbody6pp` without HDF5 and without stellar evolution files (nbody6pp.py:18-66, 152-231). -/
def getNbody6pp (g : Galpy) (conf3 : Option Bytes) (ofile : Option (List Line)) (advance : Bool) (kw : Kw) (nsnap dtout : ℕ) :
    Except Err PPRun := do
  let s ← readConf3 conf3
  let t0 ← alistAt s.base 0
  let r ← addPP s (blankTab (some .nbody) (some .cluster) t0)
  let t ← nbAnalyze kw r.1
  let o ← readOrbitIf g { kw with nsnap := some (nsnap / dtout) } advance ofile t.base
  return { tab := { t with base := o.1 }, rhos := r.2.1, kin := r.2.2.1, pot := r.2.2.2
           ektot := r.2.2.1.sum, ptot := r.2.2.2.sum / 2
           nsnap := nsnap, wdir := dirSlash (kw.wdir.getD ""), snapdir := "", ofile := o.2 }

/-- `"%s%sconf.3_%s" % (wdir,snapdir,str(nsnap))` (load.py:211, 471). -/
def conf3Name (wdir snapdir : String) (nsnap : ℕ) : String :=
  dirSlash wdir ++ dirSlash snapdir ++ "conf.3_" ++ Nat.repr nsnap

/-- `load_cluster('nbody6pp', …)` with an integer `dtout` (load.py:186-228), given the binary files that exist. -/
def loadNbody6pp (g : Galpy) (fs : String → Option Bytes) (ofile : Option (List Line)) (kw : Kw) (dtout : ℕ) : Except Err PPRun :=
  let n := kw.nsnap.getD 0
  getNbody6pp g (fs (conf3Name (kw.wdir.getD "") (kw.snapdir.getD "") n)) ofile false kw n dtout

/-- `advance_cluster` of a cluster with `ctype='nbody6++'` (load.py:466-488, 712-777), when there is no directory `cont/`; a
cluster without stars is given no orbit file. -/
def advanceNbody6pp (g : Galpy) (fs : String → Option Bytes) (a : Kw) (dtout : ℕ) (c : PPRun) : Except Err PPRun := do
  let n := max (a.nsnap.getD 0) c.nsnap + 1 + dtout - 1
  let wdir := a.wdir.getD c.wdir
  let snapdir := a.snapdir.getD c.snapdir
  let kw : Kw := { nbAdvKw a with wdir := some wdir, snapdir := some snapdir }
  let r ← getNbody6pp g (fs (conf3Name wdir snapdir n)) c.ofile true kw n dtout
  return if r.tab.ntot = 0 then { r with ofile := none } else r

/-- `k` advances. -/
def advanceNbody6ppMany (g : Galpy) (fs : String → Option Bytes) (a : Kw) (dtout : ℕ) : ℕ → PPRun → Except Err PPRun
  | 0, c => .ok c
  | k + 1, c => do
    let c ← advanceNbody6pp g fs a dtout c
    advanceNbody6ppMany g fs a dtout k c

end

end CT
