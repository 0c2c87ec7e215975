/- Sampling a limepy model (io/limepydf.py:147-234). -/
import Verif.Model.Limepy
import Verif.Model.AstropyTable

namespace CT

noncomputable section

/-- Which radius scales a model: the keyword given to `limepy`. -/
inductive LRadius
  | rt | rv | rh | r0
  deriving DecidableEq

/-- The call `limepy(phi0, g, [G=…,] M=…, rt|rv|rh|r0=…, project=…)`. -/
structure LimeCall where
  phi0 : ℝ
  g : ℝ
  /-- the gravitational constant, if it is given; the library's own is that of pc, km/s and solar masses -/
  G : Option ℝ
  M : ℝ
  kind : LRadius
  radius : ℝ
  project : Bool

/-- Keywords of `_sample_limepy` (limepydf.py:147, 184-220), in this order: `g`, `W0`, `phi0`, `projected`, `M`, the radii, `mbar`,
`N`.  `ro` and `project`, which the documentation names, are there because users can give them. -/
structure LimeKw where
  g : Option ℝ := none
  W0 : Option ℝ := none
  phi0 : Option ℝ := none
  projected : Option Bool := none
  M : Option ℝ := none
  rt : Option ℝ := none
  rv : Option ℝ := none
  rh : Option ℝ := none
  rm : Option ℝ := none
  r0 : Option ℝ := none
  rc : Option ℝ := none
  mbar : Option ℝ := none
  N : Option ℝ := none
  ro : Option ℝ := none
  project : Option Bool := none

/-- The library: `limepy(…)`, the mass `_MS` of a model and `sample(model, N=…)`, whose columns are `x y z vx vy vz m`.  Models are of
an arbitrary type. -/
structure LimeLib (μ : Type) where
  make : LimeCall → Except Err μ
  mass : μ → ℝ
  sample : μ → ℤ → Except Err ATCols

/-- The radius used when a mass is given (limepydf.py:195-215). -/
def limeRadius (k : LimeKw) : LRadius × ℝ :=
  k.rt.elim (k.rv.elim (k.rh.elim (k.rm.elim (k.r0.elim (k.rc.elim (.rv, 1) (fun r => (.r0, r))) (fun r => (.r0, r))) (fun r => (.rh, r)))
    (fun r => (.rh, r))) (fun r => (.rv, r))) (fun r => (.rt, r))

/-- The call of `limepy` (limepydf.py:187-218) for a central potential. -/
def limeCall (k : LimeKw) (phi : ℝ) : LimeCall :=
  k.M.elim
    { phi0 := phi, g := k.g.getD 1, G := some 1, M := 1, kind := .rv, radius := 1, project := k.projected.getD false }
    (fun M => { phi0 := phi, g := k.g.getD 1, G := none, M := M, kind := (limeRadius k).1, radius := (limeRadius k).2
                project := k.projected.getD false })

/-- The model that is sampled, and its mass (limepydf.py:179-218).  `float(None)` raises `TypeError`. -/
def limeModel {μ : Type} (lib : LimeLib μ) (model : Option μ) (k : LimeKw) : Except Err (μ × ℝ) :=
  model.elim
    ((k.W0.orElse (fun _ => k.phi0)).elim (.error .typeError) (fun phi => do
      let m ← lib.make (limeCall k phi)
      return (m, k.M.getD 1)))
    (fun m => .ok (m, lib.mass m))

/-- `int(kwargs.get("N", M/mbar))` (limepydf.py:220-221).  `mbar = 0` is not modelled. -/
def limeN (k : LimeKw) (M : ℝ) : ℤ := truncZ (k.N.getD (M / k.mbar.getD 1))

/-- `np.linspace(1, N, N, dtype=int)` (limepydf.py:234). -/
def limeIds (N : ℤ) : List ℝ := (List.range N.toNat).map (fun i : ℕ => (i : ℝ) + 1)

/-- `_sample_limepy(g=…, model=…, **kwargs)` (limepydf.py:147-238): the cluster and the ids of its stars. -/
def sampleLimepy {μ : Type} (fc : Cluster → Except Err Cluster) (lib : LimeLib μ) (model : Option μ) (k : LimeKw) :
    Except Err Run := do
  let m ← limeModel lib model k
  let cols ← lib.sample m.1 (limeN k m.2)
  let t ← addStars { cols with id := some (limeIds (limeN k m.2)) }.args 0 false true (blankTab none (some .cluster) 0)
  let b ← fc t.base
  return runOf {} none (some .cluster) t [] b

/-- `load_cluster('limepy', units=…, origin=…, …)` without `gcname` (limepydf.py:85-144). -/
def loadLimepy {μ : Type} (g : Galpy) (fc : Cluster → Except Err Cluster) (lib : LimeLib μ) (model : Option μ) (k : LimeKw) (u : Units)
    (o : Origin) (orbit : Option (ℝ → Ph)) (T0 : ℝ) (ofile : Option (List Line)) : Except Err Run := do
  let r ← sampleLimepy fc lib model k
  let b ← limepyModel g u o orbit T0 ofile r.base
  return { r with base := b }

end

end CT
