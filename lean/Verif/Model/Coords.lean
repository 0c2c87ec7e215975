/- Spherical and cylindrical coordinates (util/coordinates.py). -/
import Verif.Model.Ops
import Mathlib.Analysis.SpecialFunctions.Complex.Arg
import Mathlib.Analysis.SpecialFunctions.Trigonometric.Inverse

namespace CT

noncomputable section

/-- `np.arctan2(y, x)`, with values in (-π, π] (signed zeros are not modelled). -/
def arctan2 (y x : ℝ) : ℝ := Complex.arg ⟨x, y⟩

/-- `(r, phi, theta, vr, vphi, vtheta)`. -/
@[ext] structure Sph where
  r : ℝ
  phi : ℝ
  theta : ℝ
  vr : ℝ
  vphi : ℝ
  vtheta : ℝ

/-- `cart_to_sphere` (coordinates.py:67-105).  At `r == 0` numpy computes `arccos(nan)`; the statements exclude it. -/
def cartToSphere (p : Ph) : Sph :=
  let r := Real.sqrt (p.x ^ 2 + p.y ^ 2 + p.z ^ 2)
  let phi := arctan2 p.y p.x
  let theta := Real.arccos (p.z / r)
  let rhatx := Real.cos phi * Real.sin theta
  let rhaty := Real.sin phi * Real.sin theta
  let rhatz := Real.cos theta
  let phatx := -1 * Real.sin phi
  let phaty := Real.cos phi
  let phatz := 0
  let thatx := Real.cos phi * Real.cos theta
  let thaty := Real.sin phi * Real.cos theta
  let thatz := -1 * Real.sin theta
  { r := r, phi := phi, theta := theta
    vr := p.vx * rhatx + p.vy * rhaty + p.vz * rhatz
    vphi := p.vx * phatx + p.vy * phaty + p.vz * phatz
    vtheta := p.vx * thatx + p.vy * thaty + p.vz * thatz }

/-- `sphere_to_cart` (coordinates.py:107-145). -/
def sphereToCart (s : Sph) : Ph :=
  let xhatr := Real.cos s.phi * Real.sin s.theta
  let xhatp := -1 * Real.sin s.phi
  let xhatt := Real.cos s.phi * Real.cos s.theta
  let yhatr := Real.sin s.phi * Real.sin s.theta
  let yhatp := Real.cos s.phi
  let yhatt := Real.sin s.phi * Real.cos s.theta
  let zhatr := Real.cos s.theta
  let zhatt := -1 * Real.sin s.theta
  let zhatp := 0
  { x := s.r * Real.cos s.phi * Real.sin s.theta
    y := s.r * Real.sin s.phi * Real.sin s.theta
    z := s.r * Real.cos s.theta
    vx := s.vr * xhatr + s.vtheta * xhatt + s.vphi * xhatp
    vy := s.vr * yhatr + s.vtheta * yhatt + s.vphi * yhatp
    vz := s.vr * zhatr + s.vtheta * zhatt + s.vphi * zhatp }

/-- `(R, phi, z, vR, vT, vz)`. -/
@[ext] structure Cyl where
  R : ℝ
  phi : ℝ
  z : ℝ
  vR : ℝ
  vT : ℝ
  vz : ℝ

/-- `cart_to_cyl` (coordinates.py:180-201): galpy's `rect_to_cyl` and `rect_to_cyl_vec` (not in /repo; taken as
`R = sqrt(X²+Y²)`, `phi = arctan2(Y,X)`, `vR = vx cos phi + vy sin phi`, `vT = -vx sin phi + vy cos phi`). -/
def cartToCyl (p : Ph) : Cyl :=
  let phi := arctan2 p.y p.x
  { R := Real.sqrt (p.x ^ 2 + p.y ^ 2), phi := phi, z := p.z
    vR := p.vx * Real.cos phi + p.vy * Real.sin phi
    vT := -p.vx * Real.sin phi + p.vy * Real.cos phi
    vz := p.vz }

/-- `cyl_to_cart` (coordinates.py:203-225): galpy's `cyl_to_rect` and `cyl_to_rect_vec`. -/
def cylToCart (s : Cyl) : Ph :=
  { x := s.R * Real.cos s.phi, y := s.R * Real.sin s.phi, z := s.z
    vx := s.vR * Real.cos s.phi - s.vT * Real.sin s.phi
    vy := s.vR * Real.sin s.phi + s.vT * Real.cos s.phi
    vz := s.vz }

/-- The body shared by `sphere_coords` and `cyl_coords` (coordinates.py:32-64, 147-178): for `origin == 'sky'` the
names `ro`, `vo` are not defined. -/
def coordsOf {α : Type} (f : Ph → α) (g : Galpy) (c : Cluster) : Except Err (List α × Cluster) := do
  if c.origin = some .sky then throw .nameError
  let c1 ← if c.units = some .amuse then toPckms g true c else .ok c
  let c2 ← returnCluster g (saveCluster c) false none c1
  return (c1.st.map f, c2)

/-- `sphere_coords`. -/
def sphereCoords (g : Galpy) (c : Cluster) : Except Err (List Sph × Cluster) := coordsOf cartToSphere g c
/-- `cyl_coords`. -/
def cylCoords (g : Galpy) (c : Cluster) : Except Err (List Cyl × Cluster) := coordsOf cartToCyl g c

end

end CT
