/-
Specification vocabulary for unit systems and reference frames.  It is written from the meaning of the unit
labels (pc, km/s, Msun, Myr) and of the origin labels, not from the conversion code.
-/
import Verif.Model.Ops

namespace CT

noncomputable section

/-- A unit system: the size of its units of length (in pc), velocity (in km/s), mass (in Msun), time (Myr). -/
@[ext] structure Scale where
  len : ℝ
  vel : ℝ
  mass : ℝ
  time : ℝ

/-- The meaning of each unit label for a cluster with given N-body scales and galpy scales.
`radec` and unknown labels have none. One pc/Myr is `1/1.0227… km/s`. -/
def unitScale (g : Galpy) (c : Cluster) : Units → Option Scale
  | .nbody => some ⟨c.rbar, c.vbar, c.zmbar, c.tbar⟩
  | .pckms => some ⟨1, 1, 1, 1⟩
  | .amuse => some ⟨1, 1, 1, 1⟩
  | .pcmyr => some ⟨1, 1 / kmsToPcMyr, 1, 1⟩
  | .kpckms => some ⟨1000, 1, 1, 1000⟩
  | .kpcgyr => some ⟨1000, 1 / kmsToPcMyr, 1, 1000⟩
  | .galpy => some ⟨1000 * g.ro, g.vo, g.massMsol, 1000 * g.timeGyr⟩
  | .WDunits => some ⟨1000, g.vo / g.velKpcGyr, mconWD, 1000⟩
  | .radec => none
  | .other => none

/-- Physical value (pc, km/s) of a phase-space row expressed in scale `s`. -/
def Scale.ph (s : Scale) (p : Ph) : Ph :=
  ⟨p.x * s.len, p.y * s.len, p.z * s.len, p.vx * s.vel, p.vy * s.vel, p.vz * s.vel⟩

/-- A cluster expressed in physical units: Myr, Msun, pc, km/s. -/
structure Phys where
  time : ℝ
  mass : List ℝ
  stars : List Ph
  centre : Ph
  gc : Ph

/-- The physical content of a labelled cluster; `none` when the label has no linear meaning. -/
def phys (g : Galpy) (c : Cluster) : Option Phys :=
  match c.units with
  | none => none
  | some u =>
    match unitScale g c u with
    | none => none
    | some s => some
      { time := c.tphys * s.time, mass := c.m.map (· * s.mass),
        stars := c.st.map s.ph, centre := s.ph c.c, gc := s.ph c.gc }

/-- Vector sum of phase-space rows. -/
def phAdd (p q : Ph) : Ph :=
  ⟨p.x + q.x, p.y + q.y, p.z + q.z, p.vx + q.vx, p.vy + q.vy, p.vz + q.vz⟩

/-- Galactocentric phase-space row meant by a row given with respect to an origin, where the cluster sits at
`gc` in the galaxy and its centre at `c` in the cluster frame. -/
def galactocentric (o : Origin) (c gc p : Ph) : Option Ph :=
  match o with
  | .galaxy => some p
  | .cluster => some (phAdd p gc)
  | .centre => some (phAdd (phAdd p c) gc)
  | .sky => none
  | .other => none

/-- The galactocentric rows of all stars meant by a cluster with a given origin label. -/
def galRows (o : Origin) (c gc : Ph) (st : List Ph) : List (Option Ph) :=
  st.map (galactocentric o c gc)

/-- What a labelled cluster says about the world: physical time and masses, galactocentric physical phase
space of every star, physical centre and physical cluster position. -/
structure World where
  time : ℝ
  mass : List ℝ
  stars : List (Option Ph)
  centre : Ph
  gc : Ph

/-- The world described by a labelled cluster (`none` if a label has no linear meaning). -/
def world (g : Galpy) (c : Cluster) : Option World :=
  match phys g c, c.origin with
  | some P, some o => some
      { time := P.time, mass := P.mass, stars := galRows o P.centre P.gc P.stars,
        centre := P.centre, gc := P.gc }
  | _, _ => none

/-- All scale factors are non-zero (they are multiplied and divided by). -/
structure NZ (g : Galpy) (c : Cluster) : Prop where
  rbar : c.rbar ≠ 0
  vbar : c.vbar ≠ 0
  zmbar : c.zmbar ≠ 0
  tbar : c.tbar ≠ 0
  ro : g.ro ≠ 0
  vo : g.vo ≠ 0
  time : g.timeGyr ≠ 0
  mass : g.massMsol ≠ 0
  vel : g.velKpcGyr ≠ 0

/-- Unit labels with a linear meaning. -/
def Units.linear : Units → Prop
  | .radec => False
  | .other => False
  | _ => True

/-- Origin labels that are plain translations of each other. -/
def Origin.linear : Origin → Prop
  | .centre => True
  | .cluster => True
  | .galaxy => True
  | _ => False

/-- All scale factors are positive, as for any physical cluster. -/
structure Pos (g : Galpy) (c : Cluster) : Prop where
  rbar : 0 < c.rbar
  vbar : 0 < c.vbar
  zmbar : 0 < c.zmbar
  tbar : 0 < c.tbar
  ro : 0 < g.ro
  vo : 0 < g.vo
  time : 0 < g.timeGyr
  mass : 0 < g.massMsol
  vel : 0 < g.velKpcGyr

/-- The data a user sees, apart from cached derived quantities. -/
@[ext] structure Data where
  units : Option Units
  origin : Option Origin
  tphys : ℝ
  m : List ℝ
  st : List Ph
  c : Ph
  gc : Ph

def Cluster.data (c : Cluster) : Data :=
  { units := c.units, origin := c.origin, tphys := c.tphys, m := c.m, st := c.st, c := c.c, gc := c.gc }

end

end CT
