/- A concrete two-star cluster used to show that hypotheses are satisfiable. -/
import Verif.Spec.Valid
import Mathlib.Tactic.NormNum

namespace CT

noncomputable section

/-- Some galpy parameters (numbers of the right order; sky map = identity for definiteness). -/
def demoG : Galpy :=
  { toSky := id, ofSky := id, toSky0 := id, ro := 8, vo := 220, timeGyr := 0.0355, massMsol := 9.0e10,
    velKpcGyr := 225 }

/-- Two stars of unequal mass, off-centre, with a non-zero centre, a non-zero orbit position and non-unit
N-body scales. -/
def demo : Cluster :=
  { units := some .pckms, origin := some .cluster, tphys := 12,
    m := [1, 3],
    st := [⟨3, 0, 4, 1, 0, 0⟩, ⟨0, 1, 0, 0, -2, 5⟩],
    c := ⟨1, 2, 3, 0.5, 0, 0⟩, gc := ⟨8000, 0, 20, 0, 220, 0⟩,
    zmbar := 4, rbar := 2, vbar := 0.1, tbar := 20,
    bunits := some .audays, nb := 1, bin := ⟨[10], [20], [1], [2]⟩,
    rbarSu := 4.4e7, rbarAu := 2.06e5, tbarDays := 3.65e8,
    sky := [], skyGc := ⟨0,0,0,0,0,0⟩, skyC := ⟨0,0,0,0,0,0⟩, orbit := none, orbits := none, xcn := none,
    centreMethod := none, projected := false, rorder := some [1, 0], rorderOrigin := some .cluster,
    rproorder := some [1, 0],
    d := { units := none, origin := none, r := [], rpro := [], v := [], vpro := [], mtot := 0, mmean := 0,
           rmean := 0, rmeanpro := 0, rmax := 0, rmaxpro := 0, rm := none, r10 := none, rmpro := none,
           r10pro := none } }

theorem demo_pos : Pos demoG demo := by
  constructor <;> norm_num [demoG, demo]

theorem demo_lin : Lin demo := ⟨⟨_, rfl, trivial⟩, ⟨_, rfl, trivial⟩⟩

theorem demo_good : Good demo where
  ne := by simp [demo]
  len := by simp [demo]
  mass := by norm_num [demo]
  ro := by
    intro o h; simp only [demo, Option.some.injEq] at h; subst h
    simp only [IsOrder, demo]; decide
  rpo := by
    intro o h; simp only [demo, Option.some.injEq] at h; subst h
    simp only [IsOrder, demo]; decide

end

end CT
