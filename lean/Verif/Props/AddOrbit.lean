/- C56: add_orbit converts the given position to the units of the cluster. -/
import Verif.Lemmas.IO
import Verif.Spec.Demo

namespace CT

noncomputable section

set_option linter.unusedSimpArgs false

/-- Units in which a position can be given to `add_orbit` (its documentation, without `radec`). -/
def Units.orbitSource : Units → Prop
  | .pckms => True
  | .pcmyr => True
  | .kpckms => True
  | .kpcgyr => True
  | .nbody => True
  | .galpy => True
  | _ => False

/-- Units of clusters to which `add_orbit` converts. -/
def Units.orbitTarget : Units → Prop
  | .pckms => True
  | .kpckms => True
  | .nbody => True
  | .galpy => True
  | _ => False

/-- **C56.**  `add_orbit` with a position given in any of the documented linear units stores in a cluster in `pckms`,
`kpckms`, `nbody` or `galpy` units a position which is physically the same (pc, km/s); the stars, their masses, the
centre and the labels are not changed, and the time only if one is given. -/
theorem C56_position {g : Galpy} {c : Cluster} {p : Ph} {u v : Units} {t : Option ℝ} {s s' : Scale} (hz : NZ g c)
    (hu : u.orbitSource) (hv : v.orbitTarget) (hc : c.units = some v)
    (hs : unitScale g c u = some s) (hs' : unitScale g c v = some s') :
    s'.ph (addOrbit g p (some u) t c).gc = s.ph p ∧
      (addOrbit g p (some u) t c).st = c.st ∧ (addOrbit g p (some u) t c).m = c.m ∧
      (addOrbit g p (some u) t c).c = c.c ∧ (addOrbit g p (some u) t c).units = c.units ∧
      (addOrbit g p (some u) t c).origin = c.origin ∧ (addOrbit g p (some u) t c).rest = c.rest ∧
      (t = none → (addOrbit g p (some u) t c).tphys = c.tphys) := by
  obtain ⟨h1, h2, h3, h4, h5, h6, h7, h8, h9⟩ := hz
  have hk : kmsToPcMyr ≠ 0 := by norm_num [kmsToPcMyr]
  have hne : c.units ≠ some .radec := by
    rw [hc]; rintro h; cases h; exact hv
  refine ⟨?_, ?_, ?_, ?_, ?_, ?_, ?_, ?_⟩
  · unfold addOrbit
    cases u <;> cases v <;> first
      | exact hu.elim
      | exact hv.elim
      | (simp [unitScale] at hs hs'
         subst hs hs'
         simp [hc, orbitFromKpckms, orbitToKpckms, Ph.mulPos, Ph.mulVel, Ph.divPos, Ph.divVel, Scale.ph]
         try (refine ⟨?_, ?_, ?_, ?_, ?_, ?_⟩ <;> field_simp)
         try (refine ⟨?_, ?_, ?_⟩ <;> field_simp))
  · simp only [addOrbit, if_neg hne]
  · simp only [addOrbit, if_neg hne]
  · simp only [addOrbit, if_neg hne]
  · simp only [addOrbit, if_neg hne]
  · simp only [addOrbit, if_neg hne]
  · simp only [addOrbit, if_neg hne, Cluster.rest, Cluster.core]
  · rintro rfl
    simp only [addOrbit, if_neg hne, Option.isSome_none, Bool.false_eq_true, if_false]

/-- **C56 (time).**  A time given in any of these units except N-body units is stored as physically the same time (Myr). -/
theorem C56_time {g : Galpy} {c : Cluster} {p : Ph} {u v : Units} {t : ℝ} {s s' : Scale} (hz : NZ g c)
    (hu : u.orbitSource) (hn : u ≠ .nbody) (hv : v.orbitTarget) (hc : c.units = some v)
    (hs : unitScale g c u = some s) (hs' : unitScale g c v = some s') :
    (addOrbit g p (some u) (some t) c).tphys * s'.time = t * s.time := by
  obtain ⟨h1, h2, h3, h4, h5, h6, h7, h8, h9⟩ := hz
  have hne : c.units ≠ some .radec := by
    rw [hc]; rintro h; cases h; exact hv
  unfold addOrbit
  cases u <;> cases v <;> first
    | exact hu.elim
    | exact hv.elim
    | exact (hn rfl).elim
    | (simp [unitScale] at hs hs'
       subst hs hs'
       simp [hc, orbitFromKpckms, orbitToKpckms]
       try field_simp)

/-- **C56 (same units, or none given).**  Without `ounits`, or when they are the cluster's units, the values are stored as
they are. -/
theorem C56_same {g : Galpy} {c : Cluster} {p : Ph} {u : Option Units} {t : Option ℝ} (h : u = none ∨ u = c.units) :
    (addOrbit g p u t c).gc = p ∧ (addOrbit g p u t c).tphys = t.getD c.tphys := by
  have e : (u.elim (⟨p, t.getD 0⟩ : OrbitPos) (fun u => if some u ≠ c.units then
      orbitFromKpckms g c (if u ≠ .kpckms then orbitToKpckms g c u ⟨p, t.getD 0⟩ else ⟨p, t.getD 0⟩) else ⟨p, t.getD 0⟩)) =
      ⟨p, t.getD 0⟩ := by
    rcases h with rfl | rfl
    · rfl
    · cases hc : c.units with
      | none => rfl
      | some v => simp
  unfold addOrbit
  simp only [e]
  constructor
  · split
    · split <;> rfl
    · rfl
  · have : (if t.isSome = true then t.getD 0 else c.tphys) = t.getD c.tphys := by cases t <;> rfl
    split
    · split <;> exact this
    · exact this

open Classical in
/-- The value of a sky coordinate `f` of a star after filling missing data: the cluster's value `v` if the coordinate is zero
for all stars, otherwise what it was. -/
def filled (sky : List Ph) (f : Ph → ℝ) (v : ℝ) (q : Ph) : ℝ := if ∀ q' ∈ sky, f q' = 0 then v else f q

/-- **C56 (sky coordinates).**  For a cluster in `radec` units with origin `sky`, each sky coordinate that is zero for all
stars (missing data) becomes the cluster's value; the other coordinates of the stars are left. -/
theorem C56_sky {g : Galpy} {c : Cluster} {p : Ph} {t : Option ℝ} (hc : c.units = some .radec) (ho : c.origin = some .sky) :
    (addOrbit g p none t c).skyGc = p ∧
      (addOrbit g p none t c).sky = c.sky.map (fun q => ⟨filled c.sky Ph.x p.x q, filled c.sky Ph.y p.y q, filled c.sky Ph.z p.z q,
        filled c.sky Ph.vx p.vx q, filled c.sky Ph.vy p.vy q, filled c.sky Ph.vz p.vz q⟩) := by
  have es : (addOrbit g p none t c).sky = fillSky c.sky p := by simp [addOrbit, hc, ho]
  have e1 : (addOrbit g p none t c).skyGc = p := by simp [addOrbit, hc, ho]
  have hf : ∀ (f : Ph → ℝ) (v : ℝ), fillCol (c.sky.map f) v = c.sky.map (filled c.sky f v) := by
    intro f v
    unfold fillCol filled
    by_cases h : ∀ q' ∈ c.sky, f q' = 0
    · rw [if_pos (by simpa using h), List.map_map]
      refine List.map_congr_left fun q hq => ?_
      rw [if_pos h]
      simp [h q hq]
    · rw [if_neg (by simpa using h)]
      refine List.map_congr_left fun q hq => ?_
      rw [if_neg h]
  refine ⟨e1, ?_⟩
  rw [es, fillSky]
  simp only [hf, rowsOf_map]

/-- Distances are missing, positions are not: only the distances are filled. -/
example {c : Cluster} (hc : c.units = some .radec) (ho : c.origin = some .sky) (hs : c.sky = [⟨1, 2, 0, 3, 4, 0⟩, ⟨0, 2, 0, 3, 4, 0⟩]) :
    (addOrbit demoG ⟨9, 9, 9, 9, 9, 9⟩ none none c).sky = [⟨1, 2, 9, 3, 4, 9⟩, ⟨0, 2, 9, 3, 4, 9⟩] := by
  rw [(C56_sky hc ho).2, hs]
  simp [filled]

/-- **C56 (violated: N-body times).**  A time in N-body units is stored a thousand times too large: `tbar` is in Myr, the
intermediate time in Gyr. -/
theorem C56_nbody_time_violated {g : Galpy} {c : Cluster} {p : Ph} {t : ℝ} (hc : c.units = some .pckms) :
    (addOrbit g p (some .nbody) (some t) c).tphys = 1000 * (t * c.tbar) := by
  simp [addOrbit, hc, orbitFromKpckms, orbitToKpckms]
  ring

/-- **C56 (violated: other targets).**  In a cluster in `pcmyr` units (likewise `kpcgyr`, `WDunits`, `amuse`) a position
given in another unit is stored in kpc and km/s, under the label of the cluster. -/
theorem C56_target_violated {g : Galpy} {c : Cluster} {p : Ph} (hc : c.units = some .pcmyr) :
    (addOrbit g p (some .pckms) none c).gc = ⟨p.x / 1000, p.y / 1000, p.z / 1000, p.vx, p.vy, p.vz⟩ ∧
      (addOrbit g p (some .pckms) none c).units = some .pcmyr := by
  simp [addOrbit, hc, orbitFromKpckms, orbitToKpckms, Ph.divPos]

/-- **C56 (violated: kpcgyr).** -/
theorem C56_target_kpcgyr_violated {g : Galpy} {c : Cluster} {p : Ph} (hc : c.units = some .kpcgyr) :
    (addOrbit g p (some .kpckms) none c).gc = p ∧ (addOrbit g p (some .kpckms) none c).units = some .kpcgyr := by
  simp [addOrbit, hc, orbitFromKpckms]

/-- The hypotheses are met: 8 kpc given in kpckms to a cluster in pckms. -/
example : (addOrbit demoG ⟨8, 0, 0, 0, 220, 0⟩ (some .kpckms) (some 2) { demo with units := some .pckms }).gc = ⟨8000, 0, 0, 0, 220, 0⟩ := by
  have := (C56_position (g := demoG) (c := { demo with units := some .pckms }) (p := ⟨8, 0, 0, 0, 220, 0⟩) (u := .kpckms) (v := .pckms)
    (t := some 2) (s := ⟨1000, 1, 1, 1000⟩) (s' := ⟨1, 1, 1, 1⟩)
    (by constructor <;> norm_num [demo, demoG]) trivial trivial rfl rfl rfl).1
  simp only [Scale.ph, mul_one, zero_mul] at this
  generalize (addOrbit demoG ⟨8, 0, 0, 0, 220, 0⟩ (some .kpckms) (some 2) { demo with units := some .pckms }).gc = q at this ⊢
  obtain ⟨a, b, c, d, e, f⟩ := q
  simp only [Ph.mk.injEq] at this ⊢
  norm_num at this ⊢
  exact this

end

end CT
