/- C38: the unit helpers for single quantities. -/
import Verif.Model.Convert
import Verif.Props.Units

namespace CT

noncomputable section

set_option linter.unusedSimpArgs false

/-- The helpers and the unit systems use the same two constants. -/
theorem consts : kmsToPcMyr = 1.022712165045695 ∧ mconWD = 222288.4543021174 := ⟨rfl, rfl⟩

/-- **C38 (length).**  For all pairs of linear unit systems the converted length means the same number of parsecs. -/
theorem C38_length {g : Galpy} {c : Cluster} (nz : NZ g c) {u t : Units} {su st : Scale} (hu : unitScale g c u = some su)
    (ht : unitScale g c t = some st) (x : ℝ) : convertLength g c u t x * st.len = x * su.len := by
  have h1 := nz.rbar
  have h2 := nz.ro
  cases u <;> cases t <;> simp only [unitScale, Option.some.injEq, reduceCtorEq] at hu ht <;> subst hu <;> subst ht <;>
    simp [convertLength, Units.isPc, Units.isKpc] <;> field_simp

/-- **C38 (time).**  The same for times, sky units (Gyr) included. -/
theorem C38_time {g : Galpy} {c : Cluster} (nz : NZ g c) {u t : Units} {su st : ℝ}
    (hu : (unitScale g c u).map Scale.time = some su ∨ (u = .radec ∧ su = 1000))
    (ht : (unitScale g c t).map Scale.time = some st ∨ (t = .radec ∧ st = 1000)) (x : ℝ) :
    convertTime g c u t x * st = x * su := by
  have h1 := nz.tbar
  have h2 := nz.time
  cases u <;> cases t <;> simp only [unitScale, Option.map_some, Option.map_none, Option.some.injEq, reduceCtorEq,
    false_or, or_false, false_and, true_and] at hu ht <;> subst hu <;> subst ht <;>
    simp [convertTime, Units.isPc, Units.isKpc] <;> field_simp

/-- **C38 (mass).**  The same for masses between all unit systems except galpy's. -/
theorem C38_mass {g : Galpy} {c : Cluster} (nz : NZ g c) {u t : Units} {su st : Scale} (hu : unitScale g c u = some su)
    (ht : unitScale g c t = some st) (hgu : u ≠ .galpy) (hgt : t ≠ .galpy) (x : ℝ) :
    ∃ y, convertMass c u t x = .ok y ∧ y * st.mass = x * su.mass := by
  have h1 := nz.zmbar
  have h2 := consts.2
  cases u <;> cases t <;> simp only [unitScale, Option.some.injEq, reduceCtorEq, ne_eq, not_true] at hu ht hgu hgt <;>
    subst hu <;> subst ht <;> refine ⟨_, by simp [convertMass]; rfl, ?_⟩ <;>
    (try rw [h2]) <;> field_simp

/-- **C38 is violated for galpy masses:** every conversion from or to them raises. -/
theorem C38_mass_galpy_violated (c : Cluster) {u : Units} (hu : u ≠ .galpy) (x : ℝ) :
    convertMass c .galpy u x = .error .attributeError ∧ convertMass c u .galpy x = .error .attributeError := by
  cases u <;> simp_all [convertMass]

/-- **C38 (density).**  Mass per volume (or per area) is converted consistently from all unit systems but AMUSE's and
galpy's to all but galpy's. -/
theorem C38_density {g : Galpy} {c : Cluster} (nz : NZ g c) (projected : Bool) {u t : Units} {su st : Scale}
    (hu : unitScale g c u = some su) (ht : unitScale g c t = some st) (hgu : u ≠ .galpy) (hgt : t ≠ .galpy)
    (hau : u ≠ .amuse) (x : ℝ) :
    ∃ y, convertDensity g c projected u t x = .ok y ∧
      y * (st.mass / st.len ^ (if projected then 2 else 3)) = x * (su.mass / su.len ^ (if projected then 2 else 3)) := by
  have h1 := nz.zmbar
  have h2 := consts.2
  have h3 := nz.rbar
  cases projected <;>
  cases u <;> cases t <;> simp only [unitScale, Option.some.injEq, reduceCtorEq, ne_eq, not_true] at hu ht hgu hgt hau <;>
    subst hu <;> subst ht <;>
    refine ⟨_, by simp [convertDensity, convertMass, Units.isPc, Units.isKpc, bind, Except.bind, pure, Except.pure, throw, throwThe, MonadExceptOf.throw]; rfl, ?_⟩ <;>
    simp only [h2, if_true, if_false, Bool.false_eq_true] <;> field_simp

/-- **C38 is violated for galpy densities and for AMUSE densities:** the conversion raises. -/
theorem C38_density_violated (g : Galpy) (c : Cluster) (projected : Bool) {u : Units} (x : ℝ) :
    (u ≠ .galpy → convertDensity g c projected .galpy u x = .error .attributeError) ∧
    (u ≠ .galpy → u ≠ .amuse → convertDensity g c projected u .galpy x = .error .attributeError) ∧
    (u ≠ .amuse → convertDensity g c projected .amuse u x = .error .typeError) := by
  refine ⟨?_, ?_, ?_⟩ <;> intros <;> cases u <;>
    simp_all [convertDensity, convertMass, bind, Except.bind, throw, throwThe, MonadExceptOf.throw]

/-- The pairs of unit systems (WDunits aside) between which velocities are converted correctly. -/
def VelOk (u t : Units) : Prop :=
  u = t ∨ t ∈ [Units.nbody, .pckms, .amuse, .kpckms, .galpy] ∨ (t = .pcmyr ∧ u ∈ [Units.nbody, .galpy]) ∨
    (t = .kpcgyr ∧ u = .nbody)

/-- **C38 (velocity), exactly.**  WDunits aside, a non-zero velocity keeps its meaning in km/s for the pairs `VelOk` and
for no others. -/
theorem C38_velocity_partial {g : Galpy} {c : Cluster} (nz : NZ g c) {u t : Units}
    {su st : Scale} (hu : unitScale g c u = some su) (ht : unitScale g c t = some st) (hwu : u ≠ .WDunits)
    (hwt : t ≠ .WDunits) {x : ℝ} (hx : x ≠ 0) :
    convertVelocity g c u t x * st.vel = x * su.vel ↔ VelOk u t := by
  have h1 := nz.vbar
  have h2 := nz.vo
  have hk := consts.1
  cases u <;> cases t <;> simp only [unitScale, Option.some.injEq, reduceCtorEq, ne_eq, not_true] at hu ht hwu hwt <;>
    subst hu <;> subst ht <;>
    simp [convertVelocity, Units.isPc, Units.isKpc, VelOk, hk] <;>
    first
    | (field_simp; done)
    | (field_simp; norm_num; done)
    | (intro h; field_simp at h; norm_num at h)

/-- **C38 is violated for WDunits velocities:** km/s are taken for the velocity unit of WDunits (`vo /
velocity_in_kpcGyr(vo, ro)` km/s). -/
theorem C38_velocity_WD_violated {g : Galpy} {c : Cluster} {x : ℝ} :
    convertVelocity g c .pckms .WDunits x = x ∧ convertVelocity g c .WDunits .pckms x = x ∧
      (unitScale g c .WDunits).map Scale.vel = some (g.vo / g.velKpcGyr) := by
  simp [convertVelocity, Units.isPc, Units.isKpc, unitScale]

/-- **C38 is violated for velocities**, for instance from km/s to pc/Myr (the factor 1.02… is missing) and from pc/Myr to
kpc/Gyr (which are equal, but the value is divided by 1.02…). -/
theorem C38_velocity_violated {g : Galpy} {c : Cluster} {x : ℝ} :
    convertVelocity g c .pckms .pcmyr x = x ∧ convertVelocity g c .kpckms .kpcgyr x = x ∧
      convertVelocity g c .pcmyr .kpcgyr x = x / kmsToPcMyr ∧ convertVelocity g c .galpy .kpcgyr x = x * g.vo := by
  rw [consts.1]
  simp [convertVelocity, Units.isPc, Units.isKpc]

/-- The pairs of unit systems (WDunits aside) between which squared velocities are converted correctly. -/
def SqVelOk (u t : Units) : Prop :=
  u = t ∨ t ∈ [Units.nbody, .pckms, .amuse, .kpckms, .galpy] ∨ (t ∈ [Units.pcmyr, .kpcgyr] ∧ u = .nbody)

/-- **C38 (squared velocity), exactly.** -/
theorem C38_square_velocity_partial {g : Galpy} {c : Cluster} (nz : NZ g c)
    {u t : Units} {su st : Scale} (hu : unitScale g c u = some su) (ht : unitScale g c t = some st) (hwu : u ≠ .WDunits)
    (hwt : t ≠ .WDunits) {x : ℝ} (hx : x ≠ 0) :
    convertSquareVelocity g c u t x * st.vel ^ 2 = x * su.vel ^ 2 ↔ SqVelOk u t := by
  have h1 := nz.vbar
  have h2 := nz.vo
  have hk := consts.1
  cases u <;> cases t <;> simp only [unitScale, Option.some.injEq, reduceCtorEq, ne_eq, not_true] at hu ht hwu hwt <;>
    subst hu <;> subst ht <;>
    simp [convertSquareVelocity, Units.isPc, Units.isKpc, SqVelOk, hk] <;>
    first
    | (field_simp; done)
    | (field_simp; norm_num; done)
    | (intro h; field_simp at h; norm_num at h)

theorem scale_nz {g : Galpy} {c : Cluster} (nz : NZ g c) {u : Units} {s : Scale} (h : unitScale g c u = some s) :
    s.len ≠ 0 ∧ s.vel ≠ 0 ∧ s.mass ≠ 0 ∧ s.time ≠ 0 := by
  have hk : kmsToPcMyr ≠ 0 := by rw [consts.1]; norm_num
  have hm : mconWD ≠ 0 := by rw [consts.2]; norm_num
  obtain ⟨h1, h2, h3, h4, h5, h6, h7, h8, h9⟩ := nz
  cases u <;> simp only [unitScale, Option.some.injEq, reduceCtorEq] at h <;> subst h <;>
    simp [h1, h2, h3, h4, h5, h6, h7, h8, h9, hk, hm]

/-- **C38 (agreement).**  After any conversion call between linear unit systems, every position, every mass (galpy
excepted) and the time of the cluster are the numbers the helpers give for the old ones; velocities agree for the pairs
`VelOk`. -/
theorem C38_agrees {g : Galpy} {c c' : Cluster} {op : Op} {u t : Units} (nz : NZ g c)
    (hu : c.units = some u) (hul : u.linear) (ht : op.unitTarget = some t) (htl : t.linear) (h : op.exec g c = .ok c') :
    c'.st.map Ph.x = c.st.map (fun p => convertLength g c' u t p.x) ∧
    c'.st.map Ph.y = c.st.map (fun p => convertLength g c' u t p.y) ∧
    c'.st.map Ph.z = c.st.map (fun p => convertLength g c' u t p.z) ∧
    (VelOk u t → u ≠ .WDunits → t ≠ .WDunits →
      c'.st.map Ph.vx = c.st.map (fun p => convertVelocity g c' u t p.vx) ∧
      c'.st.map Ph.vy = c.st.map (fun p => convertVelocity g c' u t p.vy) ∧
      c'.st.map Ph.vz = c.st.map (fun p => convertVelocity g c' u t p.vz)) ∧
    (u ≠ .galpy → t ≠ .galpy → c'.m.map Except.ok = c.m.map (convertMass c' u t)) ∧
    c'.tphys = convertTime g c' u t c.tphys := by
  have s := exec_ustep nz hu hul ht htl h
  have nz' := nz.of_rest s.rest
  obtain ⟨e1, e2, e3, e4⟩ := rest_scales s.rest
  obtain ⟨su, hsu⟩ : ∃ su, unitScale g c u = some su := by cases u <;> simp [Units.linear] at hul <;> exact ⟨_, rfl⟩
  obtain ⟨st, hst⟩ : ∃ su, unitScale g c' t = some su := by cases t <;> simp [Units.linear] at htl <;> exact ⟨_, rfl⟩
  have hsu' : unitScale g c' u = some su := by rw [← hsu]; cases u <;> simp [unitScale, e1, e2, e3, e4]
  have hp := s.phys
  unfold phys at hp
  rw [s.units, hu] at hp
  simp only [hsu, hst, Option.some.injEq, Phys.mk.injEq] at hp
  obtain ⟨p1, p2, p3, -, -⟩ := hp
  obtain ⟨n1, n2, n3, n4⟩ := scale_nz nz' hst
  have key : ∀ (f : Ph → ℝ) (k k' : ℝ) (F : ℝ → ℝ), (∀ p, f (su.ph p) = f p * k) → (∀ p, f (st.ph p) = f p * k') →
      k' ≠ 0 → (∀ x, F x * k' = x * k) → c'.st.map f = c.st.map (fun p => F (f p)) := by
    intro f k k' F h1 h2 hk hF
    have := congrArg (List.map f) p3
    rw [List.map_map, List.map_map] at this
    have h3 := congrArg (List.map (fun x => x / k')) this
    rw [List.map_map, List.map_map] at h3
    have e : c'.st.map ((fun x => x / k') ∘ (f ∘ st.ph)) = c'.st.map f :=
      List.map_congr_left fun p _ => by simp [h2, hk]
    rw [e] at h3
    rw [h3]
    refine List.map_congr_left fun p _ => ?_
    simp only [Function.comp, h1]
    rw [div_eq_iff hk, hF]
  refine ⟨key Ph.x _ _ _ (fun _ => rfl) (fun _ => rfl) n1 (C38_length nz' hsu' hst),
    key Ph.y _ _ _ (fun _ => rfl) (fun _ => rfl) n1 (C38_length nz' hsu' hst),
    key Ph.z _ _ _ (fun _ => rfl) (fun _ => rfl) n1 (C38_length nz' hsu' hst), ?_, ?_, ?_⟩
  · intro hv hwu hwt
    have hF : ∀ x, convertVelocity g c' u t x * st.vel = x * su.vel := by
      intro x
      by_cases hx : x = 0
      · subst hx
        have : convertVelocity g c' u t 0 = 0 := by
          unfold convertVelocity
          simp only [zero_mul, zero_div, ite_self]
        rw [this]; ring
      · exact (C38_velocity_partial nz' hsu' hst hwu hwt hx).mpr hv
    exact ⟨key Ph.vx _ _ _ (fun _ => rfl) (fun _ => rfl) n2 hF, key Ph.vy _ _ _ (fun _ => rfl) (fun _ => rfl) n2 hF,
      key Ph.vz _ _ _ (fun _ => rfl) (fun _ => rfl) n2 hF⟩
  · intro hgu hgt
    have h3 : c'.m = c.m.map (fun x => x * su.mass / st.mass) := by
      have := congrArg (List.map (fun x => x / st.mass)) p2
      rw [List.map_map, List.map_map] at this
      have e : c'.m.map ((fun x => x / st.mass) ∘ (fun x => x * st.mass)) = c'.m := by
        conv_rhs => rw [← List.map_id c'.m]
        exact List.map_congr_left fun p _ => by simp [n3]
      rw [e] at this
      exact this
    rw [h3, List.map_map]
    refine List.map_congr_left fun x _ => ?_
    obtain ⟨y, hy, ey⟩ := C38_mass nz' hsu' hst hgu hgt x
    rw [hy]
    simp only [Function.comp]
    congr 1
    rw [div_eq_iff n3, ey]
  · have := C38_time nz' (u := u) (t := t) (su := su.time) (st := st.time) (by rw [hsu']; left; rfl)
      (by rw [hst]; left; rfl) c.tphys
    exact mul_right_cancel₀ n4 (p1.trans this.symm)

/-- **C38 is violated for angles:** an angle made from a length at distance `z` (in kpc) on the sky, taken back by a
cluster in pc at the same distance, gives the length a thousand times over: the cluster's distance in pc is used as one
in kpc. -/
theorem C38_radec_violated {g : Galpy} {c c' : Cluster} {x z : ℝ} (hz : 0 < z) (h : c.gc.z = z)
    (h' : c'.gc = ⟨0, 0, 1000 * z, 0, 0, 0⟩) :
    convertLength g c' .radec .pckms (convertLength g c .pckms .radec x) = 1000 * x := by
  have e1 : convertLength g c .pckms .radec x = degrees (arctan2 (x / 1000) z) := by
    simp [convertLength, Units.isPc, Units.isKpc, h]
  have e2 : ∀ a, convertLength g c' .radec .pckms a = Real.tan (radians a) * (1000 * z) * 1000 := by
    intro a
    simp only [convertLength, Units.isPc, Units.isKpc, h', reduceCtorEq, if_false, Bool.false_eq_true, if_true]
    rw [show (0 : ℝ) ^ 2 + 0 ^ 2 + (1000 * z) ^ 2 = (1000 * z) ^ 2 by ring, Real.sqrt_sq (by linarith)]
  have e3 : ∀ a, radians (degrees a) = a := by
    intro a; unfold radians degrees; field_simp
  rw [e1, e2, e3]
  have : Real.tan (arctan2 (x / 1000) z) = x / 1000 / z := by
    unfold arctan2
    rw [Complex.tan_arg]
  rw [this]
  field_simp

/-- Non-vacuity: a length of 2 N-body units in a cluster with `rbar = 2` is 4 pc. -/
example : convertLength demoG demo .nbody .pckms 2 = 4 ∧ convertLength demoG demo .pckms .galpy 16000 = 2 := by
  constructor
  · have := C38_length demo_pos.nz (u := .nbody) (t := .pckms) rfl rfl 2
    norm_num [demo] at this ⊢
    exact this
  · have := C38_length demo_pos.nz (u := .pckms) (t := .galpy) rfl rfl 16000
    norm_num [demoG] at this ⊢
    linarith

end

end CT
