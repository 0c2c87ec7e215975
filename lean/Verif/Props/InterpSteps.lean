/- C178: moving a cluster in steps is moving it at once. -/
import Verif.Spec.InterpSteps
import Verif.Props.InterpSky

namespace CT

noncomputable section

set_option linter.unusedSimpArgs false

variable {g : Galpy} {S : Truth} {c : Cluster} {flow : ℝ → Ph → Ph}

theorem orbitAt_add (hf : IsFlow flow) (p : Pos g c) (s t : ℝ) (P : Ph) : orbitAt g flow (s + t) P = orbitAt g flow t (orbitAt g flow s P) := by
  have h1 : (1000 * g.ro) ≠ 0 := by have := p.ro; positivity
  have h2 := p.vo.ne'
  unfold orbitAt
  simp only [add_div, add_comm (s / _), hf.add, mul_div_cancel_right₀ _ h1, mul_div_cancel_right₀ _ h2]

theorem orbitAt_zero (hf : IsFlow flow) (p : Pos g c) (P : Ph) : orbitAt g flow 0 P = P := by
  have h1 : (1000 * g.ro) ≠ 0 := by have := p.ro; positivity
  have h2 := p.vo.ne'
  unfold orbitAt
  simp only [zero_div, hf.zero, div_mul_cancel₀ _ h1, div_mul_cancel₀ _ h2]

theorem movedTo_self (w : World) : w.movedTo w.gc = w := by
  have e : ∀ P, displaced w.gc w.gc P = P := fun P => by unfold displaced; ext <;> simp
  have e' : Option.map (displaced w.gc w.gc) = id := by
    funext x
    cases x <;> simp [e]
  unfold World.movedTo
  rw [e', List.map_id]

theorem movedTo_movedTo (w : World) (P Q : Ph) : (w.movedTo P).movedTo Q = w.movedTo Q := by
  unfold World.movedTo
  congr 1
  rw [List.map_map]
  refine List.map_congr_left fun x _ => ?_
  cases x with
  | none => rfl
  | some x =>
    simp only [Function.comp, Option.map_some, displaced, Option.some.injEq]
    ext <;> simp only <;> ring

/-- **C178 (in linear units).**  Moved by `interpolate_orbit` through any list of times, one after the other, forwards or backwards, the cluster and its
stars are where one move by the sum of the times takes them.  (Units in which velocities are right, see `C87_velocity_violated`.) -/
theorem C178_linear {nt : ℕ} (hf : IsFlow flow) (hn : 2 ≤ nt) {u : Units} {s : Scale} (hv : RightVelocities u) (l : List ℝ) :
    ∀ {c : Cluster} {w : World}, Pos g c → Lin c → Good c → Fresh c → world g c = some w → c.units = some u → unitScale g c u = some s →
      ∃ c', moveSteps g flow nt l c = .ok c' ∧ c'.units = c.units ∧ c'.origin = c.origin ∧ Fresh c' ∧
        world g c' = some (w.movedTo (orbitAt g flow (l.sum * s.time) w.gc)) := by
  induction l with
  | nil =>
    intro c w p _ _ f hw _ _
    refine ⟨c, rfl, rfl, rfl, f, ?_⟩
    rw [List.sum_nil, zero_mul, orbitAt_zero hf p, movedTo_self]
    exact hw
  | cons T l ih =>
    intro c w p l0 hg _ hw hu hs
    obtain ⟨t, c0, q, c1, hq, e1, e2, e3, e4, e5, e6, e7, er, f1, g1, w1⟩ := method_run (flow := flow) (a := { tfinal := some T, nt := nt }) p l0 hg hw hu
      hs hn (fun _ => nofun)
    have b := convertRow_follows (flow := flow) e4 e2 e3 t (w.place false)
    have hq' : q = convertRow g c0 (orbitRow g (flow t (natural g (w.place false)))) := hq
    rw [← hq', e5] at b
    have hQ : s.ph q = orbitAt g flow (T * s.time) w.gc := by
      obtain ⟨⟨b1, b2, b3⟩, b4⟩ := b
      obtain ⟨b4, b5, b6⟩ := b4 hv
      ext
      · exact b1
      · exact b2
      · exact b3
      · exact b4
      · exact b5
      · exact b6
    obtain ⟨c2, h2, u2, o2, f2, w2⟩ := ih (p.of_rest er) ⟨by rw [e6]; exact l0.1, by rw [e7]; exact l0.2⟩ g1 f1 w1 (e6.trans hu)
      (by rw [unitScale_of_rest er]; exact hs)
    refine ⟨c2, ?_, u2.trans e6, o2.trans e7, f2, ?_⟩
    · simp only [moveSteps, e1, Except.bind]
      exact h2
    · rw [w2, movedTo_movedTo, show (w.movedTo (s.ph q)).gc = s.ph q from rfl, hQ, ← orbitAt_add hf p, List.sum_cons, add_mul]

/-- **C178 (there and back).**  A list of times that add up to nothing brings the cluster and every star back. -/
theorem C178_there_and_back {nt : ℕ} (hf : IsFlow flow) (hn : 2 ≤ nt) {u : Units} {s : Scale} {w : World} (hv : RightVelocities u) {l : List ℝ}
    (h0 : l.sum = 0) (p : Pos g c) (hl : Lin c) (hg : Good c) (f : Fresh c) (hw : world g c = some w) (hu : c.units = some u)
    (hs : unitScale g c u = some s) :
    ∃ c', moveSteps g flow nt l c = .ok c' ∧ c'.units = c.units ∧ c'.origin = c.origin ∧ Fresh c' ∧ world g c' = some w := by
  obtain ⟨c', h1, h2, h3, h4, h5⟩ := C178_linear (nt := nt) hf hn hv l p hl hg f hw hu hs
  rw [h0, zero_mul, orbitAt_zero hf p, movedTo_self] at h5
  exact ⟨c', h1, h2, h3, h4, h5⟩

theorem movedAlong_zero (hf : IsFlow flow) (p : Pos g c) (S : Truth) : S.movedAlong g flow 0 = S := by
  have e : orbitAt g flow 0 = id := funext (orbitAt_zero hf p)
  unfold Truth.movedAlong
  rw [e, List.map_id]
  rfl

theorem movedAlong_add (hf : IsFlow flow) (p : Pos g c) (S : Truth) (s t : ℝ) :
    (S.movedAlong g flow s).movedAlong g flow t = S.movedAlong g flow (s + t) := by
  have e : orbitAt g flow (s + t) = fun P => orbitAt g flow t (orbitAt g flow s P) := funext (orbitAt_add hf p s t)
  unfold Truth.movedAlong
  simp only [e, List.map_map, Function.comp_def]

theorem steps_sky {nt : ℕ} (hf : IsFlow flow) (hb : ∀ P, SkyBack g P) (hn : 2 ≤ nt) (l : List ℝ) :
    ∀ {c : Cluster} {S : Truth}, SkyShown g S c →
      (∀ k, k <+: l → NoZeroColumn (S.stars.map (fun P => g.toSky (kpcRow (orbitAt g flow (k.sum * 1000) P))))) →
      ∃ c', moveStepsSky g flow nt l c = .ok c' ∧ SkyShown g (S.movedAlong g flow (l.sum * 1000)) c' ∧ (Fresh c ∨ l ≠ [] → Fresh c') := by
  induction l with
  | nil =>
    intro c S h _
    refine ⟨c, rfl, ?_, fun k => k.elim id (fun k => absurd rfl k)⟩
    rw [List.sum_nil, zero_mul, movedAlong_zero hf h.pos]
    exact h
  | cons T l ih =>
    intro c S h hz
    have z1 := hz [T] ⟨l, rfl⟩
    rw [List.sum_singleton] at z1
    obtain ⟨c1, e1, h1, f1, -⟩ := interpolateOrbitsSkyMethod_ok (a := { tfinal := some T, nt := nt }) (flow := flow) h hn (fun P _ => hb P) (hb _) z1
    have h1 : SkyShown g (S.movedAlong g flow (T * 1000)) c1 := h1
    obtain ⟨c2, e2, h2, f2⟩ := ih h1 (fun k hk => by
      have := hz (T :: k) (List.cons_prefix_cons.mpr ⟨rfl, hk⟩)
      rw [List.sum_cons, add_mul] at this
      simp only [Truth.movedAlong, List.map_map, Function.comp_def, ← orbitAt_add hf h.pos]
      exact this)
    refine ⟨c2, ?_, ?_, fun _ => f2 (.inl f1)⟩
    · simp only [moveStepsSky, e1, Except.bind]
      exact e2
    · rw [movedAlong_add hf h.pos, ← add_mul] at h2
      rw [List.sum_cons]
      exact h2

/-- **C178 (on the sky).**  A cluster on the sky moved by `interpolate_orbits` through any list of times (Gyr), one after the other, shows the stars and
the cluster where they are after the sum of the times. -/
theorem C178_sky {c0 : Cluster} {ks : List Call} {nt : ℕ} {l : List ℝ} (hf : IsFlow flow) (hb : ∀ P, SkyBack g P) (hn : 2 ≤ nt) (p : Pos g c0)
    (hl : Lin c0) (hg : Good c0) (hd : DescribesLinear g S c0) (hc : CachesOf g S c0) (e : calls g ks c0 = .ok c) (hu : c.units = some .radec)
    (ho : c.origin = some .sky)
    (hz : ∀ k, k <+: l → NoZeroColumn (S.stars.map (fun P => g.toSky (kpcRow (orbitAt g flow (k.sum * 1000) P))))) :
    ∃ c', moveStepsSky g flow nt l c = .ok c' ∧ DescribesSky g (S.movedAlong g flow (l.sum * 1000)) c' ∧ c'.origin = some .sky ∧ (Fresh c ∨ l ≠ [] → Fresh c') := by
  obtain ⟨c', h1, h2, h3⟩ := steps_sky (nt := nt) hf hb hn l ((sky_reached p hl hg hd hc e hu).shown ho) hz
  exact ⟨c', h1, h2.desc, h2.origin, h3⟩

theorem drift_flow : IsFlow drift where
  zero p := by simp [drift]
  add s t p := by
    unfold drift
    ext <;> simp only <;> ring

/-- Forward, on, and back, on the sky: the stars are back at the start. -/
example : ∃ c c', toRadec demoG true none true demoGalaxy = .ok c ∧ moveStepsSky demoG drift 1000 [0.1, 0.2, -0.3] c = .ok c' ∧
    c'.st = demoGalaxyTruth.stars.map kpcRow := by
  obtain ⟨c, h1, i, o, -⟩ := toRadec_lin_full demoSky_inv true none true
  have h0 : calls demoG [.toRadec true none true] demoGalaxy = .ok c := by simp [calls, Call.exec, h1, Except.bind]
  have hb : ∀ P, SkyBack demoG P := fun _ => rfl
  obtain ⟨c', m1, m2, m3, -⟩ := C178_sky (flow := drift) (nt := 1000) (l := [0.1, 0.2, -0.3]) drift_flow hb (by decide) demoGalaxy_pos
    demoGalaxy_lin demoGalaxy_good demoGalaxy_desc demoGalaxy_caches h0 i.state.units (by rw [o]; rfl) (fun k _ => demoSky_moved _)
  refine ⟨c, c', h1, m1, ?_⟩
  rw [m2.2.2.2.2.2.1 m3, m2.2.1]
  norm_num [movedAlong_zero drift_flow demoGalaxy_pos]
  exact fun _ _ => rfl

/-- The same in pc and km/s. -/
example : ∃ c w c', analyze true demoGalaxy = .ok c ∧ world demoG c = some w ∧ moveSteps demoG drift 1000 [100, 200, -300] c = .ok c' ∧
    world demoG c' = some w := by
  obtain ⟨c, h1, i, u, o⟩ := demoSky_inv.analyzed true true
  have u : c.units = some .pckms := u
  obtain ⟨w, hw⟩ := i.desc
  obtain ⟨c', h2, -, -, -, h3⟩ := C178_there_and_back (nt := 1000) (l := [100, 200, -300]) drift_flow (by decide) (u := .pckms) (by simp [RightVelocities])
    (by norm_num) i.pos i.lin i.good (analyze_fresh h1) hw.1 u rfl
  exact ⟨c, w, c', h1, hw.1, h2, h3⟩

end

end CT
