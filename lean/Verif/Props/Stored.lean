/- Property theorems C125: results stored in the attributes of a StarCluster. -/
import Verif.Model.Stored
import Verif.Props.Session

namespace CT

noncomputable section

/-- Calls of the kind considered. -/
def MCall.Admissible (w : World) : MCall → Prop
  | .convert op => op.linear ∧ op.analysed
  | .query q => q.Observing w
  | _ => True

/-- Calls that set the stored half-mass relaxation time. -/
def MCall.setsTrh : MCall → Bool
  | .halfMassRelaxationTime .. => true
  | _ => false

/-- Calls that set the stored virial radius. -/
def MCall.setsRv : MCall → Bool
  | .virialRadius .. => true
  | _ => false

theorem methods_steps {g : Galpy} {w : World} (l : List MCall) : ∀ {x y : Sheet}, (∀ a ∈ l, a.Admissible w) → Describes g w x.c →
    methods g l x = .ok y →
    Describes g w y.c ∧ y.c.rest = x.c.rest ∧ ((∀ a ∈ l, a.setsTrh = false) → y.trh = x.trh) ∧ ((∀ a ∈ l, a.setsRv = false) → y.rv = x.rv) := by
  induction l with
  | nil => intro x y _ d h; cases h; exact ⟨d, rfl, fun _ => rfl, fun _ => rfl⟩
  | cons a l ih =>
    intro x y hl d h
    obtain ⟨x1, h1, h2⟩ := bind_ok h
    have ha := hl a (by simp)
    have key : Describes g w x1.c ∧ x1.c.rest = x.c.rest ∧ (a.setsTrh = false → x1.trh = x.trh) ∧ (a.setsRv = false → x1.rv = x.rv) := by
      cases a with
      | convert op =>
        cases e : op.exec g x.c with
        | error _ => rw [MCall.exec, e] at h1; cases h1
        | ok c1 =>
          rw [MCall.exec, e] at h1; cases h1
          obtain ⟨d1, r1⟩ := (Rel.refl d).exec op ha.1 ha.2 c1 e
          exact ⟨d1, r1, fun _ => rfl, fun _ => rfl⟩
      | query q =>
        cases e : q.exec g x.c with
        | error _ => rw [MCall.exec, e] at h1; cases h1
        | ok c1 =>
          rw [MCall.exec, e] at h1; cases h1
          obtain ⟨d1, -, r1⟩ := C124_call ha d e
          exact ⟨d1, r1, fun _ => rfl, fun _ => rfl⟩
      | halfMassRelaxationTime γ pr =>
        cases e : halfMassRelaxationTime g γ (pr.getD x.c.projected) x.c with
        | error _ => rw [MCall.exec, e] at h1; cases h1
        | ok r =>
          rw [MCall.exec, e] at h1; cases h1
          have b := halfMassRelaxationTime_back d r e
          exact ⟨b.1, b.2.1, by simp [MCall.setsTrh], fun _ => rfl⟩
      | virialRadius H od =>
        cases e : virialCrit g H od x.c with
        | error _ => rw [MCall.exec, e] at h1; cases h1
        | ok r =>
          rw [MCall.exec, e] at h1; cases h1
          have b := virialCrit_back d r e
          exact ⟨b.1, b.2.1, fun _ => rfl, by simp [MCall.setsRv]⟩
    obtain ⟨d1, r1, t1, v1⟩ := key
    obtain ⟨k1, k2, k3, k4⟩ := ih (fun b hb => hl b (by simp [hb])) d1 h2
    exact ⟨k1, k2.trans r1, fun hb => (k3 (fun b hb' => hb b (by simp [hb']))).trans (t1 (hb a (by simp))),
      fun hb => (k4 (fun b hb' => hb b (by simp [hb']))).trans (v1 (hb a (by simp)))⟩

theorem mass_sum_pos {g : Galpy} {w : World} {b : Cluster} (e : Describes g w b) (hM : 0 < w.mass.sum) : 0 < b.m.sum := by
  obtain ⟨⟨u, hu, hul⟩, ⟨o, ho, hol⟩⟩ := e.lin
  obtain ⟨s, hs⟩ := unitScale_isSome (g := g) (c := b) hul
  have hw := e.world
  have a : w.mass = b.m.map (· * s.mass) := by
    unfold world phys at hw
    simp only [hu, ho, hs, Option.some.injEq] at hw
    rw [← hw]
  rw [a, List.sum_map_mul_right, List.map_id'] at hM
  exact pos_of_mul_pos_left hM (unitScale_pos e.pos hs).2.2.1.le

/-- **C125 (relaxation time).**  Whatever methods are called after `half_mass_relaxation_time`, the attribute `trh` keeps the number returned,
in the unit of time of the cluster when the method was called: it is `s.time/r.time` of what the method would return now. -/
theorem C125_trh_partial {g : Galpy} {w : World} {l : List MCall} {γ : ℝ} {x x1 y : Sheet} {u v : Units} {s r : Scale}
    (hl : ∀ a ∈ l, a.Admissible w) (hn : ∀ a ∈ l, a.setsTrh = false) (d : Describes g w x.c) (hm : ∀ q ∈ w.mass, 0 ≤ q)
    (hM : 0 < w.mass.sum) (h1 : (MCall.halfMassRelaxationTime γ (some false)).exec g x = .ok x1) (h2 : methods g l x1 = .ok y)
    (hf : workFrame x.c = workFrame y.c) (hu : x.c.units = some u) (hs : unitScale g x.c u = some s) (hv : y.c.units = some v)
    (hr : unitScale g y.c v = some r) :
    ∃ t t' c', y.trh = some t ∧ halfMassRelaxationTime g γ false y.c = .ok (t', c') ∧ t * s.time = t' * r.time := by
  obtain ⟨t, c1, rh, a1, -⟩ := C71_half_mass (γ := γ) d.pos d.lin d.good d.fresh (masses_nonneg d hm) (mass_sum_pos d hM) d.world d.order hu hs
  simp only [MCall.exec, Option.getD_some, a1] at h1
  cases h1
  have b := halfMassRelaxationTime_back d _ a1
  obtain ⟨d', -, k, -⟩ := methods_steps l hl b.1 h2
  obtain ⟨t0, x0, t', x', e1, e2, e3⟩ := C71_same_cluster (γ := γ) d.pos d.lin d.good d.fresh (masses_nonneg d hm) (mass_sum_pos d hM) d.world d.order
    hu hs d'.pos d'.lin d'.good d'.fresh (masses_nonneg d' hm) (mass_sum_pos d' hM) d'.world d'.order hv hr hf
  rw [a1] at e1
  cases e1
  exact ⟨t, t', x', k hn, e2, e3⟩

/-- **C125 is violated: conversions leave stored results behind.**  If the unit of time has changed since the call, the stored relaxation time is
not what the method returns now, although both stand for the same time. -/
theorem C125_trh_violated {g : Galpy} {w : World} {l : List MCall} {γ : ℝ} {x x1 y : Sheet} {u v : Units} {s r : Scale}
    (hl : ∀ a ∈ l, a.Admissible w) (hn : ∀ a ∈ l, a.setsTrh = false) (d : Describes g w x.c) (hm : ∀ q ∈ w.mass, 0 ≤ q)
    (hM : 0 < w.mass.sum) (hγ : 0 < γ) (hN : 1 < γ * x.c.st.length) (hp : ∀ i < x.c.st.length, 0 < w.radius (workFrame x.c) i)
    (h1 : (MCall.halfMassRelaxationTime γ (some false)).exec g x = .ok x1) (h2 : methods g l x1 = .ok y)
    (hf : workFrame x.c = workFrame y.c) (hu : x.c.units = some u) (hs : unitScale g x.c u = some s) (hv : y.c.units = some v)
    (hr : unitScale g y.c v = some r) (hsr : s.time ≠ r.time) :
    ∃ t t' c', y.trh = some t ∧ halfMassRelaxationTime g γ false y.c = .ok (t', c') ∧ t ≠ t' := by
  obtain ⟨t, t', c', k1, k2, k3⟩ := C125_trh_partial hl hn d hm hM h1 h2 hf hu hs hv hr
  refine ⟨t, t', c', k1, k2, ?_⟩
  rintro rfl
  obtain ⟨q, cq, a1, a2, -⟩ := C72_few_stars_violated (γ := γ) d.pos d.lin d.good d.fresh (masses_nonneg d hm) (mass_sum_pos d hM) d.world d.order
    hu hs hγ hp
  simp only [MCall.exec, Option.getD_some, a1] at h1
  cases h1
  obtain ⟨-, -, k, -⟩ := methods_steps l hl (halfMassRelaxationTime_back d _ a1).1 h2
  have : t = q := by
    have := (k hn).symm.trans k1
    simpa using this.symm
  subst this
  have := a2 hN
  exact hsr (mul_left_cancel₀ this.ne' k3)

/-- **C125 (virial radius).**  Likewise the attribute `rv` keeps the number returned, in the unit of length of the cluster when
`virial_radius(method='critical_density')` was called. -/
theorem C125_rv_partial {g : Galpy} {w : World} {l : List MCall} {H δ : ℝ} {x x1 y : Sheet} {u v : Units} {s r : Scale} {t' : ℝ} {c' : Cluster}
    (hl : ∀ a ∈ l, a.Admissible w) (hn : ∀ a ∈ l, a.setsRv = false) (d : Describes g w x.c) (hm : ∀ q ∈ w.mass, 0 ≤ q)
    (h1 : (MCall.virialRadius H δ).exec g x = .ok x1) (h2 : methods g l x1 = .ok y)
    (hf : workFrame x.c = workFrame y.c) (hd : (w.radii (workFrame x.c) x.c.st.length).Nodup) (hu : x.c.units = some u)
    (hs : unitScale g x.c u = some s) (hv : y.c.units = some v) (hr : unitScale g y.c v = some r) (h' : virialCrit g H δ y.c = .ok (t', c')) :
    ∃ t, y.rv = some t ∧ t * s.len = t' * r.len := by
  cases e : virialCrit g H δ x.c with
  | error _ => rw [MCall.exec, e] at h1; cases h1
  | ok q =>
    rw [MCall.exec, e] at h1; cases h1
    have b := virialCrit_back d q e
    obtain ⟨d', -, -, k⟩ := methods_steps l hl b.1 h2
    exact ⟨q.1, k hn, C81_same_cluster d.pos d.lin d.good d.fresh (masses_nonneg d hm) d.world d.order hu hs d'.pos d'.lin d'.good d'.fresh
      (masses_nonneg d' hm) d'.world d'.order hv hr hf hd e h'⟩

/-- The demo cluster in parsecs and Myr, its relaxation time asked for and then converted to kpc and Gyr: the attribute is still in Myr. -/
example : ∃ (x x1 y : Sheet) (t t' : ℝ) (c' : Cluster), (MCall.halfMassRelaxationTime 4 (some false)).exec demoG x = .ok x1 ∧
    methods demoG [.convert (.toKpckms true)] x1 = .ok y ∧ y.trh = some t ∧ halfMassRelaxationTime demoG 4 false y.c = .ok (t', c') ∧ t ≠ t' := by
  obtain ⟨c, w, -, p, l, hg, f, hm, hM, hw, i, hu, hn, hp, -⟩ := demo_analysed
  have d : Describes demoG w c := ⟨p, l, hg, f, hw, i⟩
  have hmass : w.mass = c.m := by
    obtain ⟨-, ⟨o, ho, -⟩⟩ := l
    unfold world phys at hw
    simp only [hu, ho, unitScale, Option.some.injEq] at hw
    rw [← hw]; simp
  obtain ⟨t, c1, rh, a1, -⟩ := C71_half_mass (γ := 4) (s := ⟨1, 1, 1, 1⟩) p l hg f hm hM hw i hu rfl
  have h1 : (MCall.halfMassRelaxationTime 4 (some false)).exec demoG ⟨c, none, none⟩ = .ok ⟨c1, some t, none⟩ := by
    simp only [MCall.exec, Option.getD_some, a1]; rfl
  obtain ⟨d1, r1, e1⟩ := halfMassRelaxationTime_back d _ a1
  have k1 : Op.linear (.toKpckms true) := by simp [Op.linear, Op.unitTarget, Op.originTarget, Units.linear]
  obtain ⟨c2, h2, -⟩ := exec_total d1.pos d1.lin k1 d1.good
  have st := exec_step d1.pos.nz d1.lin k1 h2
  have hs : methods demoG [.convert (.toKpckms true)] ⟨c1, some t, none⟩ = .ok ⟨c2, some t, none⟩ := by
    simp only [methods, MCall.exec, h2, Except.map, Except.bind]
  have ho : c2.origin = c.origin := by
    rw [st.origin]; exact congrArg Data.origin e1
  obtain ⟨q, q', c', b1, b2, b3⟩ := C125_trh_violated (g := demoG) (w := w) (x := ⟨c, none, none⟩) (γ := 4) (s := ⟨1, 1, 1, 1⟩) (r := ⟨1000, 1, 1, 1000⟩)
    (v := .kpckms) (l := [.convert (.toKpckms true)])
    (by intro a ha; simp only [List.mem_singleton] at ha; subst ha; exact ⟨k1, rfl⟩) (by simp [MCall.setsTrh]) d (by rw [hmass]; exact hm)
    (by rw [hmass]; exact hM) (by norm_num) (by show (1 : ℝ) < 4 * (c.st.length : ℝ); rw [hn]; norm_num) (by show ∀ i < c.st.length, _; rw [hn]; exact hp) h1 hs
    (by unfold workFrame; simp only [ho]) hu rfl (by show c2.units = _; rw [st.units]; rfl) rfl (by norm_num)
  exact ⟨⟨c, none, none⟩, _, _, q, q', c', h1, hs, b1, b2, b3⟩

end

end CT
