/- Property theorems C152, C153: sessions with calls that change the cluster. -/
import Verif.Spec.Mutate
import Verif.Props.Session
import Verif.Props.Rotation
import Verif.Props.Centre3

namespace CT

noncomputable section

set_option linter.unusedSimpArgs false

variable {g : Galpy} {w : World}

/-- An order stays an order when no radius it depends on changes. -/
theorem OrderInv.congr {w w' : World} {c c' : Cluster} (i : OrderInv w c) (h1 : c'.rorder = c.rorder) (h2 : c'.rorderOrigin = c.rorderOrigin)
    (hn : w'.stars.length = w.stars.length) (hr : ∀ o, c.rorder = some o → ∀ f, c.rorderOrigin = some f → ∀ k, w'.radius f k = w.radius f k) : OrderInv w' c' := by
  intro o ho
  rw [h1] at ho
  obtain ⟨f, k1, k2, k3, k4⟩ := i o ho
  refine ⟨f, h2.trans k1, k2, by rw [hn]; exact k3, ?_⟩
  exact k4.imp (fun {a b} hab => by rw [hr o ho f k1, hr o ho f k1]; exact hab)

theorem places_length {w w' : World} (h : w'.places = w.places) : w'.stars.length = w.stars.length := by
  simpa [World.places] using congrArg List.length h

theorem radius_of_places {w w' : World} (h : w'.places = w.places) {f f' : Origin} {k : ℕ}
    (ho : place (frameOffset f' w'.centre w'.gc) = place (frameOffset f w.centre w.gc)) : w'.radius f' k = w.radius f k := by
  have e : (w'.stars[k]?).map (Option.map place) = (w.stars[k]?).map (Option.map place) := by
    have := congrArg (fun l : List (Option (ℝ × ℝ × ℝ)) => l[k]?) h
    simpa [World.places] using this
  simp only [place, Prod.mk.injEq] at ho
  obtain ⟨o1, o2, o3⟩ := ho
  unfold World.radius
  rw [o1, o2, o3]
  cases ha : w.stars[k]? with
  | none =>
    cases hb : w'.stars[k]? with
    | none => rfl
    | some b => simp [ha, hb] at e
  | some a =>
    cases hb : w'.stars[k]? with
    | none => simp [ha, hb] at e
    | some b =>
      cases a with
      | none => cases b <;> simp [ha, hb] at e ⊢
      | some p =>
        cases b with
        | none => simp [ha, hb] at e
        | some q =>
          simp only [ha, hb, Option.map_some, Option.some.injEq, place, Prod.mk.injEq] at e
          obtain ⟨e1, e2, e3⟩ := e
          simp [e1, e2, e3]

/-- Other velocities, the same places. -/
theorem world_newVel {c : Cluster} {st : List Ph} (hw : world g c = some w) (hl : Lin c) (hp : st.map place = c.st.map place) :
    ∃ w', world g { c with st := st } = some w' ∧ Unmoved w w' ∧ w'.centre = w.centre ∧ w'.gc = w.gc := by
  obtain ⟨⟨u, hu, hul⟩, ⟨o, ho, hol⟩⟩ := hl
  obtain ⟨s, hs⟩ := unitScale_linear (g := g) (c := c) hul
  obtain ⟨c1, hc1⟩ : ∃ c1 : Cluster, c1 = { c with st := st } := ⟨_, rfl⟩
  have hs' : unitScale g c1 u = some s := by rw [hc1]; exact hs
  have hu1 : c1.units = some u := by rw [hc1]; exact hu
  have ho1 : c1.origin = some o := by rw [hc1]; exact ho
  have f1 : c1.tphys = c.tphys := by rw [hc1]
  have f2 : c1.m = c.m := by rw [hc1]
  have f3 : c1.st = st := by rw [hc1]
  have f4 : c1.c = c.c := by rw [hc1]
  have f5 : c1.gc = c.gc := by rw [hc1]
  rw [← hc1]
  unfold world phys at hw ⊢
  simp only [hu, ho, hs, Option.some.injEq] at hw
  simp only [hu1, ho1, hs', f1, f2, f3, f4, f5]
  refine ⟨_, rfl, ?_⟩
  subst hw
  clear hc1 f1 f2 f3 f4 f5 ho1 hu1 hs'
  refine ⟨⟨rfl, rfl, ?_⟩, rfl, rfl⟩
  unfold World.places galRows
  simp only [List.map_map]
  have key : ∀ {p q : Ph}, place p = place q → Option.map place (galactocentric o (s.ph c.c) (s.ph c.gc) (s.ph p)) =
      Option.map place (galactocentric o (s.ph c.c) (s.ph c.gc) (s.ph q)) := by
    intro p q h
    simp only [place, Prod.mk.injEq] at h
    obtain ⟨h1, h2, h3⟩ := h
    cases o <;> simp [galactocentric, place, phAdd, Scale.ph, h1, h2, h3]
  generalize c.st = l at hp
  induction st generalizing l with
  | nil => cases l <;> simp at hp ⊢
  | cons a st ih =>
    cases l with
    | nil => simp at hp
    | cons b l =>
      simp only [List.map_cons, List.cons.injEq] at hp ⊢
      exact ⟨key hp.1, ih l hp.2⟩

/-- The step relation of the session theorem. -/
def Moved (g : Galpy) (w : World) (vel ctr : Prop) (c' : Cluster) : Prop :=
  ∃ w', Describes g w' c' ∧ Unmoved w w' ∧ (vel → w'.stars = w.stars) ∧ (ctr → w'.centre = w.centre ∧ w'.gc = w.gc)

theorem Unmoved.refl (w : World) : Unmoved w w := ⟨rfl, rfl, rfl⟩
theorem Unmoved.trans {a b c : World} (h : Unmoved a b) (k : Unmoved b c) : Unmoved a c :=
  ⟨k.time.trans h.time, k.mass.trans h.mass, k.places.trans h.places⟩

theorem Moved.of_describes {c' : Cluster} {vel ctr : Prop} (d : Describes g w c') : Moved g w vel ctr c' :=
  ⟨w, d, Unmoved.refl w, fun _ => rfl, fun _ => ⟨rfl, rfl⟩⟩

theorem energiesMethod_back {s f pr : Bool} {soft : ℝ} {e : ECluster} (d : Describes g w e.c) :
    Ok (energiesMethod g s f pr soft e) (fun x => Back g w e.c x.c) := by
  have h0 := Rel.refl d
  unfold energiesMethod
  have k : ∀ c, Rel g w e.c c → Ok (do
      let c2 ← if c.units = some .amuse then CT.toPckms g true c else .ok c
      let r ← CT.energies g s f pr soft c2
      let c4 ← returnCluster g (saveCluster e.c) false none r.2.2
      return addEnergies r.1 r.2.1 { e with c := c4 }) (fun x => Back g w e.c x.c) := by
    intro c h
    have k2 : ∀ c, Rel g w e.c c → Ok (do
        let r ← CT.energies g s f pr soft c
        let c4 ← returnCluster g (saveCluster e.c) false none r.2.2
        return addEnergies r.1 r.2.1 { e with c := c4 }) (fun x => Back g w e.c x.c) := by
      intro c h
      refine Ok.bind (Rel.call h energies_back) (fun r hr => ?_)
      refine Ok.bind (ret_back d hr) (fun c4 h4 => ?_)
      exact Ok.pure h4
    simp only []
    split
    · exact Ok.bind h.toPckms k2
    · exact Ok.bind (Ok.ok h) k2
  simp only []
  split
  · exact Ok.bind h0.toCluster k
  · exact Ok.bind (Ok.ok h0) k

theorem virializeFactor_back {q : ℝ} {pr : Bool} {soft : ℝ} {e : ECluster} (d : Describes g w e.c) :
    Ok (virializeFactor g q pr soft e) (fun x => Back g w e.c x.2.c) := by
  have h0 := Rel.refl d
  unfold virializeFactor
  have k : ∀ c, Rel g w e.c c → Ok (do
      let e2 ← ensureQvir g pr soft { e with c := c }
      let c3 ← returnCluster g (saveCluster e.c) false none e2.c
      return (Real.sqrt |q / e2.qvir.getD 0|, { e2 with c := c3 })) (fun x => Back g w e.c x.2.c) := by
    intro c h
    have hq : Ok (ensureQvir g pr soft { e with c := c }) (fun x => Rel g w e.c x.c) := by
      unfold ensureQvir
      cases e.qvir with
      | some _ => exact Ok.ok h
      | none => exact Ok.mono (energiesMethod_back (e := { e with c := c, qvir := none }) h.1) (fun x hx => h.trans hx.rel)
    refine Ok.bind hq (fun e2 h2 => ?_)
    refine Ok.bind (ret_back d h2) (fun c3 h3 => ?_)
    exact Ok.pure h3
  split
  · exact Ok.bind h0.toCentre k
  · exact Ok.bind (Ok.ok h0) k

/-- Returning a cluster whose velocities have been changed. -/
theorem return_newVel {c0 c : Cluster} {st : List Ph} {s : Bool} {cm : Option CentreMethod} (d : Describes g w c0) (h : Rel g w c0 c)
    (hp : st.map place = c.st.map place) : Ok (returnCluster g (saveCluster c0) s cm { c with st := st }) (Moved g w False True) := by
  intro c' e
  obtain ⟨dc, hr⟩ := h
  obtain ⟨w', hw', hs, hc, hgc⟩ := world_newVel dc.world dc.lin hp
  have hlen : st.length = c.st.length := by simpa using congrArg List.length hp
  obtain ⟨⟨u0, hu0, hul0⟩, ⟨o0, ho0, hol0⟩⟩ := d.lin
  have hll : c0.st.length = c.st.length := by
    have a := d.world
    have b := dc.world
    obtain ⟨⟨u, hu, hul⟩, ⟨o, ho, hol⟩⟩ := dc.lin
    obtain ⟨s0, hs0⟩ := unitScale_linear (g := g) (c := c0) hul0
    obtain ⟨s1, hs1⟩ := unitScale_linear (g := g) (c := c) hul
    unfold world phys at a b
    simp only [hu0, ho0, hs0, hu, ho, hs1, Option.some.injEq] at a b
    have := congrArg (fun w : World => w.stars.length) (a.trans b.symm)
    simpa [galRows] using this
  obtain ⟨c1, hc1⟩ : ∃ c1 : Cluster, c1 = { c with st := st } := ⟨_, rfl⟩
  have g1 : Good c1 := by
    subst hc1
    have hne : st ≠ [] := by
      rintro rfl
      exact dc.good.ne (List.length_eq_zero_iff.mp hlen.symm)
    exact ⟨hne, by rw [hlen]; exact dc.good.len, dc.good.mass, fun x hx => by rw [hlen]; exact dc.good.ro x hx,
      fun x hx => by rw [hlen]; exact dc.good.rpo x hx⟩
  have p1 : Pos g c1 := by subst hc1; exact ⟨dc.pos.rbar, dc.pos.vbar, dc.pos.zmbar, dc.pos.tbar, dc.pos.ro, dc.pos.vo, dc.pos.time, dc.pos.mass, dc.pos.vel⟩
  have l1 : Lin c1 := by subst hc1; exact ⟨dc.lin.1, dc.lin.2⟩
  rw [← hc1] at e hw'
  have hl1 : c1.st.length = c0.st.length := by rw [hc1, hll]; exact hlen
  obtain ⟨x, e', hwx, hux, hox, hrx, fx, gx⟩ := return_to (u := u0) (o := o0) (r := c0.rorder) (ro := c0.rorderOrigin) (sort := s) (cm := cm) p1 g1 l1
    hul0 hol0 (fun y hy => by rw [hl1]; exact d.good.ro y hy)
  have e2 := e
  unfold saveCluster at e
  rw [hu0, ho0, e'] at e
  cases e
  have px := p1.of_rest hrx
  have lx : Lin c' := ⟨⟨u0, hux, hul0⟩, ⟨o0, hox, hol0⟩⟩
  refine ⟨w', ⟨px, lx, gx, fx, hwx.trans hw', ?_⟩, hs, fun h => h.elim, fun _ => ⟨hc, hgc⟩⟩
  unfold returnCluster saveCluster at e2
  simp only [hu0, ho0, bind] at e2
  obtain ⟨x1, e2⟩ := bind_ite_ok e2
  obtain ⟨x2, e2⟩ := bind_ite_ok e2
  refine OrderInv.analyze px lx (hwx.trans hw') (c := { x2 with rorder := c0.rorder, rorderOrigin := c0.rorderOrigin }) ?_ e2
  refine d.order.congr rfl rfl (places_length hs.places) (fun o _ f _ k => ?_)
  exact radius_of_places hs.places (by rw [hc, hgc])

theorem virialize_moved {q : ℝ} {pr : Bool} {soft : ℝ} {e : ECluster} (d : Describes g w e.c) :
    Ok (virialize g q pr soft e) (fun x => Moved g w False True x.c) := by
  unfold virialize
  refine Ok.bind (virializeFactor_back d) (fun r hr => ?_)
  have dr := hr.1
  have h0 := Rel.refl dr
  have k : ∀ c, Rel g w r.2.c c → Ok (do
      let c3 ← returnCluster g (saveCluster r.2.c) false none { c with st := c.st.map (fun p => p.mulVel r.1) }
      return { r.2 with c := c3 }) (fun x : ECluster => Moved g w False True x.c) := by
    intro c h
    refine Ok.bind (return_newVel dr h ?_) (fun c3 h3 => Ok.pure h3)
    rw [List.map_map]
    exact List.map_congr_left (fun p _ => by simp [place, Ph.mulVel])
  simp only []
  split
  · exact Ok.bind h0.toCentre k
  · exact Ok.bind (Ok.ok h0) k

theorem addRotation_moved {qrot : ℝ} {draws : List ℝ} {c : Cluster} (d : Describes g w c) (ho : c.origin = some .cluster ∨ c.origin = some .centre)
    (hd : draws.length = c.st.length) : Ok (addRotationMethod g qrot draws c) (Moved g w False True) := by
  intro c' h
  obtain ⟨x, hx, hdat, hlen, hrows, hf⟩ := C70_add_rotation (qrot := qrot) (draws := draws) d.pos d.lin d.good ho hd
  rw [h] at hx
  cases hx
  have hno : ¬ (c.origin ≠ some .cluster ∧ c.origin ≠ some .centre) := by rcases ho with h | h <;> simp [h]
  unfold addRotationMethod addRotation at h
  simp only [if_neg hno, bind, Except.bind] at h
  cases hret : returnCluster g (saveCluster c) false none c with
  | error e => rw [hret] at h; cases h
  | ok c2 =>
    rw [hret] at h
    simp only [pure, Except.pure, Except.ok.injEq] at h
    obtain ⟨d2, r2, e2⟩ := ret_back d (Rel.refl d) c2 hret
    have hst2 : c2.st = c.st := congrArg Data.st e2
    have hp : c'.st.map place = c2.st.map place := by
      rw [hst2]
      refine List.ext_getElem (by simpa using hlen) (fun i h1 h2 => ?_)
      have hi : i < c.st.length := by simpa using h2
      have hi' : i < c'.st.length := by omega
      have := hrows i hi
      rw [getElem!_pos c.st i hi, getElem!_pos c'.st i hi'] at this
      simp [place, this.x, this.y, this.z]
    obtain ⟨w', hw', hs, hc, hgc⟩ := world_newVel (st := c'.st) d2.world d2.lin hp
    have e' : c' = { c2 with st := c'.st } := by rw [← h]
    have hl2 : c'.st.length = c2.st.length := by rw [hlen, hst2]
    refine ⟨w', ⟨?_, ?_, ?_, hf, ?_, ?_⟩, hs, fun h => h.elim, fun _ => ⟨hc, hgc⟩⟩
    · rw [e']; exact ⟨d2.pos.rbar, d2.pos.vbar, d2.pos.zmbar, d2.pos.tbar, d2.pos.ro, d2.pos.vo, d2.pos.time, d2.pos.mass, d2.pos.vel⟩
    · rw [e']; exact ⟨d2.lin.1, d2.lin.2⟩
    · have hne : c'.st ≠ [] := fun h0 => d2.good.ne (by
        have : c2.st.length = 0 := by rw [← hl2, h0]; rfl
        exact List.length_eq_zero_iff.mp this)
      rw [e']
      exact ⟨hne, by rw [hl2]; exact d2.good.len, d2.good.mass, fun x hx => by rw [hl2]; exact d2.good.ro x hx,
        fun x hx => by rw [hl2]; exact d2.good.rpo x hx⟩
    · rw [e']; exact hw'
    · refine d2.order.congr (by rw [← h]) (by rw [← h]) (places_length hs.places) (fun o _ f _ k => ?_)
      exact radius_of_places hs.places (by rw [hc, hgc])

theorem resetNbodyScale_moved {m r v pr : Bool} {c : Cluster} (d : Describes g w c) (hu : c.units ≠ some .nbody)
    (hpos : ∀ c', resetNbodyScale g m r v pr c = .ok c' → 0 < c'.zmbar ∧ 0 < c'.rbar) :
    Ok (resetNbodyScale g m r v pr c) (fun c' => Describes g w c' ∧ c'.data = c.data) := by
  have h0 := Rel.refl d
  have k : Ok (resetNbodyScale g m r v pr c) (fun c' => ∃ c3, Back g w c c3 ∧ ∃ z b, c' = { c3 with
      zmbar := z
      rbar := b
      vbar := 0.06557 * Real.sqrt (z / b)
      tbar := b / (1.023 * (0.06557 * Real.sqrt (z / b))) }) := by
    unfold resetNbodyScale
    have k1 : ∀ c1, Rel g w c c1 → Ok (do
        let c2 ← toPckms g true c1
        let zmbar := if m then c2.m.sum else c2.zmbar
        let rbar ←
          if r then
            if v then .ok (virialRadius true pr c2.m c2.st)
            else match c2.d.rm with
              | some rm => .ok (4 * rm / 3)
              | none => .error .valueError
          else .ok c2.rbar
        let vbar := 0.06557 * Real.sqrt (zmbar / rbar)
        let tbar := rbar / (1.023 * vbar)
        let c3 ← returnCluster g (saveCluster c) false none c2
        return { c3 with zmbar := zmbar, rbar := rbar, vbar := vbar, tbar := tbar }) (fun c' => ∃ c3, Back g w c c3 ∧ ∃ z b, c' = { c3 with
          zmbar := z
          rbar := b
          vbar := 0.06557 * Real.sqrt (z / b)
          tbar := b / (1.023 * (0.06557 * Real.sqrt (z / b))) }) := by
      intro c1 h1
      refine Ok.bind h1.toPckms (fun c2 h2 => ?_)
      have k2 : ∀ b : ℝ, Ok (do
          let c3 ← returnCluster g (saveCluster c) false none c2
          return { c3 with
            zmbar := if m then c2.m.sum else c2.zmbar
            rbar := b
            vbar := 0.06557 * Real.sqrt ((if m then c2.m.sum else c2.zmbar) / b)
            tbar := b / (1.023 * (0.06557 * Real.sqrt ((if m then c2.m.sum else c2.zmbar) / b))) })
          (fun c' => ∃ c3, Back g w c c3 ∧ ∃ z b, c' = { c3 with
            zmbar := z
            rbar := b
            vbar := 0.06557 * Real.sqrt (z / b)
            tbar := b / (1.023 * (0.06557 * Real.sqrt (z / b))) }) := by
        intro b
        refine Ok.bind (ret_back d h2) (fun c3 h3 => ?_)
        exact Ok.pure ⟨c3, h3, _, b, rfl⟩
      simp only []
      split
      · split
        · exact Ok.bind Ok.any (fun b _ => k2 b)
        · cases c2.d.rm with
          | none => exact Ok.bind (P := fun _ => False) Ok.err (fun _ h => h.elim)
          | some rm => exact k2 (4 * rm / 3)
      · exact Ok.bind Ok.any (fun b _ => k2 b)
    simp only []
    split
    · exact Ok.bind h0.toCentre k1
    · exact Ok.bind (Ok.ok h0) k1
  intro c' h
  obtain ⟨c3, ⟨d3, r3, e3⟩, z, b, rfl⟩ := k c' h
  obtain ⟨hz, hb⟩ := hpos _ h
  simp only at hz hb
  have hu3 : c3.units ≠ some .nbody := by rw [show c3.units = c.units from congrArg Data.units e3]; exact hu
  have hv : 0 < 0.06557 * Real.sqrt (z / b) := by
    have : 0 < Real.sqrt (z / b) := Real.sqrt_pos.mpr (div_pos hz hb)
    positivity
  refine ⟨⟨⟨hb, hv, hz, by show 0 < b / (1.023 * _); positivity, d3.pos.ro, d3.pos.vo, d3.pos.time, d3.pos.mass, d3.pos.vel⟩, ⟨d3.lin.1, d3.lin.2⟩,
    ⟨d3.good.ne, d3.good.len, d3.good.mass, d3.good.ro, d3.good.rpo⟩,
    ⟨d3.fresh.units, d3.fresh.origin, d3.fresh.r, d3.fresh.rpro, d3.fresh.v, d3.fresh.vpro, d3.fresh.mtot, d3.fresh.mmean, d3.fresh.rmean,
      d3.fresh.rmeanpro, d3.fresh.rmax, d3.fresh.rmaxpro⟩, ?_, d3.order.of_eq rfl rfl⟩, e3⟩
  refine Eq.trans ?_ d3.world
  obtain ⟨u, hu', -⟩ := d3.lin.1
  unfold world
  have : phys g { c3 with
      zmbar := z
      rbar := b
      vbar := 0.06557 * Real.sqrt (z / b)
      tbar := b / (1.023 * (0.06557 * Real.sqrt (z / b))) } = phys g c3 := phys_of_data rfl hu3
  rw [this]

/-- Storing a centre: no star moves. -/
theorem setCentre_moved {reset : Bool} {p : Ph} {c : Cluster} (d : Describes g w c) (hh : OrderHere c) :
    ∃ w', Describes g w' (setCentre reset p c) ∧ Unmoved w w' ∧ w'.stars = w.stars := by
  obtain ⟨e1, e2, e3, e4, e5, e6⟩ := setCentre_same reset p c
  obtain ⟨⟨u, hu, hul⟩, ⟨o, ho, hol⟩⟩ := d.lin
  obtain ⟨s, hs⟩ := unitScale_linear (g := g) (c := c) hul
  have hkeep : (setCentre reset p c).tphys = c.tphys ∧ (setCentre reset p c).d = c.d ∧ (setCentre reset p c).rorder = c.rorder ∧
      (setCentre reset p c).rorderOrigin = c.rorderOrigin ∧
      (o = .centre → (setCentre reset p c).c = c.c ∧ (setCentre reset p c).gc = c.gc) ∧ (o = .cluster → (setCentre reset p c).gc = c.gc) := by
    unfold setCentre
    simp only [ho]
    cases o <;> simp only [Origin.linear] at hol <;> simp only []
    all_goals (repeat' split) <;> simp
  obtain ⟨t1, t2, t3, t4, t5, t6⟩ := hkeep
  have hp := d.pos.of_rest e5
  have hw := d.world
  generalize setCentre reset p c = c' at *
  obtain ⟨w', hw'⟩ := world_isSome (g := g) (c := c') (e3.trans hu) hul (e4.trans ho)
  have hs' : unitScale g c' u = some s := by
    obtain ⟨q1, q2, q3, q4⟩ := rest_scales e5
    rw [← hs]; unfold unitScale; rw [q1, q2, q3, q4]
  have hw2 := hw
  have hw2' := hw'
  unfold world phys at hw2 hw2'
  simp only [hu, ho, hs, e3, e4, hs', Option.some.injEq] at hw2 hw2'
  rw [e1, e2, t1] at hw2'
  have hst : w'.stars = w.stars := by
    rw [← hw2, ← hw2']
    simp only
    cases o <;> simp only [Origin.linear] at hol
    · rw [(t5 rfl).1, (t5 rfl).2]
    · rw [t6 rfl]
      unfold galRows
      exact List.map_congr_left (fun x _ => by simp [galactocentric])
    · unfold galRows
      exact List.map_congr_left (fun x _ => by simp [galactocentric])
  have hpl : w'.places = w.places := by unfold World.places; rw [hst]
  have hs0 : Unmoved w w' := ⟨by rw [← hw2, ← hw2'], by rw [← hw2, ← hw2'], hpl⟩
  refine ⟨w', ⟨hp, ⟨⟨u, e3.trans hu, hul⟩, ⟨o, e4.trans ho, hol⟩⟩, e6 d.good, ?_, hw', ?_⟩, hs0, hst⟩
  · have f := d.fresh
    exact ⟨by rw [t2, e3]; exact f.units, by rw [t2, e4]; exact f.origin, by rw [t2, e1]; exact f.r, by rw [t2, e1]; exact f.rpro,
      by rw [t2, e1]; exact f.v, by rw [t2, e1]; exact f.vpro, by rw [t2, e2]; exact f.mtot, by rw [t2, e2]; exact f.mmean,
      by rw [t2, e1]; exact f.rmean, by rw [t2, e1]; exact f.rmeanpro, by rw [t2]; exact f.rmax, by rw [t2]; exact f.rmaxpro⟩
  · refine d.order.congr t3 t4 (places_length hpl) (fun x hx f hf k => ?_)
    have : f = o := by have := hh x hx; rw [hf, ho] at this; injection this
    subst this
    refine radius_of_places hpl ?_
    rw [← hw2, ← hw2']
    simp only
    cases f <;> simp only [Origin.linear] at hol <;> simp only [frameOffset]
    · rw [(t5 rfl).1, (t5 rfl).2]
    · rw [t6 rfl]

/-- A cluster that has been returned is sorted for the frame it is in. -/
theorem ret_here {c0 c : Cluster} {s : Bool} {cm : Option CentreMethod} (l : Lin c0) :
    Ok (returnCluster g (saveCluster c0) s cm c) OrderHere := by
  intro c' e
  obtain ⟨⟨u0, hu0, -⟩, ⟨o0, ho0, -⟩⟩ := l
  unfold returnCluster saveCluster at e
  simp only [hu0, ho0, bind] at e
  obtain ⟨x1, e⟩ := bind_ite_ok e
  obtain ⟨x2, e⟩ := bind_ite_ok e
  obtain ⟨o, k1, k2, -⟩ := analyze_rorder_sorted e
  intro x hx
  rw [k2]
  exact ((core_fields (analyze_core e)).2.1).symm

theorem findCentre_here {a : CentreArgs} {meth : DensityMethod} {fuel : ℕ} {mask : Option (List Bool)} {ids : List ℤ} {c : Cluster}
    (hm : ∀ m, mask = some m → true ∈ m) (l : Lin c) : Ok (findCentre g a meth fuel mask ids c) (fun x => OrderHere x.2) := by
  have hz : ¬ (mask.map (fun m => m.count true)).getD 1 = 0 := by
    cases mask with
    | none => simp
    | some m => simpa [List.count_eq_zero] using hm m rfl
  have k : ∀ (r : Option Ph) (c2 : Cluster), Ok (do
      let c3 ← returnCluster g (saveCluster c) false none c2
      return (r, c3)) (fun x : Option Ph × Cluster => OrderHere x.2) :=
    fun r c2 => Ok.bind (ret_here l) (fun c3 h3 => Ok.pure h3)
  unfold findCentre
  simp only [if_neg hz]
  split
  · refine Ok.bind Ok.any (fun c1 _ => Ok.bind Ok.any (fun r _ => ?_))
    exact Ok.ite (fun _ => Ok.bind Ok.any (fun c2 _ => k r c2)) (fun _ => Ok.bind Ok.any (fun c2 _ => k r c2))
  · refine Ok.bind Ok.any (fun c1 _ => Ok.bind Ok.any (fun r _ => ?_))
    exact Ok.ite (fun _ => Ok.bind Ok.any (fun c2 _ => k r c2)) (fun _ => Ok.bind Ok.any (fun c2 _ => k r c2))

/-- **C152 (one call).**  A call that changes the cluster, made where it is allowed, leaves an analysed cluster with every star where it was. -/
theorem C152_call {a : XCall} {e : ECluster} (ha : a.Allowed g e) (d : Describes g w e.c) :
    Ok (a.exec g e) (fun e' => Moved g w a.keepsVelocities a.keepsCentre e'.c) := by
  cases a with
  | call a =>
    refine Ok.map ?_
    intro c' h
    have hA := ha w d.world
    cases a with
    | convert op => exact .of_describes ((Rel.refl d).exec op hA.1 hA.2 c' h).1
    | query q => exact .of_describes (C124_call hA d h).1
  | energies s f pr soft => exact (energiesMethod_back d).mono (fun x b => .of_describes b.1)
  | virialize q pr soft =>
    exact (virialize_moved d).mono (fun x ⟨w', h1, h2, _, h4⟩ => ⟨w', h1, h2, fun h => h.elim, fun _ => h4 trivial⟩)
  | addRotation qrot draws =>
    exact Ok.map ((addRotation_moved d ha.1 ha.2).mono (fun x ⟨w', h1, h2, _, h4⟩ => ⟨w', h1, h2, fun h => h.elim, fun _ => h4 trivial⟩))
  | resetNbodyScale m r v pr =>
    exact Ok.map ((resetNbodyScale_moved d ha.1 ha.2).mono (fun x b => .of_describes b.1))
  | findCentreOfMass reset =>
    refine Ok.ok ?_
    obtain ⟨w', h1, h2, h3⟩ := setCentre_moved (reset := reset) (p := findCentreOfMass e.c) d ha
    exact ⟨w', h1, h2, fun _ => h3, fun h => h.elim⟩
  | findCentre a meth fuel mask ids reset =>
    refine Ok.map ?_
    unfold findCentreMethod
    have hb : Ok (CT.findCentre g a meth fuel mask ids e.c) (fun x => Back g w e.c x.2 ∧ OrderHere x.2) :=
      fun x hx => ⟨findCentre_back ha d x hx, findCentre_here ha d.lin x hx⟩
    refine Ok.bind hb (fun x hx => ?_)
    obtain ⟨r, c1⟩ := x
    obtain ⟨hb1, hb2⟩ := hx
    refine Ok.pure ?_
    cases r with
    | none => exact .of_describes hb1.1
    | some p =>
      obtain ⟨w', h1, h2, h3⟩ := setCentre_moved (reset := reset) (p := p) hb1.1 hb2
      exact ⟨w', h1, h2, fun _ => h3, fun h => h.elim⟩

/-- **C152 (sessions).**  Take any session, of any length, of conversions, analysis calls, energies, `virialize`, `add_rotation`, `reset_nbody_scale` and
centre finders, each made where it is allowed.  If it does not raise, the cluster it leaves is analysed (derived quantities and stored order
belong to it) and has the same stars at the same time, with the same masses and at the same places in the galaxy.  The velocities are also the
same unless `virialize` or `add_rotation` was called, and the centre and the orbit position unless a centre finder was. -/
theorem C152_session : ∀ {l : List XCall} {w : World} {e e' : ECluster}, Allowed g l e → Describes g w e.c → msession g l e = .ok e' →
    ∃ w', Describes g w' e'.c ∧ Unmoved w w' ∧ ((∀ a ∈ l, a.keepsVelocities) → w'.stars = w.stars) ∧
      ((∀ a ∈ l, a.keepsCentre) → w'.centre = w.centre ∧ w'.gc = w.gc) := by
  intro l
  induction l with
  | nil =>
    intro w e e' _ d h
    cases h
    exact ⟨w, d, Unmoved.refl w, fun _ => rfl, fun _ => ⟨rfl, rfl⟩⟩
  | cons a l ih =>
    intro w e e' hl d h
    obtain ⟨e1, h1, h2⟩ := bind_ok h
    obtain ⟨w1, d1, s1, v1, c1⟩ := C152_call hl.1 d e1 h1
    obtain ⟨w2, d2, s2, v2, c2⟩ := ih (hl.2 e1 h1) d1 h2
    refine ⟨w2, d2, s1.trans s2, fun hv => ?_, fun hc => ?_⟩
    · exact (v2 (fun b hb => hv b (by simp [hb]))).trans (v1 (hv a (by simp)))
    · obtain ⟨a1, a2⟩ := c2 (fun b hb => hc b (by simp [hb]))
      obtain ⟨b1, b2⟩ := c1 (hc a (by simp))
      exact ⟨a1.trans b1, a2.trans b2⟩

/-! ### C153 -/

/-- An order that carries the label of the current frame is not made anew. -/
theorem analyze_keeps {s p : Bool} {c c' : Cluster} {o : List ℕ} (ho : c.rorder = some o) (hl : c.rorderOrigin = c.origin)
    (hn : o.length = c.st.length) (h : analyze s c p = .ok c') : c'.rorder = some o := by
  have key : ∀ (pr : Bool) (r rp : List ℝ), r.length = c.st.length → (sortstars pr r rp c).rorder = some o := by
    intro pr r rp hr
    unfold sortstars
    simp only [ho, hl, hr, hn]
    simp only [ne_eq, not_true_eq_false, or_self, if_false]
    repeat' split
    all_goals exact ho
  unfold analyze at h
  simp only [bind, Except.bind, pure, Except.pure] at h
  split at h
  · cases h
  · split at h
    · cases h
    · split at h
      · cases h
      · injection h with h
        rw [← h]
        show (if s = true then _ else c).rorder = some o
        split
        · exact key _ _ _ (by simp)
        · exact ho

/-- **C153 is violated:** a cluster seen from its position on its orbit that still has the radial order of its centre frame keeps that order when
another centre is stored and `to_centre()` is called, whatever the new centre is. -/
theorem C153_order_not_renewed_violated {s reset : Bool} {cm : Option CentreMethod} {p : Ph} {c c' : Cluster} {o : List ℕ} (hg : Good c)
    (hu : c.units ≠ some .radec) (ho : c.origin = some .cluster) (hr : c.rorder = some o) (hl : c.rorderOrigin = some .centre)
    (h : toCentre s cm (setCentre reset p c) = .ok c') : c'.rorder = some o ∧ c'.st = seenFrom p c.st := by
  constructor
  · have e : setCentre reset p c = { c with c := p } := by simp [setCentre, ho]
    have hn : o.length = c.st.length := by simpa [IsOrder] using (hg.ro o hr).length_eq
    obtain ⟨d, hd⟩ : ∃ d : Cluster, d = { c with c := p } := ⟨_, rfl⟩
    have ho' : d.origin = some .cluster := by rw [hd]; exact ho
    obtain ⟨d1, hd1⟩ : ∃ d1 : Cluster, d1 = setMethod cm d := ⟨_, rfl⟩
    have hu' : d1.units ≠ some .radec := by rw [hd1, hd]; cases cm <;> exact hu
    have hst : d1.st = c.st := by rw [hd1, hd]; cases cm <;> rfl
    have hr' : d1.rorder = some o := by rw [hd1, hd]; cases cm <;> exact hr
    have hl' : d1.rorderOrigin = some .centre := by rw [hd1, hd]; cases cm <;> exact hl
    rw [e, ← hd] at h
    unfold toCentre at h
    simp only [ho', ← hd1, if_neg hu', bind, Except.bind, ne_eq, reduceCtorEq, not_false_eq_true, not_true_eq_false, if_true, if_false] at h
    exact analyze_keeps (c := { d1 with st := d1.st.map (·.sub d1.c), origin := some .centre }) hr' hl' (by simp [hst, hn]) h
  · obtain ⟨x, hx, -, -, -, k⟩ := C50_centred (reset := reset) (s := s) (cm := cm) (p := p) hu (.inl ho) hg (by simp [ho])
    rw [h] at hx
    cases hx
    exact k

/-- Two stars on a line, the heavier one away from the stored centre. -/
def demoFind : Cluster :=
  { demo with
    st := [⟨0, 0, 0, 0, 0, 0⟩, ⟨3, 0, 0, 0, 0, 0⟩]
    c := ⟨0, 0, 0, 0, 0, 0⟩
    rorder := none
    rproorder := none }

/-- **C153 is violated by a sequence of public calls:** `to_centre()`, `to_cluster(sortstars=False)`, `find_centre_of_mass()`, `to_centre()`.  The
stars are then at distances 2.25 and 0.75 from the centre, the stored order says the first one is nearer, and the 10 per cent radius of the
analysis is 2.25 although the other star alone has three quarters of the mass. -/
theorem C153_stored_centre_violated : ∃ c1 c2 c3, Good demoFind ∧ Pos demoG demoFind ∧ Lin demoFind ∧
    toCentre true none demoFind = .ok c1 ∧ toCluster false none c1 = .ok c2 ∧ toCentre true none (findCentreOfMassMethod false c2).2 = .ok c3 ∧
    c3.st.map Ph.r = [2.25, 0.75] ∧ c3.rorder = some [0, 1] ∧ c3.rorderOrigin = some .centre ∧ c3.origin = some .centre ∧
    c3.d.r10 = some 2.25 ∧ ¬ IsMassRadius 0.1 c3.m (c3.st.map Ph.r) 2.25 := by
  have hg : Good demoFind := ⟨by simp [demoFind], by simp [demoFind, demo], by norm_num [demoFind, demo], by simp [demoFind], by simp [demoFind]⟩
  have hp : Pos demoG demoFind := ⟨demo_pos.rbar, demo_pos.vbar, demo_pos.zmbar, demo_pos.tbar, demo_pos.ro, demo_pos.vo, demo_pos.time,
    demo_pos.mass, demo_pos.vel⟩
  have hl : Lin demoFind := ⟨demo_lin.units, demo_lin.origin⟩
  obtain ⟨c1, h1, g1⟩ := toCentre_total (s := true) (cm := none) (c := demoFind) (by simp [demoFind, demo]) hg
  have os1 := toCentre_ostep (o := .cluster) rfl trivial (by simp [demoFind, demo]) h1
  have h1' := h1
  simp only [toCentre, demoFind, demo, bind, Except.bind, setMethod] at h1'
  simp at h1'
  have k1 := core_fields (analyze_core h1')
  have st1 : c1.st = [⟨0, 0, 0, 0, 0, 0⟩, ⟨3, 0, 0, 0, 0, 0⟩] := by
    rw [k1.2.2.2.2.1]; simp [Ph.sub]
  obtain ⟨o1, a1, a2, a3⟩ := analyze_rorder_sorted h1'
  have ho1 : o1 = [0, 1] := by
    have hso : SortedBy [(0 : ℝ), 3] o1 := by
      rcases a3 with rfl | ⟨a3, -⟩
      · have := SortedBy.argsort [(0 : ℝ), 3]
        simpa [Ph.sub, Ph.r, Real.sqrt_sq_eq_abs] using this
      · simp at a3
    obtain ⟨hp, hs⟩ := hso
    have hlen : o1.length = 2 := by rw [hp.length_eq, List.length_range]; rfl
    clear a1 a3
    match o1, hlen, hp, hs with
    | [x, y], _, hp, hs =>
      have hx : x = 0 ∨ x = 1 := by
        have := (hp.mem_iff (a := x)).mp (by simp); simp at this; omega
      have hy : y = 0 ∨ y = 1 := by
        have := (hp.mem_iff (a := y)).mp (by simp); simp at this; omega
      have hne : x ≠ y := by
        have := hp.nodup_iff.mpr List.nodup_range
        simp at this; exact this
      rcases hx with rfl | rfl <;> rcases hy with rfl | rfl
      · exact absurd rfl hne
      · rfl
      · simp only [List.pairwise_cons, List.mem_cons, List.not_mem_nil, or_false, forall_eq] at hs
        have := hs.1
        norm_num at this
      · exact absurd rfl hne
  subst ho1
  have u1 : c1.units = some .pckms := os1.units
  have m1 : c1.m = [1, 3] := os1.m
  have cc1 : c1.c = ⟨0, 0, 0, 0, 0, 0⟩ := os1.ctr
  obtain ⟨c2, h2, g2⟩ := toCluster_total (s := false) (cm := none) (c := c1) (by rw [u1]; simp) g1
  have os2 := toCluster_ostep os1.origin trivial (by rw [u1]; simp) h2
  have h2' := h2
  unfold toCluster at h2'
  simp only [os1.origin, bind, Except.bind, setMethod, u1, ne_eq, reduceCtorEq, not_false_eq_true, if_true, if_false, Option.some.injEq] at h2'
  have k2 := core_fields (analyze_core h2')
  have st2 : c2.st = [⟨0, 0, 0, 0, 0, 0⟩, ⟨3, 0, 0, 0, 0, 0⟩] := by
    rw [k2.2.2.2.2.1]; simp [st1, cc1, Ph.add]
  have r2 : c2.rorder = some [0, 1] ∧ c2.rorderOrigin = some .centre := by
    rcases analyze_rorder h2' with ⟨q1, q2⟩ | ⟨q, -⟩
    · exact ⟨q1.trans a1, q2.trans (a2.trans rfl)⟩
    · cases q
  have u2 : c2.units = some .pckms := os2.units.trans u1
  have m2 : c2.m = [1, 3] := os2.m.trans m1
  have com : findCentreOfMass c2 = ⟨2.25, 0, 0, 0, 0, 0⟩ := by
    unfold findCentreOfMass comOfStars
    rw [m2, st2]
    simp [wmean]
    norm_num
  obtain ⟨c3, h3, o3, -, m3, st3⟩ := C50_centred (reset := false) (s := true) (cm := none) (p := findCentreOfMass c2) (c := c2) (by rw [u2]; simp)
    (.inl os2.origin) g2 (by rw [os2.origin]; simp)
  obtain ⟨r3, -⟩ := C153_order_not_renewed_violated g2 (by rw [u2]; simp) os2.origin r2.1 r2.2 h3
  have hr : c3.st.map Ph.r = [2.25, 0.75] := by
    rw [st3, st2, com]
    simp [seenFrom, Ph.r, Real.sqrt_sq_eq_abs]
    norm_num
  have hm : c3.m = [1, 3] := m3.trans m2
  have e : setCentre false (findCentreOfMass c2) c2 = { c2 with c := findCentreOfMass c2 } := by simp [setCentre, os2.origin]
  have h3' := h3
  rw [e] at h3'
  unfold toCentre at h3'
  simp only [os2.origin, bind, Except.bind, setMethod, u2, ne_eq, reduceCtorEq, not_false_eq_true, not_true_eq_false, if_true, if_false,
    Option.some.injEq] at h3'
  have k3 := core_fields (analyze_core h3')
  obtain ⟨o', b1, b2, -⟩ := analyze_rorder_sorted h3'
  obtain ⟨a, b, -, hb, -, eb⟩ := analyze_rm h3' r3
  refine ⟨c1, c2, c3, hg, hp, hl, h1, h2, h3, hr, r3, b2, o3, ?_, ?_⟩
  · rw [hb]
    rw [← k3.2.2.2.2.1, ← k3.2.2.2.1, hr, hm] at eb
    have e : massFracRadius 0.1 ([1, 3] : List ℝ).sum [1, 3] [2.25, 0.75] [0, 1] = .ok 2.25 := by
      simp [massFracRadius, cumsum, cumsumFrom, List.findIdx?_cons]
      norm_num
    rw [e] at eb
    cases eb; rfl
  · rw [hr, hm]
    rintro ⟨-, -, h3⟩
    have := h3 0.75 (by simp) (by norm_num)
    simp [massWhere] at this
    norm_num at this

theorem describes_count {c : Cluster} (d : Describes g w c) : w.stars.length = c.st.length := by
  obtain ⟨⟨u, hu, hul⟩, ⟨o, ho, hol⟩⟩ := d.lin
  obtain ⟨s, hs⟩ := unitScale_linear (g := g) (c := c) hul
  have hw := d.world
  unfold world phys at hw
  simp only [hu, ho, hs, Option.some.injEq] at hw
  rw [← hw]
  simp [galRows]

theorem addRotation_here {qrot : ℝ} {draws : List ℝ} {c : Cluster} (l : Lin c) : Ok (addRotationMethod g qrot draws c) OrderHere := by
  unfold addRotationMethod
  refine Ok.bind (P := fun x => OrderHere x.2) ?_ (fun x hx => Ok.pure hx)
  unfold addRotation
  have k : ∀ c1 : Cluster, Ok (do
      let c2 ← returnCluster g (saveCluster c) false none c1
      return (List.zipWith (rotateStar qrot) draws c1.st, c2)) (fun x => OrderHere x.2) :=
    fun c1 => Ok.bind (ret_here l) (fun c3 h3 => Ok.pure h3)
  split
  · exact Ok.bind Ok.any (fun c1 _ => k c1)
  · exact Ok.bind Ok.any (fun c1 _ => k c1)

/-- C152 applies to a session with new velocities, a rotation, a stored centre and a conversion, on a two-star cluster. -/
example : ∃ (w w' : World) (l : List XCall) (e e' : ECluster), l = [.virialize 0.5 false 0, .addRotation 0.5 [0.3, 0.9], .findCentreOfMass false,
      .call (.convert (.toGalaxy true))] ∧ Describes demoG w e.c ∧ e.c.origin = some .cluster ∧ Allowed demoG l e ∧
    msession demoG l e = .ok e' ∧ Describes demoG w' e'.c ∧ Unmoved w w' := by
  obtain ⟨c, w, h0, p, lc, hg, f, hm, hM, hw, i, hu, hn, -⟩ := demo_analysed
  have kc := core_fields (analyze_core h0)
  have d : Describes demoG w c := ⟨p, lc, hg, f, hw, i⟩
  have st0 : c.st = [⟨3, 0, 4, 1, 0, 0⟩, ⟨0, 1, 0, 0, -2, 5⟩] := kc.2.2.2.2.1
  have m0 : c.m = [1, 3] := kc.2.2.2.1
  have o0 : c.origin = some .cluster := kc.2.1
  obtain ⟨e, he⟩ : ∃ e : ECluster, e = ⟨c, [], [], 0, 0, none⟩ := ⟨_, rfl⟩
  have ec : e.c = c := by rw [he]
  have hD : Distinct false e.c.st := by
    rw [ec, st0]
    intro a b ha hb hne
    simp only [List.length_cons, List.length_nil, Nat.reduceAdd] at ha hb
    have : (a = 0 ∧ b = 1) ∨ (a = 1 ∧ b = 0) := by omega
    rcases this with ⟨rfl, rfl⟩ | ⟨rfl, rfl⟩ <;> (simp [rowDist]; norm_num)
  obtain ⟨c1, S, e1, ρ, -, h1, -, -, -, -, -, -, -, -, ho1, -⟩ := virialize_run (q := 0.5) (projected := false) (soft := 0) (e := e)
    (by rw [ec]; exact p) (by rw [ec]; exact lc) (by rw [ec]; exact hg) (by rw [ec]; exact f) hD (by rw [ec, m0]; simp)
  have d0 : Describes demoG w e.c := by rw [ec]; exact d
  obtain ⟨w1, d1, s1, -, -⟩ := virialize_moved d0 e1 h1
  have ho1' : e1.c.origin = some .cluster := by rw [ho1, ec]; exact o0
  have hn1 : e1.c.st.length = 2 := by
    have a := describes_count d1
    have b := describes_count d0
    have := places_length s1.places
    rw [ec, hn] at b
    omega
  obtain ⟨c2, h2, -⟩ := C70_add_rotation (qrot := 0.5) (draws := [0.3, 0.9]) d1.pos d1.lin d1.good (.inl ho1') (by rw [hn1]; rfl)
  obtain ⟨w2, d2, s2, -, -⟩ := addRotation_moved d1 (.inl ho1') (by rw [hn1]; rfl) c2 h2
  have here2 := addRotation_here d1.lin c2 h2
  obtain ⟨w3, d3, s3, -⟩ := setCentre_moved (reset := false) (p := findCentreOfMass c2) d2 here2
  have k2 : Op.linear (.toGalaxy true) := by simp [Op.linear, Op.unitTarget, Op.originTarget, Origin.linear]
  obtain ⟨c4, h4, -⟩ := exec_total d3.pos d3.lin k2 d3.good
  have run : msession demoG [.virialize 0.5 false 0, .addRotation 0.5 [0.3, 0.9], .findCentreOfMass false,
      .call (.convert (.toGalaxy true))] e = .ok { e1 with c := c4 } := by
    simp only [msession, XCall.exec, h1, Except.bind, h2, Except.map, SCall.exec, findCentreOfMassMethod, h4]
  have al : Allowed demoG [.virialize 0.5 false 0, .addRotation 0.5 [0.3, 0.9], .findCentreOfMass false,
      .call (.convert (.toGalaxy true))] e := by
    refine ⟨trivial, fun x hx => ?_⟩
    have : x = e1 := by have := hx.symm.trans h1; injection this
    subst this
    refine ⟨⟨.inl ho1', by rw [hn1]; rfl⟩, fun y hy => ?_⟩
    refine ⟨?_, fun z hz => ⟨fun w _ => ⟨k2, trivial⟩, fun _ _ => trivial⟩⟩
    simp only [XCall.exec, h2, Except.map, Except.ok.injEq] at hy
    rw [← hy]
    exact here2
  obtain ⟨w', a1, a2, -⟩ := C152_session al d0 run
  exact ⟨w, w', _, e, _, rfl, d0, by rw [ec]; exact o0, al, run, a1, a2⟩

end

end CT
