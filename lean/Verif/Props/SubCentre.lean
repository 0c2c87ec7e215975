/- `sub_cluster(…, reset_centre=True)`. -/
import Verif.Props.SubReset
import Verif.Props.Mutate
import Verif.Lemmas.SessionQ
import Verif.Props.Centre3

namespace CT

noncomputable section

/-- The new cluster with the columns copied, in the branch `reset_centre=True`: without the centre of the parent. -/
def copiedGc (mask : List Bool) (p s : Full) : Full := subOrbitGc p (subEnergies mask p (subBse mask p (subSse mask p (subNbody6 mask p s))))

theorem copiedGc_tab {mask : List Bool} {p s : Full} : ∃ k, (copiedGc mask p s).tab = { (copied mask p s).tab with
    base := { (copied mask p s).tab.base with
      c := (copiedGc mask p s).tab.base.c
      skyGc := k } } := ⟨_, rfl⟩

theorem copiedGc_c {mask : List Bool} {p s : Full} : (copiedGc mask p s).tab.base.c =
    { s.tab.base.c with x := p.tab.base.c.x, y := p.tab.base.c.y, z := p.tab.base.c.z } := by
  have e1 : ∀ x : Full, (subEnergies mask p x).tab = x.tab := by
    intro x; unfold subEnergies; split <;> rfl
  have e2 : ∀ x : Full, (subBse mask p x).tab.base.c = x.tab.base.c := by
    intro x; unfold subBse; split <;> rfl
  have e3 := fun s => (subSse_tab mask p s).1
  have e4 : (subNbody6 mask p s).tab.base.c = { s.tab.base.c with x := p.tab.base.c.x, y := p.tab.base.c.y, z := p.tab.base.c.z } := rfl
  unfold copiedGc subOrbitGc
  simp only [e1, e2, e3]
  exact e4

/-- A new cluster has its centre at zero. -/
theorem addStars_c {a : StarArgs} {n : ℕ} {u : Option Units} {o : Option Origin} {bu : Option BUnits} {tphys : ℝ} {t : Tab} (f : a.Fits n)
    (h : addStars a 0 true true (newTab (newCluster u o bu tphys)) = .ok t) : t.base.c = ⟨0, 0, 0, 0, 0, 0⟩ := by
  unfold addStars at h
  simp only [Nat.lt_irrefl, if_false, bind, Except.bind, if_true, Nat.mul_zero, addSingles_eq f, ((newTab_aligned _).appended (a := a) (n := n)).fix] at h
  obtain ⟨s, hs, s1⟩ : ∃ s, addSkyCols a.expand (appended a n (newTab (newCluster u o bu tphys))) =
      { appended a n (newTab (newCluster u o bu tphys)) with base := s } ∧ s.c = ⟨0, 0, 0, 0, 0, 0⟩ := by
    unfold addSkyCols
    split
    · exact ⟨_, rfl, rfl⟩
    · exact ⟨_, rfl, rfl⟩
  rw [hs] at h
  split at h
  · simp at h
  · rename_i t1 ht1
    obtain ⟨b, rfl, hb⟩ := analyzeTab_base ht1
    have e := Except.ok.inj h
    rw [← e]
    have k := core_fields (analyze_core hb)
    exact k.2.2.2.2.2.1.trans s1

/-- With another centre, a cluster about its position or about the galactic centre says the same about its stars. -/
theorem other_centre {g : Galpy} {w : World} {c : Cluster} {u : Units} {s : Scale} (d : Describes g w c) (hh : OrderHere c)
    (ho : c.origin = some .cluster ∨ c.origin = some .galaxy) (hu : c.units = some u) (hs : unitScale g c u = some s) (x k : Ph) :
    Describes g { w with centre := s.ph x } { c with
      c := x
      skyGc := k } := by
  obtain ⟨c', hc'⟩ : ∃ c' : Cluster, c' = { c with
      c := x
      skyGc := k } := ⟨_, rfl⟩
  rw [← hc']
  have e1 : c'.units = c.units := by rw [hc']
  have e2 : c'.origin = c.origin := by rw [hc']
  have hs' : unitScale g c' u = some s := by rw [hc']; exact hs
  have hw : world g c' = some { w with centre := s.ph x } := by
    have hw := d.world
    unfold world phys at hw ⊢
    rcases ho with ho | ho
    all_goals
      simp only [hu, ho, hs, Option.some.injEq] at hw
      simp only [e1, e2, hu, ho, hs', Option.some.injEq]
      rw [← hw, hc']
      rfl
  refine ⟨?_, ?_, ?_, ?_, hw, ?_⟩
  · have p := d.pos
    rw [hc']
    exact ⟨p.rbar, p.vbar, p.zmbar, p.tbar, p.ro, p.vo, p.time, p.mass, p.vel⟩
  · exact ⟨by rw [e1]; exact d.lin.1, by rw [e2]; exact d.lin.2⟩
  · have q := d.good
    rw [hc']
    exact ⟨q.ne, q.len, q.mass, q.ro, q.rpo⟩
  · have f := d.fresh
    rw [hc']
    exact ⟨f.units, f.origin, f.r, f.rpro, f.v, f.vpro, f.mtot, f.mmean, f.rmean, f.rmeanpro, f.rmax, f.rmaxpro⟩
  · refine d.order.congr (by rw [hc']) (by rw [hc']) rfl fun o hr f hf k => ?_
    refine radius_of_places (w := w) (w' := { w with centre := s.ph x }) (f := f) (f' := f) rfl ?_
    have h1 := (hh o hr).symm.trans hf
    rcases ho with ho | ho
    all_goals
      rw [ho] at h1
      cases h1
      rfl

/-- Storing a centre, in the branch `reset_centre=True`. -/
theorem setCentre_world {g : Galpy} {w : World} {c : Cluster} {u : Units} {s : Scale} {o : Origin} (hw : world g c = some w)
    (ho : c.origin = some o) (hol : o = .cluster ∨ o = .galaxy) (hu : c.units = some u) (hs : unitScale g c u = some s) (P : Ph) :
    world g (setCentre true P c) = some (w.recentred o (s.ph P)) := by
  obtain ⟨e1, e2, e3, e4, e5, -⟩ := setCentre_same true P c
  have hs' : unitScale g (setCentre true P c) u = some s := by
    obtain ⟨q1, q2, q3, q4⟩ := rest_scales e5
    rw [← hs]; unfold unitScale; rw [q1, q2, q3, q4]
  have h0 : s.ph ⟨0, 0, 0, 0, 0, 0⟩ = ⟨0, 0, 0, 0, 0, 0⟩ := by simp [Scale.ph]
  unfold world phys at hw ⊢
  rcases hol with rfl | rfl
  all_goals
    simp only [hu, ho, hs, Option.some.injEq] at hw
    simp only [e3, e4, hu, ho, hs', Option.some.injEq]
    rw [← hw, e1, e2]
    unfold setCentre
    simp [ho, World.recentred, h0, galRows, galactocentric]

/-- All stars selected. -/
theorem maskSel_all {α : Type} (l : List α) : maskSel (List.replicate l.length true) l = l := by
  induction l with
  | nil => rfl
  | cons a t ih => simpa [maskSel, List.replicate] using ih

/-- The centre that `sub_cluster` asks for: shrinking spheres on all stars, from zero. -/
theorem recentreSub_run {g : Galpy} {w : World} {c : Cluster} {fuel : ℕ} {ids : List ℤ} (d : Describes g w c) (hf : 100 < fuel) :
    ∃ P R c', recentreSub g fuel ids c = .ok (setCentre true P c') ∧ Back g w c c' ∧ OrderHere c' ∧
      StartRadius ⟨0, 0, 0, 0, 0, 0⟩ none (List.zip c.m c.st) R ∧ Shrinks (List.zip c.m c.st) 100 0.1 ⟨0, 0, 0, 0, 0, 0⟩ R 100 P := by
  have hzl : (List.zip c.m c.st).length = c.st.length := by rw [List.length_zip, d.good.len]; simp
  have hne : List.zip c.m c.st ≠ [] := by
    intro e
    rw [e] at hzl
    exact d.good.ne (List.length_eq_zero_iff.mp hzl.symm)
  obtain ⟨P, R, h1, h2, h3⟩ := C36_harfst (start := ⟨0, 0, 0, 0, 0, 0⟩) (nsphere := 100) (rmin := 0.1) (rmax := none) (nmax := 100) (fuel := fuel)
    (l := List.zip c.m c.st) (Or.inl hne) hf
  obtain ⟨c', k1, -⟩ := findCentre_run (g := g) (a := {}) (meth := .harfst) (fuel := fuel) (mask := none) (ids := ids) (r := some P)
    d.pos d.lin d.good d.fresh (by intro m h; cases h) (by
      unfold centreOf
      rw [if_pos rfl]
      simp only [Option.getD_none]
      rw [← hzl, maskSel_all]
      exact h1)
  refine ⟨P, R, c', ?_, findCentre_back (by intro m h; cases h) d _ k1, findCentre_here (by intro m h; cases h) d.lin _ k1, h2, h3⟩
  unfold recentreSub findCentreMethod
  simp only [k1, bind, Except.bind, pure, Except.pure, Option.map_some, Option.getD_some]

/-- Without new scales, all that is left is to analyze. -/
theorem finishSub_plain {g : Galpy} {w : World} {a : ResetArgs} {c : Cluster} {u : Units} (d : Describes g w c)
    (ha : (a.nbody || a.mass || a.radii) = false) (hu : c.units = some u) (sort : Bool) :
    ∃ c', finishSub g a sort (some u) c = .ok c' ∧ Describes g w c' ∧ c'.units = some u ∧ c'.origin = c.origin ∧ c'.rest = c.rest := by
  simp only [Bool.or_eq_false_iff] at ha
  obtain ⟨⟨a1, a2⟩, a3⟩ := ha
  obtain ⟨c3, h3, g3⟩ := analyze_total (s := sort) (p := true) d.good
  have hc := analyze_core h3
  obtain ⟨k1, k2, -, -, -, -, -, -, -, -, -, kr⟩ := core_fields hc
  have p3 := d.pos.of_rest kr
  have l3 : Lin c3 := ⟨by rw [k1]; exact d.lin.1, by rw [k2]; exact d.lin.2⟩
  have w3 : world g c3 = some w := (world_core hc).trans d.world
  refine ⟨c3, ?_, ⟨p3, l3, g3, analyze_fresh h3, w3, d.order.analyze p3 l3 w3 h3⟩, k1.trans hu, k2, kr⟩
  unfold finishSub newScales
  simp only [a1, a2, a3, Bool.false_eq_true, if_false, Bool.or_self, bind, Except.bind, hu, ne_eq, not_true_eq_false]
  exact h3

/-- The stars named, as the centre finder sees them: mass and row in the units and frame of the cluster. -/
def Full.named (p : Full) (sel : List ℕ) : List MStar := sel.map fun i => (p.tab.base.m[i]!, p.tab.base.st[i]!)

/-- The run, given what happens to the cluster that is filled and has got its columns. -/
theorem recentre_run {g : Galpy} {fuel : ℕ} {a : ResetArgs} {q : SubArgs} {p : Full} {indx : Option ℕ} {mem mem1 : Mem} {k : ℕ} {w : World} {t : Tab}
    {b c0 : Cluster} {c : Ph} (h1 : getSubset q p.view indx mem = .ok (some k, mem1)) (hne : maskPos mem1[k]! ≠ [])
    (B : SubBase g p w mem1[k]! t b c0) (hc : (copiedGc mem1[k]! p (fresh p t)).tab.base.c = c)
    : ∃ kk, ∀ c', (do
      let c ← recentreSub g fuel t.id { c0 with
        c := c
        skyGc := kk }
      finishSub g a true p.tab.base.units c) = .ok c' →
    ∃ s, subClusterRecentre g fuel a q true p indx mem = .ok (s, mem1) ∧ s.tab.base = c' ∧ s.tab.id = (maskPos mem1[k]!).map (fun i => p.tab.id[i]!) := by
  obtain ⟨nb, id2, hb⟩ := B.tab
  obtain ⟨kk, hk⟩ := copiedGc_tab (mask := mem1[k]!) (p := p) (s := fresh p t)
  rw [hb, hc] at hk
  refine ⟨kk, fun c' hf => ?_⟩
  have hid : (copiedGc mem1[k]! p (fresh p t)).tab.id = t.id := by rw [hk]
  refine ⟨{ copiedGc mem1[k]! p (fresh p t) with tab := { (copiedGc mem1[k]! p (fresh p t)).tab with
        x := c'.st.map Ph.x
        y := c'.st.map Ph.y
        z := c'.st.map Ph.z
        vx := c'.st.map Ph.vx
        vy := c'.st.map Ph.vy
        vz := c'.st.map Ph.vz
        m := c'.m
        base := c' } }, ?_, rfl, hid.trans B.id⟩
  unfold subClusterRecentre
  simp only [h1, bind, Except.bind, pure, Except.pure]
  rw [if_pos (count_pos_iff.mpr hne), B.fill]
  simp only
  have e : subOrbitGc p (subEnergies mem1[k]! p (subBse mem1[k]! p (subSse mem1[k]! p (subNbody6 mem1[k]! p
      { newFull (newTab (newCluster p.tab.base.units p.tab.base.origin (bunitsOfUnits p.tab.base.units)
          p.tab.base.tphys)).base with tab := t })))) = copiedGc mem1[k]! p (fresh p t) := rfl
  rw [e]
  have e' : onCluster (fun c => do
      let c ← recentreSub g fuel (copiedGc mem1[k]! p (fresh p t)).tab.id c
      finishSub g a true p.tab.base.units c) (copiedGc mem1[k]! p (fresh p t)).tab = .ok { (copiedGc mem1[k]! p (fresh p t)).tab with
      x := c'.st.map Ph.x
      y := c'.st.map Ph.y
      z := c'.st.map Ph.z
      vx := c'.st.map Ph.vx
      vy := c'.st.map Ph.vy
      vz := c'.st.map Ph.vz
      m := c'.m
      base := c' } := by
    rw [B.now] at hf
    unfold onCluster
    rw [hid, hk]
    simp only [bind, pure, Except.pure] at hf ⊢
    rw [hf]
    rfl
  simp only [bind, Except.bind] at e'
  rw [e']

/-- **C169.**  `sub_cluster(…, reset_centre=True)` of a cluster given about its position or about the galactic centre is the cluster of the selected
stars about their own centre: the same stars at the same places in the galaxy, with their centre (or, about the galactic centre, their position)
at the point that shrinking spheres lead to on the selected stars alone.  New N-body scales, if asked for, are measured about that centre. -/
theorem C169_sub_cluster_centre {g : Galpy} {fuel : ℕ} {a : ResetArgs} {q : SubArgs} {p : Full} {indx : Option ℕ} {mem : Mem} {n : ℕ} {w : World}
    {o : Origin} {u : Units} {s : Scale} (wh : Whole p n) (ok : p.view.Ok q n) (hi : GivenOk indx mem n) (hpm : p.tab.base.m = p.tab.m)
    (pp : Pos g p.tab.base) (hu : p.tab.base.units = some u) (hul : u.linear) (ho : p.tab.base.origin = some o)
    (hol : o = .cluster ∨ o = .galaxy) (hs : unitScale g p.tab.base u = some s) (hw : world g p.tab.base = some w) (hm : ∀ x ∈ p.tab.m, 0 < x)
    (hk : a.rvirial = true → a.kw = []) (hf : 100 < fuel) :
    ∃ sel : List ℕ, sel.Pairwise (· < ·) ∧ (∀ i, i ∈ sel ↔ i < n ∧ given indx mem i ∧ Passes q p.view i) ∧
      (sel ≠ [] → ((a.nbody || a.mass || a.radii) = true → ∀ P R L, Shrinks (p.named sel) 100 0.1 ⟨0, 0, 0, 0, 0, 0⟩ R 100 P →
          ((w.only sel).recentred o (s.ph P)).UnitOfLength (workFrame p.tab.base) a.rvirial a.projected L → 0 < L) →
        ∃ s' mem' P R, subClusterRecentre g fuel a q true p indx mem = .ok (s', mem') ∧
          StartRadius ⟨0, 0, 0, 0, 0, 0⟩ none (p.named sel) R ∧ Shrinks (p.named sel) 100 0.1 ⟨0, 0, 0, 0, 0, 0⟩ R 100 P ∧
          Describes g ((w.only sel).recentred o (s.ph P)) s'.tab.base ∧
          s'.tab.base.units = p.tab.base.units ∧ s'.tab.base.origin = p.tab.base.origin ∧ s'.tab.id = sel.map (fun i => p.tab.id[i]!) ∧
          if (a.nbody || a.mass || a.radii) = true then
            ∃ L, Scales s'.tab.base (if a.nbody || a.mass then (w.only sel).mass.sum else p.tab.base.zmbar) L ∧
              ((w.only sel).recentred o (s.ph P)).UnitOfLength (workFrame p.tab.base) a.rvirial a.projected L
          else s'.tab.base.zmbar = p.tab.base.zmbar ∧ s'.tab.base.rbar = p.tab.base.rbar) := by
  obtain ⟨k, mem1, h1, hmk⟩ := subset_any ok hi
  refine ⟨maskPos mem1[k]!, maskPos_sorted _, ?_, ?_⟩
  · intro i
    rw [mem_maskPos, hmk.len]
    constructor
    · rintro ⟨h1, h2⟩; exact ⟨h1, (hmk.val i h1).mp h2⟩
    · rintro ⟨h1, h2⟩; exact ⟨h1, (hmk.val i h1).mpr h2⟩
  intro hne hL
  have pl : Lin p.tab.base := ⟨⟨u, hu, hul⟩, ⟨o, ho, by rcases hol with rfl | rfl <;> trivial⟩⟩
  obtain ⟨t, b, c0, B⟩ := sub_base (g := g) (mask := mem1[k]!) wh hmk.len hne hpm pp pl hw hm
  obtain ⟨cc, hcc⟩ : ∃ cc, (copiedGc mem1[k]! p (fresh p t)).tab.base.c = cc := ⟨_, rfl⟩
  have hu0 := B.units.trans hu
  have ho0 := B.origin.trans ho
  have hs0 := (B.scale u).trans hs
  have hnamed : List.zip c0.m c0.st = p.named (maskPos mem1[k]!) := by
    rw [B.m, B.st]
    exact List.zip_map' ..
  obtain ⟨kk, hrun⟩ := recentre_run (fuel := fuel) (a := a) h1 hne B hcc
  have D0 := other_centre B.desc B.here (by rw [ho0]; rcases hol with rfl | rfl <;> simp) hu0 hs0 cc kk
  obtain ⟨P, R, c1, r1, ⟨d1, r2, r3⟩, r4, r5, r6⟩ := recentreSub_run (ids := t.id) D0 hf
  have hnamed' : List.zip ({ c0 with
      c := cc
      skyGc := kk } : Cluster).m ({ c0 with
      c := cc
      skyGc := kk } : Cluster).st = p.named (maskPos mem1[k]!) := hnamed
  rw [hnamed'] at r5 r6
  have u1 : c1.units = some u := ((congrArg Data.units r3 :) : c1.units = c0.units).trans hu0
  have o1 : c1.origin = some o := ((congrArg Data.origin r3 :) : c1.origin = c0.origin).trans ho0
  have q0 : c1.zmbar = c0.zmbar ∧ c1.rbar = c0.rbar ∧ c1.vbar = c0.vbar ∧ c1.tbar = c0.tbar := by
    have := rest_scales r2
    exact this
  have s1 : unitScale g c1 u = some s := by
    obtain ⟨q1, q2, q3, q4⟩ := q0
    rw [← hs0]; unfold unitScale; rw [q1, q2, q3, q4]
  have w3 : world g (setCentre true P c1) = some ((w.only (maskPos mem1[k]!)).recentred o (s.ph P)) := by
    rw [setCentre_world d1.world o1 hol u1 s1 P]
    rcases hol with rfl | rfl <;> rfl
  obtain ⟨w', d3, -, -⟩ := setCentre_moved (reset := true) (p := P) d1 r4
  have hw' := d3.world.symm.trans w3
  cases hw'
  obtain ⟨m1, m2, m3, m4, m5, -⟩ := setCentre_same true P c1
  obtain ⟨z1, z2, z3, z4⟩ := rest_scales m5
  have hwf : workFrame (setCentre true P c1) = workFrame p.tab.base := by unfold workFrame; rw [m4, o1, ho]
  have hz : (setCentre true P c1).zmbar = p.tab.base.zmbar := z1.trans (q0.1.trans B.zmbar)
  by_cases ha : (a.nbody || a.mass || a.radii) = true
  · have hM : ((w.only (maskPos mem1[k]!)).recentred o (s.ph P)).mass = (w.only (maskPos mem1[k]!)).mass := by
      rcases hol with rfl | rfl <;> rfl
    obtain ⟨c', L, e1, e2, e3, e4, e5, e6⟩ := finishSub_run (a := a) (u := u) d3.pos d3.lin d3.good d3.world d3.order
      (fun y hy => by
        rw [m2, show c1.m = c0.m from (congrArg Data.m r3 :)] at hy
        exact (B.mpos y hy).le) ha hk
      (by
        rw [hM]
        split
        · exact B.total
        · rw [hz]; exact pp.zmbar) (by rw [hwf]; exact fun L hl => hL ha P R L r6 hl) (m3.trans u1) true
    rw [hwf] at e6
    rw [hM, hz] at e5
    obtain ⟨s', k1, k2, k3⟩ := hrun c' (by
      rw [r1, hu]
      exact e1)
    refine ⟨s', mem1, P, R, k1, r5, r6, by rw [k2]; exact e2, by rw [k2, hu]; exact e3, by rw [k2, ho]; exact e4.trans (m4.trans o1), k3, ?_⟩
    rw [if_pos ha, k2]
    exact ⟨L, e5, e6⟩
  · obtain ⟨c', e1, e2, e3, e4, e5⟩ := finishSub_plain (a := a) d3 (by simpa using ha) (m3.trans u1) true
    obtain ⟨y1, y2, -, -⟩ := rest_scales e5
    obtain ⟨s', k1, k2, k3⟩ := hrun c' (by
      rw [r1, hu]
      exact e1)
    refine ⟨s', mem1, P, R, k1, r5, r6, by rw [k2]; exact e2, by rw [k2, hu]; exact e3, by rw [k2, ho]; exact e4.trans (m4.trans o1), k3, ?_⟩
    rw [if_neg ha, k2]
    exact ⟨y1.trans hz, y2.trans (z2.trans (q0.2.1.trans B.rbar))⟩

/-- C169 is not vacuous: two stars in N-body units, given about the position of the cluster. -/
example : ∃ (p : Full) (w : World) (s : Scale) (s' : Full) (mem' : Mem) (P : Ph) (R : ℝ), p.tab.base.units = some .nbody ∧
    world demoG p.tab.base = some w ∧ subClusterRecentre demoG 101 {} {} true p none [] = .ok (s', mem') ∧ s'.tab.id = [7, 9] ∧
    Shrinks (p.named [0, 1]) 100 0.1 ⟨0, 0, 0, 0, 0, 0⟩ R 100 P ∧ Describes demoG ((w.only [0, 1]).recentred .cluster (s.ph P)) s'.tab.base := by
  obtain ⟨p, w, a1, a2, a3, a4, a5, a6, a7, a8, a9, a10, a11, a12, a13, a14⟩ := nbody2_exists
  have ok : p.view.Ok {} 2 := a1.ok (by norm_num) (.inl ⟨rfl, rfl⟩)
  obtain ⟨s, hs⟩ := unitScale_isSome (g := demoG) (c := p.tab.base) (u := .nbody) trivial
  obtain ⟨sel, b1, b2, b3⟩ := C169_sub_cluster_centre (fuel := 101) (a := {}) (q := {}) (indx := none) (mem := []) a1 ok
    (by intro p h; cases h) a2 a3 a8 trivial a9 (.inl rfl) hs a5 (by rw [a6]; simp) (fun _ => rfl) (by norm_num)
  have hsel : sel = [0, 1] := by
    refine List.Pairwise.eq_of_mem_iff (r := (· < ·)) b1 (by simp) fun i => ?_
    rw [b2]
    have key : Passes {} p.view i := by
      refine ⟨?_, ?_, ?_, ?_, ?_, ?_⟩
      · simp [Within]
      · simp [Within]
      · simp [Within]
      · simp [Within]
      · intro p hp; cases hp
      · intro hp; exact (hp a13).elim
    constructor
    · rintro ⟨h1, -⟩
      interval_cases i <;> simp
    · intro h
      refine ⟨?_, trivial, key⟩
      simp at h
      omega
  subst hsel
  obtain ⟨s', mem', P, R, c1, -, c3, c4, -, -, c7, -⟩ := b3 (by simp) (fun h => by cases h)
  exact ⟨p, w, s, s', mem', P, R, a8, a5, c1, by rw [c7, a7]; rfl, c3, c4⟩

/-- **C170, from the centre.**  Of a cluster given about its centre, `reset_centre=True` leaves the centre where the parent has it, but without its
velocity: the stars of the new cluster, and its centre, are at the right places, and every velocity in the galaxy is off by the velocity of the
centre. -/
theorem C170_from_centre_violated {g : Galpy} {fuel : ℕ} {q : SubArgs} {p : Full} {indx : Option ℕ} {mem : Mem} {n : ℕ} {w : World}
    {u : Units} (wh : Whole p n) (ok : p.view.Ok q n) (hi : GivenOk indx mem n) (hpm : p.tab.base.m = p.tab.m)
    (pp : Pos g p.tab.base) (hu : p.tab.base.units = some u) (hul : u.linear) (ho : p.tab.base.origin = some .centre)
    (hw : world g p.tab.base = some w) (hm : ∀ x ∈ p.tab.m, 0 < x) (hf : 100 < fuel) :
    ∃ sel : List ℕ, sel.Pairwise (· < ·) ∧ (∀ i, i ∈ sel ↔ i < n ∧ given indx mem i ∧ Passes q p.view i) ∧
      (sel ≠ [] → ∃ s' mem' w', subClusterRecentre g fuel {} q true p indx mem = .ok (s', mem') ∧ world g s'.tab.base = some w' ∧
        w'.mass = (w.only sel).mass ∧ w'.gc = w.gc ∧
        w'.centre = { w.centre with
          vx := 0
          vy := 0
          vz := 0 } ∧
        w'.stars = (w.only sel).stars.map (Option.map fun x => { x with
          vx := x.vx - w.centre.vx
          vy := x.vy - w.centre.vy
          vz := x.vz - w.centre.vz })) := by
  obtain ⟨k, mem1, h1, hmk⟩ := subset_any ok hi
  refine ⟨maskPos mem1[k]!, maskPos_sorted _, ?_, ?_⟩
  · intro i
    rw [mem_maskPos, hmk.len]
    constructor
    · rintro ⟨h1, h2⟩; exact ⟨h1, (hmk.val i h1).mp h2⟩
    · rintro ⟨h1, h2⟩; exact ⟨h1, (hmk.val i h1).mpr h2⟩
  intro hne
  have pl : Lin p.tab.base := ⟨⟨u, hu, hul⟩, ⟨.centre, ho, trivial⟩⟩
  obtain ⟨t, b, c0, B⟩ := sub_base (g := g) (mask := mem1[k]!) wh hmk.len hne hpm pp pl hw hm
  have hcc : (copiedGc mem1[k]! p (fresh p t)).tab.base.c = ⟨p.tab.base.c.x, p.tab.base.c.y, p.tab.base.c.z, 0, 0, 0⟩ := by
    rw [copiedGc_c, show (fresh p t).tab.base.c = t.base.c from rfl, addStars_c (subArgs_fits wh.al hmk.len hne) B.fill]
  obtain ⟨kk, hrun⟩ := recentre_run (fuel := fuel) (a := {}) h1 hne B hcc
  have hu0 := B.units.trans hu
  have ho0 := B.origin.trans ho
  obtain ⟨s, hs⟩ := unitScale_isSome (g := g) (c := p.tab.base) hul
  have hs0 := (B.scale u).trans hs
  obtain ⟨cx, hcx⟩ : ∃ cx : Cluster, cx = { c0 with
      c := ⟨p.tab.base.c.x, p.tab.base.c.y, p.tab.base.c.z, 0, 0, 0⟩
      skyGc := kk } := ⟨_, rfl⟩
  rw [← hcx] at hrun
  have ux : cx.units = some u := by rw [hcx]; exact hu0
  have ox : cx.origin = some .centre := by rw [hcx]; exact ho0
  have sx : unitScale g cx u = some s := by rw [hcx]; exact hs0
  have lx : Lin cx := ⟨⟨u, ux, hul⟩, ⟨.centre, ox, trivial⟩⟩
  have px : Pos g cx := by
    have p := B.desc.pos
    rw [hcx]
    exact ⟨p.rbar, p.vbar, p.zmbar, p.tbar, p.ro, p.vo, p.time, p.mass, p.vel⟩
  obtain ⟨wx0, hwx0⟩ : ∃ wx0 : World, wx0 =
      { time := (w.only (maskPos mem1[k]!)).time
        mass := (w.only (maskPos mem1[k]!)).mass
        gc := w.gc
        centre := { w.centre with
          vx := 0
          vy := 0
          vz := 0 }
        stars := (w.only (maskPos mem1[k]!)).stars.map (Option.map fun x => { x with
          vx := x.vx - w.centre.vx
          vy := x.vy - w.centre.vy
          vz := x.vz - w.centre.vz }) } := ⟨_, rfl⟩
  have wx : world g cx = some wx0 := by
    rw [hwx0]
    have e1 : w.centre = s.ph p.tab.base.c ∧ w.gc = s.ph p.tab.base.gc := by
      have hw := hw
      unfold world phys at hw
      simp only [hu, ho, hs, Option.some.injEq] at hw
      rw [← hw]
      exact ⟨rfl, rfl⟩
    have h2 := B.desc.world
    unfold world phys at h2 ⊢
    simp only [hu0, ho0, hs0, Option.some.injEq] at h2
    simp only [ux, ox, sx, Option.some.injEq]
    rw [← h2, e1.1, e1.2, hcx]
    simp only [B.gc, B.c, World.mk.injEq, true_and]
    refine ⟨?_, by simp [Scale.ph], trivial⟩
    simp only [galRows, List.map_map]
    refine List.map_congr_left fun x _ => ?_
    simp only [Function.comp, galactocentric, Option.map_some, Option.some.injEq, phAdd, Scale.ph, Ph.mk.injEq]
    refine ⟨?_, ?_, ?_, ?_, ?_, ?_⟩
    all_goals first | trivial | ring
  have dx : Describes g wx0 cx := by
    refine ⟨px, lx, ?_, ?_, wx, ?_⟩
    · have q := B.desc.good
      rw [hcx]
      exact ⟨q.ne, q.len, q.mass, q.ro, q.rpo⟩
    · have f := B.desc.fresh
      rw [hcx]
      exact ⟨f.units, f.origin, f.r, f.rpro, f.v, f.vpro, f.mtot, f.mmean, f.rmean, f.rmeanpro, f.rmax, f.rmaxpro⟩
    · intro o hr
      have e : cx.rorder = some (argsort (cx.st.map Ph.r)) := by rw [hcx]; exact B.ro
      rw [e] at hr
      cases hr
      obtain ⟨a1, a2⟩ := orderInv_argsort px lx wx ox
      exact ⟨.centre, by rw [hcx]; exact (B.here _ B.ro).trans ho0, trivial, a1, a2⟩
  obtain ⟨P, R, c1, r1, ⟨d1, r2, r3⟩, r4, r5, r6⟩ := recentreSub_run (ids := t.id) dx hf
  have u1 : c1.units = some u := (congrArg Data.units r3 :).trans ux
  have o1 : c1.origin = some .centre := (congrArg Data.origin r3 :).trans ox
  have hset : setCentre true P c1 = c1 := by
    unfold setCentre
    rw [o1]
  rw [hset] at r1
  obtain ⟨c', e1, e2, e3, e4, e5⟩ := finishSub_plain (a := {}) d1 rfl u1 true
  obtain ⟨s', k1, k2, k3⟩ := hrun c' (by
    rw [r1, hu]
    exact e1)
  exact ⟨s', mem1, wx0, k1, by rw [k2]; exact e2.world, by rw [hwx0], by rw [hwx0], by rw [hwx0], by rw [hwx0]⟩

/-- A cluster given about its centre, which moves. -/
theorem centre2_exists : ∃ p w, Whole p 2 ∧ p.tab.base.m = p.tab.m ∧ Pos demoG p.tab.base ∧ world demoG p.tab.base = some w ∧
    p.tab.m = [1, 3] ∧ p.tab.base.units = some .pckms ∧ p.tab.base.origin = some .centre ∧ p.tab.base.c = ⟨1, 0, 0, 7, 0, 0⟩ ∧ p.kw = [] ∧
    w.stars.length = 2 ∧ w.centre.vx = 7 := by
  have hg : Good { demo with
      origin := some .centre
      c := ⟨1, 0, 0, 7, 0, 0⟩ } := ⟨demo_good.ne, demo_good.len, demo_good.mass, demo_good.ro, demo_good.rpo⟩
  obtain ⟨c, h, g⟩ := analyze_total (s := true) (p := true) hg
  obtain ⟨k1, k2, -, k4, k5, k6, -, -, -, -, -, kr⟩ := core_fields (analyze_core h)
  have kp : Pos demoG { demo with
      origin := some .centre
      c := ⟨1, 0, 0, 7, 0, 0⟩ } := ⟨demo_pos.rbar, demo_pos.vbar, demo_pos.zmbar, demo_pos.tbar, demo_pos.ro, demo_pos.vo,
    demo_pos.time, demo_pos.mass, demo_pos.vel⟩
  have hw := world_core (g := demoG) (analyze_core h)
  obtain ⟨w, hw'⟩ : ∃ w, world demoG c = some w := by rw [hw]; exact ⟨_, rfl⟩
  have hv : w.centre.vx = 7 ∧ w.stars.length = 2 := by
    rw [hw] at hw'
    unfold world phys at hw'
    simp only [demo, unitScale, Option.some.injEq] at hw'
    rw [← hw']
    simp [Scale.ph, galRows]
  refine ⟨{ newFull c with tab := { newTab c with
      x := c.st.map Ph.x
      y := c.st.map Ph.y
      z := c.st.map Ph.z
      vx := c.st.map Ph.vx
      vy := c.st.map Ph.vy
      vz := c.st.map Ph.vz
      m := c.m
      m0 := [1, 3]
      npop := [1, 1]
      id := [7, 9]
      ntot := 2
      ns := 2 } }, w, ⟨?_, rfl, analyze_fresh h, ?_, .inl rfl, .inl ⟨rfl, rfl, rfl⟩⟩, rfl, kp.of_rest kr, hw', ?_, k1, k2, k6, rfl, hv.2, hv.1⟩
  · constructor <;> simp [k4, k5, demo]
  · show c.st = rowsOf (c.st.map Ph.x) (c.st.map Ph.y) (c.st.map Ph.z) (c.st.map Ph.vx) (c.st.map Ph.vy) (c.st.map Ph.vz)
    rw [k5]
    simp [demo, rowsOf]
  · show c.m = _
    rw [k4]; rfl

/-- C170 is not vacuous: both stars of this cluster, with `reset_centre=True`, make a cluster whose first star moves at another speed. -/
example : ∃ (p : Full) (w w' : World) (s' : Full) (mem' : Mem), p.tab.base.units = some .pckms ∧ world demoG p.tab.base = some w ∧
    subClusterRecentre demoG 101 {} {} true p none [] = .ok (s', mem') ∧ world demoG s'.tab.base = some w' ∧ w'.centre.vx ≠ w.centre.vx := by
  obtain ⟨p, w, a1, a2, a3, a5, a6, a8, a9, a10, a13, a14, a15⟩ := centre2_exists
  have ok : p.view.Ok {} 2 := a1.ok (by norm_num) (.inl ⟨rfl, rfl⟩)
  obtain ⟨sel, b1, b2, b3⟩ := C170_from_centre_violated (fuel := 101) (q := {}) (indx := none) (mem := []) a1 ok
    (by intro p h; cases h) a2 a3 a8 trivial a9 a5 (by rw [a6]; simp) (by norm_num)
  have hsel : sel ≠ [] := by
    refine List.ne_nil_of_mem (a := 0) ((b2 0).mpr ⟨by norm_num, trivial, ?_⟩)
    refine ⟨?_, ?_, ?_, ?_, ?_, ?_⟩
    · simp [Within]
    · simp [Within]
    · simp [Within]
    · simp [Within]
    · intro p hp; cases hp
    · intro hp; exact (hp a13).elim
  obtain ⟨s', mem', w', c1, c2, -, -, c5, -⟩ := b3 hsel
  exact ⟨p, w, w', s', mem', a8, a5, c1, c2, by rw [c5, a15]; norm_num⟩

end

end CT
