/- Property theorems C148, C149: calls that do not come to their end. -/
import Verif.Lemmas.CrashQ
import Verif.Props.Session

namespace CT

noncomputable section

/-- The traced call is the call: same result, same exception. -/
theorem C148_same_call (g : Galpy) (q : Query) (c : Cluster) : (q.trace g c).value = q.exec g c := query_value q c

/-- **C148 (on the way).**  Whatever the call and its arguments, and wherever between its conversions it is stopped: the cluster the object holds
there describes the world it described before the call, with radii, totals and orders that belong to it, and the scales are the same. -/
theorem C148_on_the_way {g : Galpy} {w : World} {q : Query} {c s : Cluster} (hq : q.Observing w) (d : Describes g w c)
    (hs : s ∈ c :: (q.trace g c).states) : Describes g w s ∧ s.rest = c.rest := by
  rcases List.mem_cons.mp hs with rfl | hs
  · exact ⟨d, rfl⟩
  · exact (query_along q hq d).1 s hs

/-- **C148 (after the call).**  What the object holds when the call is over: the cluster returned, if it returns; otherwise one of the clusters on
the way. -/
theorem C148_after {g : Galpy} {w : World} {q : Query} {c : Cluster} (hq : q.Observing w) (d : Describes g w c) :
    (∀ c', q.exec g c = .ok c' → (q.trace g c).after c = c') ∧ (q.trace g c).after c ∈ c :: (q.trace g c).states := by
  refine ⟨fun c' h => (query_along q hq d).2 c' (by rw [query_value, h]), ?_⟩
  unfold Tr.after
  rcases List.eq_nil_or_concat (q.trace g c).states with h | ⟨l, a, h⟩
  · rw [h]; simp
  · rw [h]; simp

/-- Going back to given labels. -/
theorem recover {g : Galpy} {w : World} {c s : Cluster} {u : Units} {o : Origin} (d : Describes g w c) (ds : Describes g w s)
    (hr : s.rest = c.rest) (hu : c.units = some u) (ho : c.origin = some o) :
    ∃ s', run g [.toUnits u, .toOrigin o false none] s = .ok s' ∧ Describes g w s' ∧ s'.data = c.data ∧ s'.rest = c.rest := by
  obtain ⟨⟨u', hu', hul⟩, ⟨o', ho', hol⟩⟩ := d.lin
  rw [hu] at hu'; cases hu'
  rw [ho] at ho'; cases ho'
  have k1 : Op.linear (.toUnits u) := by simpa [Op.linear, Op.unitTarget, Op.originTarget] using hul
  have k2 : Op.linear (.toOrigin o false none) := by simpa [Op.linear, Op.unitTarget, Op.originTarget] using hol
  have hl : ∀ op ∈ [Op.toUnits u, .toOrigin o false none], op.linear := by
    intro op h
    simp only [List.mem_cons, List.not_mem_nil, or_false] at h
    rcases h with rfl | rfl
    · exact k1
    · exact k2
  obtain ⟨s1, h1, -⟩ := exec_total ds.pos ds.lin k1 ds.good
  obtain ⟨d1, -⟩ := (Rel.refl ds).exec _ k1 trivial s1 h1
  obtain ⟨s2, h2, -⟩ := exec_total d1.pos d1.lin k2 d1.good
  obtain ⟨d2, -⟩ := (Rel.refl d1).exec _ k2 trivial s2 h2
  have h : run g [.toUnits u, .toOrigin o false none] s = .ok s2 := by
    simp only [run, h1, h2, Except.bind]
  have st := run_steps ds.pos.nz ds.lin hl h
  refine ⟨s2, h, d2, data_of_world d.pos.nz (st.rest.trans hr) hu ?_ hul ho ?_ hol (d2.world.trans d.world.symm), st.rest.trans hr⟩
  · rw [st.units]; rfl
  · rw [st.origin]; rfl

/-- **C148 (recovery).**  Wherever the call is stopped, by an exception or an interrupt between its conversions: `to_units` and `to_origin` with
the labels the cluster had bring back exactly the data it had. -/
theorem C148_recovery {g : Galpy} {w : World} {q : Query} {c s : Cluster} {u : Units} {o : Origin} (hq : q.Observing w) (d : Describes g w c)
    (hu : c.units = some u) (ho : c.origin = some o) (hs : s ∈ c :: (q.trace g c).states) :
    ∃ s', run g [.toUnits u, .toOrigin o false none] s = .ok s' ∧ Describes g w s' ∧ s'.data = c.data ∧ s'.rest = c.rest := by
  obtain ⟨ds, hr⟩ := C148_on_the_way hq d hs
  exact recover d ds hr hu ho

theorem SCall.guarded_rel {g : Galpy} {w : World} {a : SCall} {c : Cluster} (ha : a.Admissible w) (d : Describes g w c) :
    Describes g w (a.guarded g c) ∧ (a.guarded g c).rest = c.rest := by
  cases a with
  | convert op =>
    obtain ⟨c', h, -⟩ := exec_total d.pos d.lin ha.1 d.good
    have e : SCall.guarded g (.convert op) c = c' := by simp [SCall.guarded, h, Except.toOption]
    rw [e]
    exact (Rel.refl d).exec op ha.1 ha.2 c' h
  | query q => exact C148_on_the_way ha d (C148_after ha d).2

/-- **C148 (sessions with caught exceptions).**  After any session in which every exception is caught, whatever was raised and however often, the
cluster describes the world it described at the start, and `to_units`, `to_origin` bring back exactly the data of the start. -/
theorem C148_guarded_session {g : Galpy} {w : World} (l : List SCall) : ∀ {c : Cluster} {u : Units} {o : Origin}, (∀ a ∈ l, a.Admissible w) →
    Describes g w c → c.units = some u → c.origin = some o →
    Describes g w (guarded g l c) ∧
      ∃ s', run g [.toUnits u, .toOrigin o false none] (guarded g l c) = .ok s' ∧ s'.data = c.data ∧ s'.rest = c.rest := by
  intro c u o hl d hu ho
  have key : ∀ (l : List SCall) {x : Cluster}, (∀ a ∈ l, a.Admissible w) → Describes g w x →
      Describes g w (guarded g l x) ∧ (guarded g l x).rest = x.rest := by
    intro l
    induction l with
    | nil => intro x _ dx; exact ⟨dx, rfl⟩
    | cons a l ih =>
      intro x hl dx
      obtain ⟨d1, r1⟩ := SCall.guarded_rel (hl a (by simp)) dx
      obtain ⟨d2, r2⟩ := ih (fun b hb => hl b (by simp [hb])) d1
      exact ⟨d2, r2.trans r1⟩
  obtain ⟨ds, hr⟩ := key l hl d
  obtain ⟨s', h1, -, h2, h3⟩ := recover d ds hr hu ho
  exact ⟨ds, s', h1, h2, h3⟩

/-- **C148 (nothing raised).**  A session in which nothing is raised is the same with and without the catching. -/
theorem C148_nothing_raised {g : Galpy} {w : World} (l : List SCall) : ∀ {c c' : Cluster}, (∀ a ∈ l, a.Admissible w) → Describes g w c →
    session g l c = .ok c' → guarded g l c = c' := by
  induction l with
  | nil => intro c c' _ _ h; cases h; rfl
  | cons a l ih =>
    intro c c' hl d h
    obtain ⟨c1, h1, h2⟩ := bind_ok h
    have ha := hl a (by simp)
    have e : a.guarded g c = c1 := by
      cases a with
      | convert op =>
        have h1' : op.exec g c = .ok c1 := h1
        simp [SCall.guarded, h1', Except.toOption]
      | query q => exact (C148_after ha d).1 c1 h1
    have d1 := (SCall.guarded_rel ha d).1
    show guarded g l (a.guarded g c) = c'
    rw [e] at d1 ⊢
    exact ih (fun b hb => hl b (by simp [hb])) d1 h2

/-! ### C149: what is left behind -/

/-- **C149 (exception).**  `relaxation_time` with a radius given raises, whatever the cluster, and leaves it in pc and km/s; unless it was given
from its position or centre, it is left around its centre. -/
theorem C149_exception_violated {g : Galpy} {w : World} {c : Cluster} {rad γ : ℝ} {pr : Bool} (d : Describes g w c) :
    (Query.relaxationTime (some rad) γ pr).exec g c = .error .nameError ∧
      ((Query.relaxationTime (some rad) γ pr).trace g c).value = .error .nameError ∧
      (((Query.relaxationTime (some rad) γ pr).trace g c).after c).units = some .pckms ∧
      (c.origin ≠ some .cluster → c.origin ≠ some .centre →
        (((Query.relaxationTime (some rad) γ pr).trace g c).after c).origin = some .centre ∧
        (((Query.relaxationTime (some rad) γ pr).trace g c).after c).data ≠ c.data) := by
  have k1 : Op.linear (.toCentre true none) := by simp [Op.linear, Op.unitTarget, Op.originTarget, Origin.linear]
  have k2 : Op.linear (.toPckms true) := by simp [Op.linear, Op.unitTarget, Op.originTarget, Units.linear]
  obtain ⟨x, hx, hrel, hox⟩ : ∃ x, (if c.origin ≠ some .cluster ∧ c.origin ≠ some .centre then toCentre true none c
      else .ok (sortstars true c.d.r c.d.rpro c)) = .ok x ∧ Rel g w c x ∧
      (c.origin ≠ some .cluster → c.origin ≠ some .centre → x.origin = some .centre) := by
    split
    · obtain ⟨x, hx, -⟩ := exec_total d.pos d.lin k1 d.good
      have st := exec_step d.pos.nz d.lin k1 hx
      exact ⟨x, hx, (Rel.refl d).exec _ k1 trivial x hx, fun _ _ => by rw [st.origin]; rfl⟩
    · rename_i hn
      exact ⟨_, rfl, (Rel.refl d).sort, fun a b => absurd ⟨a, b⟩ hn⟩
  obtain ⟨y, hy, -⟩ := exec_total hrel.1.pos hrel.1.lin k2 hrel.1.good
  have st := exec_step hrel.1.pos.nz hrel.1.lin k2 hy
  have hy' : toPckms g true x = .ok y := hy
  have hp : pcStartT g c = ⟨[x, y], .ok y⟩ := by
    unfold pcStartT
    by_cases hc : c.origin ≠ some .cluster ∧ c.origin ≠ some .centre
    · rw [if_pos hc] at hx ⊢
      rw [hx]
      show Tr.bind (Tr.step (.ok x)) _ = _
      simp [Tr.bind, Tr.step, Except.toOption, hy']
    · rw [if_neg hc] at hx ⊢
      rw [hx]
      show Tr.bind (Tr.step (.ok x)) _ = _
      simp [Tr.bind, Tr.step, Except.toOption, hy']
  have ht : (Query.relaxationTime (some rad) γ pr).trace g c = ⟨[x, y], .error .nameError⟩ := by
    show Tr.bind (relaxationTimeT g (some rad) γ pr c) _ = _
    have : relaxationTimeT g (some rad) γ pr c = ⟨[x, y], .error .nameError⟩ := by
      unfold relaxationTimeT
      show Tr.bind (pcStartT g c) _ = _
      rw [hp]
      rfl
    rw [this]
    rfl
  have hv := query_value (g := g) (Query.relaxationTime (some rad) γ pr) c
  rw [ht] at hv ⊢
  refine ⟨hv.symm, rfl, ?_, fun a b => ?_⟩
  · show y.units = _
    rw [st.units]; rfl
  · have ho : y.origin = some .centre := by rw [st.origin]; exact hox a b
    refine ⟨ho, fun e => b ?_⟩
    have : y.origin = c.origin := congrArg Data.origin e
    rw [← this, ho]

/-- All statements of `to_kpckms` make the conversion. -/
theorem C149_all_statements {g : Galpy} {c : Cluster} (hu : c.units = some .pckms) :
    toKpckms g false c = .ok (interrupted kpckmsStmts.length c) := by
  unfold toKpckms interrupted kpckmsStmts
  simp only [hu, List.length_cons, List.length_nil, List.take, List.foldl]
  simp [analyzeIf, kpckmsStep, hu, bind, Except.bind, Function.comp_def, Ph.divPos]

theorem interrupted_fields {c : Cluster} {k : ℕ} (hu : c.units = some .pckms) (hk : 1 ≤ k) (hk' : k < kpckmsStmts.length) :
    (interrupted k c).units = some .pckms ∧ (interrupted k c).tphys = c.tphys / 1000 ∧
      (2 ≤ k → (interrupted k c).st.map Ph.x = c.st.map (fun p => p.x / 1000)) := by
  have hk'' : k < 11 := hk'
  interval_cases k <;> simp [interrupted, kpckmsStmts, hu, Function.comp_def]

/-- **C149 (interrupt).**  An interrupt inside `to_kpckms` (after some statement but before the last) leaves a cluster, still labelled pc and km/s,
whose time is a thousandth of the true time and, from the second statement on, whose stars' first coordinates are a thousandth of the true ones.
Calling `to_kpckms` again does not repair it. -/
theorem C149_interrupt_violated {g : Galpy} {c : Cluster} {k : ℕ} {P : Phys} (hu : c.units = some .pckms) (hP : phys g c = some P) (hk : 1 ≤ k)
    (hk' : k < kpckmsStmts.length) :
    ∃ Q, phys g (interrupted k c) = some Q ∧ Q.time = P.time / 1000 ∧
      (2 ≤ k → Q.stars.map Ph.x = P.stars.map (fun p => p.x / 1000)) ∧
      ∃ c' Q', toKpckms g false (interrupted k c) = .ok c' ∧ phys g c' = some Q' ∧ Q'.time = P.time / 1000 ∧
        (2 ≤ k → Q'.stars.map Ph.x = P.stars.map (fun p => p.x / 1000)) := by
  obtain ⟨h1, h2, h3⟩ := interrupted_fields hu hk hk'
  obtain ⟨s, hs⟩ : ∃ s, s = interrupted k c := ⟨_, rfl⟩
  rw [← hs] at h1 h2 h3 ⊢
  have hP' : P.time = c.tphys ∧ P.stars.map (fun p => p.x / 1000) = c.st.map (fun p => p.x / 1000) := by
    unfold phys at hP
    simp only [hu, unitScale, Option.some.injEq] at hP
    rw [← hP]
    simp [Scale.ph, Function.comp_def]
  rw [hP'.1, hP'.2]
  have p1 : ∃ Q, phys g s = some Q ∧ Q.time = s.tphys ∧ Q.stars.map Ph.x = s.st.map Ph.x := by
    unfold phys
    simp only [h1, unitScale]
    exact ⟨_, rfl, by simp, by simp [Scale.ph, Function.comp_def]⟩
  have p2 : ∃ Q, phys g (kpckmsStep g s) = some Q ∧ Q.time = s.tphys ∧ Q.stars.map Ph.x = s.st.map Ph.x := by
    have e : kpckmsStep g s = { s with
      tphys := s.tphys / 1000
      st := s.st.map (·.divPos 1000)
      gc := s.gc.divPos 1000
      c := s.c.divPos 1000
      units := some .kpckms } := by simp [kpckmsStep, h1]
    rw [e]
    unfold phys
    simp only [unitScale]
    exact ⟨_, rfl, by simp, by simp [Scale.ph, Ph.divPos, Function.comp_def]⟩
  obtain ⟨Q, a1, a2, a3⟩ := p1
  obtain ⟨Q', b1, b2, b3⟩ := p2
  refine ⟨Q, a1, a2.trans h2, fun h => a3.trans (h3 h), kpckmsStep g s, Q', ?_, b1, b2.trans h2, fun h => b3.trans (h3 h)⟩
  unfold toKpckms
  simp only [h1]
  rfl

/-- A described cluster in the galaxy's frame, in kpc: `relaxation_time(rad=1)` raises and leaves it around its centre, in pc; the two calls bring it
back. -/
example : ∃ (c s' : Cluster) (w : World), Describes demoG w c ∧ c.units = some .kpckms ∧ c.origin = some .galaxy ∧
    (Query.relaxationTime (some 1) 0.4 false).exec demoG c = .error .nameError ∧
    (guarded demoG [.query (.relaxationTime (some 1) 0.4 false)] c).units = some .pckms ∧
    (guarded demoG [.query (.relaxationTime (some 1) 0.4 false)] c).origin = some .centre ∧
    run demoG [.toUnits .kpckms, .toOrigin .galaxy false none] (guarded demoG [.query (.relaxationTime (some 1) 0.4 false)] c) = .ok s' ∧
    s'.data = c.data := by
  obtain ⟨c, w, -, p, l, hg, f, hm, hM, hw, i, hu, -⟩ := demo_analysed
  have d : Describes demoG w c := ⟨p, l, hg, f, hw, i⟩
  have k1 : Op.linear (.toKpckms true) := by simp [Op.linear, Op.unitTarget, Op.originTarget, Units.linear]
  have k2 : Op.linear (.toGalaxy false) := by simp [Op.linear, Op.unitTarget, Op.originTarget, Origin.linear]
  obtain ⟨c2, h2, -⟩ := exec_total d.pos d.lin k1 d.good
  obtain ⟨d2, -⟩ := (Rel.refl d).exec _ k1 rfl c2 h2
  have st2 := exec_step d.pos.nz d.lin k1 h2
  obtain ⟨c3, h3, -⟩ := exec_total d2.pos d2.lin k2 d2.good
  obtain ⟨d3, -⟩ := (Rel.refl d2).exec _ k2 trivial c3 h3
  have st3 := exec_step d2.pos.nz d2.lin k2 h3
  have u3 : c3.units = some .kpckms := by rw [st3.units, st2.units]; rfl
  have o3 : c3.origin = some .galaxy := by rw [st3.origin]; rfl
  obtain ⟨e1, -, e2, e3⟩ := C149_exception_violated (rad := 1) (γ := 0.4) (pr := false) d3
  have ha : ∀ a ∈ [SCall.query (.relaxationTime (some 1) 0.4 false)], a.Admissible w := by
    intro a ha
    simp only [List.mem_cons, List.not_mem_nil, or_false] at ha
    rw [ha]; trivial
  obtain ⟨-, s', r1, r2, -⟩ := C148_guarded_session _ ha d3 u3 o3
  exact ⟨c3, s', w, d3, u3, o3, e1, e2, (e3 (by simp [o3]) (by simp [o3])).1, r1, r2⟩

/-- The demo cluster is in pc; its time and the stars' coordinates are not zero. -/
example : demo.units = some .pckms ∧ (∃ P, phys demoG demo = some P) ∧ demo.tphys ≠ 0 ∧ 1 ≤ 5 ∧ 5 < kpckmsStmts.length := by
  refine ⟨rfl, ⟨_, rfl⟩, by norm_num [demo], by norm_num, by decide⟩

end

end CT
