/- Property theorems C144, C145: the methods of a cluster and the results it stores. -/
import Verif.Spec.Methods
import Verif.Props.Virial

namespace CT

noncomputable section

theorem map_ok {α β : Type} {x : Except Err α} {f : α → β} {b : β} (h : x.map f = .ok b) : ∃ a, x = .ok a ∧ f a = b := by
  cases x with
  | error e => cases h
  | ok a => exact ⟨a, rfl, Except.ok.inj h⟩

theorem lastResult_nil (a : Attr) : lastResult a [] = none := rfl

theorem lastResult_cons (a : Attr) (e : Attr × List ℝ) (L : List (Attr × List ℝ)) :
    lastResult a (e :: L) = (lastResult a L).or (if e.1 = a then some e.2 else none) := by
  unfold lastResult
  by_cases h : e.1 = a
  · rw [List.filter_cons_of_pos (by simpa using h), List.getLast?_cons, if_pos h]
    cases (L.filter (fun e => e.1 = a)).getLast? <;> rfl
  · rw [List.filter_cons_of_neg (by simpa using h), if_neg h]
    simp

/-- **C144 (attributes).**  After any session every attribute holds what its method returned last, whatever else was called since; before
its first call it is as it was. -/
theorem C144_attributes {g : Galpy} (l : List NCall) : ∀ {x y : Notes} {L : List (Attr × List ℝ)}, nsession g l x = .ok (L, y) →
    ∀ a, y.attr a = (lastResult a L).or (x.attr a) := by
  induction l with
  | nil => intro x y L h a; cases h; rfl
  | cons b l ih =>
    intro x y L h a
    unfold nsession at h
    obtain ⟨r, h1, h⟩ := bind_ok h
    obtain ⟨s, h2, h⟩ := bind_ok h
    cases h
    have k := ih h2 a
    rw [k]
    cases b with
    | convert op =>
      obtain ⟨c, -, e⟩ := map_ok h1
      subst e
      rfl
    | ask q =>
      obtain ⟨c, -, e⟩ := map_ok h1
      subst e
      rfl
    | method m =>
      obtain ⟨c, h3, e⟩ := map_ok h1
      subst e
      obtain ⟨d, -, e⟩ := map_ok h3
      subst e
      show (lastResult a s.1).or (if a = m.attr then some d.1 else x.attr a) = (lastResult a ((m.attr, d.1) :: s.1)).or (x.attr a)
      rw [lastResult_cons]
      by_cases ha : a = m.attr
      · subst ha
        cases lastResult m.attr s.1 <;> simp
      · rw [if_neg ha, if_neg (Ne.symm ha)]
        cases lastResult a s.1 <;> simp

/-- A method gives the cluster back. -/
theorem method_back {g : Galpy} {w : World} {c : Cluster} {m : Method} (hm : m.Observing w) (d : Describes g w c) :
    Ok (m.value g c) (fun r => Back g w c r.2) := by
  cases m <;> unfold Method.value
  · exact Ok.map (relaxationTime_back d)
  · exact Ok.map (halfMassRelaxationTime_back d)
  · exact Ok.map (coreRelaxationTime_back hm d)
  · exact rlagrange_back d
  · exact Ok.map (virialInverse_back d)
  · rename_i kd p
    show Ok ((closestStar kd (p.getD c.projected) c).elim (.error .typeError) (fun r => .ok (r.1, c))) _
    cases closestStar kd (p.getD c.projected) c with
    | none => exact Ok.err
    | some r => exact Ok.ok ⟨d, rfl, rfl⟩
  · refine Ok.map ?_
    unfold massFunctionMethod
    refine Ok.bind (massFunction_back d) (fun a ha => ?_)
    refine Ok.ite (fun _ => ?_) (fun _ => ?_)
    · exact Ok.err
    · exact Ok.pure ha
  · exact Ok.map (etaFunction_back d)
  · exact Ok.map (meqFunction_back d)
  · exact Ok.map (ckin_back d)
  · exact Ok.map (rcore_back hm d)
  · exact Ok.map (rtidal_back d)
  · exact Ok.map (rlimiting_back d)

theorem nsession_steps {g : Galpy} {w : World} (l : List NCall) : ∀ {x y : Notes} {L : List (Attr × List ℝ)}, (∀ a ∈ l, a.Admissible w) →
    Describes g w x.c → nsession g l x = .ok (L, y) →
    Describes g w y.c ∧ y.c.rest = x.c.rest ∧ y.c.units = (lastUnits (nconversions l)).or x.c.units ∧
      y.c.origin = (lastOrigin (nconversions l)).or x.c.origin ∧
      ∀ e ∈ L, ∃ m c c', NCall.method m ∈ l ∧ e.1 = m.attr ∧ Describes g w c ∧ c.rest = x.c.rest ∧ m.value g c = .ok (e.2, c') := by
  induction l with
  | nil => intro x y L _ d h; cases h; exact ⟨d, rfl, rfl, rfl, by simp⟩
  | cons b l ih =>
    intro x y L hl d h
    unfold nsession at h
    obtain ⟨r, h1, h⟩ := bind_ok h
    obtain ⟨s, h2, h⟩ := bind_ok h
    cases h
    have hb := hl b (by simp)
    have later : ∀ {m : Method}, NCall.method m ∈ l → NCall.method m ∈ b :: l := fun h => List.mem_cons_of_mem _ h
    cases b with
    | convert op =>
      obtain ⟨c, h3, e⟩ := map_ok h1
      subst e
      obtain ⟨d1, r1⟩ := (Rel.refl d).exec op hb.1 hb.2 c h3
      have st := exec_step d.pos.nz d.lin hb.1 h3
      obtain ⟨k1, k2, k3, k4, k5⟩ := ih (fun b hb => hl b (by simp [hb])) d1 h2
      refine ⟨k1, k2.trans r1, ?_, ?_, ?_⟩
      · rw [k3, nconversions, lastUnits]
        show (lastUnits (nconversions l)).or c.units = _
        rw [st.units]; cases lastUnits (nconversions l) <;> rfl
      · rw [k4, nconversions, lastOrigin]
        show (lastOrigin (nconversions l)).or c.origin = _
        rw [st.origin]; cases lastOrigin (nconversions l) <;> rfl
      · intro e he
        obtain ⟨m, a, a', q1, q2, q3, q4, q5⟩ := k5 e (by simpa using he)
        exact ⟨m, a, a', later q1, q2, q3, q4.trans r1, q5⟩
    | ask q =>
      obtain ⟨c, h3, e⟩ := map_ok h1
      subst e
      obtain ⟨d1, e1, r1⟩ := C124_call hb d h3
      obtain ⟨k1, k2, k3, k4, k5⟩ := ih (fun b hb => hl b (by simp [hb])) d1 h2
      refine ⟨k1, k2.trans r1, ?_, ?_, ?_⟩
      · rw [k3, nconversions, show c.units = x.c.units from congrArg Data.units e1]
      · rw [k4, nconversions, show c.origin = x.c.origin from congrArg Data.origin e1]
      · intro e he
        obtain ⟨m, a, a', q1, q2, q3, q4, q5⟩ := k5 e (by simpa using he)
        exact ⟨m, a, a', later q1, q2, q3, q4.trans r1, q5⟩
    | method m =>
      obtain ⟨c, h3, e⟩ := map_ok h1
      subst e
      obtain ⟨r0, h4, e⟩ := map_ok h3
      subst e
      obtain ⟨d1, r1, e1⟩ := method_back hb d r0 h4
      obtain ⟨k1, k2, k3, k4, k5⟩ := ih (fun b hb => hl b (by simp [hb])) (x := x.set r0.2 m.attr r0.1) d1 h2
      refine ⟨k1, k2.trans r1, ?_, ?_, ?_⟩
      · rw [k3, nconversions]
        show (lastUnits (nconversions l)).or r0.2.units = _
        rw [show r0.2.units = x.c.units from congrArg Data.units e1]
      · rw [k4, nconversions]
        show (lastOrigin (nconversions l)).or r0.2.origin = _
        rw [show r0.2.origin = x.c.origin from congrArg Data.origin e1]
      · intro e he
        simp only [Option.toList_some, List.singleton_append, List.mem_cons] at he
        rcases he with rfl | he
        · exact ⟨m, x.c, r0.2, by simp, rfl, d, rfl, h4⟩
        · obtain ⟨m', a, a', q1, q2, q3, q4, q5⟩ := k5 e he
          exact ⟨m', a, a', later q1, q2, q3, q4.trans r1, q5⟩

/-- **C144 (methods are observers).**  After any session of conversions, analysis functions and methods, the cluster describes the world it
described before, and is exactly the cluster the conversions alone would have left. -/
theorem C144_session {g : Galpy} {w : World} {l : List NCall} {x y : Notes} {L : List (Attr × List ℝ)} (hl : ∀ a ∈ l, a.Admissible w)
    (d : Describes g w x.c) (h : nsession g l x = .ok (L, y)) :
    Describes g w y.c ∧ ∃ c', run g (nconversions l) x.c = .ok c' ∧ y.c.data = c'.data ∧ y.c.rest = c'.rest := by
  obtain ⟨k1, k2, k3, k4, -⟩ := nsession_steps l hl d h
  have hlin : ∀ op ∈ nconversions l, op.linear := by
    clear h k1 k2 k3 k4
    induction l with
    | nil => simp [nconversions]
    | cons a l ih =>
      have := ih (fun b hb => hl b (by simp [hb]))
      cases a with
      | convert op =>
        intro o ho
        simp only [nconversions, List.mem_cons] at ho
        rcases ho with rfl | ho
        · exact (hl (.convert o) (by simp)).1
        · exact this o ho
      | ask q => exact this
      | method q => exact this
  obtain ⟨c'', hr, -⟩ := run_total d.pos d.lin hlin d.good
  have st := run_steps d.pos.nz d.lin hlin hr
  obtain ⟨⟨u, hu, hul⟩, ⟨o, ho, hol⟩⟩ := st.lin
  refine ⟨k1, c'', hr, data_of_world (d.pos.of_rest st.rest).nz (k2.trans st.rest.symm) hu ?_ hul ho ?_ hol
    (k1.world.trans (st.world.trans d.world).symm), k2.trans st.rest.symm⟩
  · rw [k3, ← st.units, hu]
  · rw [k4, ← st.origin, ho]

/-- **C144 (values).**  Every value the methods returned, and so every value they stored, is that of the function of the same name for a
cluster that describes the same world; for `virial_radius` it is the virial radius of the world in one of its units of length, in space
or in projection as asked for or else as the cluster is set. -/
theorem C144_virial {g : Galpy} {w : World} {l : List NCall} {x y : Notes} {L : List (Attr × List ℝ)} (hl : ∀ a ∈ l, a.Admissible w)
    (d : Describes g w x.c) (h : nsession g l x = .ok (L, y)) {v : List ℝ} (hv : (Attr.rv, v) ∈ L) :
    ∃ f p c u s rv, NCall.method (.virialRadius f p) ∈ l ∧ Describes g w c ∧ c.units = some u ∧ unitScale g c u = some s ∧ v = [rv] ∧
      rv * s.len = w.virial (p.getD x.c.projected) := by
  obtain ⟨-, -, -, -, k⟩ := nsession_steps l hl d h
  obtain ⟨m, c, c', q1, q2, q3, q4, q5⟩ := k _ hv
  cases m <;> simp only [Method.attr, reduceCtorEq] at q2
  rename_i f p
  obtain ⟨⟨u, hu, hul⟩, -⟩ := q3.lin
  obtain ⟨s, hs⟩ := unitScale_isSome (g := g) (c := c) hul
  have e : c.projected = x.c.projected := (congrArg Cluster.projected q4 :)
  obtain ⟨rv, c2, h1, h2, -⟩ := C45_function q3 f (p.getD c.projected) hu hs
  unfold Method.value at q5
  simp only [h1, Except.map, Except.ok.injEq, Prod.mk.injEq] at q5
  refine ⟨f, p, c, u, s, rv, q1, q3, hu, hs, q5.1.symm, ?_⟩
  rw [h2, e]

/-- **C144 (sources).**  What is returned for and stored in an attribute comes from a call, in the session, of the method that the
attribute is documented to belong to, made on a cluster that describes the same world. -/
theorem C144_sources {g : Galpy} {w : World} {l : List NCall} {x y : Notes} {L : List (Attr × List ℝ)} (hl : ∀ a ∈ l, a.Admissible w)
    (d : Describes g w x.c) (h : nsession g l x = .ok (L, y)) {a : Attr} {v : List ℝ} (hv : (a, v) ∈ L) :
    ∃ m c c', NCall.method m ∈ l ∧ a.SourceIs m ∧ Describes g w c ∧ c.rest = x.c.rest ∧ m.value g c = .ok (v, c') := by
  obtain ⟨-, -, -, -, k⟩ := nsession_steps l hl d h
  obtain ⟨m, c, c', q1, q2, q3, q4, q5⟩ := k _ hv
  refine ⟨m, c, c', q1, ?_, q3, q4, q5⟩
  simp only at q2
  subst q2
  cases m <;> simp [Method.attr, Attr.SourceIs]

/-- A session to which all of C144 applies: the virial radius asked for in pc, a conversion to kpc, and the virial radius again. -/
example : ∃ (x y : Notes) (w : World) (v v' : ℝ), Describes demoG w x.c ∧ x.c.st = demo.st ∧ x.attr .rv = none ∧
    nsession demoG [.method (.virialRadius true none), .convert (.toKpckms true), .method (.virialRadius false none)] x
      = .ok ([(.rv, [v]), (.rv, [v'])], y) ∧
    y.attr .rv = some [v'] ∧ y.c.units = some .kpckms ∧ v = w.virial false ∧ v' * 1000 = w.virial false := by
  obtain ⟨c, w, hst, p, l, hg, f, hm, hM, hw, i, hu, -⟩ := demo_analysed
  have d : Describes demoG w c := ⟨p, l, hg, f, hw, i⟩
  have k := core_fields (analyze_core hst)
  have kp : c.projected = false := (congrArg Cluster.projected k.2.2.2.2.2.2.2.2.2.2.2 :)
  obtain ⟨v, c1, h1, h2, d1, h3, r1⟩ := C45_function d true false hu rfl
  have hu1 : c1.units = some .pckms := (congrArg Data.units h3).trans hu
  have hl : (Op.toKpckms true).linear := by simp [Op.linear, Op.unitTarget, Op.originTarget, Units.linear]
  obtain ⟨c2, h4, -⟩ := exec_total (op := .toKpckms true) d1.pos d1.lin hl d1.good
  obtain ⟨d2, r2⟩ := (Rel.refl d1).exec (.toKpckms true) hl (by simp [Op.analysed]) c2 h4
  have st := exec_step d1.pos.nz d1.lin hl h4
  have hu2 : c2.units = some .kpckms := by rw [st.units]; rfl
  obtain ⟨v', c3, h5, h6, d3, h7, r3⟩ := C45_function d2 false false hu2 rfl
  have kp2 : c2.projected = false := by
    rw [← kp]
    exact (congrArg Cluster.projected (r2.trans r1) :)
  obtain ⟨x, hx⟩ : ∃ x : Notes, x = ⟨c, fun _ => none⟩ := ⟨_, rfl⟩
  have hs : nsession demoG [.method (.virialRadius true none), .convert (.toKpckms true), .method (.virialRadius false none)] x
      = .ok ([(.rv, [v]), (.rv, [v'])], ((x.set c1 .rv [v]).set c3 .rv [v'])) := by
    subst hx
    simp only [nsession, NCall.exec, Method.exec, Method.value, kp, kp2, Option.getD_none, h1, Except.map, bind, Except.bind, Notes.set, h4, h5,
      pure, Except.pure, Method.attr]
    rfl
  refine ⟨x, _, w, v, v', by subst hx; exact d, by subst hx; exact k.2.2.2.2.1, by subst hx; rfl, hs, ?_, ?_, ?_, ?_⟩
  · exact C144_attributes _ hs .rv
  · exact (congrArg Data.units h7).trans hu2
  · rw [← h2]; simp
  · rw [← h6]

/-- **C145 (violated: projection).**  For a cluster set to projection (`projected=True`) the methods disagree about what to do when the
keyword is not given: relaxation times, distances to neighbours, Lagrange and virial radii are projected (although their documented
default is `False`), mass functions, equipartition fits, kinematic concentration, core radius and limiting radius are not.  So `rc` is not the
radius `trc` is computed from. -/
theorem C145_projected_violated {g : Galpy} {c : Cluster} (h : c.projected = true) :
    (∀ rad γ, (Method.relaxationTime rad γ none).value g c = (Method.relaxationTime rad γ (some true)).value g c) ∧
    (∀ γ, (Method.halfMassRelaxationTime γ none).value g c = (Method.halfMassRelaxationTime γ (some true)).value g c) ∧
    (∀ kd γ, (Method.coreRelaxationTime kd γ none).value g c = (Method.coreRelaxationTime kd γ (some true)).value g c) ∧
    (∀ n, (Method.rlagrange n none).value g c = (Method.rlagrange n (some true)).value g c) ∧
    (∀ f, (Method.virialRadius f none).value g c = (Method.virialRadius f (some true)).value g c) ∧
    (∀ kd, (Method.closestStar kd none).value g c = (Method.closestStar kd (some true)).value g c) ∧
    (∀ a e i m, (Method.massFunction a none e i m).value g c = (Method.massFunction a (some false) e i m).value g c) ∧
    (∀ a e i m, (Method.etaFunction a none e i m).value g c = (Method.etaFunction a (some false) e i m).value g c) ∧
    (∀ a q e i m, (Method.meqFunction a none q e i m).value g c = (Method.meqFunction a (some false) q e i m).value g c) ∧
    (∀ a q e i m, (Method.ckin a none q e i m).value g c = (Method.ckin a (some false) q e i m).value g c) ∧
    (∀ kd k, (Method.rcore kd k none).value g c = (Method.rcore kd k (some false)).value g c) ∧
    (∀ f a n e, (Method.rlimiting f a n none e).value g c = (Method.rlimiting f a n (some false) e).value g c) := by
  refine ⟨?_, ?_, ?_, ?_, ?_, ?_, ?_, ?_, ?_, ?_, ?_, ?_⟩ <;> intros <;> simp only [Method.value, h, Option.getD_none, Option.getD_some]

/-- C145 is not vacuous: for the two stars of the demonstration cluster, set to projection, `virial_radius()` without the keyword and
`virial_radius(projected=False)`, its documented default, are different numbers. -/
theorem C145_virial_violated : ∃ (c : Cluster) (v v' : ℝ) (c1 c2 : Cluster), c.projected = true ∧ c.st = demo.st ∧
    (Method.virialRadius true none).value demoG c = .ok ([v], c1) ∧ (Method.virialRadius true (some false)).value demoG c = .ok ([v'], c2) ∧
    v ≠ v' := by
  obtain ⟨c0, w, hst, p, l, hg, f, hm, hM, hw, i, hu, -⟩ := demo_analysed
  have k := core_fields (analyze_core hst)
  obtain ⟨c, hc⟩ : ∃ c : Cluster, c = { c0 with projected := true } := ⟨_, rfl⟩
  have d : Describes demoG w c := by
    subst hc
    exact ⟨⟨p.1, p.2, p.3, p.4, p.5, p.6, p.7, p.8, p.9⟩, ⟨l.1, l.2⟩, ⟨hg.1, hg.2, hg.3, hg.4, hg.5⟩,
      ⟨f.1, f.2, f.3, f.4, f.5, f.6, f.7, f.8, f.9, f.10, f.11, f.12⟩, hw, i⟩
  have hcu : c.units = some .pckms := by subst hc; exact hu
  have hcs : c.st = demo.st := by subst hc; exact k.2.2.2.2.1
  have hcm : c.m = demo.m := by subst hc; exact k.2.2.2.1
  have hcp : c.projected = true := by subst hc; rfl
  obtain ⟨v, c1, h1, h2, -⟩ := C45_function d true true hcu rfl
  obtain ⟨v', c2, h3, h4, -⟩ := C45_function d true false hcu rfl
  have e1 := virial_world d true true hcu rfl
  have e2 := virial_world d true false hcu rfl
  refine ⟨c, v, v', c1, c2, hcp, hcs, ?_, ?_, ?_⟩
  · simp only [Method.value, hcp, Option.getD_none, h1, Except.map]
  · simp only [Method.value, Option.getD_some, h3, Except.map]
  · rw [← h2, hcm, hcs, C45_virial_radius _ _ _ _ rfl] at e1
    rw [← h4, hcm, hcs, C45_virial_radius _ _ _ _ rfl] at e2
    intro hv
    rw [← hv] at e2
    have := e1.trans e2.symm
    simp [pairSum, demo, rowDist, Finset.sum_range_succ] at this
    norm_num at this
    have a : √10 < √26 := Real.sqrt_lt_sqrt (by norm_num) (by norm_num)
    have b : 0 < √10 := Real.sqrt_pos.mpr (by norm_num)
    have b' : 0 < √26 := Real.sqrt_pos.mpr (by norm_num)
    field_simp at this
    linarith

end

end CT
