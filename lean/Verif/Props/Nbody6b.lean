/- C41: clusters loaded and advanced from NBODY6 files. -/
import Verif.Props.Nbody6
import Verif.Spec.Demo

namespace CT

noncomputable section

set_option linter.unusedSimpArgs false

theorem range_get! {α : Type} [Inhabited α] (l : List α) : (List.range l.length).map (fun i => l[i]!) = l := by
  refine List.ext_getElem (by simp) fun i h1 h2 => ?_
  simp only [List.getElem_map, List.getElem_range]
  exact getElem!_pos l i h2

/-- `add_stars` without binaries, sorting off, on a cluster that has not been sorted. -/
theorem addStars_more {a : StarArgs} {n k : ℕ} {t : Tab} (f : a.Fits n) (al : Aligned t k)
    (hu : ¬(t.base.units = some .radec ∧ t.base.origin = some .sky)) (h1 : t.base.rorder = none) (h2 : t.base.rproorder = none) :
    ∃ b, addStars a 0 false true t =
        .ok { appended a n t with base := b, ntot := k + n, ns := ((k + n : ℕ) : ℤ) - t.nb } ∧
      b.core = { t.base with
        st := rowsOf (appended a n t).x (appended a n t).y (appended a n t).z (appended a n t).vx (appended a n t).vy
          (appended a n t).vz
        m := (appended a n t).m }.core ∧ b.rorder = none ∧ b.rproorder = none ∧ Fresh b := by
  have al' : Aligned (appended a n t) (k + n) := al.appended
  have hs : addSkyCols a.expand (appended a n t) = appended a n t := by
    unfold addSkyCols
    exact if_neg hu
  obtain ⟨rows, hrows⟩ : ∃ rows, rows = rowsOf (appended a n t).x (appended a n t).y (appended a n t).z (appended a n t).vx
    (appended a n t).vy (appended a n t).vz := ⟨_, rfl⟩
  have hne : rows ≠ [] := by
    rw [hrows]
    have p := f.pos
    have l1 := al'.x
    have l2 := al'.y
    have l3 := al'.z
    have l4 := al'.vx
    have l5 := al'.vy
    have l6 := al'.vz
    generalize (appended a n t).x = q1 at *
    generalize (appended a n t).y = q2 at *
    generalize (appended a n t).z = q3 at *
    generalize (appended a n t).vx = q4 at *
    generalize (appended a n t).vy = q5 at *
    generalize (appended a n t).vz = q6 at *
    match q1, q2, q3, q4, q5, q6 with
    | _ :: _, _ :: _, _ :: _, _ :: _, _ :: _, _ :: _ => simp [rowsOf]
    | [], _, _, _, _, _ => simp at l1; omega
    | _, [], _, _, _, _ => simp at l2; omega
    | _, _, [], _, _, _ => simp at l3; omega
    | _, _, _, [], _, _ => simp at l4; omega
    | _, _, _, _, [], _ => simp at l5; omega
    | _, _, _, _, _, [] => simp at l6; omega
  obtain ⟨b, hb, b1, b2⟩ := analyze_unsorted (c := { t.base with st := rows, m := (appended a n t).m }) hne h1 h2
  have e : analyzeTab false (appended a n t) = .ok { appended a n t with base := b } := by
    unfold analyzeTab
    rw [if_neg (by simp only [al'.x, al'.y, al'.z, al'.vx, al'.vy, al'.vz]; simp)]
    simp only [bind, Except.bind, pure, Except.pure]
    rw [← hrows]
    have : (appended a n t).base = t.base := rfl
    rw [this, hb]
  refine ⟨b, ?_, ?_, b1, b2, analyze_fresh hb⟩
  · unfold addStars
    simp only [Nat.lt_irrefl, if_false, bind, Except.bind, Nat.mul_zero, addSingles_eq f, al'.fix, if_true, hs, e, pure,
      Except.pure, al'.x]
    rfl
  · rw [← hrows]; exact analyze_core hb

/-- The columns hold the stars of `L`. -/
structure Holds (L : List StarRec) (t : Tab) : Prop where
  x : t.x = L.map (fun s => s.x.value)
  y : t.y = L.map (fun s => s.y.value)
  z : t.z = L.map (fun s => s.z.value)
  vx : t.vx = L.map (fun s => s.vx.value)
  vy : t.vy = L.map (fun s => s.vy.value)
  vz : t.vz = L.map (fun s => s.vz.value)
  m : t.m = L.map (fun s => s.m.value)
  id : t.id = L.map StarRec.id
  m0 : t.m0.length = L.length
  npop : t.npop.length = L.length

theorem Holds.aligned {L : List StarRec} {t : Tab} (h : Holds L t) : Aligned t L.length := by
  constructor
  · rw [h.x]; simp
  · rw [h.y]; simp
  · rw [h.z]; simp
  · rw [h.vx]; simp
  · rw [h.vy]; simp
  · rw [h.vz]; simp
  · rw [h.m]; simp
  · exact h.m0
  · exact h.npop
  · rw [h.id]; simp

/-- The rows of a list of stars. -/
def starRows (L : List StarRec) : List Ph :=
  L.map (fun s => ⟨s.x.value, s.y.value, s.z.value, s.vx.value, s.vy.value, s.vz.value⟩)

/-- The masses of a list of stars. -/
def starMasses (L : List StarRec) : List ℝ := L.map (fun s => s.m.value)

theorem snapStars_fits {r : Rec} (h : r.stars ≠ []) : (snapStars r.snap).Fits r.stars.length := by
  have hp := List.length_pos_iff.mpr h
  refine ⟨hp, ?_, ?_, ?_, ?_, ?_, ?_, ?_, ?_, (by intro v h; cases h), (by intro v h; cases h), .inr (.inl trivial)⟩
  all_goals simp [snapStars, Rec.snap, Val.fits]

theorem range_at {α : Type} [Inhabited α] {l : List α} {n : ℕ} (h : l.length = n) : (List.range n).map (Val.arr l).at = l := by
  subst h
  exact range_get! l

/-- Adding the stars of a snapshot. -/
theorem addSnap {r : Rec} {L : List StarRec} {t : Tab} (hr : r.stars ≠ []) (h : Holds L t)
    (hu : ¬(t.base.units = some .radec ∧ t.base.origin = some .sky)) (h1 : t.base.rorder = none) (h2 : t.base.rproorder = none) :
    ∃ T, addStars (snapStars r.snap) 0 false true t = .ok T ∧ Holds (L ++ r.stars) T ∧
      T.base.core = { t.base with st := starRows (L ++ r.stars), m := starMasses (L ++ r.stars) }.core ∧
      T.base.rorder = none ∧ T.base.rproorder = none ∧ Fresh T.base ∧ T.ntot = (L ++ r.stars).length ∧ T.nb = t.nb := by
  obtain ⟨b, e, hb, b1, b2, b3⟩ := addStars_more (snapStars_fits hr) h.aligned hu h1 h2
  have H : Holds (L ++ r.stars) (appended (snapStars r.snap) r.stars.length t) := by
    have hx : ∀ (α : Type) [Inhabited α] (φ : StarRec → α), (List.range r.stars.length).map (Val.arr (r.stars.map φ)).at = r.stars.map φ :=
      fun α _ φ => range_at (by simp)
    constructor
    · simp only [appended, snapStars, Rec.snap, h.x, List.map_map, List.map_append, Function.comp_def, hx]
    · simp only [appended, snapStars, Rec.snap, h.y, List.map_map, List.map_append, Function.comp_def, hx]
    · simp only [appended, snapStars, Rec.snap, h.z, List.map_map, List.map_append, Function.comp_def, hx]
    · simp only [appended, snapStars, Rec.snap, h.vx, List.map_map, List.map_append, Function.comp_def, hx]
    · simp only [appended, snapStars, Rec.snap, h.vy, List.map_map, List.map_append, Function.comp_def, hx]
    · simp only [appended, snapStars, Rec.snap, h.vz, List.map_map, List.map_append, Function.comp_def, hx]
    · simp only [appended, snapStars, Rec.snap, h.m, List.map_append, Option.map_some, Option.getD_some]
      rw [hx]
    · simp only [appended, snapStars, Rec.snap, h.id, List.map_append, StarArgs.ids]
      rw [hx]
    · simp [appended, h.m0]
    · simp [appended, h.npop]
  refine ⟨_, e, ?_, ?_, b1, b2, b3, ?_, rfl⟩
  · exact ⟨H.x, H.y, H.z, H.vx, H.vy, H.vz, H.m, H.id, H.m0, H.npop⟩
  · show b.core = _
    rw [hb, H.x, H.y, H.z, H.vx, H.vy, H.vz, H.m, rowsOf_map]
    rfl
  · show L.length + r.stars.length = _
    simp

/-- The header of an OUT3 snapshot has its entries, and there are stars. -/
def Rec.Full (r : Rec) : Prop := r.Ok ∧ r.stars ≠ [] ∧ 18 ≤ r.alist.length

/-- A snapshot of OUT33: without stars, or with the six numbers of the orbital position. -/
def Rec.TailOk (r : Rec) : Prop := r.Ok ∧ (r.stars ≠ [] → 6 ≤ r.alist.length)

/-- Entry `k` of the header array. -/
def Rec.head (r : Rec) (k : ℕ) : ℝ := (r.alist.map Single.value)[k]!

/-- The stars of the tail, if there is a file with them. -/
def tailStars (b : Option Rec) : List StarRec := (b.map Rec.stars).getD []

/-- The orbital position given with the stars of the tail. -/
def tailPos (b : Option Rec) : Ph :=
  b.elim ⟨0, 0, 0, 0, 0, 0⟩ (fun b => if b.stars = [] then ⟨0, 0, 0, 0, 0, 0⟩
    else ⟨b.head 0, b.head 1, b.head 2, b.head 3, b.head 4, b.head 5⟩)

/-- A cluster that is what snapshot `r` of OUT3 and `b` of OUT33 say (the orbital position and the time apart). -/
structure IsSnapshot (r : Rec) (b : Option Rec) (t : Tab) : Prop where
  st : t.base.st = starRows (tailStars b ++ r.stars)
  m : t.base.m = starMasses (tailStars b ++ r.stars)
  id : t.id = (tailStars b ++ r.stars).map StarRec.id
  ntot : t.ntot = (tailStars b).length + r.stars.length
  units : t.base.units = some .nbody
  origin : t.base.origin = some .cluster
  rbar : t.base.rbar = r.head 2
  zmbar : t.base.zmbar = r.head 3
  vbar : t.base.vbar = r.head 11
  tbar : t.base.tbar = r.head 10
  centre : t.base.c = ⟨r.head 6, r.head 7, r.head 8, 0, 0, 0⟩

theorem alistAt_ok {r : Rec} {k : ℕ} (h : k < r.alist.length) : alistAt r.snap k = .ok (r.head k) := by
  unfold alistAt
  rw [if_pos (by simpa [Rec.snap] using h)]
  rfl

theorem addHeader_ok {r : Rec} (h : r.Full) (t : Tab) :
    addHeader r.snap t = .ok (addNbody6 (r.head 2) (r.head 6) (r.head 7) (r.head 8) (r.head 3) (r.head 11) (r.head 10) (r.head 1) t) := by
  obtain ⟨h1, h2, h3⟩ := h
  have hp : 0 < r.snap.n := by
    have := List.length_pos_iff.mpr h2
    show (0 : ℤ) < r.stars.length
    exact_mod_cast this
  unfold addHeader
  rw [if_pos hp]
  simp only [alistAt_ok (r := r) (k := 13) (by omega), alistAt_ok (r := r) (k := 12) (by omega), alistAt_ok (r := r) (k := 2) (by omega),
    alistAt_ok (r := r) (k := 4) (by omega), alistAt_ok (r := r) (k := 6) (by omega), alistAt_ok (r := r) (k := 7) (by omega),
    alistAt_ok (r := r) (k := 8) (by omega), alistAt_ok (r := r) (k := 3) (by omega), alistAt_ok (r := r) (k := 11) (by omega),
    alistAt_ok (r := r) (k := 10) (by omega), alistAt_ok (r := r) (k := 17) (by omega), alistAt_ok (r := r) (k := 1) (by omega), bind,
    Except.bind, pure, Except.pure]

/-- What is known of the cluster while its stars are added. -/
structure Before (L : List StarRec) (c0 : Cluster) (gc : Ph) (t : Tab) : Prop where
  holds : Holds L t
  core : ∃ st m, t.base.core = { c0 with st := st, m := m, gc := gc }.core
  ro : t.base.rorder = none
  rpo : t.base.rproorder = none
  ntot : t.ntot = L.length

theorem readTail_ok {g : Galpy} {b : Option Rec} {t : Tab} {c0 : Cluster} {tl : Bytes} (hb : ∀ x, b = some x → x.TailOk)
    (h : Before [] c0 ⟨0, 0, 0, 0, 0, 0⟩ t) (hu : c0.units = some .nbody) :
    ∃ T, readTail g (b.map (fun x => x.out33 ++ tl)) t = .ok (T, b.map (fun _ => tl)) ∧
      Before (tailStars b) c0 (tailPos b) T := by
  cases b with
  | none => exact ⟨t, rfl, h⟩
  | some x =>
    obtain ⟨k1, k2⟩ := hb x rfl
    unfold readTail
    simp only [Option.map_some, Option.elim_some, C41_tail_record k1, bind, Except.bind]
    by_cases hx : x.stars = []
    · simp only [if_pos hx, addTail, emptySnap, lt_irrefl, if_false, pure, Except.pure]
      refine ⟨t, rfl, ?_⟩
      simpa [tailStars, hx, tailPos] using h
    · have hp : 0 < x.snap.n := by
        have := List.length_pos_iff.mpr hx
        show (0 : ℤ) < x.stars.length
        exact_mod_cast this
      have hl := k2 hx
      obtain ⟨st, m, hcore⟩ := h.core
      have hunits : t.base.units = some .nbody := by
        have := congrArg Cluster.units hcore
        exact this.trans hu
      obtain ⟨T, t1, t2, t3, t4, t5, t6, t7, t8⟩ := addSnap hx h.holds (by rw [hunits]; rintro ⟨e, -⟩; cases e) h.ro h.rpo
      have hT : T.base.units = some .nbody := (congrArg Cluster.units t3).trans hunits
      obtain ⟨q, s, e, hq⟩ := addOrbit_lin (g := g) (p := ⟨x.head 0, x.head 1, x.head 2, x.head 3, x.head 4, x.head 5⟩)
        (ou := none) (t := none) (c := T.base) (by rw [hT]; rintro ⟨⟩)
      obtain ⟨rfl, rfl⟩ := hq rfl
      simp only [if_neg hx, addTail, if_pos hp, t1, alistAt_ok (r := x) (k := 0) (by omega), alistAt_ok (r := x) (k := 1) (by omega),
        alistAt_ok (r := x) (k := 2) (by omega), alistAt_ok (r := x) (k := 3) (by omega), alistAt_ok (r := x) (k := 4) (by omega),
        alistAt_ok (r := x) (k := 5) (by omega), bind, Except.bind, pure, Except.pure]
      refine ⟨_, rfl, ⟨?_, ?_, ?_, ?_, ?_⟩⟩
      · simp only [tailStars, Option.map_some, Option.getD_some]
        rw [List.nil_append] at t2
        exact ⟨t2.x, t2.y, t2.z, t2.vx, t2.vy, t2.vz, t2.m, t2.id, t2.m0, t2.npop⟩
      · refine ⟨starRows x.stars, starMasses x.stars, ?_⟩
        show (addOrbit _ _ _ _ _).core = _
        rw [e]
        simp only [tailPos, Option.elim_some, if_neg hx]
        rw [List.nil_append] at t3
        have key : ∀ {a d : Cluster} {gc : Ph} {st' : List Ph} {m' : List ℝ},
            a.core = d.core → { a with st := st', m := m', gc := gc }.core = { d with st := st', m := m', gc := gc }.core := by
          intro a d gc st' m' h
          have := congrArg (fun c : Cluster => { c with st := st', m := m', gc := gc }) h
          exact this
        have e3 := key (gc := ⟨x.head 0, x.head 1, x.head 2, x.head 3, x.head 4, x.head 5⟩) (st' := starRows x.stars)
          (m' := starMasses x.stars) t3
        have e4 := key (gc := ⟨x.head 0, x.head 1, x.head 2, x.head 3, x.head 4, x.head 5⟩) (st' := starRows x.stars)
          (m' := starMasses x.stars) hcore
        have f1 : T.base.st = starRows x.stars := congrArg Cluster.st t3
        have f2 : T.base.m = starMasses x.stars := congrArg Cluster.m t3
        have e5 : ({ T.base with gc := ⟨x.head 0, x.head 1, x.head 2, x.head 3, x.head 4, x.head 5⟩, tphys := T.base.tphys } : Cluster) =
            { T.base with st := starRows x.stars, m := starMasses x.stars,
                          gc := ⟨x.head 0, x.head 1, x.head 2, x.head 3, x.head 4, x.head 5⟩ } := by
          rw [← f1, ← f2]
        show Cluster.core { T.base with gc := _, tphys := T.base.tphys } = _
        rw [e5, e3]
        exact e4
      · show (addOrbit _ _ _ _ _).rorder = _
        rw [e]; exact t4
      · show (addOrbit _ _ _ _ _).rproorder = _
        rw [e]; exact t5
      · simpa [tailStars] using t7

theorem readOrbitIf_drop {g : Galpy} {kw : Kw} {adv : Bool} {f f' : Option (List Line)} {c c' : Cluster}
    (h : readOrbitIf g kw adv f c = .ok (c', f')) : f' = f.map (List.drop (orbitLines kw adv)) := by
  cases f with
  | none => simp only [readOrbitIf, Option.elim_none] at h; cases h; rfl
  | some f =>
    simp only [readOrbitIf, Option.elim_some, readOrbit] at h
    obtain ⟨r, hr, h⟩ := bind_ok h
    obtain ⟨v, -, hv⟩ := bind_ok hr
    cases hv; cases h; rfl

theorem rest_of_fields {a d : Cluster} (h : a.core = d.core) :
    a.rbar = d.rbar ∧ a.zmbar = d.zmbar ∧ a.vbar = d.vbar ∧ a.tbar = d.tbar ∧ a.c = d.c ∧ a.gc = d.gc ∧ a.tphys = d.tphys ∧
      a.units = d.units ∧ a.origin = d.origin ∧ a.st = d.st ∧ a.m = d.m :=
  ⟨(congrArg Cluster.rbar h :), (congrArg Cluster.zmbar h :), (congrArg Cluster.vbar h :), (congrArg Cluster.tbar h :), (congrArg Cluster.c h :),
    (congrArg Cluster.gc h :), (congrArg Cluster.tphys h :), (congrArg Cluster.units h :), (congrArg Cluster.origin h :), (congrArg Cluster.st h :),
    (congrArg Cluster.m h :)⟩

/-- One snapshot. -/
theorem getNbody6_ok {g : Galpy} {r : Rec} {b : Option Rec} {s tl : Bytes} {kw : Kw} {adv : Bool} {ofile : Option (List Line)}
    {t : ℝ} {p : Ph} (hr : r.Full) (hb : ∀ x, b = some x → x.TailOk)
    (hm : 0 ≤ (starMasses (tailStars b ++ r.stars)).sum) (ho : OrbitOk kw adv ofile t p) :
    ∃ c, getNbody6 g (some (r.out3 ++ s)) (b.map (fun x => x.out33 ++ tl)) ofile adv kw = .ok c ∧ IsSnapshot r b c.tab ∧
      c.tab.base.gc = (if ofile.isSome then p else tailPos b) ∧
      c.tab.base.tphys = (if ofile.isSome ∧ kw.otime.getD false then t else r.head 0) ∧
      c.sfile = s ∧ c.bfile = b.map (fun _ => tl) ∧ c.ofile = ofile.map (List.drop (orbitLines kw adv)) := by
  obtain ⟨h1, h2, h3⟩ := id hr
  unfold getNbody6
  simp only [Option.elim_some, C41_record h1, bind, Except.bind, alistAt_ok (r := r) (k := 0) (by omega), addHeader_ok hr]
  set T0 := addNbody6 (r.head 2) (r.head 6) (r.head 7) (r.head 8) (r.head 3) (r.head 11) (r.head 10) (r.head 1)
    (blankTab (some .nbody) (some .cluster) (r.head 0)) with hT0
  have hB : Before [] T0.base ⟨0, 0, 0, 0, 0, 0⟩ T0 := by
    refine ⟨⟨rfl, rfl, rfl, rfl, rfl, rfl, rfl, rfl, rfl, rfl⟩, ⟨[], [], rfl⟩, rfl, rfl, rfl⟩
  obtain ⟨T1, t1, B1⟩ := readTail_ok (g := g) (tl := tl) hb hB rfl
  rw [t1]
  simp only
  obtain ⟨st, m, c1⟩ := B1.core
  have u1 : T1.base.units = some .nbody := congrArg Cluster.units c1
  have hp : 0 < r.snap.n := by
    have := List.length_pos_iff.mpr h2
    show (0 : ℤ) < r.stars.length
    exact_mod_cast this
  obtain ⟨T2, e2, H2, c2, o2, p2, f2, n2, -⟩ := addSnap h2 B1.holds (by rw [u1]; rintro ⟨e, -⟩; cases e) B1.ro B1.rpo
  rw [addOut3Stars, if_pos hp, e2]
  simp only
  have hlen : 0 < T2.ntot := by
    rw [n2]
    have := List.length_pos_iff.mpr h2
    simp
    omega
  have hst2 : T2.base.st = starRows (tailStars b ++ r.stars) := congrArg Cluster.st c2
  have hm2 : T2.base.m = starMasses (tailStars b ++ r.stars) := congrArg Cluster.m c2
  obtain ⟨T3, e3, c3, i3, n3⟩ : ∃ T3, nbAnalyze kw T2 = .ok T3 ∧ T3.base.core = T2.base.core ∧ T3.id = T2.id ∧ T3.ntot = T2.ntot := by
    unfold nbAnalyze
    split
    · have hrows : rowsOf T2.x T2.y T2.z T2.vx T2.vy T2.vz = T2.base.st := by
        rw [H2.x, H2.y, H2.z, H2.vx, H2.vy, H2.vz, rowsOf_map, hst2]
        rfl
      have good : Good { T2.base with st := T2.base.st, m := T2.m } := by
        refine ⟨?_, ?_, ?_, ?_, ?_⟩
        · show T2.base.st ≠ []
          rw [hst2]
          simp [starRows, h2]
        · show T2.m.length = T2.base.st.length
          rw [H2.m, hst2]
          simp [starRows]
        · show 0 ≤ T2.m.sum
          rw [H2.m]
          exact hm
        · show ∀ o, T2.base.rorder = some o → _
          rw [o2]; intro o h; cases h
        · show ∀ o, T2.base.rproorder = some o → _
          rw [p2]; intro o h; cases h
      obtain ⟨b', hb', -⟩ := analyze_total (s := kw.sort.getD true) (p := true) good
      refine ⟨{ T2 with base := b' }, ?_, ?_, rfl, rfl⟩
      · unfold analyzeTab
        have al := H2.aligned
        rw [if_neg (by simp only [al.x, al.y, al.z, al.vx, al.vy, al.vz]; simp)]
        simp only [bind, Except.bind, pure, Except.pure, hrows, hb']
      · have := analyze_core hb'
        have hmm : T2.m = T2.base.m := by rw [H2.m, hm2]; rfl
        rw [hmm] at this
        exact this
    · exact ⟨T2, rfl, rfl, rfl, rfl⟩
  rw [e3]
  simp only
  have F1 := rest_of_fields c1
  have F2 := rest_of_fields c2
  have F3 := rest_of_fields c3
  have u3 : T3.base.units = some .nbody := F3.2.2.2.2.2.2.2.1.trans (F2.2.2.2.2.2.2.2.1.trans u1)
  obtain ⟨f', e4⟩ := readOrbitIf_ok (g := g) (c := T3.base) (by rw [u3]; rintro ⟨⟩) ho
  rw [e4]
  simp only [pure, Except.pure]
  refine ⟨_, rfl, ⟨?_, ?_, ?_, ?_, ?_, ?_, ?_, ?_, ?_, ?_, ?_⟩, ?_, ?_, rfl, rfl, readOrbitIf_drop e4⟩
  · show T3.base.st = _
    rw [F3.2.2.2.2.2.2.2.2.2.1, hst2]
  · show T3.base.m = _
    rw [F3.2.2.2.2.2.2.2.2.2.2, hm2]
  · show T3.id = _
    rw [i3, H2.id]
  · show T3.ntot = _
    rw [n3, n2]
    simp
  · exact u3
  · show T3.base.origin = _
    rw [F3.2.2.2.2.2.2.2.2.1, F2.2.2.2.2.2.2.2.2.1, F1.2.2.2.2.2.2.2.2.1]
    rfl
  · show T3.base.rbar = _
    rw [F3.1, F2.1, F1.1]
    rfl
  · show T3.base.zmbar = _
    rw [F3.2.1, F2.2.1, F1.2.1]
    rfl
  · show T3.base.vbar = _
    rw [F3.2.2.1, F2.2.2.1, F1.2.2.1]
    rfl
  · show T3.base.tbar = _
    rw [F3.2.2.2.1, F2.2.2.2.1, F1.2.2.2.1]
    rfl
  · show T3.base.c = _
    rw [F3.2.2.2.2.1, F2.2.2.2.2.1, F1.2.2.2.2.1]
    rfl
  · show (if ofile.isSome then p else T3.base.gc) = _
    rw [F3.2.2.2.2.2.1, F2.2.2.2.2.2.1, F1.2.2.2.2.2.1]
  · show (if ofile.isSome ∧ kw.otime.getD false then t else T3.base.tphys) = _
    rw [F3.2.2.2.2.2.2.1, F2.2.2.2.2.2.2.1, F1.2.2.2.2.2.2.1]
    rfl

theorem flat_succ {α : Type} (d : ℕ) (f : ℕ → List α) :
    (List.range (d + 1)).flatMap f = f 0 ++ (List.range d).flatMap (fun j => f (j + 1)) := by
  rw [List.range_succ_eq_map, List.flatMap_cons, List.flatMap_map]

/-- **C41 (histories).**  A simulation with snapshots `rs 0, rs 1, …` in OUT3 and, if there is such a file, `bs 0, bs 1, …` in
OUT33, and possibly an orbit file with one line per snapshot: loading it and advancing `k` times gives snapshot `k` of all of
them: the stars of the tail followed by the stars of OUT3 in the order of the file, with their masses and ids, the N-body
scales and the centre of the header, N-body units, the position from the orbit file (else from OUT33), and the files at
the end of snapshot `k`. -/
theorem C41_histories {g : Galpy} {rs : ℕ → Rec} {bs : Option (ℕ → Rec)} {kw a : Kw} {ofile : Option (List Line)} {k : ℕ}
    {t : ℕ → ℝ} {p : ℕ → Ph} {s tl : Bytes} (hr : ∀ j ≤ k, (rs j).Full) (hb : ∀ f, bs = some f → ∀ j ≤ k, (f j).TailOk)
    (hm : ∀ j ≤ k, 0 ≤ (starMasses (tailStars (bs.map (· j)) ++ (rs j).stars)).sum)
    (hk : kw.nsnap = none)
    (ho : ∀ L, ofile = some L → (kw.ocolNames = none ∧ kw.ocolNums = none ∧ kw.ounits = none) ∧
      (a.ocolNames = none ∧ a.ocolNums = none ∧ a.ounits = none) ∧ ∀ j ≤ k, OrbitAt L j (t j) (p j)) :
    ∃ c c', loadNbody6 g (some ((List.range (k + 1)).flatMap (fun j => (rs j).out3) ++ s))
        (bs.map (fun f => (List.range (k + 1)).flatMap (fun j => (f j).out33) ++ tl)) ofile kw = .ok c ∧
      advanceNbody6Many g a k c = .ok c' ∧ IsSnapshot (rs k) (bs.map (· k)) c'.tab ∧
      c'.tab.base.gc = (if ofile.isSome then p k else tailPos (bs.map (· k))) ∧ c'.sfile = s ∧ c'.bfile = bs.map (fun _ => tl) := by
  have step : ∀ (m : ℕ), m ≤ k → ∀ (c : NbRun),
      c.sfile = ((List.range (k - m)).flatMap (fun j => (rs (m + 1 + j)).out3) ++ s) →
      c.bfile = bs.map (fun f => (List.range (k - m)).flatMap (fun j => (f (m + 1 + j)).out33) ++ tl) →
      c.ofile = ofile.map (List.drop (m + 1)) → IsSnapshot (rs m) (bs.map (· m)) c.tab →
      c.tab.base.gc = (if ofile.isSome then p m else tailPos (bs.map (· m))) →
      ∃ c', advanceNbody6Many g a (k - m) c = .ok c' ∧ IsSnapshot (rs k) (bs.map (· k)) c'.tab ∧
        c'.tab.base.gc = (if ofile.isSome then p k else tailPos (bs.map (· k))) ∧ c'.sfile = s ∧ c'.bfile = bs.map (fun _ => tl) := by
    intro m hmk
    induction h : k - m generalizing m with
    | zero =>
      intro c h1 h2 h3 h4 h5
      obtain rfl : m = k := by omega
      refine ⟨c, rfl, h4, h5, by simpa using h1, by simpa using h2⟩
    | succ d ih =>
      intro c h1 h2 h3 h4 h5
      have arith : ∀ j, m + 1 + (j + 1) = m + 1 + 1 + j := fun j => by omega
      have e1 : c.sfile = (rs (m + 1)).out3 ++ ((List.range d).flatMap (fun j => (rs (m + 1 + 1 + j)).out3) ++ s) := by
        have q : (fun j => (rs (m + 1 + (j + 1))).out3) = (fun j => (rs (m + 1 + 1 + j)).out3) := by funext j; rw [arith]
        rw [h1, flat_succ, List.append_assoc, q]
      have e2 : ∃ tl', c.bfile = (bs.map (· (m + 1))).map (fun x => x.out33 ++ tl') ∧
          (bs.map (· (m + 1))).map (fun _ => tl') =
            bs.map (fun f => (List.range d).flatMap (fun j => (f (m + 1 + 1 + j)).out33) ++ tl) := by
        cases bs with
        | none => exact ⟨[], h2, rfl⟩
        | some f =>
          refine ⟨(List.range d).flatMap (fun j => (f (m + 1 + 1 + j)).out33) ++ tl, ?_, rfl⟩
          rw [h2]
          simp only [Option.map_some]
          have q : (fun j => (f (m + 1 + (j + 1))).out33) = (fun j => (f (m + 1 + 1 + j)).out33) := by funext j; rw [arith]
          rw [flat_succ, List.append_assoc, q]
      obtain ⟨tl', e2, e2'⟩ := e2
      obtain ⟨c1, k1, k2, k3, -, k4, k5, k6⟩ := getNbody6_ok (g := g) (r := rs (m + 1)) (b := bs.map (· (m + 1)))
        (s := (List.range d).flatMap (fun j => (rs (m + 1 + 1 + j)).out3) ++ s) (tl := tl')
        (kw := nbAdvKw a) (adv := true) (ofile := ofile.map (List.drop (m + 1))) (t := t (m + 1)) (p := p (m + 1)) (hr _ (by omega))
        (by
          intro x hx
          cases bs with
          | none => cases hx
          | some f => cases hx; exact hb f rfl _ (by omega))
        (hm _ (by omega))
        (by
          intro L hL
          cases hof : ofile with
          | none => rw [hof] at hL; cases hL
          | some L' =>
            rw [hof] at hL
            cases hL
            obtain ⟨-, ⟨q1, q2, q3⟩, q4⟩ := ho L' hof
            refine ⟨q1, q2, q3, ?_⟩
            obtain ⟨more, q5⟩ := q4 (m + 1) (by omega)
            refine ⟨more, ?_⟩
            simpa [List.getElem?_drop] using q5)
      have hadv : advanceNbody6 g a c = .ok c1 := by
        unfold advanceNbody6
        rw [e1, e2, h3, k1]
        simp only [bind, Except.bind, pure, Except.pure]
        rw [if_neg]
        rw [k2.ntot]
        have := List.length_pos_iff.mpr (hr (m + 1) (by omega)).2.1
        omega
      obtain ⟨c', j1, j2⟩ := ih (m + 1) (by omega) (by omega) c1 k4 (k5.trans e2') (by
        rw [k6]
        have : orbitLines (nbAdvKw a) true = 1 := by simp [orbitLines]
        rw [this, Option.map_map]
        cases ofile with
        | none => rfl
        | some L => simp [List.drop_drop, Nat.add_comm]) k2 (by
        rw [k3]
        cases ofile <;> rfl)
      refine ⟨c', ?_, j2⟩
      simp only [advanceNbody6Many, hadv, bind, Except.bind]
      exact j1
  have arith : ∀ j, 0 + 1 + j = j + 1 := fun j => by omega
  obtain ⟨tl', e2, e2'⟩ : ∃ tl', (bs.map (fun f => (List.range (k + 1)).flatMap (fun j => (f j).out33) ++ tl)) =
      (bs.map (· 0)).map (fun x => x.out33 ++ tl') ∧
      (bs.map (· 0)).map (fun _ => tl') = bs.map (fun f => (List.range k).flatMap (fun j => (f (0 + 1 + j)).out33) ++ tl) := by
    cases bs with
    | none => exact ⟨[], rfl, rfl⟩
    | some f =>
      refine ⟨(List.range k).flatMap (fun j => (f (0 + 1 + j)).out33) ++ tl, ?_, rfl⟩
      simp only [Option.map_some]
      rw [flat_succ, List.append_assoc]
      simp only [arith]
  have e1 : (List.range (k + 1)).flatMap (fun j => (rs j).out3) ++ s =
      (rs 0).out3 ++ ((List.range k).flatMap (fun j => (rs (0 + 1 + j)).out3) ++ s) := by
    rw [flat_succ, List.append_assoc]
    simp only [arith]
  obtain ⟨c, k1, k2, k3, -, k4, k5, k6⟩ := getNbody6_ok (g := g) (r := rs 0) (b := bs.map (· 0))
    (s := (List.range k).flatMap (fun j => (rs (0 + 1 + j)).out3) ++ s) (tl := tl') (kw := kw) (adv := false) (ofile := ofile)
    (t := t 0) (p := p 0) (hr 0 (by omega))
    (by
      intro x hx
      cases bs with
      | none => cases hx
      | some f => cases hx; exact hb f rfl 0 (by omega))
    (hm 0 (by omega))
    (by
      intro L hL
      obtain ⟨⟨q1, q2, q3⟩, -, q4⟩ := ho L hL
      refine ⟨q1, q2, q3, ?_⟩
      rw [hk]
      exact q4 0 (by omega))
  rw [e1, e2]
  obtain ⟨c', j⟩ := step 0 (by omega) c (by rw [k4]; rfl) (k5.trans e2') (by
    rw [k6]
    have : orbitLines kw false = 1 := by simp [orbitLines, hk]
    rw [this]) k2 k3
  exact ⟨c, c', k1, j⟩

/-- **C69 (violated: `nsnap`).**  The keyword `nsnap` ("if a specific snapshot is to be read in instead of starting from zero")
does not select the stars: the first snapshot is read; but it does select the line of the orbit file.  The cluster then has
the stars of one snapshot and the orbital position of another. -/
theorem C69_nsnap_violated {g : Galpy} {r : Rec} {s : Bytes} {kw : Kw} {L : List Line} {n : ℕ} {t : ℝ} {p : Ph} (hr : r.Full)
    (hm : 0 ≤ (starMasses r.stars).sum) (hn : kw.nsnap = some n)
    (ho : kw.ocolNames = none ∧ kw.ocolNums = none ∧ kw.ounits = none ∧ OrbitAt L n t p) :
    ∃ c, loadNbody6 g (some (r.out3 ++ s)) none (some L) kw = .ok c ∧ c.tab.base.st = starRows r.stars ∧ c.tab.base.gc = p ∧
      c.sfile = s := by
  obtain ⟨c, k1, k2, k3, -, k4, -⟩ := getNbody6_ok (g := g) (r := r) (b := none) (s := s) (tl := []) (kw := kw) (adv := false)
    (ofile := some L) (t := t) (p := p) hr (by intro x hx; cases hx) hm (by
      intro L' hL
      cases hL
      obtain ⟨q1, q2, q3, q4⟩ := ho
      refine ⟨q1, q2, q3, ?_⟩
      rw [hn]
      exact q4)
  exact ⟨c, k1, k2.st, k3, k4⟩

/-- **C69 (end of the simulation).**  Past the last snapshot a cluster without stars is returned (no orbit file). -/
theorem C69_past_end {g : Galpy} {a : Kw} {c : NbRun} (h1 : c.sfile = []) (h2 : c.bfile = none) (h3 : c.ofile = none) :
    ∃ c', advanceNbody6 g a c = .ok c' ∧ c'.tab.ntot = 0 ∧ c'.tab.base.st = [] := by
  have hr : readOut3 [] = .ok (emptySnap, []) := rfl
  have ha : alistAt emptySnap 0 = .ok 0 := by
    unfold alistAt
    rw [if_pos (by simp [emptySnap])]
    rfl
  have hh : ∀ t, addHeader emptySnap t = .ok t := fun t => rfl
  have h0 : ∀ t, addOut3Stars emptySnap t = .ok t := fun t => rfl
  have hz : (blankTab (some .nbody) (some .cluster) 0).ntot = 0 := rfl
  unfold advanceNbody6 getNbody6
  rw [h1, h2, h3]
  simp only [Option.elim_some, hr, ha, bind, Except.bind, hh, readTail, Option.elim_none, h0, nbAnalyze, hz, lt_irrefl, and_false,
    if_false, readOrbitIf, pure, Except.pure]
  exact ⟨_, rfl, rfl, rfl⟩

/-- **C69 (violated: past the end with an orbit file).**  With an orbit file that has been read to its end too, advancing past
the last snapshot fails instead. -/
theorem C69_past_end_orbit_violated {g : Galpy} {a : Kw} {c : NbRun} (h1 : c.sfile = []) (h2 : c.bfile = none)
    (h3 : c.ofile = some []) (h4 : a.ocolNames = none) (h5 : a.ocolNums = none) :
    advanceNbody6 g a c = .error .indexError := by
  have hr : readOut3 [] = .ok (emptySnap, []) := rfl
  have ha : alistAt emptySnap 0 = .ok 0 := by
    unfold alistAt
    rw [if_pos (by simp [emptySnap])]
    rfl
  have hh : ∀ t, addHeader emptySnap t = .ok t := fun t => rfl
  have h0 : ∀ t, addOut3Stars emptySnap t = .ok t := fun t => rfl
  have hz : (blankTab (some .nbody) (some .cluster) 0).ntot = 0 := rfl
  unfold advanceNbody6 getNbody6
  rw [h1, h2, h3]
  simp only [Option.elim_some, hr, ha, bind, Except.bind, hh, readTail, Option.elim_none, h0, nbAnalyze, hz, lt_irrefl, and_false,
    if_false, readOrbitIf, pure, Except.pure, readOrbit, List.getElem?_nil]
  have e1 : (nbAdvKw a).ocolNames = none := h4
  have e2 : (nbAdvKw a).ocolNums = none := h5
  rw [e1, e2]
  rfl

/-- The hypotheses of `C41_histories` are met: the same snapshot three times, advanced twice, no tail. -/
example : ∃ c c', loadNbody6 demoG (some ((List.range 3).flatMap (fun _ => demoRec.out3) ++ [])) none none {} = .ok c ∧
    advanceNbody6Many demoG {} 2 c = .ok c' ∧ c'.tab.base.m = [1.5, 1] ∧ c'.tab.id = [7, 3] ∧ c'.tab.base.rbar = 2 ∧ c'.sfile = [] := by
  have hmass : starMasses demoRec.stars = [1.5, 1] := by
    simp [starMasses, demoRec, Single.value]
    norm_num
  obtain ⟨c, c', k1, k2, k3, -, k4, -⟩ := C41_histories (g := demoG) (rs := fun _ => demoRec) (bs := none) (kw := {}) (a := {})
    (ofile := none) (k := 2) (t := fun _ => 0) (p := fun _ => ⟨0, 0, 0, 0, 0, 0⟩) (s := []) (tl := [])
    (fun j _ => ⟨demoRec_ok, by simp [demoRec], by simp [demoRec]⟩) (by intro f hf; cases hf)
    (by
      intro j _
      show 0 ≤ (starMasses ([] ++ demoRec.stars)).sum
      rw [List.nil_append, hmass]
      norm_num) rfl (by intro L hL; cases hL)
  refine ⟨c, c', k1, k2, ?_, ?_, ?_, k4⟩
  · rw [k3.m]
    exact hmass
  · rw [k3.id]
    rfl
  · rw [k3.rbar]
    simp [Rec.head, demoRec, Single.value]

end

end CT
