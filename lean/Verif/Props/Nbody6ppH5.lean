/- HDF5 output of NBODY6++ (C128, C129): one group of a file. -/
import Verif.Props.Nbody6pp2
import Verif.Spec.Nbody6ppH5

namespace CT

noncomputable section

/-- Arguments of `add_stars` from a list of stars. -/
def rowArgs {α : Type} (l : List α) (row : α → Ph) (m : α → ℝ) (id : α → ℤ) : StarArgs :=
  { x := .arr (l.map (fun s => (row s).x)), y := .arr (l.map (fun s => (row s).y)), z := .arr (l.map (fun s => (row s).z))
    vx := .arr (l.map (fun s => (row s).vx)), vy := .arr (l.map (fun s => (row s).vy)), vz := .arr (l.map (fun s => (row s).vz))
    m := some (.arr (l.map m)), id := some (.arr (l.map id)), m0 := none, npop := none }

/-- `add_stars` with arrays for rows, masses and ids, without analysis. -/
theorem addStars_rows {α : Type} {l : List α} {row : α → Ph} {m : α → ℝ} {id : α → ℤ} {t : Tab} {k : ℕ} (al : Aligned t k)
    (hu : t.base.units = some .pckms) :
    ∃ T, addStars (rowArgs l row m id) 0 false false t = .ok T ∧
      T = { t with x := t.x ++ l.map (fun s => (row s).x), y := t.y ++ l.map (fun s => (row s).y), z := t.z ++ l.map (fun s => (row s).z)
                   vx := t.vx ++ l.map (fun s => (row s).vx), vy := t.vy ++ l.map (fun s => (row s).vy), vz := t.vz ++ l.map (fun s => (row s).vz)
                   m := t.m ++ l.map m, id := t.id ++ l.map id, m0 := t.m0 ++ List.replicate l.length 0
                   npop := t.npop ++ List.replicate l.length 1, ntot := k + l.length, ns := ((k + l.length : ℕ) : ℤ) - t.nb } := by
  refine ⟨_, ?_, rfl⟩
  obtain ⟨a, ha⟩ : ∃ a : StarArgs, a = rowArgs l row m id := ⟨_, rfl⟩
  have e1 : addSingles (2 * 0) a.expand t =
      { t with x := t.x ++ l.map (fun s => (row s).x), y := t.y ++ l.map (fun s => (row s).y), z := t.z ++ l.map (fun s => (row s).z)
               vx := t.vx ++ l.map (fun s => (row s).vx), vy := t.vy ++ l.map (fun s => (row s).vy), vz := t.vz ++ l.map (fun s => (row s).vz)
               m := t.m ++ l.map m, id := t.id ++ l.map id, m0 := t.m0 ++ List.replicate l.length 0
               npop := t.npop ++ List.replicate l.length 1 } := by
    rw [ha]
    simp [addSingles, StarArgs.expand, Val.expand, rowArgs]
  have al' : Aligned (addSingles (2 * 0) a.expand t) (k + l.length) := by
    rw [e1]
    constructor <;> simp [al.x, al.y, al.z, al.vx, al.vy, al.vz, al.m, al.m0, al.npop, al.id]
  have e2 : addSkyCols a.expand (addSingles (2 * 0) a.expand t) = addSingles (2 * 0) a.expand t := by
    unfold addSkyCols
    rw [if_neg]
    rintro ⟨h, -⟩
    rw [e1] at h
    rw [show t.base.units = _ from h] at hu
    cases hu
  rw [← ha]
  unfold addStars
  simp only [lt_irrefl, if_false, bind, Except.bind, al'.fix, e2, Bool.false_eq_true, pure, Except.pure, al'.x]
  rw [e1]

/-- The cluster under the stars of a group: the binaries in au, days and solar masses. -/
def groupBase (q : H5Group) (b : Cluster) : Cluster :=
  q.pairs.elim b (fun l => { b with bin := ⟨l.map H5Pair.a, l.map H5Pair.p, l.map H5Pair.m1, l.map H5Pair.m2⟩, bunits := some .audays
                                    nb := 2 * l.length })

/-- The arrays of stellar evolution of a group. -/
def groupEv (q : H5Group) : H5Ev :=
  { ((q.pairs.elim emptyEv bseOf).addSse (q.stars.map H5Star.kw) (q.stars.map (fun s => lg s.lum)) (q.stars.map H5Star.rad)) with
    pot := q.pairs.elim [] (List.map H5Pair.pot) ++ q.stars.map H5Star.pot }

/-- The columns hold the stars of a group. -/
structure GroupCols (q : H5Group) (t : Tab) : Prop where
  len : Aligned t q.rows.length
  x : t.x = q.rows.map Ph.x
  y : t.y = q.rows.map Ph.y
  z : t.z = q.rows.map Ph.z
  vx : t.vx = q.rows.map Ph.vx
  vy : t.vy = q.rows.map Ph.vy
  vz : t.vz = q.rows.map Ph.vz
  m : t.m = q.masses
  id : t.id = q.ids
  ntot : t.ntot = q.rows.length
  b1 : t.b1 = q.bin.map (fun b => relPh (b.m2 / (b.m1 + b.m2)) b.rel)
  b2 : t.b2 = q.bin.map (fun b => relPh (-b.m1 / (b.m1 + b.m2)) b.rel)
  id2 : t.id2 = q.bin.map H5Pair.id2
  mb1 : t.mb1 = List.replicate q.bin.length 1
  mb2 : t.mb2 = List.replicate q.bin.length 1
  ns : q.pairs.isSome → t.ns = (q.stars.length : ℤ) - q.bin.length

theorem addGroup_ok {q : H5Group} {b : Cluster} {t : Tab} (ht : t = { newTab b with nb := t.nb }) (hu : b.units = some .pckms) :
    ∃ T, addGroup q t = .ok (T, groupEv q) ∧ GroupCols q T ∧ T.base = groupBase q b ∧ (q.pairs = none → T.nb = t.nb) := by
  have al : Aligned t 0 := by rw [ht]; constructor <;> rfl
  have hb : t.base = b := by rw [ht]; rfl
  cases hp : q.pairs with
  | none =>
    obtain ⟨T, h, hT⟩ := addStars_rows (l := q.stars) (row := H5Star.row) (m := H5Star.m) (id := H5Star.id) al (by rw [hb]; exact hu)
    have h : addStars (singleStars q.stars) 0 false false t = .ok T := h
    refine ⟨T, ?_, ?_, ?_, fun _ => ?_⟩
    · unfold addGroup
      simp only [hp, Option.elim_none, bind, Except.bind, h, pure, Except.pure, groupEv]
    · rw [ht] at hT
      rw [hT]
      constructor
      · constructor <;> simp [newTab, H5Group.rows, H5Group.bin, hp]
      all_goals simp [newTab, H5Group.rows, H5Group.masses, H5Group.ids, H5Group.bin, hp, Function.comp_def]
    · rw [hT]
      show t.base = _
      rw [hb]
      simp [groupBase, hp]
    · rw [hT]
  | some l =>
    obtain ⟨T, h, hT⟩ := addStars_rows (l := l) (row := H5Pair.com) (m := fun b => b.m1 + b.m2) (id := H5Pair.id1) al (by rw [hb]; exact hu)
    have h : addStars (pairStars l) 0 false false t = .ok T := h
    obtain ⟨t1, ht1, e1⟩ : ∃ t1, addPairs l t = .ok t1 ∧ t1 = { newTab (groupBase q b) with
        x := l.map (fun s => s.com.x), y := l.map (fun s => s.com.y), z := l.map (fun s => s.com.z)
        vx := l.map (fun s => s.com.vx), vy := l.map (fun s => s.com.vy), vz := l.map (fun s => s.com.vz)
        m := l.map (fun b => b.m1 + b.m2), id := l.map H5Pair.id1, m0 := List.replicate l.length 0, npop := List.replicate l.length 1
        ntot := l.length, ns := (l.length : ℤ) - t.nb, id2 := l.map H5Pair.id2, nb := 2 * l.length
        b1 := l.map (fun b => relPh (b.m2 / (b.m1 + b.m2)) b.rel), b2 := l.map (fun b => relPh (-b.m1 / (b.m1 + b.m2)) b.rel)
        mb1 := List.replicate l.length 1, mb2 := List.replicate l.length 1 } := by
      refine ⟨_, ?_, rfl⟩
      unfold addPairs
      rw [h]
      rw [ht] at hT
      simp only [bind, Except.bind, pure, Except.pure, storeBinaries]
      rw [hT]
      simp [newTab, groupBase, hp, two_mul]
    have al1 : Aligned t1 l.length := by rw [e1]; constructor <;> simp
    obtain ⟨T2, h2, hT2⟩ := addStars_rows (l := q.stars) (row := H5Star.row) (m := H5Star.m) (id := H5Star.id) al1
      (by rw [e1]; show (groupBase q b).units = _; simp [groupBase, hp, hu])
    have h2 : addStars (singleStars q.stars) 0 false false t1 = .ok T2 := h2
    refine ⟨T2, ?_, ?_, ?_, fun h => by cases h⟩
    · unfold addGroup
      simp only [hp, Option.elim_some, ht1, bind, Except.bind, h2, pure, Except.pure, groupEv]
    · rw [e1] at hT2
      rw [hT2]
      constructor
      · constructor <;> simp [H5Group.rows, H5Group.bin, hp]
      all_goals simp [H5Group.rows, H5Group.masses, H5Group.ids, H5Group.bin, hp, Function.comp_def]
      ring
    · rw [hT2]
      show t1.base = _
      rw [e1]
      rfl

end

end CT
