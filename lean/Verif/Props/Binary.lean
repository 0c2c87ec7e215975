/-
Property theorems C12: binary-star units.
-/
import Verif.Lemmas.Binary
import Verif.Props.Units

namespace CT

noncomputable section

set_option linter.unusedSimpArgs false

/-- Meaning of a binary-unit label for a cluster: its unit of length in AU, of time in days, of mass in Msun.
`rbarAu`, `rbarSu` are the N-body length unit in AU and in solar radii. -/
def binScale (c : Cluster) : BUnits → Option (ℝ × ℝ × ℝ)
  | .nbody => some (c.rbarAu, c.tbarDays, c.zmbar)
  | .audays => some (1, 1, 1)
  | .sudays => some (c.rbarAu / c.rbarSu, 1, 1)
  | .other => none

/-- The binaries in AU, days and Msun. -/
def binPhys (c : Cluster) : Option Bin :=
  match c.bunits with
  | none => none
  | some u =>
    match binScale c u with
    | none => none
    | some (a, t, z) => some
      ⟨c.bin.semi.map (· * a), c.bin.pb.map (· * t), c.bin.m1.map (· * z), c.bin.m2.map (· * z)⟩

/-- Labels with a meaning. -/
def BUnits.known : BUnits → Prop
  | .other => False
  | _ => True

/-- The binary scale factors are non-zero. -/
structure BinNZ (c : Cluster) : Prop where
  au : c.rbarAu ≠ 0
  su : c.rbarSu ≠ 0
  days : c.tbarDays ≠ 0
  mass : c.zmbar ≠ 0

theorem BinNZ.of_bk {c c' : Cluster} (n : BinNZ c) (h : c'.bk = c.bk) : BinNZ c' := by
  simp only [Cluster.bk, Prod.mk.injEq] at h
  obtain ⟨-, -, -, h4, h5, h6, h7⟩ := h
  exact ⟨h5 ▸ n.au, h4 ▸ n.su, h6 ▸ n.days, h7 ▸ n.mass⟩

theorem binPhys_of_bk {c c' : Cluster} (h : c'.bk = c.bk) : binPhys c' = binPhys c := by
  simp only [Cluster.bk, Prod.mk.injEq] at h
  obtain ⟨h1, -, h3, h4, h5, h6, h7⟩ := h
  unfold binPhys binScale
  rw [h1, h3, h4, h5, h6, h7]

/-- A step that keeps the physical binaries, the scales and the number of binaries. -/
structure BinKeep (c c' : Cluster) : Prop where
  phys : binPhys c' = binPhys c
  known : ∀ u, c.bunits = some u → u.known → ∃ u', c'.bunits = some u' ∧ u'.known
  scales : (c'.nb, c'.rbarSu, c'.rbarAu, c'.tbarDays, c'.zmbar) = (c.nb, c.rbarSu, c.rbarAu, c.tbarDays, c.zmbar)

theorem BinKeep.nz {c c' : Cluster} (h : BinKeep c c') (n : BinNZ c) : BinNZ c' := by
  have := h.scales
  simp only [Prod.mk.injEq] at this
  obtain ⟨-, h4, h5, h6, h7⟩ := this
  exact ⟨h5 ▸ n.au, h4 ▸ n.su, h6 ▸ n.days, h7 ▸ n.mass⟩

theorem BinKeep.trans {a b c : Cluster} (h1 : BinKeep a b) (h2 : BinKeep b c) : BinKeep a c :=
  ⟨h2.phys.trans h1.phys, fun u hu hk => by
    obtain ⟨u', e, k⟩ := h1.known u hu hk
    exact h2.known u' e k, h2.scales.trans h1.scales⟩

theorem BinKeep.of_bk {c c' : Cluster} (h : c'.bk = c.bk) : BinKeep c c' := by
  refine ⟨binPhys_of_bk h, ?_, ?_⟩
  · intro u hu hk
    simp only [Cluster.bk, Prod.mk.injEq] at h
    exact ⟨u, h.1.trans hu, hk⟩
  · simp only [Cluster.bk, Prod.mk.injEq] at h
    obtain ⟨-, h2, -, h4, h5, h6, h7⟩ := h
    rw [h2, h4, h5, h6, h7]

theorem nbodyBinStep_keep {c : Cluster} (n : BinNZ c) : BinKeep c (nbodyBinStep c) := by
  obtain ⟨n1, n2, n3, n4⟩ := n
  unfold nbodyBinStep
  split
  · rename_i h
    refine ⟨?_, fun u hu hk => ⟨_, rfl, trivial⟩, rfl⟩
    simp [binPhys, binScale, h.1, Bin.div, Function.comp_def, n1, n3, n4]
  · split
    · rename_i h
      refine ⟨?_, fun u hu hk => ⟨_, rfl, trivial⟩, rfl⟩
      simp only [binPhys, binScale, h.1, Bin.div, List.map_map, Function.comp_def]
      congr 2
      · refine List.map_congr_left fun v _ => ?_; field_simp
      · refine List.map_congr_left fun v _ => ?_; field_simp
      · refine List.map_congr_left fun v _ => ?_; field_simp
      · refine List.map_congr_left fun v _ => ?_; field_simp
    · exact .of_bk rfl

theorem BStep.keep {c c' : Cluster} (n : BinNZ c) (h : BStep c c') : BinKeep c c' := by
  rcases h with h | h
  · exact .of_bk h
  · exact (nbodyBinStep_keep n).trans (.of_bk h)

theorem toAudays_keep {c : Cluster} (n : BinNZ c) : BinKeep c (toAudays c) := by
  obtain ⟨n1, n2, n3, n4⟩ := n
  cases h : c.bunits with
  | none => simp only [toAudays, h]; exact .of_bk rfl
  | some u =>
    cases u with
    | other => simp [toAudays, h]; exact .of_bk rfl
    | audays => simp [toAudays, h]; exact .of_bk rfl
    | nbody =>
      refine ⟨?_, fun u hu hk => ⟨.audays, by simp [toAudays, h], trivial⟩, by simp [toAudays, h]⟩
      simp [toAudays, h, binPhys, binScale, Bin.mul, Function.comp_def]
    | sudays =>
      refine ⟨?_, fun u hu hk => ⟨.audays, by simp [toAudays, h], trivial⟩, by simp [toAudays, h]⟩
      simp only [toAudays, h, if_true, binPhys, binScale, Bin.mul, Bin.div, List.map_map, Function.comp_def]
      congr 2
      · refine List.map_congr_left fun v _ => ?_; field_simp
      · refine List.map_congr_left fun v _ => ?_; field_simp
      · refine List.map_congr_left fun v _ => ?_; field_simp
      · refine List.map_congr_left fun v _ => ?_; field_simp

theorem toSudays_keep {c : Cluster} (n : BinNZ c) {u : BUnits} (hu : c.bunits = some u) (hk : u.known) :
    BinKeep c (toSudays c) := by
  obtain ⟨n1, n2, n3, n4⟩ := n
  cases u with
  | other => exact hk.elim
  | sudays =>
    refine ⟨?_, fun u hu' hk => ⟨.sudays, by simp [toSudays, hu], trivial⟩, by simp [toSudays, hu]⟩
    simp [toSudays, hu, binPhys, binScale]
  | nbody =>
    refine ⟨?_, fun u hu' hk => ⟨.sudays, by simp [toSudays, hu], trivial⟩, by simp [toSudays, hu]⟩
    simp only [toSudays, hu, if_true, reduceCtorEq, if_false, Option.some.injEq, binPhys, binScale, Bin.mul,
      List.map_map, Function.comp_def]
    congr 2
    · funext v; field_simp
    · funext v; field_simp
    · funext v; field_simp
    · funext v; field_simp
  | audays =>
    refine ⟨?_, fun u hu' hk => ⟨.sudays, by simp [toSudays, hu], trivial⟩, by simp [toSudays, hu]⟩
    simp only [toSudays, hu, if_true, reduceCtorEq, if_false, Option.some.injEq, binPhys, binScale, Bin.mul,
      Bin.div, List.map_map, Function.comp_def]
    congr 2
    · funext v; field_simp
    · funext v; field_simp
    · funext v; field_simp
    · funext v; field_simp

theorem Op.exec_keep {g : Galpy} {op : Op} {c c' : Cluster} (n : BinNZ c) {u : BUnits} (hu : c.bunits = some u)
    (hk : u.known) (h : op.exec g c = .ok c') : BinKeep c c' := by
  cases op <;> simp only [Op.exec] at h
  case toPckms a => exact .of_bk (toPckms_bk h)
  case toKpckms a => exact .of_bk (toKpckms_bk h)
  case toPcmyr a => exact .of_bk (toPcmyr_bk h)
  case toKpcgyr a => exact .of_bk (toKpcgyr_bk h)
  case toNbody => exact (toNbody_bstep h).keep n
  case toGalpy => exact .of_bk (toGalpy_bk h)
  case toWDunits => exact .of_bk (toWD_bk h)
  case toAmuse a => exact .of_bk (toAmuse_bk h)
  case toUnits t => exact (toUnits_bstep h).keep n
  case toCentre s cm => exact .of_bk (toCentre_bk h)
  case toCluster s cm => exact .of_bk (toCluster_bk h)
  case toGalaxy s => exact .of_bk (toGalaxy_bk h)
  case toOrigin t s cm => exact (toOrigin_bstep h).keep n
  case analyze s p => exact .of_bk (analyze_bk h)
  case toAudays => injection h with h; rw [← h]; exact toAudays_keep n
  case toSudays => injection h with h; rw [← h]; exact toSudays_keep n hu hk

theorem run_keep {g : Galpy} {ops : List Op} {c c' : Cluster} (n : BinNZ c) {u : BUnits} (hu : c.bunits = some u)
    (hk : u.known) (h : run g ops c = .ok c') : BinKeep c c' := by
  induction ops generalizing c u with
  | nil => simp only [run, Except.ok.injEq] at h; rw [← h]; exact .of_bk rfl
  | cons op ops ih =>
    obtain ⟨c1, h1, h2⟩ := bind_ok h
    have k := Op.exec_keep n hu hk h1
    obtain ⟨u', e, k'⟩ := k.known u hu hk
    exact k.trans (ih (k.nz n) e k' h2)

/-- C12: whatever sequence of unit, sky, origin and binary-unit conversions is applied to a cluster whose binary
label is known, the semi-major axes (AU), periods (days) and component masses (Msun) of the binaries are
unchanged and the label stays known. -/
theorem C12_physical_binaries (g : Galpy) (ops : List Op) (c c' : Cluster) (n : BinNZ c) (u : BUnits)
    (hu : c.bunits = some u) (hk : u.known) (h : run g ops c = .ok c') :
    binPhys c' = binPhys c ∧ binPhys c ≠ none ∧ ∃ u', c'.bunits = some u' ∧ u'.known := by
  have k := run_keep n hu hk h
  refine ⟨k.phys, ?_, k.known u hu hk⟩
  cases u <;> simp_all [binPhys, binScale, BUnits.known]

theorem map_mul_inj {a : ℝ} (h : a ≠ 0) {l l' : List ℝ} (e : l.map (· * a) = l'.map (· * a)) : l = l' :=
  List.map_injective_iff.mpr (fun x y hxy => mul_right_cancel₀ h hxy) e

/-- C12: a history that comes back to the binary label it started from restores every binary number exactly. -/
theorem C12_round_trip (g : Galpy) (ops : List Op) (c c' : Cluster) (n : BinNZ c) (u : BUnits)
    (hu : c.bunits = some u) (hk : u.known) (h : run g ops c = .ok c') (hl : c'.bunits = c.bunits) :
    c'.bin = c.bin := by
  have k := run_keep n hu hk h
  have hp := k.phys
  have hs := k.scales
  simp only [Prod.mk.injEq] at hs
  obtain ⟨-, h4, h5, h6, h7⟩ := hs
  have hsc : binScale c' = binScale c := by
    funext v; cases v <;> simp [binScale, h4, h5, h6, h7]
  rw [hu] at hl
  unfold binPhys at hp
  rw [hl, hu] at hp
  dsimp only at hp
  rw [hsc] at hp
  obtain ⟨a, t, z, e, ha, ht, hz⟩ : ∃ a t z, binScale c u = some (a, t, z) ∧ a ≠ 0 ∧ t ≠ 0 ∧ z ≠ 0 := by
    cases u with
    | other => exact hk.elim
    | nbody => exact ⟨_, _, _, rfl, n.au, n.days, n.mass⟩
    | audays => exact ⟨_, _, _, rfl, one_ne_zero, one_ne_zero, one_ne_zero⟩
    | sudays => exact ⟨_, _, _, rfl, div_ne_zero n.au n.su, one_ne_zero, one_ne_zero⟩
  rw [e] at hp
  simp only [Option.some.injEq, Bin.mk.injEq] at hp
  obtain ⟨e1, e2, e3, e4⟩ := hp
  cases hb : c'.bin
  cases hb' : c.bin
  rw [hb, hb'] at e1 e2 e3 e4
  simp only [Bin.mk.injEq]
  exact ⟨map_mul_inj ha e1, map_mul_inj ht e2, map_mul_inj hz e3, map_mul_inj hz e4⟩

/-- C12: `to_audays` and `to_sudays` put the binaries in the requested unit: afterwards the label is the requested
one and the stored numbers are the physical values in AU (solar radii), days and Msun. -/
theorem C12_targets (c : Cluster) (n : BinNZ c) (u : BUnits) (hu : c.bunits = some u) (hk : u.known) :
    (toAudays c).bunits = some .audays ∧ binPhys c = some (toAudays c).bin ∧
    (toSudays c).bunits = some .sudays ∧
      binPhys c = some ⟨(toSudays c).bin.semi.map (· * (c.rbarAu / c.rbarSu)), (toSudays c).bin.pb,
        (toSudays c).bin.m1, (toSudays c).bin.m2⟩ := by
  have k1 := (toAudays_keep n).phys
  have k2 := toSudays_keep n hu hk
  have l1 : (toAudays c).bunits = some .audays := by
    cases u with
    | other => exact hk.elim
    | nbody => simp [toAudays, hu]
    | audays => simp [toAudays, hu]
    | sudays => simp [toAudays, hu]
  have l2 : (toSudays c).bunits = some .sudays := by simp only [toSudays, hu]
  have hs := k2.scales
  simp only [Prod.mk.injEq] at hs
  obtain ⟨-, h4, h5, -, -⟩ := hs
  refine ⟨l1, ?_, l2, ?_⟩
  · rw [← k1]; simp [binPhys, binScale, l1]
  · rw [← k2.phys]; simp [binPhys, binScale, l2, h4, h5]

/-- C12: saving the state, converting, and calling `return_cluster` keeps the physical binaries. -/
theorem C12_return_cluster (g : Galpy) (ops : List Op) (c c1 c2 : Cluster) (n : BinNZ c) (u : BUnits)
    (sort : Bool) (cm : Option CentreMethod)
    (hu : c.bunits = some u) (hk : u.known) (h : run g ops c = .ok c1)
    (h2 : returnCluster g (saveCluster c) sort cm c1 = .ok c2) : binPhys c2 = binPhys c := by
  have k := run_keep n hu hk h
  rw [((returnCluster_bstep h2).keep (k.nz n)).phys, k.phys]

/-- C12 is false of the code for a cluster whose binary label is not one of the three known ones — the
constructor copies the star unit (e.g. `"pckms"`) there: `to_sudays` changes the label and converts nothing. -/
theorem C12_relabel_violated (c : Cluster) (hu : c.bunits = some .other) :
    (toSudays c).bunits = some .sudays ∧ (toSudays c).bin = c.bin := by
  simp [toSudays, hu]

/-- C12/C09 is false of the code for binaries: for every admissible cluster with binaries in AU and days, after
`to_nbody` and `return_cluster` the star data are restored but the binaries stay in N-body units, so their stored
semi-major axes are `1/rbar_au` of what they were. -/
theorem C12_not_restored_violated (g : Galpy) (c : Cluster) (p : Pos g c) (l : Lin c) (hg : Good c)
    (hb : c.bunits = some .audays) (hn : 0 < c.nb) :
    ∃ c1 c2, run g [.toNbody] c = .ok c1 ∧
      returnCluster g (saveCluster c) true none c1 = .ok c2 ∧
      c2.data = c.data ∧ c2.bunits = some .nbody ∧ c2.bin.semi = c.bin.semi.map (· / c.rbarAu) := by
  have hl : ∀ o ∈ [Op.toNbody], o.linear := by
    simp [Op.linear, Op.unitTarget, Op.originTarget, Units.linear]
  obtain ⟨c1, h, -⟩ := C08_histories_total g c _ p l hl hg
  obtain ⟨c2, h2, h3, -⟩ := C09_return_restores g c c1 _ true none p l hg hl h
  refine ⟨c1, c2, h, h2, h3, ?_⟩
  have h1 : toNbody g c = .ok c1 := by
    obtain ⟨c1', e, h'⟩ := bind_ok h
    simp only [run, Except.ok.injEq] at h'
    rw [← h']; exact e
  obtain ⟨u, hu, -⟩ := l.units
  have e1 := toNbody_bk (by rw [hu]; simp) h1
  have e2 : c2.bk = c1.bk := by
    rcases returnCluster_bstep h2 with e | e
    · exact e
    · rw [e, nbodyBinStep_bk e1, nbodyBinStep_idem, e1]
  rw [e1] at e2
  simp only [nbodyBinStep, hb, hn, gt_iff_lt, and_self, if_true, Cluster.bk, Prod.mk.injEq] at e2
  exact ⟨e2.1, by rw [e2.2.2.1]; rfl⟩

/-- C12 instance: the hypotheses hold for the demo cluster (one binary in AU and days). -/
example : ∃ c1 c2, run demoG [.toNbody] demo = .ok c1 ∧
    returnCluster demoG (saveCluster demo) true none c1 = .ok c2 ∧
    c2.data = demo.data ∧ c2.bunits = some .nbody ∧ c2.bin.semi = demo.bin.semi.map (· / demo.rbarAu) :=
  C12_not_restored_violated demoG demo demo_pos demo_lin demo_good rfl (by simp [demo])

theorem demo_binNZ : BinNZ demo := by constructor <;> norm_num [demo]

/-- C12 instance: a round trip through N-body units and solar radii. -/
example : ∃ c', run demoG [.toNbody, .toSudays, .toPckms true, .toAudays] demo = .ok c' ∧
    binPhys c' = binPhys demo := by
  have hl : ∀ o ∈ [Op.toNbody, .toSudays, .toPckms true, .toAudays], o.linear := by
    simp [Op.linear, Op.unitTarget, Op.originTarget, Units.linear]
  obtain ⟨c', h, -⟩ := C08_histories_total demoG demo _ demo_pos demo_lin hl demo_good
  exact ⟨c', h, (C12_physical_binaries demoG _ demo c' demo_binNZ .audays rfl trivial h).1⟩

end

end CT
