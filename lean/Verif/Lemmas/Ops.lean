import Verif.Spec.Physical
import Mathlib.Tactic.Ring
import Mathlib.Tactic.FieldSimp
import Mathlib.Tactic.NormNum

namespace CT

noncomputable section

set_option linter.unusedSimpArgs false

theorem kms_ne : kmsToPcMyr ≠ 0 := by unfold kmsToPcMyr; norm_num
theorem mcon_ne : mconWD ≠ 0 := by unfold mconWD; norm_num

instance : Inhabited Derived :=
  ⟨{ units := none, origin := none, r := [], rpro := [], v := [], vpro := [], mtot := 0, mmean := 0,
     rmean := 0, rmeanpro := 0, rmax := 0, rmaxpro := 0, rm := none, r10 := none, rmpro := none,
     r10pro := none }⟩

/-- Everything but the cached analysis. -/
def Cluster.core (c : Cluster) : Cluster :=
  { c with rorder := none, rorderOrigin := none, rproorder := none, d := default }

/-- Everything that linear unit and origin conversions never touch. -/
def Cluster.rest (c : Cluster) : Cluster :=
  { c.core with units := none, origin := none, tphys := 0, m := [], st := [],
                c := ⟨0,0,0,0,0,0⟩, gc := ⟨0,0,0,0,0,0⟩, bunits := none, bin := ⟨[],[],[],[]⟩,
                centreMethod := none }

theorem sortstars_core (p : Bool) (r rp : List ℝ) (c : Cluster) : (sortstars p r rp c).core = c.core := by
  unfold sortstars
  dsimp only
  repeat' split
  all_goals rfl

theorem analyze_core {s : Bool} {c c' : Cluster} {p : Bool} (h : analyze s c p = .ok c') :
    c'.core = c.core := by
  unfold analyze at h
  dsimp only at h
  by_cases hs : c.st = []
  · simp [hs, throw, throwThe, MonadExceptOf.throw, bind, Except.bind] at h
  · simp only [hs, if_false] at h
    simp only [bind, Except.bind, pure, Except.pure] at h
    split at h
    · cases h
    · split at h
      · cases h
      · have h2 : ∀ d', ({ (if s = true then sortstars p (c.st.map Ph.r) (c.st.map Ph.rpro) c else c) with d := d' } : Cluster).core = c.core := by
          intro d'
          have : ∀ e : Cluster, ({ e with d := d' } : Cluster).core = e.core := fun e => rfl
          rw [this]; split
          · exact sortstars_core ..
          · rfl
        injection h with h
        rw [← h]
        exact h2 _

theorem analyzeIf_core {a : Bool} {c c' : Cluster} (h : analyzeIf a c = .ok c') : c'.core = c.core := by
  unfold analyzeIf at h
  split at h
  · exact analyze_core h
  · injection h with h; rw [h]

/-- Fields readable from `core`. -/
theorem core_fields {c c' : Cluster} (h : c'.core = c.core) :
    c'.units = c.units ∧ c'.origin = c.origin ∧ c'.tphys = c.tphys ∧ c'.m = c.m ∧ c'.st = c.st ∧
    c'.c = c.c ∧ c'.gc = c.gc ∧ c'.zmbar = c.zmbar ∧ c'.rbar = c.rbar ∧ c'.vbar = c.vbar ∧
    c'.tbar = c.tbar ∧ c'.rest = c.rest := by
  refine ⟨(congrArg Cluster.units h :), (congrArg Cluster.origin h :), (congrArg Cluster.tphys h :),
    (congrArg Cluster.m h :), (congrArg Cluster.st h :), (congrArg Cluster.c h :), (congrArg Cluster.gc h :),
    (congrArg Cluster.zmbar h :), (congrArg Cluster.rbar h :), (congrArg Cluster.vbar h :),
    (congrArg Cluster.tbar h :), ?_⟩
  unfold Cluster.rest
  rw [h]

theorem core_data {c c' : Cluster} (h : c'.core = c.core) : c'.data = c.data := by
  obtain ⟨h1, h2, h3, h4, h5, h6, h7, -⟩ := core_fields h
  simp [Cluster.data, *]

theorem rest_scales {c c' : Cluster} (h : c'.rest = c.rest) :
    c'.zmbar = c.zmbar ∧ c'.rbar = c.rbar ∧ c'.vbar = c.vbar ∧ c'.tbar = c.tbar :=
  ⟨(congrArg Cluster.zmbar h :), (congrArg Cluster.rbar h :), (congrArg Cluster.vbar h :), (congrArg Cluster.tbar h :)⟩

theorem NZ.of_rest {g : Galpy} {c c' : Cluster} (h : c'.rest = c.rest) (n : NZ g c) : NZ g c' := by
  obtain ⟨h1, h2, h3, h4⟩ := rest_scales h
  exact ⟨h2 ▸ n.rbar, h3 ▸ n.vbar, h1 ▸ n.zmbar, h4 ▸ n.tbar, n.ro, n.vo, n.time, n.mass, n.vel⟩

theorem phys_core {g : Galpy} {c c' : Cluster} (h : c'.core = c.core) : phys g c' = phys g c := by
  obtain ⟨h1, h2, h3, h4, h5, h6, h7, h8, h9, h10, h11, -⟩ := core_fields h
  unfold phys unitScale
  rw [h1, h3, h4, h5, h6, h7, h8, h9, h10, h11]

/-- Effect of a unit conversion to `u`. -/
structure UStep (g : Galpy) (u : Units) (c c' : Cluster) : Prop where
  phys : phys g c' = phys g c
  units : c'.units = some u
  origin : c'.origin = c.origin
  rest : c'.rest = c.rest

theorem UStep.core {g : Galpy} {u : Units} {c c1 c' : Cluster} (s : UStep g u c c1)
    (h : c'.core = c1.core) : UStep g u c c' := by
  obtain ⟨h1, h2, h3, h4, h5, h6, h7, h8, h9, h10, h11, hr⟩ := core_fields h
  exact ⟨(phys_core h).trans s.phys, h1.trans s.units, h2.trans s.origin, hr.trans s.rest⟩

theorem UStep.trans {g : Galpy} {u u' : Units} {c c1 c' : Cluster} (s : UStep g u c c1)
    (t : UStep g u' c1 c') : UStep g u' c c' :=
  ⟨t.phys.trans s.phys, t.units, t.origin.trans s.origin, t.rest.trans s.rest⟩

theorem UStep.refl {g : Galpy} {u : Units} {c : Cluster} (h : c.units = some u) : UStep g u c c :=
  ⟨rfl, h, rfl, rfl⟩

theorem Scale.ph_eq (s : Scale) : s.ph =
    fun p => ⟨p.x * s.len, p.y * s.len, p.z * s.len, p.vx * s.vel, p.vy * s.vel, p.vz * s.vel⟩ := rfl

theorem some_ne {a b : Units} (h : a ≠ b) : (some a = some b) = False := by simp [h]

theorem pckmsStep_ustep {g : Galpy} {c : Cluster} {u : Units} (hu : c.units = some u)
    (h : u = .nbody ∨ u = .kpckms ∨ u = .pcmyr ∨ u = .pckms) : UStep g .pckms c (pckmsStep c) := by
  have hk := kms_ne
  rcases h with rfl | rfl | rfl | rfl
  all_goals
    simp only [pckmsStep, hu, reduceCtorEq, Option.some.injEq, if_true, if_false]
    refine ⟨?_, ?_, rfl, rfl⟩
  all_goals try first | rfl | exact hu
  all_goals
    simp only [CT.phys, unitScale, hu, Scale.ph_eq, Ph.mulPos, Ph.mulVel, Ph.divPos, Ph.divVel, List.map_map,
      Function.comp_def, mul_one, div_eq_mul_inv, one_mul]
  
theorem fromAmuse_ustep {g : Galpy} {c : Cluster} (hu : c.units = some .amuse) :
    UStep g .pckms c (fromAmuse c) := by
  simp only [fromAmuse, hu, if_true]
  exact ⟨by simp [CT.phys, unitScale, hu], rfl, rfl, rfl⟩

theorem kpckmsStep_ustep {g : Galpy} {c : Cluster} {u : Units} (hu : c.units = some u)
    (h : u = .nbody ∨ u = .kpckms ∨ u = .pckms ∨ u = .galpy ∨ u = .kpcgyr ∨ u = .WDunits) :
    UStep g .kpckms c (kpckmsStep g c) := by
  have hk := kms_ne
  have e1 : ∀ a b : ℝ, a * (b * (1000:ℝ)⁻¹) * 1000 = a * b := fun a b => by ring
  have e2 : ∀ a b : ℝ, a * b * 1000 = a * (1000 * b) := fun a b => by ring
  have e3 : (1000:ℝ) * 1000⁻¹ = 1 := by norm_num
  rcases h with rfl | rfl | rfl | rfl | rfl | rfl
  all_goals
    simp only [kpckmsStep, hu, reduceCtorEq, Option.some.injEq, if_true, if_false]
    refine ⟨?_, ?_, rfl, rfl⟩
  all_goals try first | rfl | exact hu
  all_goals
    simp only [CT.phys, unitScale, hu, Scale.ph_eq, Ph.mulPos, Ph.mulVel, Ph.divPos, Ph.divVel, List.map_map,
      Function.comp_def, mul_one, div_eq_mul_inv, one_mul, e1, e2, e3]


/-- A linear unit label is one of the eight modelled by `unitScale`. -/
theorem Units.linear_cases {u : Units} (h : u.linear) :
    u = .nbody ∨ u = .pckms ∨ u = .pcmyr ∨ u = .kpckms ∨ u = .kpcgyr ∨ u = .galpy ∨ u = .WDunits ∨
      u = .amuse := by
  cases u <;> simp_all [Units.linear]

theorem toKpckms_ustep {g : Galpy} {a : Bool} {c c' : Cluster} {u : Units} (hu : c.units = some u)
    (hl : u.linear) (h : toKpckms g a c = .ok c') : UStep g .kpckms c c' := by
  simp only [toKpckms, hu] at h
  rcases Units.linear_cases hl with rfl | rfl | rfl | rfl | rfl | rfl | rfl | rfl
  all_goals
    simp only [reduceCtorEq, if_false, if_true, bind, Except.bind] at h
    have hc := analyzeIf_core h
  · exact (kpckmsStep_ustep hu (by simp)).core hc
  · exact (kpckmsStep_ustep hu (by simp)).core hc
  · have h1 : UStep g .pckms c (pckmsStep c) := pckmsStep_ustep hu (by simp)
    exact (h1.trans (kpckmsStep_ustep h1.units (by simp))).core hc
  · exact (kpckmsStep_ustep hu (by simp)).core hc
  · exact (kpckmsStep_ustep hu (by simp)).core hc
  · exact (kpckmsStep_ustep hu (by simp)).core hc
  · exact (kpckmsStep_ustep hu (by simp)).core hc
  · have h1 : UStep g .pckms c (fromAmuse c) := fromAmuse_ustep hu
    exact (h1.trans (kpckmsStep_ustep h1.units (by simp))).core hc

theorem bind_ok {α β : Type} {x : Except Err α} {f : α → Except Err β} {b : β} (h : x.bind f = .ok b) :
    ∃ a, x = .ok a ∧ f a = .ok b := by
  cases x with
  | error e => cases h
  | ok a => exact ⟨a, rfl, h⟩

theorem ite_bind_ok {α β : Type} {p : Prop} [Decidable p] {x y : Except Err α} {f : α → Except Err β} {b : β}
    (h : (if p then x.bind f else y.bind f) = .ok b) :
    ∃ a, (if p then x else y) = .ok a ∧ f a = .ok b := by
  split at h
  · obtain ⟨a, h1, h2⟩ := bind_ok h; exact ⟨a, by simp [*], h2⟩
  · obtain ⟨a, h1, h2⟩ := bind_ok h; exact ⟨a, by simp [*], h2⟩

theorem toPckms_ustep {g : Galpy} {a : Bool} {c c' : Cluster} {u : Units} (hu : c.units = some u)
    (hl : u.linear) (h : toPckms g a c = .ok c') : UStep g .pckms c c' := by
  simp only [toPckms, hu] at h
  have key : ∀ {v : Units}, c.units = some v → v.linear → (toKpckms g false c).bind
      (fun c => analyzeIf a (pckmsStep c)) = .ok c' → UStep g .pckms c c' := by
    intro v hv hvl hb
    obtain ⟨c1, h1, h2⟩ := bind_ok hb
    have s1 := toKpckms_ustep hv hvl h1
    exact (s1.trans (pckmsStep_ustep s1.units (by simp))).core (analyzeIf_core h2)
  rcases Units.linear_cases hl with rfl | rfl | rfl | rfl | rfl | rfl | rfl | rfl
  all_goals
    simp only [reduceCtorEq, or_false, or_true, false_or, true_or, if_false, if_true, bind] at h
  · exact (pckmsStep_ustep hu (by simp)).core (analyzeIf_core h)
  · exact (pckmsStep_ustep hu (by simp)).core (analyzeIf_core h)
  · exact (pckmsStep_ustep hu (by simp)).core (analyzeIf_core h)
  · exact (pckmsStep_ustep hu (by simp)).core (analyzeIf_core h)
  · exact key hu hl h
  · exact key hu hl h
  · exact key hu hl h
  · have h1 : UStep g .pckms c (fromAmuse c) := fromAmuse_ustep hu
    exact (h1.trans (pckmsStep_ustep h1.units (by simp))).core (analyzeIf_core h)

theorem mulVelLabel_pc {g : Galpy} {c : Cluster} (hu : c.units = some .pckms) :
    UStep g .pcmyr c (mulVelLabel .pcmyr c) := by
  have e : kmsToPcMyr * kmsToPcMyr⁻¹ = 1 := mul_inv_cancel₀ kms_ne
  refine ⟨?_, rfl, rfl, rfl⟩
  simp only [CT.phys, unitScale, hu, mulVelLabel, Scale.ph_eq, Ph.mulVel, List.map_map, Function.comp_def,
    mul_one, one_div, mul_assoc, e]

theorem mulVelLabel_kpc {g : Galpy} {c : Cluster} (hu : c.units = some .kpckms) :
    UStep g .kpcgyr c (mulVelLabel .kpcgyr c) := by
  have e : kmsToPcMyr * kmsToPcMyr⁻¹ = 1 := mul_inv_cancel₀ kms_ne
  refine ⟨?_, rfl, rfl, rfl⟩
  simp only [CT.phys, unitScale, hu, mulVelLabel, Scale.ph_eq, Ph.mulVel, List.map_map, Function.comp_def,
    mul_one, one_div, mul_assoc, e]

theorem toPcmyr_ustep {g : Galpy} {a : Bool} {c c' : Cluster} {u : Units} (hu : c.units = some u)
    (hl : u.linear) (h : toPcmyr g a c = .ok c') : UStep g .pcmyr c c' := by
  simp only [toPcmyr, hu, bind] at h
  obtain ⟨c1, h1, h2⟩ := ite_bind_ok h
  by_cases hp : u = .pcmyr
  · subst hp
    simp at h1
    subst h1
    simp [hu, pure, Except.pure] at h2
    subst h2
    exact .refl hu
  · have s1 : UStep g .pckms c c1 := by
      by_cases hq : u = .pckms
      · subst hq; simp at h1; subst h1; exact .refl hu
      · simp [hp, hq] at h1
        exact toPckms_ustep hu hl h1
    simp [s1.units] at h2
    exact (s1.trans (mulVelLabel_pc s1.units)).core (analyzeIf_core h2)

theorem toKpcgyr_ustep {g : Galpy} {a : Bool} {c c' : Cluster} {u : Units} (hu : c.units = some u)
    (hl : u.linear) (h : toKpcgyr g a c = .ok c') : UStep g .kpcgyr c c' := by
  simp only [toKpcgyr, hu, bind] at h
  obtain ⟨c1, h1, h2⟩ := ite_bind_ok h
  by_cases hp : u = .kpcgyr
  · subst hp
    simp at h1
    subst h1
    simp [hu, pure, Except.pure] at h2
    subst h2
    exact .refl hu
  · have s1 : UStep g .kpckms c c1 := by
      by_cases hq : u = .kpckms
      · subst hq; simp at h1; subst h1; exact .refl hu
      · simp [hp, hq] at h1
        exact toKpckms_ustep hu hl h1
    simp [s1.units] at h2
    exact (s1.trans (mulVelLabel_kpc s1.units)).core (analyzeIf_core h2)

theorem nbodyStep_ustep {g : Galpy} {c : Cluster} (n : NZ g c) (hu : c.units = some .pckms) :
    UStep g .nbody c (nbodyStep c) := by
  simp only [nbodyStep, hu, ne_eq, Option.some.injEq, reduceCtorEq, not_false_eq_true, if_true]
  refine ⟨?_, rfl, rfl, rfl⟩
  have e1 := inv_mul_cancel₀ n.rbar
  have e2 := inv_mul_cancel₀ n.vbar
  have e3 := inv_mul_cancel₀ n.zmbar
  have e4 := inv_mul_cancel₀ n.tbar
  simp only [CT.phys, unitScale, hu, Scale.ph_eq, Ph.divVel, Ph.divPos, List.map_map, Function.comp_def,
    mul_one, div_eq_mul_inv, mul_assoc, e1, e2, e3, e4]

theorem nbodyBinStep_ustep {g : Galpy} {c : Cluster} {u : Units} (hu : c.units = some u) :
    UStep g u c (nbodyBinStep c) := by
  unfold nbodyBinStep
  split
  · exact ⟨rfl, hu, rfl, rfl⟩
  · split
    · exact ⟨rfl, hu, rfl, rfl⟩
    · exact ⟨rfl, hu, rfl, rfl⟩

theorem toNbody_ustep {g : Galpy} {c c' : Cluster} {u : Units} (n : NZ g c) (hu : c.units = some u)
    (hl : u.linear) (h : toNbody g c = .ok c') : UStep g .nbody c c' := by
  simp only [toNbody, hu, bind] at h
  obtain ⟨c1, h1, h2⟩ := ite_bind_ok h
  by_cases hp : u = .nbody
  · subst hp
    simp at h1
    subst h1
    have e : nbodyStep c = c := by simp [nbodyStep, hu]
    rw [e] at h2
    exact (nbodyBinStep_ustep hu).core (analyze_core h2)
  · have s1 : UStep g .pckms c c1 := by
      by_cases hq : u = .pckms
      · subst hq; simp at h1; subst h1; exact .refl hu
      · simp [hp, hq] at h1
        exact toPckms_ustep hu hl h1
    have s2 := s1.trans (nbodyStep_ustep (n.of_rest s1.rest) s1.units)
    exact (s2.trans (nbodyBinStep_ustep s2.units)).core (analyze_core h2)

theorem galpyStep_ustep {g : Galpy} {c : Cluster} (n : NZ g c) (hu : c.units = some .kpckms) :
    UStep g .galpy c (galpyStep g c) := by
  simp only [galpyStep, hu, if_true]
  refine ⟨?_, rfl, rfl, rfl⟩
  have e1 : g.ro⁻¹ * (1000 * g.ro) = 1000 := by have := n.ro; field_simp
  have e2 := inv_mul_cancel₀ n.vo
  have e3 := inv_mul_cancel₀ n.mass
  have e4 : g.timeGyr⁻¹ * (1000 * g.timeGyr) = 1000 := by have := n.time; field_simp
  simp only [CT.phys, unitScale, hu, Scale.ph_eq, Ph.divVel, Ph.divPos, List.map_map, Function.comp_def,
    mul_one, div_eq_mul_inv, mul_assoc, e1, e2, e3, e4]

theorem toGalpy_ustep {g : Galpy} {c c' : Cluster} {u : Units} (n : NZ g c) (hu : c.units = some u)
    (hl : u.linear) (h : toGalpy g c = .ok c') : UStep g .galpy c c' := by
  simp only [toGalpy, hu, bind] at h
  obtain ⟨c1, h1, h2⟩ := ite_bind_ok h
  by_cases hp : u = .galpy
  · subst hp
    simp at h1
    subst h1
    have e : galpyStep g c = c := by simp [galpyStep, hu]
    rw [e] at h2
    exact (UStep.refl hu).core (analyze_core h2)
  · have s1 : UStep g .kpckms c c1 := by
      by_cases hq : u = .kpckms
      · subst hq; simp at h1; subst h1; exact .refl hu
      · simp [hp, hq] at h1
        exact toKpckms_ustep hu hl h1
    exact (s1.trans (galpyStep_ustep (n.of_rest s1.rest) s1.units)).core (analyze_core h2)

theorem toWD_ustep {g : Galpy} {c c' : Cluster} {u : Units} (n : NZ g c) (hu : c.units = some u)
    (hl : u.linear) (h : toWD g c = .ok c') : UStep g .WDunits c c' := by
  simp only [toWD, hu, bind] at h
  obtain ⟨c1, h1, h2⟩ := ite_bind_ok h
  by_cases hp : u = .WDunits
  · subst hp
    simp at h1
    subst h1
    simp [hu, pure, Except.pure] at h2
    subst h2
    exact .refl hu
  · have s1 : UStep g .kpckms c c1 := by
      by_cases hq : u = .kpckms
      · subst hq; simp at h1; subst h1; exact .refl hu
      · simp [hp, hq] at h1
        exact toKpckms_ustep hu hl h1
    simp only [s1.units, ne_eq, Option.some.injEq, reduceCtorEq, not_false_eq_true, if_true] at h2
    refine (s1.trans ?_).core (analyze_core h2)
    refine ⟨?_, rfl, rfl, rfl⟩
    have hv : g.vo / g.velKpcGyr ≠ 0 := div_ne_zero n.vo n.vel
    have e1 := inv_mul_cancel₀ mcon_ne
    have e2 : ∀ a : ℝ, a / (g.vo / g.velKpcGyr) * (g.vo / g.velKpcGyr) = a :=
      fun a => div_mul_cancel₀ a hv
    have e3 : ∀ a : ℝ, a / mconWD * mconWD = a := fun a => div_mul_cancel₀ a mcon_ne
    simp only [CT.phys, unitScale, s1.units, Scale.ph_eq, Ph.divVel, List.map_map, Function.comp_def,
      mul_one, e2, e3]

theorem toAmuse_ustep {g : Galpy} {a : Bool} {c c' : Cluster} {u : Units} (hu : c.units = some u)
    (hl : u.linear) (h : toAmuse g a c = .ok c') : UStep g .amuse c c' := by
  simp only [toAmuse, hu, bind] at h
  by_cases hp : u = .amuse
  · subst hp
    simp at h
    subst h
    exact .refl hu
  · simp only [hp, ne_eq, Option.some.injEq, not_false_eq_true, if_true] at h
    obtain ⟨c1, h1, h2⟩ := bind_ok h
    have s1 := toPckms_ustep hu hl h1
    refine (s1.trans ?_).core (analyzeIf_core h2)
    exact ⟨by simp [CT.phys, unitScale, s1.units], rfl, rfl, rfl⟩

theorem toUnitsNR_ustep {g : Galpy} {t : Units} {c c' : Cluster} {u : Units} (n : NZ g c)
    (hu : c.units = some u) (hl : u.linear) (ht : t.linear) (h : toUnitsNR g t c = .ok c') :
    UStep g t c c' := by
  simp only [toUnitsNR, hu] at h
  cases t <;> simp only [Units.linear] at ht
  · exact toNbody_ustep n hu hl h
  · exact toPckms_ustep hu hl h
  · exact toPcmyr_ustep hu hl h
  · exact toKpckms_ustep hu hl h
  · exact toKpcgyr_ustep hu hl h
  · exact toGalpy_ustep n hu hl h
  · exact toWD_ustep n hu hl h
  · exact toAmuse_ustep hu hl h

theorem toUnits_ustep {g : Galpy} {t : Units} {c c' : Cluster} {u : Units} (n : NZ g c)
    (hu : c.units = some u) (hl : u.linear) (ht : t.linear) (h : toUnits g t c = .ok c') :
    UStep g t c c' := by
  simp only [toUnits, hu] at h
  have : t ≠ .radec := by rintro rfl; exact ht
  simp only [this, if_false] at h
  exact toUnitsNR_ustep n hu hl ht h

end

end CT
