import Verif.Lemmas.Total

namespace CT

noncomputable section

set_option linter.unusedSimpArgs false

/-- What binary conversions read and write. -/
def Cluster.bk (c : Cluster) : Option BUnits × ℕ × Bin × ℝ × ℝ × ℝ × ℝ :=
  (c.bunits, c.nb, c.bin, c.rbarSu, c.rbarAu, c.tbarDays, c.zmbar)

theorem bk_of_core {c c' : Cluster} (h : c'.core = c.core) : c'.bk = c.bk := by
  have := congrArg Cluster.bk h
  exact this

theorem analyze_bk {s : Bool} {c c' : Cluster} {p : Bool} (h : analyze s c p = .ok c') : c'.bk = c.bk :=
  bk_of_core (analyze_core h)

theorem analyzeIf_bk {a : Bool} {c c' : Cluster} (h : analyzeIf a c = .ok c') : c'.bk = c.bk :=
  bk_of_core (analyzeIf_core h)

theorem ok_bk {c c' : Cluster} (h : (Except.ok c : Except Err Cluster) = .ok c') : c'.bk = c.bk := by
  injection h with h; rw [h]

theorem toSkyRadec_bk {s : Bool} {c c' : Cluster} (h : toSkyRadec s c = .ok c') : c'.bk = c.bk := by
  unfold toSkyRadec at h
  split at h
  · exact ok_bk h
  · rw [analyze_bk h]; split <;> rfl

theorem fromRadec_bk {g : Galpy} {c c' : Cluster} (h : fromRadec g c = .ok c') : c'.bk = c.bk := by
  unfold fromRadec at h
  split at h
  · exact ok_bk h
  · obtain ⟨c1, h1, h2⟩ := ite_bind_ok h
    have e1 : c1.bk = c.bk := by
      split at h1
      · exact toSkyRadec_bk h1
      · exact ok_bk h1
    rw [← e1]
    dsimp only at h2
    split at h2
    · rw [ok_bk h2]
      repeat' split
      all_goals rfl
    · exact ok_bk h2

theorem pckmsStep_bk (c : Cluster) : (pckmsStep c).bk = c.bk := by
  unfold pckmsStep; repeat' split
  all_goals rfl

theorem kpckmsStep_bk (g : Galpy) (c : Cluster) : (kpckmsStep g c).bk = c.bk := by
  unfold kpckmsStep; repeat' split
  all_goals rfl

theorem fromAmuse_bk (c : Cluster) : (fromAmuse c).bk = c.bk := by
  unfold fromAmuse; split <;> rfl

theorem toKpckms_bk {g : Galpy} {a : Bool} {c c' : Cluster} (h : toKpckms g a c = .ok c') : c'.bk = c.bk := by
  unfold toKpckms at h
  split at h
  · exact ok_bk h
  · dsimp only at h
    repeat' split at h
    all_goals
      obtain ⟨c1, h1, h2⟩ := bind_ok h
      rw [analyzeIf_bk h2, kpckmsStep_bk]
      first
        | exact fromRadec_bk h1
        | exact (ok_bk h1).trans (pckmsStep_bk _)
        | exact (ok_bk h1).trans (fromAmuse_bk _)
        | exact ok_bk h1

theorem toPckms_bk {g : Galpy} {a : Bool} {c c' : Cluster} (h : toPckms g a c = .ok c') : c'.bk = c.bk := by
  unfold toPckms at h
  split at h
  · exact ok_bk h
  · dsimp only at h
    repeat' split at h
    all_goals
      obtain ⟨c1, h1, h2⟩ := bind_ok h
      rw [analyzeIf_bk h2, pckmsStep_bk]
      first
        | exact toKpckms_bk h1
        | exact (ok_bk h1).trans (fromAmuse_bk _)
        | exact ok_bk h1

theorem toPcmyr_bk {g : Galpy} {a : Bool} {c c' : Cluster} (h : toPcmyr g a c = .ok c') : c'.bk = c.bk := by
  unfold toPcmyr at h
  split at h
  · exact ok_bk h
  · obtain ⟨c1, h1, h2⟩ := ite_bind_ok h
    have e : c1.bk = c.bk := by
      split at h1
      · exact toPckms_bk h1
      · exact ok_bk h1
    dsimp only at h2
    split at h2
    · rw [analyzeIf_bk h2, ← e]; rfl
    · rw [ok_bk h2, e]

theorem toKpcgyr_bk {g : Galpy} {a : Bool} {c c' : Cluster} (h : toKpcgyr g a c = .ok c') : c'.bk = c.bk := by
  unfold toKpcgyr at h
  split at h
  · exact ok_bk h
  · obtain ⟨c1, h1, h2⟩ := ite_bind_ok h
    have e : c1.bk = c.bk := by
      split at h1
      · exact toKpckms_bk h1
      · exact ok_bk h1
    dsimp only at h2
    split at h2
    · rw [analyzeIf_bk h2, ← e]; rfl
    · rw [ok_bk h2, e]

theorem toGalpy_bk {g : Galpy} {c c' : Cluster} (h : toGalpy g c = .ok c') : c'.bk = c.bk := by
  unfold toGalpy at h
  split at h
  · exact ok_bk h
  · obtain ⟨c1, h1, h2⟩ := ite_bind_ok h
    have e : c1.bk = c.bk := by
      split at h1
      · exact toKpckms_bk h1
      · exact ok_bk h1
    rw [analyze_bk h2, ← e]
    unfold galpyStep; split <;> rfl

theorem toWD_bk {g : Galpy} {c c' : Cluster} (h : toWD g c = .ok c') : c'.bk = c.bk := by
  unfold toWD at h
  split at h
  · exact ok_bk h
  · obtain ⟨c1, h1, h2⟩ := ite_bind_ok h
    have e : c1.bk = c.bk := by
      split at h1
      · exact toKpckms_bk h1
      · exact ok_bk h1
    dsimp only at h2
    split at h2
    · rw [analyze_bk h2, ← e]; rfl
    · rw [ok_bk h2, e]

theorem toAmuse_bk {g : Galpy} {a : Bool} {c c' : Cluster} (h : toAmuse g a c = .ok c') : c'.bk = c.bk := by
  unfold toAmuse at h
  split at h
  · obtain ⟨c1, h1, h2⟩ := bind_ok h
    rw [analyzeIf_bk h2, ← toPckms_bk h1]; rfl
  · exact ok_bk h

theorem skyRecentre_bk {q : Ph} {c c' : Cluster} (h : skyRecentre q c = .ok c') : c'.bk = c.bk := by
  unfold skyRecentre at h
  repeat' split at h
  all_goals first
    | (injection h with h; rw [← h]; rfl)
    | exact ok_bk h
    | cases h

theorem setMethod_bk (cm : Option CentreMethod) (c : Cluster) : (setMethod cm c).bk = c.bk := by
  unfold setMethod; split <;> rfl

macro "bkstep " h:ident l:ident : tactic => `(tactic| (
  with_reducible replace $h := bind_ok $h
  obtain ⟨_, hh, $h:ident⟩ := $h
  first
    | refine Eq.trans ?_ (toSkyRadec_bk hh :)
    | refine Eq.trans ?_ (skyRecentre_bk hh :)
    | refine Eq.trans ?_ (fromRadec_bk hh :)
    | refine Eq.trans ?_ ($l hh :)
    | refine Eq.trans ?_ (ok_bk hh :)))

theorem toCluster_bk {s : Bool} {cm : Option CentreMethod} {c c' : Cluster} (h : toCluster s cm c = .ok c') :
    c'.bk = c.bk := by
  unfold toCluster at h
  split at h
  · exact ok_bk h
  · dsimp only at h
    rw [← setMethod_bk cm c]
    repeat' split at h
    all_goals (repeat bkstep h ok_bk)
    all_goals first | exact (analyze_bk h :) | exact (ok_bk h :)

theorem toCentre_bk {s : Bool} {cm : Option CentreMethod} {c c' : Cluster} (h : toCentre s cm c = .ok c') :
    c'.bk = c.bk := by
  unfold toCentre at h
  split at h
  · exact ok_bk h
  · dsimp only at h
    rw [← setMethod_bk cm c]
    repeat' split at h
    all_goals (repeat bkstep h toCluster_bk)
    all_goals first | exact (analyze_bk h :) | exact (ok_bk h :)

theorem toGalaxy_bk {g : Galpy} {s : Bool} {c c' : Cluster} (h : toGalaxy g s c = .ok c') : c'.bk = c.bk := by
  unfold toGalaxy at h
  split at h
  · exact ok_bk h
  · dsimp only at h
    repeat' split at h
    all_goals (repeat bkstep h toCluster_bk)
    all_goals first | exact (analyze_bk h :) | exact (ok_bk h :)

/-! ### the steps that may convert binaries: everything is zero or more applications of one step -/

/-- The binary attributes after a call: as before, or converted once by the binary part of `to_nbody`. -/
def BStep (c c' : Cluster) : Prop := c'.bk = c.bk ∨ c'.bk = (nbodyBinStep c).bk

theorem nbodyBinStep_idem (c : Cluster) : nbodyBinStep (nbodyBinStep c) = nbodyBinStep c := by
  by_cases h1 : c.bunits = some .audays ∧ c.nb > 0
  · simp [nbodyBinStep, h1]
  · by_cases h2 : c.bunits = some .sudays ∧ c.nb > 0
    · simp [nbodyBinStep, h1, h2]
    · simp [nbodyBinStep, h1, h2]

theorem nbodyBinStep_bk {c d : Cluster} (h : c.bk = d.bk) : (nbodyBinStep c).bk = (nbodyBinStep d).bk := by
  simp only [Cluster.bk, Prod.mk.injEq] at h
  obtain ⟨h1, h2, h3, h4, h5, h6, h7⟩ := h
  unfold nbodyBinStep
  rw [h1, h2]
  repeat' split
  all_goals simp [Cluster.bk, *]

theorem BStep.of_eq {c c' : Cluster} (h : c'.bk = c.bk) : BStep c c' := Or.inl h

theorem BStep.trans {a b c : Cluster} (h1 : BStep a b) (h2 : BStep b c) : BStep a c := by
  rcases h1 with h1 | h1 <;> rcases h2 with h2 | h2
  · left; rw [h2, h1]
  · right; rw [h2, nbodyBinStep_bk h1]
  · right; rw [h2, h1]
  · right; rw [h2, nbodyBinStep_bk h1, nbodyBinStep_idem]

theorem toNbody_bk {g : Galpy} {c c' : Cluster} (hu : c.units ≠ none) (h : toNbody g c = .ok c') :
    c'.bk = (nbodyBinStep c).bk := by
  unfold toNbody at h
  split at h
  · exact absurd ‹_› hu
  · obtain ⟨c1, h1, h2⟩ := ite_bind_ok h
    have e : c1.bk = c.bk := by
      split at h1
      · exact toPckms_bk h1
      · exact ok_bk h1
    rw [analyze_bk h2]
    refine nbodyBinStep_bk ?_
    rw [← e]; unfold nbodyStep; split <;> rfl

theorem toNbody_bstep {g : Galpy} {c c' : Cluster} (h : toNbody g c = .ok c') : BStep c c' := by
  by_cases hu : c.units = none
  · unfold toNbody at h
    rw [hu] at h
    exact .of_eq (ok_bk h)
  · exact Or.inr (toNbody_bk hu h)

theorem toUnitsNR_bstep {g : Galpy} {t : Units} {c c' : Cluster} (h : toUnitsNR g t c = .ok c') : BStep c c' := by
  unfold toUnitsNR at h
  split at h
  · exact .of_eq (ok_bk h)
  · cases t <;> dsimp only at h
    · exact toNbody_bstep h
    · exact .of_eq (toPckms_bk h)
    · exact .of_eq (toPcmyr_bk h)
    · exact .of_eq (toKpckms_bk h)
    · exact .of_eq (toKpcgyr_bk h)
    · exact .of_eq (toGalpy_bk h)
    · exact .of_eq (toWD_bk h)
    · exact .of_eq (ok_bk h)
    · exact .of_eq (toAmuse_bk h)
    · exact .of_eq (ok_bk h)

theorem returnUnitsNR_bstep {g : Galpy} {u : Option Units} {o : Option (List ℕ)} {oo : Option Origin}
    {c c' : Cluster} (h : returnUnitsNR g u o oo c = .ok c') : BStep c c' := by
  unfold returnUnitsNR at h
  cases u with
  | none => 
    have h := bind_ok h
    obtain ⟨c1, h1, h2⟩ := h
    refine .of_eq ?_
    rw [analyze_bk h2, ← ok_bk h1]; rfl
  | some u =>
    dsimp only at h
    obtain ⟨c1, h1, h2⟩ := ite_bind_ok h
    have e : BStep c c1 := by
      split at h1
      · exact toUnitsNR_bstep h1
      · exact .of_eq (ok_bk h1)
    exact e.trans (.of_eq (by rw [analyze_bk h2]; rfl))

theorem initOrbit_bstep {g : Galpy} {c c' : Cluster} (h : initOrbit g c = .ok c') : BStep c c' := by
  unfold initOrbit at h
  obtain ⟨c1, h1, h⟩ := bind_ok h
  dsimp only at h
  obtain ⟨c2, h2, h⟩ := bind_ok h
  refine ((BStep.of_eq (toGalpy_bk h1)).trans (returnUnitsNR_bstep h2)).trans (.of_eq ?_)
  exact (ok_bk h :)

theorem initOrbits_bstep {g : Galpy} {c c' : Cluster} (h : initOrbits g c = .ok c') : BStep c c' := by
  unfold initOrbits at h
  obtain ⟨c1, h1, h⟩ := bind_ok h
  dsimp only at h
  obtain ⟨c2, h2, h⟩ := bind_ok h
  refine ((BStep.of_eq (toGalpy_bk h1)).trans (returnUnitsNR_bstep h2)).trans (.of_eq ?_)
  exact (ok_bk h :)

theorem radecFill_bk (g : Galpy) (c : Cluster) : (radecFill g c).bk = c.bk := by
  unfold radecFill
  dsimp only
  repeat' split
  all_goals rfl

macro "bsstep " h:ident : tactic => `(tactic| (
  with_reducible replace $h := bind_ok $h
  obtain ⟨_, hh, $h:ident⟩ := $h
  first
    | refine BStep.trans (BStep.of_eq (toKpckms_bk hh) :) ?_
    | refine BStep.trans (BStep.of_eq (toGalaxy_bk hh) :) ?_
    | refine BStep.trans (initOrbit_bstep hh :) ?_
    | refine BStep.trans (initOrbits_bstep hh :) ?_
    | refine BStep.trans (BStep.of_eq ((toCluster_bk hh).trans (radecFill_bk _ _)) :) ?_
    | refine BStep.trans (BStep.of_eq ((toCentre_bk hh).trans (radecFill_bk _ _)) :) ?_
    | refine BStep.trans (BStep.of_eq ((ok_bk hh).trans (radecFill_bk _ _)) :) ?_
    | refine BStep.trans (BStep.of_eq (ok_bk hh) :) ?_))

theorem toRadec_bstep {g : Galpy} {s : Bool} {cm : Option CentreMethod} {a : Bool} {c c' : Cluster}
    (h : toRadec g s cm a c = .ok c') : BStep c c' := by
  unfold toRadec at h
  repeat' first | split at h | (dsimp only at h; split at h) | bsstep h
  all_goals first
    | exact .of_eq (analyze_bk h :)
    | exact .of_eq (ok_bk h :)

theorem toSky_bstep {g : Galpy} {s : Bool} {cm : Option CentreMethod} {c c' : Cluster}
    (h : toSky g s cm c = .ok c') : BStep c c' := by
  unfold toSky at h
  split at h
  · exact .of_eq (ok_bk h)
  · split at h
    · exact .of_eq (toSkyRadec_bk h)
    · obtain ⟨c1, h1, h⟩ := bind_ok h
      obtain ⟨c2, h2, h⟩ := bind_ok h
      exact (BStep.of_eq (toGalaxy_bk h1)).trans ((toRadec_bstep h2).trans (.of_eq (analyze_bk h)))

theorem toUnits_bstep {g : Galpy} {t : Units} {c c' : Cluster} (h : toUnits g t c = .ok c') : BStep c c' := by
  unfold toUnits at h
  split at h
  · exact .of_eq (ok_bk h)
  · split at h
    · exact toRadec_bstep h
    · exact toUnitsNR_bstep h

theorem toOrigin_bstep {g : Galpy} {t : OriginTarget} {s : Bool} {cm : Option CentreMethod} {c c' : Cluster}
    (h : toOrigin g t s cm c = .ok c') : BStep c c' := by
  unfold toOrigin at h
  split at h
  · exact .of_eq (ok_bk h)
  · cases t <;> dsimp only at h <;> obtain ⟨c1, h1, h⟩ := bind_ok h
    · exact (BStep.of_eq (toCentre_bk h1)).trans (.of_eq (analyze_bk h))
    · exact (BStep.of_eq (toCluster_bk h1)).trans (.of_eq (analyze_bk h))
    · exact (BStep.of_eq (toGalaxy_bk h1)).trans (.of_eq (analyze_bk h))
    · exact (toSky_bstep h1).trans (.of_eq (analyze_bk h))
    · exact (toRadec_bstep h1).trans (.of_eq (analyze_bk h))
    · exact (BStep.of_eq (ok_bk h1)).trans (.of_eq (analyze_bk h))

macro "rstep " h:ident : tactic => `(tactic| (
  with_reducible replace $h := bind_ok $h
  obtain ⟨_, hh, $h:ident⟩ := $h
  first
    | refine BStep.trans (toUnits_bstep hh :) ?_
    | refine BStep.trans (toOrigin_bstep hh :) ?_
    | refine BStep.trans (BStep.of_eq (ok_bk hh) :) ?_))

theorem returnCluster_bstep {g : Galpy} {s0 : Option Units × Option Origin × Option (List ℕ) × Option Origin}
    {s : Bool} {cm : Option CentreMethod} {c c' : Cluster}
    (h : returnCluster g s0 s cm c = .ok c') : BStep c c' := by
  unfold returnCluster at h
  repeat' first | split at h | (dsimp only at h; split at h) | rstep h
  all_goals exact .of_eq (by rw [analyze_bk h]; rfl)

end

end CT
