/- Every analysis function returns the cluster it was given: call by call. -/
import Verif.Lemmas.Session

namespace CT

noncomputable section

/-- An inner call that gives back its argument keeps the cluster described. -/
theorem Rel.call {g : Galpy} {w : World} {c0 c : Cluster} {α : Type} {x : Except Err α} {f : α → Cluster} (h : Rel g w c0 c)
    (k : Describes g w c → Ok x (fun a => Back g w c (f a))) : Ok x (fun a => Rel g w c0 (f a)) :=
  (k h.1).mono (fun _ b => h.trans b.rel)

macro "rel" : tactic => `(tactic| first | assumption | exact Rel.sort (by assumption) | exact Rel.refl (by assumption))

/-- A step through an inner call; extended below. -/
syntax "ok_call" : tactic
macro_rules | `(tactic| ok_call) => `(tactic| fail)

macro "ok_step" : tactic => `(tactic| first
  | with_reducible exact Ok.err
  | with_reducible exact Ok.thrown
  | with_reducible exact Rel.toPckms (by rel)
  | with_reducible exact Rel.toCentre (by rel)
  | with_reducible exact Ok.ok (by rel)
  | with_reducible exact Ok.pure (by rel)
  | ok_call
  | (with_reducible refine Ok.ite (fun _ => ?_) (fun _ => ?_))
  | (refine Ok.bind (Rel.toPckms (by rel)) (fun _ _ => ?_))
  | (refine Ok.bind (Rel.toKpckms (by rel)) (fun _ _ => ?_))
  | (refine Ok.bind (Rel.toGalpy (by rel)) (fun _ _ => ?_))
  | (refine Ok.bind (Rel.toCentre (by rel)) (fun _ _ => ?_))
  | (refine Ok.bind (Rel.toCluster (by rel)) (fun _ _ => ?_))
  | (refine Ok.bind (Rel.toGalaxy (by rel)) (fun _ _ => ?_))
  | (refine Ok.bind (Ok.ok (P := Rel _ _ _) (by rel)) (fun _ _ => ?_))
  | (refine Ok.bind (Ok.pure (P := Rel _ _ _) (by rel)) (fun _ _ => ?_))
  | (refine Ok.bind (ret_back (by assumption) (by rel)) (fun _ _ => ?_))
  | exact Ok.ok (by rel)
  | exact Ok.pure (by rel)
  | (refine Ok.bind Ok.any (fun _ _ => ?_)))

macro "ok_steps" : tactic => `(tactic| (simp (config := {zeta := true, failIfUnchanged := false}) only []; repeat' ok_step))

variable {g : Galpy} {w : World} {c : Cluster}

theorem coordsOf_back {α : Type} {f : Ph → α} (d : Describes g w c) : Ok (coordsOf f g c) (fun x => Back g w c x.2) := by
  have h0 := Rel.refl d
  unfold coordsOf
  ok_steps

macro_rules | `(tactic| ok_call) => `(tactic| (refine Ok.bind (Rel.call (by rel) coordsOf_back) (fun _ _ => ?_)))

theorem pcStart_rel (d : Describes g w c) : Ok (pcStart g c) (Rel g w c) := by
  have h0 := Rel.refl d
  unfold pcStart
  ok_steps

theorem rlagrange_back {n : ℕ} {pr : Bool} (d : Describes g w c) : Ok (rlagrange g n pr c) (fun x => Back g w c x.2) := by
  have h0 := Rel.refl d
  unfold rlagrange
  ok_steps
  all_goals (split <;> ok_steps)

macro_rules | `(tactic| ok_call) => `(tactic| (refine Ok.bind (Rel.call (by rel) rlagrange_back) (fun _ _ => ?_)))

theorem rlagrangeFrac_back {f : ℝ} {pr : Bool} (d : Describes g w c) : Ok (rlagrangeFrac g f pr c) (fun x => Back g w c x.2) := by
  have h0 := Rel.refl d
  unfold rlagrangeFrac
  ok_steps

macro_rules | `(tactic| ok_call) => `(tactic| (refine Ok.bind (Rel.call (by rel) rlagrangeFrac_back) (fun _ _ => ?_)))

theorem relaxationTime_back {rad : Option ℝ} {γ : ℝ} {pr : Bool} (d : Describes g w c) :
    Ok (relaxationTime g rad γ pr c) (fun x => Back g w c x.2) := by
  unfold relaxationTime
  refine Ok.bind (pcStart_rel d) (fun _ _ => ?_)
  ok_steps

theorem halfMassRelaxationTime_back {γ : ℝ} {pr : Bool} (d : Describes g w c) :
    Ok (halfMassRelaxationTime g γ pr c) (fun x => Back g w c x.2) := by
  unfold halfMassRelaxationTime
  refine Ok.bind (pcStart_rel d) (fun _ _ => ?_)
  ok_steps

theorem virialInverse_back {f pr : Bool} (d : Describes g w c) : Ok (virialInverse g f pr c) (fun x => Back g w c x.2) := by
  have h0 := Rel.refl d
  unfold virialInverse
  ok_steps

theorem virialCrit_back {H od : ℝ} (d : Describes g w c) : Ok (virialCrit g H od c) (fun x => Back g w c x.2) := by
  unfold virialCrit
  refine Ok.bind (pcStart_rel d) (fun _ _ => ?_)
  ok_steps

theorem energies_back {s f pr : Bool} {soft : ℝ} (d : Describes g w c) : Ok (energies g s f pr soft c) (fun x => Back g w c x.2.2) := by
  have h0 := Rel.refl d
  unfold energies
  ok_steps

theorem energiesIds_back {s pr : Bool} {mask : List Bool} {soft : ℝ} (d : Describes g w c) :
    Ok (energiesIds g s pr mask soft c) (fun x => Back g w c x.2.2) := by
  have h0 := Rel.refl d
  unfold energiesIds
  ok_steps

theorem massFunction_back {a : MassArgs} {e : PStars} {indx : Option ℕ} {mem : Mem} (d : Describes g w c) :
    Ok (massFunction g a e indx mem c) (fun x => Back g w c x.2.1) := by
  have h0 := Rel.refl d
  unfold massFunction
  ok_steps

macro_rules | `(tactic| ok_call) => `(tactic| (refine Ok.bind (Rel.call (by rel) massFunction_back) (fun _ _ => ?_)))

theorem etaFunction_back {a : EtaArgs} {q : Option CurveFit} {e : PStars} {indx : Option ℕ} {mem : Mem} (d : Describes g w c) :
    Ok (etaFunction g a q e indx mem c) (fun x => Back g w c x.2.1) := by
  have h0 := Rel.refl d
  unfold etaFunction
  ok_steps

macro_rules | `(tactic| ok_call) => `(tactic| (refine Ok.bind (Rel.call (by rel) etaFunction_back) (fun _ _ => ?_)))

theorem meqFunction_back {a : EtaArgs} {q : CurveFit} {e : PStars} {indx : Option ℕ} {mem : Mem} (d : Describes g w c) :
    Ok (meqFunction g a q e indx mem c) (fun x => Back g w c x.2.1) := by
  have h0 := Rel.refl d
  unfold meqFunction
  ok_steps

macro_rules | `(tactic| ok_call) => `(tactic| (refine Ok.bind (Rel.call (by rel) meqFunction_back) (fun _ _ => ?_)))

theorem profStart_rel {s1 s2 : Bool} (d : Describes g w c) : Ok (profStart g s1 s2 c) (Rel g w c) := by
  have h0 := Rel.refl d
  unfold profStart
  ok_steps

theorem mProf_back {a : ProfArgs} {cum : Bool} {e : PStars} {indx : Option ℕ} {mem : Mem} (d : Describes g w c) :
    Ok (mProf g a cum e indx mem c) (fun x => Back g w c x.2.cluster) := by
  unfold mProf
  refine Ok.bind (profStart_rel d) (fun _ _ => ?_)
  ok_steps

theorem rhoProf_back {a : ProfArgs} {e : PStars} {indx : Option ℕ} {mem : Mem} (d : Describes g w c) :
    Ok (rhoProf g a e indx mem c) (fun x => Back g w c x.2.cluster) := by
  unfold rhoProf
  refine Ok.bind (profStart_rel d) (fun _ _ => ?_)
  ok_steps

theorem rhoProfRaw_back {a : ProfArgs} {e : PStars} {indx : Option ℕ} {mem : Mem} (d : Describes g w c) :
    Ok (rhoProfRaw g a e indx mem c) (fun x => Back g w c x.2.cluster) := by
  unfold rhoProfRaw
  refine Ok.bind (profStart_rel d) (fun _ _ => ?_)
  ok_steps

macro_rules | `(tactic| ok_call) => `(tactic| (refine Ok.bind (Rel.call (by rel) rhoProfRaw_back) (fun _ _ => ?_)))

theorem vcircProf_back {a : ProfArgs} {all : Bool} {e : PStars} {indx : Option ℕ} {mem : Mem} (d : Describes g w c) :
    Ok (vcircProf g a all e indx mem c) (fun x => Back g w c x.2.cluster) := by
  unfold vcircProf
  refine Ok.bind (profStart_rel d) (fun _ _ => ?_)
  ok_steps
  all_goals (split <;> ok_steps)

theorem toTail_back {rot : ℝ × ℝ × ℝ → Mat3} (d : Describes g w c) : Ok (toTail g rot c) (fun x => Back g w c x.2) := by
  have h0 := Rel.refl d
  unfold toTail
  ok_steps

theorem rtidal_back {tide : ℝ → ℝ → ℝ → ℝ} {a : TideArgs} {indx : Option (List Bool)} (d : Describes g w c) :
    Ok (rtidal g tide a indx c) (fun x => Back g w c x.2.2) := by
  unfold rtidal
  refine Ok.bind (profStart_rel d) (fun _ _ => ?_)
  ok_steps

theorem ckin_back {a : EtaArgs} {q : CurveFit} {e : PStars} {indx : Option ℕ} {mem : Mem} (d : Describes g w c) :
    Ok (ckin g a q e indx mem c) (fun x => Back g w c x.2.1) := by
  have h0 := Rel.refl d
  unfold ckin
  ok_steps

theorem rlimiting_back {dens : ℝ → ℝ → ℝ} {a : TideArgs} {n : ℕ} {pr : Bool} {e : PStars} (d : Describes g w c) :
    Ok (rlimiting g dens a n pr e c) (fun x => Back g w c x.2) := by
  have h0 := Rel.refl d
  unfold rlimiting
  ok_steps

theorem velData_rel {k : VKind} {co : Option VCoord} {pr : Bool} {c1 : Cluster} (h : Rel g w c c1) :
    Ok (velData g k co pr c1) (fun x => Rel g w c x.2.2) := by
  unfold velData
  split
  · refine Ok.ok ?_
    split <;> exact h
  · refine Ok.ite (fun _ => ?_) (fun _ => ?_)
    · ok_steps
    · unfold sphereCoords
      ok_steps

theorem velProf_back {k : VKind} {a : ProfArgs} {co : Option VCoord} {e : PStars} {indx : Option ℕ} {mem : Mem} (d : Describes g w c) :
    Ok (velProf g k a co e indx mem c) (fun x => Back g w c x.2.cluster) := by
  unfold velProf
  refine Ok.bind (profStart_rel d) (fun c1 h1 => ?_)
  refine Ok.bind Ok.any (fun _ _ => ?_)
  refine Ok.bind (velData_rel h1) (fun x hx => ?_)
  obtain ⟨r, v, c2⟩ := x
  ok_steps

theorem betaProf_back {a : ProfArgs} {e : PStars} {indx : Option ℕ} {mem : Mem} (d : Describes g w c) :
    Ok (betaProf g a e indx mem c) (fun x => Back g w c x.2.cluster) := by
  unfold betaProf
  refine Ok.bind (profStart_rel d) (fun c1 h1 => ?_)
  refine Ok.bind Ok.any (fun _ _ => ?_)
  refine Ok.bind (velData_rel h1) (fun x hx => ?_)
  obtain ⟨r, v, c2⟩ := x
  ok_steps

theorem alphaBins_rel {q : MassArgs} {e : PStars} {B : Binned} (l : List ℕ) : ∀ {c1 : Cluster} {mem : Mem}, Rel g w c c1 →
    Ok (alphaBins g q e B l c1 mem) (fun x => Rel g w c x.2.1) := by
  induction l with
  | nil => intro c1 mem h; unfold alphaBins; exact Ok.ok h
  | cons i l ih =>
    intro c1 mem h
    unfold alphaBins
    refine Ok.bind (Rel.call h massFunction_back) (fun x hx => ?_)
    refine Ok.bind (ih hx) (fun _ _ => ?_)
    ok_steps

theorem etaBins_rel {a : EtaProfArgs} {q : Option CurveFit} {e : PStars} (l : List (ℝ × ℝ)) : ∀ {c1 : Cluster} {mem : Mem}, Rel g w c c1 →
    Ok (etaBins g a q e l c1 mem) (fun x => Rel g w c x.2.1) := by
  induction l with
  | nil => intro c1 mem h; unfold etaBins; exact Ok.ok h
  | cons i l ih =>
    intro c1 mem h
    unfold etaBins
    refine Ok.bind (Rel.call h etaFunction_back) (fun x hx => ?_)
    refine Ok.bind (ih hx) (fun _ _ => ?_)
    ok_steps

theorem alphaProf_back {a : AlphaArgs} {e : PStars} {indx : Option ℕ} {mem : Mem} (d : Describes g w c) :
    Ok (alphaProf g a e indx mem c) (fun x => Back g w c x.2.cluster) := by
  unfold alphaProf
  refine Ok.bind (profStart_rel d) (fun c1 h1 => ?_)
  refine Ok.bind Ok.any (fun _ _ => ?_)
  refine Ok.bind Ok.any (fun _ _ => ?_)
  refine Ok.bind Ok.any (fun _ _ => ?_)
  refine Ok.bind (alphaBins_rel _ h1) (fun _ _ => ?_)
  ok_steps

theorem etaProf_back {a : EtaProfArgs} {q : Option CurveFit} {e : PStars} {indx : Option ℕ} {mem : Mem} (d : Describes g w c) :
    Ok (etaProf g a q e indx mem c) (fun x => Back g w c x.2.cluster) := by
  unfold etaProf
  refine Ok.bind (profStart_rel d) (fun c1 h1 => ?_)
  refine Ok.bind Ok.any (fun _ _ => ?_)
  refine Ok.bind Ok.any (fun _ _ => ?_)
  refine Ok.bind Ok.any (fun _ _ => ?_)
  refine Ok.bind (etaBins_rel _ h1) (fun _ _ => ?_)
  ok_steps

theorem not_radec (d : Describes g w c) : c.units ≠ some .radec := by
  obtain ⟨⟨u, hu, hl⟩, -⟩ := d.lin
  rw [hu]
  rintro ⟨⟩
  exact hl

theorem initializeOrbit_back {fc : Bool} (d : Describes g w c) : Ok (initializeOrbit g fc c) (fun x => Back g w c x.2) := by
  have h0 := Rel.refl d
  unfold initializeOrbit
  rw [if_neg (not_radec d)]
  ok_steps

macro_rules | `(tactic| ok_call) => `(tactic| (refine Ok.bind (Rel.call (by rel) initializeOrbit_back) (fun _ _ => ?_)))

theorem initializeOrbits_back (d : Describes g w c) : Ok (initializeOrbits g c) (fun x => Back g w c x.2) := by
  have h0 := Rel.refl d
  unfold initializeOrbits
  rw [if_neg (fun h => not_radec d h.1), if_neg (fun h => not_radec d h.1)]
  ok_steps

macro_rules | `(tactic| ok_call) => `(tactic| (refine Ok.bind (Rel.call (by rel) initializeOrbits_back) (fun _ _ => ?_)))

theorem interpStart_rel {t : Option ℝ} (d : Describes g w c) : Ok (interpStart g t c) (Rel g w c) := by
  have h0 := Rel.refl d
  unfold interpStart
  ok_steps

theorem interpolateOrbit_back {flow : ℝ → Ph → Ph} {a : PathArgs} (d : Describes g w c) :
    Ok (interpolateOrbit g flow a c) (fun x => Back g w c x.2) := by
  unfold interpolateOrbit
  refine Ok.bind (interpStart_rel d) (fun _ _ => ?_)
  refine Ok.bind (Rel.call (by rel) initializeOrbit_back) (fun o ho => ?_)
  refine Ok.bind Ok.any (fun _ _ => ?_)
  simp only []
  rw [if_neg (not_radec ho.1)]
  ok_steps

theorem interpolateOrbits_back {flow : ℝ → Ph → Ph} {a : PathArgs} (d : Describes g w c) :
    Ok (interpolateOrbits g flow a c) (fun x => Back g w c x.2) := by
  unfold interpolateOrbits
  refine Ok.bind (interpStart_rel d) (fun _ _ => ?_)
  ok_steps

theorem orbitalPath_back {flow : ℝ → Ph → Ph} {a : PathArgs} (d : Describes g w c) :
    Ok (orbitalPath g flow a c) (fun x => Back g w c x.2) := by
  unfold orbitalPath
  refine Ok.bind (initializeOrbit_back d) (fun _ _ => ?_)
  ok_steps

theorem orbitalPathSky_back {flow : ℝ → Ph → Ph} {a : PathArgs} (d : Describes g w c) :
    Ok (orbitalPathSky g flow a c) (fun x => Back g w c x.2) := by
  unfold orbitalPathSky
  refine Ok.bind (initializeOrbit_back d) (fun _ _ => ?_)
  ok_steps

theorem matchPath_rel {flow : ℝ → Ph → Ph} {a : MatchArgs} {c1 : Cluster} (h : Rel g w c c1) :
    Ok (matchPath g flow a c1) (fun x => Rel g w c x.2) := by
  unfold matchPath
  cases a.path with
  | none => exact Rel.call h orbitalPath_back
  | some p => exact Ok.ok h

theorem orbitalPathMatch_back {flow : ℝ → Ph → Ph} {a : MatchArgs} (d : Describes g w c) :
    Ok (orbitalPathMatch g flow a c) (fun x => Back g w c x.2) := by
  have h0 := Rel.refl d
  unfold orbitalPathMatch
  refine Ok.bind (Rel.toGalaxy (by rel)) (fun _ _ => ?_)
  refine Ok.bind (Rel.toKpckms (by rel)) (fun _ _ => ?_)
  refine Ok.bind (matchPath_rel (by rel)) (fun _ _ => ?_)
  ok_steps

theorem tailPath_back {flow : ℝ → Ph → Ph} {a : TailArgs} (d : Describes g w c) :
    Ok (tailPath g flow a c) (fun x => Back g w c x.2) := by
  have h0 := Rel.refl d
  unfold tailPath
  refine Ok.bind (Rel.toGalaxy (by rel)) (fun _ _ => ?_)
  refine Ok.bind (Rel.toKpckms (by rel)) (fun _ _ => ?_)
  refine Ok.bind (Rel.call (by rel) orbitalPath_back) (fun _ _ => ?_)
  refine Ok.bind Ok.any (fun _ _ => ?_)
  refine Ok.bind (Rel.call (by rel) orbitalPathMatch_back) (fun _ _ => ?_)
  ok_steps

theorem tailPathMatch_back {flow : ℝ → Ph → Ph} {a : TailArgs} {path : Option (List PathPt)} (d : Describes g w c) :
    Ok (tailPathMatch g flow a path c) (fun x => Back g w c x.2) := by
  unfold tailPathMatch
  have h : Ok (path.elim (tailPath g flow { a with toPath := false, doFull := false, projected := false } c) (fun p => .ok (p, c)))
      (fun x => Back g w c x.2) := by
    cases path with
    | none => exact tailPath_back d
    | some p => exact Ok.ok ⟨d, rfl, rfl⟩
  refine Ok.bind h (fun x hx => ?_)
  exact (orbitalPathMatch_back hx.1).mono (fun _ b => ⟨b.1, b.2.1.trans hx.2.1, b.2.2.trans hx.2.2⟩)

theorem gyrout_back {vk : ℝ} (d : Describes g w c) : Ok (gyrout g vk none none c) (fun x => Back g w c x.cluster) := by
  have h0 := Rel.refl d
  unfold gyrout
  refine Ok.bind (Rel.toGalaxy (by rel)) (fun _ _ => ?_)
  refine Ok.bind (Rel.toKpckms (by rel)) (fun _ _ => ?_)
  simp only [Option.elim]
  ok_steps

theorem findCentre_back {a : CentreArgs} {meth : DensityMethod} {fuel : ℕ} {mask : Option (List Bool)} {ids : List ℤ}
    (hm : ∀ m, mask = some m → true ∈ m) (d : Describes g w c) : Ok (findCentre g a meth fuel mask ids c) (fun x => Back g w c x.2) := by
  have h0 := Rel.refl d
  have hz : ¬ (mask.map (fun m => m.count true)).getD 1 = 0 := by
    cases mask with
    | none => simp
    | some m => simpa [List.count_eq_zero] using hm m rfl
  have hr : ∀ c1, Rel g w c c1 → Ok (returnCluster g (saveCluster c1) false none c1) (Rel g w c) := fun c1 h1 =>
    (ret_back h1.1 (Rel.refl h1.1)).mono (fun _ b => h1.trans b.rel)
  unfold findCentre
  simp only [if_neg hz]
  split
  · refine Ok.bind (Rel.toPckms (by rel)) (fun c1 h1 => ?_)
    refine Ok.bind Ok.any (fun _ _ => ?_)
    refine Ok.ite (fun _ => ?_) (fun _ => ?_)
    · refine Ok.bind (hr _ h1) (fun _ _ => ?_)
      ok_steps
    · ok_steps
  · refine Ok.bind (Ok.ok (P := Rel g w c) h0) (fun c1 h1 => ?_)
    refine Ok.bind Ok.any (fun _ _ => ?_)
    refine Ok.ite (fun _ => ?_) (fun _ => ?_)
    · refine Ok.bind (hr _ h1) (fun _ _ => ?_)
      ok_steps
    · ok_steps

/-- A world whose centre is not at zero is described with a centre not at zero. -/
theorem centre_known (hc : ¬ (w.centre.x = 0 ∧ w.centre.y = 0 ∧ w.centre.z = 0)) (d : Describes g w c) :
    ¬ (c.c.x = 0 ∧ c.c.y = 0 ∧ c.c.z = 0) := by
  obtain ⟨⟨u, hu, hul⟩, ⟨o, ho, hol⟩⟩ := d.lin
  obtain ⟨s, hs⟩ := unitScale_isSome (g := g) (c := c) hul
  have hw := d.world
  have a : w.centre = s.ph c.c := by
    unfold world phys at hw
    simp only [hu, ho, hs, Option.some.injEq] at hw
    rw [← hw]
  rintro ⟨h1, h2, h3⟩
  exact hc (by rw [a]; simp [Scale.ph, h1, h2, h3])

theorem rcoreStart_rel {kd : KDTree} {c1 : Cluster} (hc : ¬ (w.centre.x = 0 ∧ w.centre.y = 0 ∧ w.centre.z = 0)) (h : Rel g w c c1) :
    Ok (rcoreStart g kd c1) (Rel g w c) := by
  unfold rcoreStart rcoreCentre
  rw [if_neg (centre_known hc h.1)]
  refine Ok.ite (fun _ => ?_) (fun _ => Ok.ok h)
  exact h.toCentre

theorem rcore_back {kd : KDTree} {k : ℕ} {pr : Bool} (hc : ¬ (w.centre.x = 0 ∧ w.centre.y = 0 ∧ w.centre.z = 0)) (d : Describes g w c) :
    Ok (rcore g kd k pr c) (fun x => Back g w c x.2) := by
  have h0 := Rel.refl d
  unfold rcore
  simp only []
  refine Ok.ite (fun _ => ?_) (fun _ => ?_)
  · refine Ok.bind (Rel.toPckms h0) (fun _ _ => ?_)
    refine Ok.bind (rcoreStart_rel hc (by rel)) (fun _ _ => ?_)
    ok_steps
  · refine Ok.bind (Ok.ok (P := Rel g w c) h0) (fun _ _ => ?_)
    refine Ok.bind (rcoreStart_rel hc (by rel)) (fun _ _ => ?_)
    ok_steps

theorem coreRelaxationTime_back {kd : KDTree} {γ : ℝ} {pr : Bool} (hc : ¬ (w.centre.x = 0 ∧ w.centre.y = 0 ∧ w.centre.z = 0))
    (d : Describes g w c) : Ok (coreRelaxationTime g kd γ pr c) (fun x => Back g w c x.2) := by
  unfold coreRelaxationTime
  refine Ok.bind (pcStart_rel d) (fun _ _ => ?_)
  refine Ok.bind (Rel.call (by rel) (rcore_back hc)) (fun _ _ => ?_)
  ok_steps

theorem coreStart_rel {find : Cluster → Except Err Cluster} {c1 : Cluster} (hc : ¬ (w.centre.x = 0 ∧ w.centre.y = 0 ∧ w.centre.z = 0))
    (h : Rel g w c c1) : Ok (coreStart find c1) (Rel g w c) := by
  unfold coreStart
  rw [if_neg (centre_known hc h.1)]
  refine Ok.ite (fun _ => ?_) (fun _ => Ok.ok h)
  exact h.toCentre

theorem rcoreDensity_back {find : Cluster → Except Err Cluster} {e : PStars} {q : ℝ} {pr : Bool}
    (hc : ¬ (w.centre.x = 0 ∧ w.centre.y = 0 ∧ w.centre.z = 0)) (d : Describes g w c) :
    Ok (rcoreDensity g find e q pr c) (fun x => Back g w c x.2) := by
  have h0 := Rel.refl d
  unfold rcoreDensity
  simp only []
  refine Ok.ite (fun _ => ?_) (fun _ => ?_)
  · refine Ok.bind (Rel.toPckms h0) (fun _ _ => ?_)
    refine Ok.bind (coreStart_rel hc (by rel)) (fun _ _ => ?_)
    ok_steps
  · refine Ok.bind (Ok.ok (P := Rel g w c) h0) (fun _ _ => ?_)
    refine Ok.bind (coreStart_rel hc (by rel)) (fun _ _ => ?_)
    ok_steps

end

end CT
