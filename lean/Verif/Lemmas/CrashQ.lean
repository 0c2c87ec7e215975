/- The clusters on the way of every analysis call. -/
import Verif.Lemmas.CrashRun

namespace CT

noncomputable section

/-- A step through an inner call; extended below. -/
syntax "along_call" : tactic
macro_rules | `(tactic| along_call) => `(tactic| fail)

macro "along_step" : tactic => `(tactic| first
  | with_reducible exact Along.error
  | with_reducible exact Along.throw
  | with_reducible exact Along.ok rfl
  | with_reducible exact Along.pure rfl
  | with_reducible exact Along.step (Rel.toPckms (by rel))
  | with_reducible exact Along.step (Rel.toCentre (by rel))
  | with_reducible exact Along.step (Ok.ok (by rel))
  | with_reducible exact Along.bindThrow
  | with_reducible exact Along.bindError
  | (with_reducible refine Along.ite (fun _ => ?_) (fun _ => ?_))
  | (with_reducible refine Along.bindRet (by assumption) (by rel) (fun _ _ => ?_))
  | (with_reducible refine Along.bindStep (by rel) (Rel.toPckms (by rel)) (fun _ _ => ?_))
  | (with_reducible refine Along.bindStep (by rel) (Rel.toKpckms (by rel)) (fun _ _ => ?_))
  | (with_reducible refine Along.bindStep (by rel) (Rel.toGalpy (by rel)) (fun _ _ => ?_))
  | (with_reducible refine Along.bindStep (by rel) (Rel.toCentre (by rel)) (fun _ _ => ?_))
  | (with_reducible refine Along.bindStep (by rel) (Rel.toCluster (by rel)) (fun _ _ => ?_))
  | (with_reducible refine Along.bindStep (by rel) (Rel.toGalaxy (by rel)) (fun _ _ => ?_))
  | (with_reducible refine Along.bindStep (by rel) (Ok.ok (by rel)) (fun _ _ => ?_))
  | (with_reducible refine Along.bindOk (by rel) ?_)
  | (with_reducible refine Along.bindPure (by rel) ?_)
  | (with_reducible refine Along.bindLift (by rel) (fun _ => ?_))
  | along_call
  | exact Along.ok rfl
  | exact Along.pure rfl)

macro "along_steps" : tactic => `(tactic| (simp (config := {zeta := true, failIfUnchanged := false}) only []; repeat' along_step))

variable {g : Galpy} {w : World} {c : Cluster}

theorem coordsOf_along {α : Type} {f : Ph → α} (d : Describes g w c) : Along (Rel g w c) c (coordsOfT f g c) Prod.snd := by
  have h0 := Rel.refl d
  unfold coordsOfT
  along_steps

macro_rules | `(tactic| along_call) => `(tactic| (with_reducible refine Along.bind (by rel) (Rel.trace (by rel) coordsOf_along) (fun _ _ => ?_)))

theorem pcStart_along (d : Describes g w c) : Along (Rel g w c) c (pcStartT g c) (fun c => c) := by
  have h0 := Rel.refl d
  unfold pcStartT
  along_steps

macro_rules | `(tactic| along_call) => `(tactic| (with_reducible refine Along.bind (by rel) (pcStart_along (by assumption)) (fun _ _ => ?_)))

theorem rlagrange_along {n : ℕ} {pr : Bool} (d : Describes g w c) : Along (Rel g w c) c (rlagrangeT g n pr c) Prod.snd := by
  have h0 := Rel.refl d
  unfold rlagrangeT
  along_steps
  all_goals (split <;> along_steps)

macro_rules | `(tactic| along_call) => `(tactic| (with_reducible refine Along.bind (by rel) (Rel.trace (by rel) rlagrange_along) (fun _ _ => ?_)))

theorem rlagrangeFrac_along {f : ℝ} {pr : Bool} (d : Describes g w c) :
    Along (Rel g w c) c (rlagrangeFracT g f pr c) Prod.snd := by
  have h0 := Rel.refl d
  unfold rlagrangeFracT
  along_steps
  all_goals (refine Along.bind (by rel) (Along.elim (out := fun _ => _) Along.error (fun _ => Along.ok rfl)) (fun _ _ => ?_); along_steps)

macro_rules | `(tactic| along_call) => `(tactic| (with_reducible refine Along.bind (by rel) (Rel.trace (by rel) rlagrangeFrac_along) (fun _ _ => ?_)))

theorem relaxationTime_along {rad : Option ℝ} {γ : ℝ} {pr : Bool} (d : Describes g w c) :
    Along (Rel g w c) c (relaxationTimeT g rad γ pr c) Prod.snd := by
  have h0 := Rel.refl d
  unfold relaxationTimeT
  along_steps

theorem halfMassRelaxationTime_along {γ : ℝ} {pr : Bool} (d : Describes g w c) :
    Along (Rel g w c) c (halfMassRelaxationTimeT g γ pr c) Prod.snd := by
  have h0 := Rel.refl d
  unfold halfMassRelaxationTimeT
  along_steps

theorem virialInverse_along {f pr : Bool} (d : Describes g w c) :
    Along (Rel g w c) c (virialInverseT g f pr c) Prod.snd := by
  have h0 := Rel.refl d
  unfold virialInverseT
  along_steps

theorem virialCrit_along {H od : ℝ} (d : Describes g w c) :
    Along (Rel g w c) c (virialCritT g H od c) Prod.snd := by
  have h0 := Rel.refl d
  unfold virialCritT
  along_steps
  all_goals (refine Along.bind (by rel) (Along.elim (out := fun _ => _) Along.error (fun _ => Along.ok rfl)) (fun _ _ => ?_); along_steps)

theorem energies_along {s f pr : Bool} {soft : ℝ} (d : Describes g w c) :
    Along (Rel g w c) c (energiesT g s f pr soft c) (fun x => x.2.2) := by
  have h0 := Rel.refl d
  unfold energiesT
  along_steps

theorem energiesIds_along {s pr : Bool} {mask : List Bool} {soft : ℝ} (d : Describes g w c) :
    Along (Rel g w c) c (energiesIdsT g s pr mask soft c) (fun x => x.2.2) := by
  have h0 := Rel.refl d
  unfold energiesIdsT
  along_steps

theorem massFunction_along {a : MassArgs} {e : PStars} {indx : Option ℕ} {mem : Mem} (d : Describes g w c) :
    Along (Rel g w c) c (massFunctionT g a e indx mem c) (fun x => x.2.1) := by
  have h0 := Rel.refl d
  unfold massFunctionT
  along_steps

macro_rules | `(tactic| along_call) => `(tactic| (with_reducible refine Along.bind (by rel) (Rel.trace (by rel) massFunction_along) (fun _ _ => ?_)))

theorem etaFunction_along {a : EtaArgs} {q : Option CurveFit} {e : PStars} {indx : Option ℕ} {mem : Mem} (d : Describes g w c) :
    Along (Rel g w c) c (etaFunctionT g a q e indx mem c) (fun x => x.2.1) := by
  have h0 := Rel.refl d
  unfold etaFunctionT
  along_steps

macro_rules | `(tactic| along_call) => `(tactic| (with_reducible refine Along.bind (by rel) (Rel.trace (by rel) etaFunction_along) (fun _ _ => ?_)))

theorem meqFunction_along {a : EtaArgs} {q : CurveFit} {e : PStars} {indx : Option ℕ} {mem : Mem} (d : Describes g w c) :
    Along (Rel g w c) c (meqFunctionT g a q e indx mem c) (fun x => x.2.1) := by
  have h0 := Rel.refl d
  unfold meqFunctionT
  along_steps

macro_rules | `(tactic| along_call) => `(tactic| (with_reducible refine Along.bind (by rel) (Rel.trace (by rel) meqFunction_along) (fun _ _ => ?_)))

theorem ckin_along {a : EtaArgs} {q : CurveFit} {e : PStars} {indx : Option ℕ} {mem : Mem} (d : Describes g w c) :
    Along (Rel g w c) c (ckinT g a q e indx mem c) (fun x => x.2.1) := by
  have h0 := Rel.refl d
  have key : ∀ c1, Rel g w c c1 → Along (Rel g w c) c1 (rlagrangeT g 10 a.sub.projected c1 >>= fun L =>
      etaFunctionT g { a with sub := { a.sub with rmin := some L.1[3]!, rmax := some L.1[5]! } } (some q) e indx mem L.2 >>= fun half =>
      etaFunctionT g { a with sub := { a.sub with rmin := some 0, rmax := some L.1[4]! } } (some q) e indx half.2.2 half.2.1 >>= fun inner =>
      retT g (saveCluster c) false none inner.2.1 >>= fun c2 =>
      pure (inner.1.fit.slope / half.1.fit.slope, c2, inner.2.2)) (fun x => x.2.1) := by
    intro c1 h1
    refine Along.bind h1 (Rel.trace h1 rlagrange_along) (fun L hL => ?_)
    refine Along.bind hL (Rel.trace hL etaFunction_along) (fun half hh => ?_)
    refine Along.bind hh (Rel.trace hh etaFunction_along) (fun inner hi => ?_)
    refine Along.bindRet d hi (fun _ _ => ?_)
    exact Along.pure rfl
  unfold ckinT
  refine Along.ite (fun _ => ?_) (fun _ => ?_)
  · exact Along.bindStep h0 (Rel.toPckms h0) key
  · exact Along.bindOk h0 (key c h0)

theorem profStart_along {s1 s2 : Bool} (d : Describes g w c) :
    Along (Rel g w c) c (profStartT g s1 s2 c) (fun c => c) := by
  have h0 := Rel.refl d
  unfold profStartT
  along_steps

macro_rules | `(tactic| along_call) => `(tactic| (with_reducible refine Along.bind (by rel) (profStart_along (by assumption)) (fun _ _ => ?_)))

theorem mProf_along {a : ProfArgs} {cum : Bool} {e : PStars} {indx : Option ℕ} {mem : Mem} (d : Describes g w c) :
    Along (Rel g w c) c (mProfT g a cum e indx mem c) (fun x => x.2.cluster) := by
  have h0 := Rel.refl d
  unfold mProfT
  along_steps

theorem rhoProf_along {a : ProfArgs} {e : PStars} {indx : Option ℕ} {mem : Mem} (d : Describes g w c) :
    Along (Rel g w c) c (rhoProfT g a e indx mem c) (fun x => x.2.cluster) := by
  have h0 := Rel.refl d
  unfold rhoProfT
  along_steps

theorem rhoProfRaw_along {a : ProfArgs} {e : PStars} {indx : Option ℕ} {mem : Mem} (d : Describes g w c) :
    Along (Rel g w c) c (rhoProfRawT g a e indx mem c) (fun x => x.2.cluster) := by
  have h0 := Rel.refl d
  unfold rhoProfRawT
  along_steps

macro_rules | `(tactic| along_call) => `(tactic| (with_reducible refine Along.bind (by rel) (Rel.trace (by rel) rhoProfRaw_along) (fun _ _ => ?_)))

theorem velData_along {k : VKind} {co : Option VCoord} {pr : Bool} {c1 : Cluster} (h : Rel g w c c1) :
    Along (Rel g w c) c1 (velDataT g k co pr c1) (fun x => x.2.2) := by
  unfold velDataT
  split
  · refine Along.ok ?_
    split <;> rfl
  · refine Along.ite (fun _ => ?_) (fun _ => ?_)
    · along_steps
    · unfold sphereCoordsT
      along_steps

macro_rules | `(tactic| along_call) => `(tactic| (with_reducible refine Along.bind (by rel) (velData_along (by rel)) (fun _ _ => ?_)))

theorem velProf_along {k : VKind} {a : ProfArgs} {co : Option VCoord} {e : PStars} {indx : Option ℕ} {mem : Mem} (d : Describes g w c) :
    Along (Rel g w c) c (velProfT g k a co e indx mem c) (fun x => x.2.cluster) := by
  have h0 := Rel.refl d
  unfold velProfT
  along_steps

theorem betaProf_along {a : ProfArgs} {e : PStars} {indx : Option ℕ} {mem : Mem} (d : Describes g w c) :
    Along (Rel g w c) c (betaProfT g a e indx mem c) (fun x => x.2.cluster) := by
  have h0 := Rel.refl d
  unfold betaProfT
  along_steps

theorem vcircProf_along {a : ProfArgs} {all : Bool} {e : PStars} {indx : Option ℕ} {mem : Mem} (d : Describes g w c) :
    Along (Rel g w c) c (vcircProfT g a all e indx mem c) (fun x => x.2.cluster) := by
  have h0 := Rel.refl d
  unfold vcircProfT
  along_steps
  all_goals (split <;> along_steps)

theorem alphaBins_along {q : MassArgs} {e : PStars} {B : Binned} (l : List ℕ) : ∀ {c1 : Cluster} {mem : Mem}, Rel g w c c1 →
    Along (Rel g w c) c1 (alphaBinsT g q e B l c1 mem) (fun x => x.2.1) := by
  induction l with
  | nil => intro c1 mem h; unfold alphaBinsT; exact Along.ok rfl
  | cons i l ih =>
    intro c1 mem h
    unfold alphaBinsT
    refine Along.bind h (Rel.trace h massFunction_along) (fun x hx => ?_)
    refine Along.bind hx (ih hx) (fun _ _ => ?_)
    along_steps

theorem etaBins_along {a : EtaProfArgs} {q : Option CurveFit} {e : PStars} (l : List (ℝ × ℝ)) : ∀ {c1 : Cluster} {mem : Mem}, Rel g w c c1 →
    Along (Rel g w c) c1 (etaBinsT g a q e l c1 mem) (fun x => x.2.1) := by
  induction l with
  | nil => intro c1 mem h; unfold etaBinsT; exact Along.ok rfl
  | cons i l ih =>
    intro c1 mem h
    unfold etaBinsT
    refine Along.bind h (Rel.trace h etaFunction_along) (fun x hx => ?_)
    refine Along.bind hx (ih hx) (fun _ _ => ?_)
    along_steps

macro_rules | `(tactic| along_call) => `(tactic| first
  | (with_reducible refine Along.bind (by rel) (alphaBins_along _ (by rel)) (fun _ _ => ?_))
  | (with_reducible refine Along.bind (by rel) (etaBins_along _ (by rel)) (fun _ _ => ?_)))

theorem alphaProf_along {a : AlphaArgs} {e : PStars} {indx : Option ℕ} {mem : Mem} (d : Describes g w c) :
    Along (Rel g w c) c (alphaProfT g a e indx mem c) (fun x => x.2.cluster) := by
  have h0 := Rel.refl d
  unfold alphaProfT
  along_steps

theorem etaProf_along {a : EtaProfArgs} {q : Option CurveFit} {e : PStars} {indx : Option ℕ} {mem : Mem} (d : Describes g w c) :
    Along (Rel g w c) c (etaProfT g a q e indx mem c) (fun x => x.2.cluster) := by
  have h0 := Rel.refl d
  unfold etaProfT
  along_steps

theorem rtidal_along {tide : ℝ → ℝ → ℝ → ℝ} {a : TideArgs} {indx : Option (List Bool)} (d : Describes g w c) :
    Along (Rel g w c) c (rtidalT g tide a indx c) (fun x => x.2.2) := by
  have h0 := Rel.refl d
  unfold rtidalT
  along_steps

theorem rlimiting_along {dens : ℝ → ℝ → ℝ} {a : TideArgs} {n : ℕ} {pr : Bool} {e : PStars} (d : Describes g w c) :
    Along (Rel g w c) c (rlimitingT g dens a n pr e c) Prod.snd := by
  have h0 := Rel.refl d
  unfold rlimitingT
  along_steps

theorem toTail_along {rot : ℝ × ℝ × ℝ → Mat3} (d : Describes g w c) :
    Along (Rel g w c) c (toTailT g rot c) Prod.snd := by
  have h0 := Rel.refl d
  unfold toTailT
  along_steps

theorem initializeOrbit_along {fc : Bool} (d : Describes g w c) : Along (Rel g w c) c (initializeOrbitT g fc c) Prod.snd := by
  have h0 := Rel.refl d
  unfold initializeOrbitT
  rw [if_neg (not_radec d)]
  along_steps

macro_rules | `(tactic| along_call) => `(tactic| (with_reducible refine Along.bind (by rel) (Rel.trace (by rel) initializeOrbit_along) (fun _ _ => ?_)))

theorem initializeOrbits_along (d : Describes g w c) : Along (Rel g w c) c (initializeOrbitsT g c) Prod.snd := by
  have h0 := Rel.refl d
  unfold initializeOrbitsT
  rw [if_neg (fun h => not_radec d h.1), if_neg (fun h => not_radec d h.1)]
  along_steps

macro_rules | `(tactic| along_call) => `(tactic| (with_reducible refine Along.bind (by rel) (Rel.trace (by rel) initializeOrbits_along) (fun _ _ => ?_)))

theorem interpStart_along {t : Option ℝ} (d : Describes g w c) : Along (Rel g w c) c (interpStartT g t c) (fun c => c) := by
  have h0 := Rel.refl d
  unfold interpStartT
  along_steps

theorem interpolateOrbit_along {flow : ℝ → Ph → Ph} {a : PathArgs} (d : Describes g w c) :
    Along (Rel g w c) c (interpolateOrbitT g flow a c) Prod.snd := by
  have h0 := Rel.refl d
  unfold interpolateOrbitT
  refine Along.bind h0 (interpStart_along d) (fun _ _ => ?_)
  refine Along.bind (by rel) (Rel.trace (by rel) initializeOrbit_along) (fun o ho => ?_)
  refine Along.bindLift ho (fun _ => ?_)
  simp only []
  rw [if_neg (not_radec ho.1)]
  along_steps

theorem interpolateOrbits_along {flow : ℝ → Ph → Ph} {a : PathArgs} (d : Describes g w c) :
    Along (Rel g w c) c (interpolateOrbitsT g flow a c) Prod.snd := by
  have h0 := Rel.refl d
  unfold interpolateOrbitsT
  refine Along.bind h0 (interpStart_along d) (fun _ _ => ?_)
  along_steps

theorem orbitalPath_along {flow : ℝ → Ph → Ph} {a : PathArgs} (d : Describes g w c) :
    Along (Rel g w c) c (orbitalPathT g flow a c) Prod.snd := by
  have h0 := Rel.refl d
  unfold orbitalPathT
  along_steps

theorem orbitalPathSky_along {flow : ℝ → Ph → Ph} {a : PathArgs} (d : Describes g w c) :
    Along (Rel g w c) c (orbitalPathSkyT g flow a c) Prod.snd := by
  have h0 := Rel.refl d
  unfold orbitalPathSkyT
  along_steps

theorem matchPath_along {flow : ℝ → Ph → Ph} {a : MatchArgs} {c1 : Cluster} (h : Rel g w c c1) :
    Along (Rel g w c) c1 (matchPathT g flow a c1) Prod.snd := by
  unfold matchPathT
  cases a.path with
  | none => exact Rel.trace h orbitalPath_along
  | some p => exact Along.ok rfl

theorem orbitalPathMatch_along {flow : ℝ → Ph → Ph} {a : MatchArgs} (d : Describes g w c) :
    Along (Rel g w c) c (orbitalPathMatchT g flow a c) Prod.snd := by
  have h0 := Rel.refl d
  unfold orbitalPathMatchT
  refine Along.bindStep h0 (Rel.toGalaxy h0) (fun _ _ => ?_)
  refine Along.bindStep (by rel) (Rel.toKpckms (by rel)) (fun _ _ => ?_)
  refine Along.bind (by rel) (matchPath_along (by rel)) (fun _ _ => ?_)
  along_steps

theorem tailPath_along {flow : ℝ → Ph → Ph} {a : TailArgs} (d : Describes g w c) :
    Along (Rel g w c) c (tailPathT g flow a c) Prod.snd := by
  have h0 := Rel.refl d
  unfold tailPathT
  refine Along.bindStep h0 (Rel.toGalaxy h0) (fun _ _ => ?_)
  refine Along.bindStep (by rel) (Rel.toKpckms (by rel)) (fun _ _ => ?_)
  refine Along.bind (by rel) (Rel.trace (by rel) orbitalPath_along) (fun _ _ => ?_)
  refine Along.bindLift (by rel) (fun _ => ?_)
  refine Along.bind (by rel) (Rel.trace (by rel) orbitalPathMatch_along) (fun _ _ => ?_)
  along_steps

theorem tailPathMatch_along {flow : ℝ → Ph → Ph} {a : TailArgs} {path : Option (List PathPt)} (d : Describes g w c) :
    Along (Rel g w c) c (tailPathMatchT g flow a path c) Prod.snd := by
  have h0 := Rel.refl d
  unfold tailPathMatchT
  have h : Along (Rel g w c) c (path.elim (tailPathT g flow { a with toPath := false, doFull := false, projected := false } c)
      (fun p => .ok (p, c))) Prod.snd := Along.elim (tailPath_along d) (fun _ => Along.ok rfl)
  exact Along.bind h0 h (fun x hx => Rel.trace hx orbitalPathMatch_along)

theorem gyrout_along {vk : ℝ} (d : Describes g w c) : Along (Rel g w c) c (gyroutT g vk none none c) (fun x => x.cluster) := by
  have h0 := Rel.refl d
  unfold gyroutT
  refine Along.bindStep h0 (Rel.toGalaxy h0) (fun _ _ => ?_)
  refine Along.bindStep (by rel) (Rel.toKpckms (by rel)) (fun _ _ => ?_)
  simp only [Option.elim]
  along_steps

theorem findCentre_along {a : CentreArgs} {meth : DensityMethod} {fuel : ℕ} {mask : Option (List Bool)} {ids : List ℤ}
    (d : Describes g w c) : Along (Rel g w c) c (findCentreT g a meth fuel mask ids c) Prod.snd := by
  have h0 := Rel.refl d
  have hr : ∀ c1, Rel g w c c1 → Along (Rel g w c) c1 (retT g (saveCluster c1) false none c1) (fun c => c) := fun c1 h1 =>
    h1.trace (fun d1 => retT_along d1 (Rel.refl d1))
  unfold findCentreT
  along_steps
  all_goals (refine Along.bind (by rel) (hr _ (by rel)) (fun _ _ => ?_); along_steps)

theorem rcoreStart_along {kd : KDTree} {c1 : Cluster} (hc : ¬ (w.centre.x = 0 ∧ w.centre.y = 0 ∧ w.centre.z = 0)) (h : Rel g w c c1) :
    Along (Rel g w c) c1 (rcoreStartT g kd c1) (fun c => c) := by
  unfold rcoreStartT rcoreCentreT
  rw [if_neg (centre_known hc h.1)]
  along_steps

theorem rcore_along {kd : KDTree} {k : ℕ} {pr : Bool} (hc : ¬ (w.centre.x = 0 ∧ w.centre.y = 0 ∧ w.centre.z = 0)) (d : Describes g w c) :
    Along (Rel g w c) c (rcoreT g kd k pr c) Prod.snd := by
  have h0 := Rel.refl d
  unfold rcoreT
  along_steps
  all_goals (refine Along.bind (by rel) (rcoreStart_along hc (by rel)) (fun _ _ => ?_); along_steps)

theorem coreRelaxationTime_along {kd : KDTree} {γ : ℝ} {pr : Bool} (hc : ¬ (w.centre.x = 0 ∧ w.centre.y = 0 ∧ w.centre.z = 0))
    (d : Describes g w c) : Along (Rel g w c) c (coreRelaxationTimeT g kd γ pr c) Prod.snd := by
  have h0 := Rel.refl d
  unfold coreRelaxationTimeT
  refine Along.bind h0 (pcStart_along d) (fun _ _ => ?_)
  refine Along.bind (by rel) (Rel.trace (by rel) (rcore_along hc)) (fun _ _ => ?_)
  along_steps

theorem rcoreDensity_along {find : Cluster → Except Err Cluster} {e : PStars} {q : ℝ} {pr : Bool}
    (hc : ¬ (w.centre.x = 0 ∧ w.centre.y = 0 ∧ w.centre.z = 0)) (d : Describes g w c) :
    Along (Rel g w c) c (rcoreDensityT g find e q pr c) Prod.snd := by
  have h0 := Rel.refl d
  have hs : ∀ c1, Rel g w c c1 → Along (Rel g w c) c1 (coreStartT find c1) (fun c => c) := by
    intro c1 h1
    unfold coreStartT
    rw [if_neg (centre_known hc h1.1)]
    along_steps
  unfold rcoreDensityT
  along_steps
  all_goals (refine Along.bind (by rel) (hs _ (by rel)) (fun _ _ => ?_); along_steps)

/-- The calls for which the clusters on the way are followed: all of the session, the core radii with a known centre. -/
theorem query_along (q : Query) (ho : q.Observing w) (d : Describes g w c) : Along (Rel g w c) c (q.trace g c) (fun c => c) := by
  have h0 := Rel.refl d
  have wrap : ∀ {α : Type} {x : Tr α} {o : α → Cluster}, Along (Rel g w c) c x o → Along (Rel g w c) c (x >>= fun a => pure (o a)) (fun c => c) :=
    fun h => Along.bind h0 h (fun _ _ => Along.pure rfl)
  cases q
  · exact wrap (coordsOf_along d)
  · exact wrap (coordsOf_along d)
  · exact wrap (rlagrange_along d)
  · exact wrap (rlagrangeFrac_along d)
  · exact wrap (relaxationTime_along d)
  · exact wrap (halfMassRelaxationTime_along d)
  · exact wrap (coreRelaxationTime_along ho d)
  · exact wrap (rcore_along ho d)
  · exact wrap (rcoreDensity_along ho d)
  · exact wrap (virialInverse_along d)
  · exact wrap (virialCrit_along d)
  · exact wrap (energies_along d)
  · exact wrap (energiesIds_along d)
  · exact wrap (massFunction_along d)
  · exact wrap (etaFunction_along d)
  · exact wrap (meqFunction_along d)
  · exact wrap (ckin_along d)
  · exact wrap (mProf_along d)
  · exact wrap (rhoProf_along d)
  · exact wrap (velProf_along d)
  · exact wrap (betaProf_along d)
  · exact wrap (vcircProf_along d)
  · exact wrap (alphaProf_along d)
  · exact wrap (etaProf_along d)
  · exact wrap (rtidal_along d)
  · exact wrap (rlimiting_along d)
  · exact wrap (initializeOrbit_along d)
  · exact wrap (initializeOrbits_along d)
  · exact wrap (interpolateOrbit_along d)
  · exact wrap (interpolateOrbits_along d)
  · exact wrap (orbitalPath_along d)
  · exact wrap (orbitalPathSky_along d)
  · exact wrap (orbitalPathMatch_along d)
  · exact wrap (toTail_along d)
  · exact wrap (tailPath_along d)
  · exact wrap (tailPathMatch_along d)
  · exact wrap (findCentre_along d)
  · exact wrap (gyrout_along d)

theorem query_value (q : Query) (c : Cluster) : (q.trace g c).value = q.exec g c := by
  have wrap : ∀ {α : Type} {x : Tr α} {y : Except Err α} {o : α → Cluster}, x.value = y → (x >>= fun a => pure (o a)).value = y.map o := by
    intro α x y o h
    rw [Tr.value_bind, h]
    cases y <;> rfl
  cases q
  · exact wrap (sphereCoordsT_value ..)
  · exact wrap (cylCoordsT_value ..)
  · exact wrap (rlagrangeT_value ..)
  · exact wrap (rlagrangeFracT_value ..)
  · exact wrap (relaxationTimeT_value ..)
  · exact wrap (halfMassRelaxationTimeT_value ..)
  · exact wrap (coreRelaxationTimeT_value ..)
  · exact wrap (rcoreT_value ..)
  · exact wrap (rcoreDensityT_value ..)
  · exact wrap (virialInverseT_value ..)
  · exact wrap (virialCritT_value ..)
  · exact wrap (energiesT_value ..)
  · exact wrap (energiesIdsT_value ..)
  · exact wrap (massFunctionT_value ..)
  · exact wrap (etaFunctionT_value ..)
  · exact wrap (meqFunctionT_value ..)
  · exact wrap (ckinT_value ..)
  · exact wrap (mProfT_value ..)
  · exact wrap (rhoProfT_value ..)
  · exact wrap (velProfT_value ..)
  · exact wrap (betaProfT_value ..)
  · exact wrap (vcircProfT_value ..)
  · exact wrap (alphaProfT_value ..)
  · exact wrap (etaProfT_value ..)
  · exact wrap (rtidalT_value ..)
  · exact wrap (rlimitingT_value ..)
  · exact wrap (initializeOrbitT_value ..)
  · exact wrap (initializeOrbitsT_value ..)
  · exact wrap (interpolateOrbitT_value ..)
  · exact wrap (interpolateOrbitsT_value ..)
  · exact wrap (orbitalPathT_value ..)
  · exact wrap (orbitalPathSkyT_value ..)
  · exact wrap (orbitalPathMatchT_value ..)
  · exact wrap (toTailT_value ..)
  · exact wrap (tailPathT_value ..)
  · exact wrap (tailPathMatchT_value ..)
  · exact wrap (findCentreT_value ..)
  · exact wrap (gyroutT_value ..)

end

end CT
