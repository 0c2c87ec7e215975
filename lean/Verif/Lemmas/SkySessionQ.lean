/- Every analysis function returns the cluster it was given, in linear units or on the sky: call by call. -/
import Verif.Lemmas.SkySession

namespace CT

noncomputable section

/-- An inner call that gives back its argument keeps the cluster described. -/
theorem SRel.call {g : Galpy} {S : Truth} {c : Cluster} {α : Type} {x : Except Err α} {f : α → Cluster} (h : SRel g S c)
    (k : SRel g S c → Ok x (fun a => SBack g S c (f a))) : Ok x (fun a => SRel g S (f a)) :=
  (k h).mono (fun _ b => b.1)

macro "srel" : tactic => `(tactic| first | assumption | exact SRel.sort (by assumption))

/-- A step through an inner call; extended below. -/
syntax "sok_call" : tactic
macro_rules | `(tactic| sok_call) => `(tactic| fail)

macro "sok_step" : tactic => `(tactic| first
  | with_reducible exact Ok.err
  | with_reducible exact Ok.thrown
  | with_reducible exact SRel.toPckms (by srel)
  | with_reducible exact SRel.toCentre (by srel)
  | with_reducible exact Ok.ok (by srel)
  | with_reducible exact Ok.pure (by srel)
  | sok_call
  | (with_reducible refine Ok.ite (fun _ => ?_) (fun _ => ?_))
  | (refine Ok.bind (SRel.toPckms (by srel)) (fun _ _ => ?_))
  | (refine Ok.bind (SRel.toKpckms (by srel)) (fun _ _ => ?_))
  | (refine Ok.bind (SRel.toGalpy (by srel)) (fun _ _ => ?_))
  | (refine Ok.bind (SRel.toCentre (by srel)) (fun _ _ => ?_))
  | (refine Ok.bind (SRel.toCluster (by srel)) (fun _ _ => ?_))
  | (refine Ok.bind (SRel.toGalaxy (by srel)) (fun _ _ => ?_))
  | (refine Ok.bind (Ok.ok (P := SRel _ _) (by srel)) (fun _ _ => ?_))
  | (refine Ok.bind (Ok.pure (P := SRel _ _) (by srel)) (fun _ _ => ?_))
  | (refine Ok.bind (sret_back (by assumption) (by srel)) (fun _ _ => ?_))
  | exact Ok.ok (by srel)
  | exact Ok.pure (by srel)
  | (refine Ok.bind Ok.any (fun _ _ => ?_)))

macro "sok_steps" : tactic => `(tactic| (simp (config := {zeta := true, failIfUnchanged := false}) only []; repeat' sok_step))

variable {g : Galpy} {S : Truth} {c : Cluster}

theorem coordsOf_sback {α : Type} {f : Ph → α} (d : SRel g S c) : Ok (coordsOf f g c) (fun x => SBack g S c x.2) := by
  have h0 := d
  unfold coordsOf
  sok_steps

macro_rules | `(tactic| sok_call) => `(tactic| (refine Ok.bind (SRel.call (by srel) coordsOf_sback) (fun _ _ => ?_)))

theorem pcStart_srel (d : SRel g S c) : Ok (pcStart g c) (SRel g S) := by
  have h0 := d
  unfold pcStart
  sok_steps

theorem rlagrange_sback {n : ℕ} {pr : Bool} (d : SRel g S c) : Ok (rlagrange g n pr c) (fun x => SBack g S c x.2) := by
  have h0 := d
  unfold rlagrange
  sok_steps
  all_goals (split <;> sok_steps)

macro_rules | `(tactic| sok_call) => `(tactic| (refine Ok.bind (SRel.call (by srel) rlagrange_sback) (fun _ _ => ?_)))

theorem rlagrangeFrac_sback {f : ℝ} {pr : Bool} (d : SRel g S c) : Ok (rlagrangeFrac g f pr c) (fun x => SBack g S c x.2) := by
  have h0 := d
  unfold rlagrangeFrac
  sok_steps

macro_rules | `(tactic| sok_call) => `(tactic| (refine Ok.bind (SRel.call (by srel) rlagrangeFrac_sback) (fun _ _ => ?_)))

theorem relaxationTime_sback {rad : Option ℝ} {γ : ℝ} {pr : Bool} (d : SRel g S c) :
    Ok (relaxationTime g rad γ pr c) (fun x => SBack g S c x.2) := by
  unfold relaxationTime
  refine Ok.bind (pcStart_srel d) (fun _ _ => ?_)
  sok_steps

theorem halfMassRelaxationTime_sback {γ : ℝ} {pr : Bool} (d : SRel g S c) :
    Ok (halfMassRelaxationTime g γ pr c) (fun x => SBack g S c x.2) := by
  unfold halfMassRelaxationTime
  refine Ok.bind (pcStart_srel d) (fun _ _ => ?_)
  sok_steps

theorem virialInverse_sback {f pr : Bool} (d : SRel g S c) : Ok (virialInverse g f pr c) (fun x => SBack g S c x.2) := by
  have h0 := d
  unfold virialInverse
  sok_steps

theorem virialCrit_sback {H od : ℝ} (d : SRel g S c) : Ok (virialCrit g H od c) (fun x => SBack g S c x.2) := by
  unfold virialCrit
  refine Ok.bind (pcStart_srel d) (fun _ _ => ?_)
  sok_steps

theorem energies_sback {s f pr : Bool} {soft : ℝ} (d : SRel g S c) : Ok (energies g s f pr soft c) (fun x => SBack g S c x.2.2) := by
  have h0 := d
  unfold energies
  sok_steps

theorem energiesIds_sback {s pr : Bool} {mask : List Bool} {soft : ℝ} (d : SRel g S c) :
    Ok (energiesIds g s pr mask soft c) (fun x => SBack g S c x.2.2) := by
  have h0 := d
  unfold energiesIds
  sok_steps

theorem massFunction_sback {a : MassArgs} {e : PStars} {indx : Option ℕ} {mem : Mem} (d : SRel g S c) :
    Ok (massFunction g a e indx mem c) (fun x => SBack g S c x.2.1) := by
  have h0 := d
  unfold massFunction
  sok_steps

macro_rules | `(tactic| sok_call) => `(tactic| (refine Ok.bind (SRel.call (by srel) massFunction_sback) (fun _ _ => ?_)))

theorem etaFunction_sback {a : EtaArgs} {q : Option CurveFit} {e : PStars} {indx : Option ℕ} {mem : Mem} (d : SRel g S c) :
    Ok (etaFunction g a q e indx mem c) (fun x => SBack g S c x.2.1) := by
  have h0 := d
  unfold etaFunction
  sok_steps

macro_rules | `(tactic| sok_call) => `(tactic| (refine Ok.bind (SRel.call (by srel) etaFunction_sback) (fun _ _ => ?_)))

theorem meqFunction_sback {a : EtaArgs} {q : CurveFit} {e : PStars} {indx : Option ℕ} {mem : Mem} (d : SRel g S c) :
    Ok (meqFunction g a q e indx mem c) (fun x => SBack g S c x.2.1) := by
  have h0 := d
  unfold meqFunction
  sok_steps

macro_rules | `(tactic| sok_call) => `(tactic| (refine Ok.bind (SRel.call (by srel) meqFunction_sback) (fun _ _ => ?_)))

theorem profStart_srel {s1 s2 : Bool} (d : SRel g S c) : Ok (profStart g s1 s2 c) (SRel g S) := by
  have h0 := d
  unfold profStart
  sok_steps

theorem mProf_sback {a : ProfArgs} {cum : Bool} {e : PStars} {indx : Option ℕ} {mem : Mem} (d : SRel g S c) :
    Ok (mProf g a cum e indx mem c) (fun x => SBack g S c x.2.cluster) := by
  unfold mProf
  refine Ok.bind (profStart_srel d) (fun _ _ => ?_)
  sok_steps

theorem rhoProf_sback {a : ProfArgs} {e : PStars} {indx : Option ℕ} {mem : Mem} (d : SRel g S c) :
    Ok (rhoProf g a e indx mem c) (fun x => SBack g S c x.2.cluster) := by
  unfold rhoProf
  refine Ok.bind (profStart_srel d) (fun _ _ => ?_)
  sok_steps

theorem rhoProfRaw_sback {a : ProfArgs} {e : PStars} {indx : Option ℕ} {mem : Mem} (d : SRel g S c) :
    Ok (rhoProfRaw g a e indx mem c) (fun x => SBack g S c x.2.cluster) := by
  unfold rhoProfRaw
  refine Ok.bind (profStart_srel d) (fun _ _ => ?_)
  sok_steps

macro_rules | `(tactic| sok_call) => `(tactic| (refine Ok.bind (SRel.call (by srel) rhoProfRaw_sback) (fun _ _ => ?_)))

theorem vcircProf_sback {a : ProfArgs} {all : Bool} {e : PStars} {indx : Option ℕ} {mem : Mem} (d : SRel g S c) :
    Ok (vcircProf g a all e indx mem c) (fun x => SBack g S c x.2.cluster) := by
  unfold vcircProf
  refine Ok.bind (profStart_srel d) (fun _ _ => ?_)
  sok_steps
  all_goals (split <;> sok_steps)

theorem toTail_sback {rot : ℝ × ℝ × ℝ → Mat3} (d : SRel g S c) : Ok (toTail g rot c) (fun x => SBack g S c x.2) := by
  have h0 := d
  unfold toTail
  sok_steps

theorem rtidal_sback {tide : ℝ → ℝ → ℝ → ℝ} {a : TideArgs} {indx : Option (List Bool)} (d : SRel g S c) :
    Ok (rtidal g tide a indx c) (fun x => SBack g S c x.2.2) := by
  unfold rtidal
  refine Ok.bind (profStart_srel d) (fun _ _ => ?_)
  sok_steps

theorem ckin_sback {a : EtaArgs} {q : CurveFit} {e : PStars} {indx : Option ℕ} {mem : Mem} (d : SRel g S c) :
    Ok (ckin g a q e indx mem c) (fun x => SBack g S c x.2.1) := by
  have h0 := d
  unfold ckin
  sok_steps

theorem rlimiting_sback {dens : ℝ → ℝ → ℝ} {a : TideArgs} {n : ℕ} {pr : Bool} {e : PStars} (d : SRel g S c) :
    Ok (rlimiting g dens a n pr e c) (fun x => SBack g S c x.2) := by
  have h0 := d
  unfold rlimiting
  sok_steps

theorem velData_srel {k : VKind} {co : Option VCoord} {pr : Bool} {c1 : Cluster} (h : SRel g S c1) :
    Ok (velData g k co pr c1) (fun x => SRel g S x.2.2) := by
  unfold velData
  split
  · refine Ok.ok ?_
    split <;> exact h
  · refine Ok.ite (fun _ => ?_) (fun _ => ?_)
    · sok_steps
    · unfold sphereCoords
      sok_steps

theorem velProf_sback {k : VKind} {a : ProfArgs} {co : Option VCoord} {e : PStars} {indx : Option ℕ} {mem : Mem} (d : SRel g S c) :
    Ok (velProf g k a co e indx mem c) (fun x => SBack g S c x.2.cluster) := by
  unfold velProf
  refine Ok.bind (profStart_srel d) (fun c1 h1 => ?_)
  refine Ok.bind Ok.any (fun _ _ => ?_)
  refine Ok.bind (velData_srel h1) (fun x hx => ?_)
  obtain ⟨r, v, c2⟩ := x
  sok_steps

theorem betaProf_sback {a : ProfArgs} {e : PStars} {indx : Option ℕ} {mem : Mem} (d : SRel g S c) :
    Ok (betaProf g a e indx mem c) (fun x => SBack g S c x.2.cluster) := by
  unfold betaProf
  refine Ok.bind (profStart_srel d) (fun c1 h1 => ?_)
  refine Ok.bind Ok.any (fun _ _ => ?_)
  refine Ok.bind (velData_srel h1) (fun x hx => ?_)
  obtain ⟨r, v, c2⟩ := x
  sok_steps

theorem alphaBins_srel {q : MassArgs} {e : PStars} {B : Binned} (l : List ℕ) : ∀ {c1 : Cluster} {mem : Mem}, SRel g S c1 →
    Ok (alphaBins g q e B l c1 mem) (fun x => SRel g S x.2.1) := by
  induction l with
  | nil => intro c1 mem h; unfold alphaBins; exact Ok.ok h
  | cons i l ih =>
    intro c1 mem h
    unfold alphaBins
    refine Ok.bind (SRel.call h massFunction_sback) (fun x hx => ?_)
    refine Ok.bind (ih hx) (fun _ _ => ?_)
    sok_steps

theorem etaBins_srel {a : EtaProfArgs} {q : Option CurveFit} {e : PStars} (l : List (ℝ × ℝ)) : ∀ {c1 : Cluster} {mem : Mem}, SRel g S c1 →
    Ok (etaBins g a q e l c1 mem) (fun x => SRel g S x.2.1) := by
  induction l with
  | nil => intro c1 mem h; unfold etaBins; exact Ok.ok h
  | cons i l ih =>
    intro c1 mem h
    unfold etaBins
    refine Ok.bind (SRel.call h etaFunction_sback) (fun x hx => ?_)
    refine Ok.bind (ih hx) (fun _ _ => ?_)
    sok_steps

theorem alphaProf_sback {a : AlphaArgs} {e : PStars} {indx : Option ℕ} {mem : Mem} (d : SRel g S c) :
    Ok (alphaProf g a e indx mem c) (fun x => SBack g S c x.2.cluster) := by
  unfold alphaProf
  refine Ok.bind (profStart_srel d) (fun c1 h1 => ?_)
  refine Ok.bind Ok.any (fun _ _ => ?_)
  refine Ok.bind Ok.any (fun _ _ => ?_)
  refine Ok.bind Ok.any (fun _ _ => ?_)
  refine Ok.bind (alphaBins_srel _ h1) (fun _ _ => ?_)
  sok_steps

theorem etaProf_sback {a : EtaProfArgs} {q : Option CurveFit} {e : PStars} {indx : Option ℕ} {mem : Mem} (d : SRel g S c) :
    Ok (etaProf g a q e indx mem c) (fun x => SBack g S c x.2.cluster) := by
  unfold etaProf
  refine Ok.bind (profStart_srel d) (fun c1 h1 => ?_)
  refine Ok.bind Ok.any (fun _ _ => ?_)
  refine Ok.bind Ok.any (fun _ _ => ?_)
  refine Ok.bind Ok.any (fun _ _ => ?_)
  refine Ok.bind (etaBins_srel _ h1) (fun _ _ => ?_)
  sok_steps

theorem initializeOrbit_sback {fc : Bool} (d : SRel g S c) : Ok (initializeOrbit g fc c) (fun x => SBack g S c x.2) := by
  unfold initializeOrbit
  refine Ok.ite (fun _ => Ok.ok ⟨d, rfl, rfl⟩) (fun _ => ?_)
  sok_steps

macro_rules | `(tactic| sok_call) => `(tactic| (refine Ok.bind (SRel.call (by srel) initializeOrbit_sback) (fun _ _ => ?_)))

theorem initializeOrbits_sback (d : SRel g S c) : Ok (initializeOrbits g c) (fun x => SBack g S c x.2) := by
  unfold initializeOrbits
  refine Ok.ite (fun _ => Ok.ok ⟨d, rfl, rfl⟩) (fun _ => Ok.ite (fun _ => Ok.err) (fun _ => ?_))
  sok_steps

theorem interpStart_srel {t : Option ℝ} (d : SRel g S c) : Ok (interpStart g t c) (SRel g S) := by
  have h0 := d
  unfold interpStart
  sok_steps

theorem interpolateOrbit_sback {flow : ℝ → Ph → Ph} {a : PathArgs} (d : SRel g S c) :
    Ok (interpolateOrbit g flow a c) (fun x => SBack g S c x.2) := by
  unfold interpolateOrbit
  refine Ok.bind (interpStart_srel d) (fun _ _ => ?_)
  refine Ok.bind (SRel.call (by srel) initializeOrbit_sback) (fun o ho => ?_)
  refine Ok.bind Ok.any (fun _ _ => ?_)
  simp only []
  refine Ok.ite (fun _ => Ok.ite (fun _ => ?_) (fun _ => ?_)) (fun _ => ?_)
  · refine Ok.bind (SRel.toSky ho) (fun _ _ => ?_)
    sok_steps
  · sok_steps
  · sok_steps

theorem interpolateOrbits_sback {flow : ℝ → Ph → Ph} {a : PathArgs} (d : SRel g S c) :
    Ok (interpolateOrbits g flow a c) (fun x => SBack g S c x.2) := by
  unfold interpolateOrbits
  refine Ok.bind (interpStart_srel d) (fun _ _ => ?_)
  refine Ok.bind (SRel.call (by srel) initializeOrbits_sback) (fun _ _ => ?_)
  sok_steps

theorem orbitalPath_sback {flow : ℝ → Ph → Ph} {a : PathArgs} (d : SRel g S c) :
    Ok (orbitalPath g flow a c) (fun x => SBack g S c x.2) := by
  unfold orbitalPath
  refine Ok.bind (initializeOrbit_sback d) (fun _ _ => ?_)
  sok_steps

theorem orbitalPathSky_sback {flow : ℝ → Ph → Ph} {a : PathArgs} (d : SRel g S c) :
    Ok (orbitalPathSky g flow a c) (fun x => SBack g S c x.2) := by
  unfold orbitalPathSky
  refine Ok.bind (initializeOrbit_sback d) (fun _ _ => ?_)
  sok_steps

theorem matchPath_srel {flow : ℝ → Ph → Ph} {a : MatchArgs} {c1 : Cluster} (h : SRel g S c1) :
    Ok (matchPath g flow a c1) (fun x => SRel g S x.2) := by
  unfold matchPath
  cases a.path with
  | none => exact SRel.call h orbitalPath_sback
  | some p => exact Ok.ok h

theorem orbitalPathMatch_sback {flow : ℝ → Ph → Ph} {a : MatchArgs} (d : SRel g S c) :
    Ok (orbitalPathMatch g flow a c) (fun x => SBack g S c x.2) := by
  have h0 := d
  unfold orbitalPathMatch
  refine Ok.bind (SRel.toGalaxy (by srel)) (fun _ _ => ?_)
  refine Ok.bind (SRel.toKpckms (by srel)) (fun _ _ => ?_)
  refine Ok.bind (matchPath_srel (by srel)) (fun _ _ => ?_)
  sok_steps

theorem tailPath_sback {flow : ℝ → Ph → Ph} {a : TailArgs} (d : SRel g S c) :
    Ok (tailPath g flow a c) (fun x => SBack g S c x.2) := by
  have h0 := d
  unfold tailPath
  refine Ok.bind (SRel.toGalaxy (by srel)) (fun _ _ => ?_)
  refine Ok.bind (SRel.toKpckms (by srel)) (fun _ _ => ?_)
  refine Ok.bind (SRel.call (by srel) orbitalPath_sback) (fun _ _ => ?_)
  refine Ok.bind Ok.any (fun _ _ => ?_)
  refine Ok.bind (SRel.call (by srel) orbitalPathMatch_sback) (fun _ _ => ?_)
  sok_steps

theorem tailPathMatch_sback {flow : ℝ → Ph → Ph} {a : TailArgs} {path : Option (List PathPt)} (d : SRel g S c) :
    Ok (tailPathMatch g flow a path c) (fun x => SBack g S c x.2) := by
  unfold tailPathMatch
  have h : Ok (path.elim (tailPath g flow { a with toPath := false, doFull := false, projected := false } c) (fun p => .ok (p, c)))
      (fun x => SBack g S c x.2) := by
    cases path with
    | none => exact tailPath_sback d
    | some p => exact Ok.ok ⟨d, rfl, rfl⟩
  refine Ok.bind h (fun x hx => ?_)
  exact (orbitalPathMatch_sback hx.1).mono (fun _ b => ⟨b.1, b.2.1.trans hx.2.1, b.2.2.trans hx.2.2⟩)

theorem gyrout_sback {vk : ℝ} (d : SRel g S c) : Ok (gyrout g vk none none c) (fun x => SBack g S c x.cluster) := by
  have h0 := d
  unfold gyrout
  refine Ok.bind (SRel.toGalaxy (by srel)) (fun _ _ => ?_)
  refine Ok.bind (SRel.toKpckms (by srel)) (fun _ _ => ?_)
  simp only [Option.elim]
  sok_steps

theorem findCentre_sback {a : CentreArgs} {meth : DensityMethod} {fuel : ℕ} {mask : Option (List Bool)} {ids : List ℤ}
    (hm : ∀ m, mask = some m → true ∈ m) (d : SRel g S c) : Ok (findCentre g a meth fuel mask ids c) (fun x => SBack g S c x.2) := by
  have h0 := d
  have hz : ¬ (mask.map (fun m => m.count true)).getD 1 = 0 := by
    cases mask with
    | none => simp
    | some m => simpa [List.count_eq_zero] using hm m rfl
  have hr : ∀ c1, SRel g S c1 → Ok (returnCluster g (saveCluster c1) false none c1) (SRel g S) := fun c1 h1 =>
    (sret_back h1 h1).mono (fun _ b => b.1)
  unfold findCentre
  simp only [if_neg hz]
  split
  · refine Ok.bind (SRel.toPckms (by srel)) (fun c1 h1 => ?_)
    refine Ok.bind Ok.any (fun _ _ => ?_)
    refine Ok.ite (fun _ => ?_) (fun _ => ?_)
    · refine Ok.bind (hr _ h1) (fun _ _ => ?_)
      sok_steps
    · sok_steps
  · refine Ok.bind (Ok.ok (P := SRel g S) h0) (fun c1 h1 => ?_)
    refine Ok.bind Ok.any (fun _ _ => ?_)
    refine Ok.ite (fun _ => ?_) (fun _ => ?_)
    · refine Ok.bind (hr _ h1) (fun _ _ => ?_)
      sok_steps
    · sok_steps

end

end CT
