/- The traced calls return what the calls return, and every cluster on the way describes the same world. -/
import Verif.Model.Crash
import Verif.Lemmas.SessionQ

namespace CT

noncomputable section

namespace Tr

variable {α β : Type}

theorem value_bind (x : Tr α) (f : α → Tr β) : (x >>= f).value = x.value >>= fun a => (f a).value := by
  show (Tr.bind x f).value = _
  unfold Tr.bind
  cases x.value <;> rfl

theorem value_map (x : Tr α) (f : α → β) : (f <$> x).value = x.value.map f := by
  show (Tr.bind x _).value = _
  unfold Tr.bind
  cases x.value <;> rfl

theorem value_pure (a : α) : (pure a : Tr α).value = pure a := rfl
theorem value_ok (a : α) : (Tr.ok a).value = .ok a := rfl
theorem value_error (e : Err) : (Tr.error e : Tr α).value = .error e := rfl
theorem value_throw (e : Err) : (throw e : Tr α).value = throw e := rfl
theorem value_step (x : Except Err Cluster) : (Tr.step x).value = x := rfl
theorem value_lift (x : Except Err α) : (Tr.lift x).value = x := rfl
theorem value_liftM (x : Except Err α) : (liftM x : Tr α).value = x := rfl
theorem value_monadLift (x : Except Err α) : (MonadLift.monadLift x : Tr α).value = x := rfl
theorem value_monadLiftT (x : Except Err α) : (monadLift x : Tr α).value = x := rfl
theorem value_ite {p : Prop} [Decidable p] (x y : Tr α) : (if p then x else y).value = if p then x.value else y.value := by split <;> rfl
theorem value_elim {γ : Type} (o : Option γ) (x : Tr α) (f : γ → Tr α) : (o.elim x f).value = o.elim x.value (fun a => (f a).value) := by
  cases o <;> rfl

end Tr

macro "value_simp" : tactic => `(tactic| simp (config := {failIfUnchanged := false}) only [Tr.value_bind, Tr.value_map, Tr.value_pure, Tr.value_ok, Tr.value_error, Tr.value_throw,
  Tr.value_step, Tr.value_lift, Tr.value_liftM, Tr.value_monadLift, Tr.value_monadLiftT, Tr.value_ite, Tr.value_elim])

variable {g : Galpy} {w : World} {c : Cluster}

theorem retT_value (s : Option Units × Option Origin × Option (List ℕ) × Option Origin) (sort : Bool) (cm : Option CentreMethod) (c : Cluster) :
    (retT g s sort cm c).value = returnCluster g s sort cm c := by
  unfold retT returnCluster
  obtain ⟨u, o, r, ro⟩ := s
  cases u <;> cases o <;> value_simp

syntax "value_known" : tactic
macro_rules | `(tactic| value_known) => `(tactic| simp only [retT_value])
macro "value_case" : tactic => `(tactic| first
  | rfl
  | (refine bind_congr (fun _ => ?_))
  | (split)
  | (value_simp; value_known)
  | value_known)
macro "value_cases" : tactic => `(tactic| (repeat' value_case))

macro "value_walk" : tactic => `(tactic| (repeat' (first | (refine bind_congr (fun _ => ?_)) | (refine if_congr Iff.rfl ?_ ?_))))

theorem coordsOfT_value {α : Type} (f : Ph → α) (c : Cluster) : (coordsOfT f g c).value = coordsOf f g c := by
  unfold coordsOfT coordsOf
  simp only [Tr.value_bind, Tr.value_ite, Tr.value_pure, Tr.value_ok, Tr.value_step, Tr.value_throw, retT_value]

theorem sphereCoordsT_value (c : Cluster) :
    (sphereCoordsT g c).value = sphereCoords g c := by
  unfold sphereCoordsT sphereCoords
  value_simp
  simp (config := {failIfUnchanged := false}) only [coordsOfT_value]

macro_rules | `(tactic| value_known) => `(tactic| simp only [retT_value, sphereCoordsT_value])

theorem cylCoordsT_value (c : Cluster) :
    (cylCoordsT g c).value = cylCoords g c := by
  unfold cylCoordsT cylCoords
  value_simp
  simp (config := {failIfUnchanged := false}) only [coordsOfT_value]

theorem pcStartT_value (c : Cluster) :
    (pcStartT g c).value = pcStart g c := by
  unfold pcStartT pcStart
  value_simp

theorem rlagrangeT_value (n : ℕ) (projected : Bool) (c : Cluster) :
    (rlagrangeT g n projected c).value = rlagrange g n projected c := by
  unfold rlagrangeT rlagrange
  value_simp
  simp (config := {failIfUnchanged := false}) only [retT_value]
  value_walk
  all_goals
    generalize (if projected = true then _ else _ : Option (List ℕ)) = o
    cases o <;> value_simp
    try simp only [retT_value]

theorem rlagrangeFracT_value (f : ℝ) (projected : Bool) (c : Cluster) :
    (rlagrangeFracT g f projected c).value = rlagrangeFrac g f projected c := by
  unfold rlagrangeFracT rlagrangeFrac
  value_simp
  simp (config := {failIfUnchanged := false}) only [retT_value]

theorem relaxationTimeT_value (rad : Option ℝ) (coulomb : ℝ) (projected : Bool) (c : Cluster) :
    (relaxationTimeT g rad coulomb projected c).value = relaxationTime g rad coulomb projected c := by
  unfold relaxationTimeT relaxationTime
  value_simp
  simp (config := {failIfUnchanged := false}) only [retT_value, pcStartT_value]

theorem halfMassRelaxationTimeT_value (coulomb : ℝ) (projected : Bool) (c : Cluster) :
    (halfMassRelaxationTimeT g coulomb projected c).value = halfMassRelaxationTime g coulomb projected c := by
  unfold halfMassRelaxationTimeT halfMassRelaxationTime
  value_simp
  simp (config := {failIfUnchanged := false}) only [retT_value, pcStartT_value]

theorem virialInverseT_value (full projected : Bool) (c : Cluster) :
    (virialInverseT g full projected c).value = virialInverse g full projected c := by
  unfold virialInverseT virialInverse
  value_simp
  simp (config := {failIfUnchanged := false}) only [retT_value]

theorem virialCritT_value (H overdens : ℝ) (c : Cluster) :
    (virialCritT g H overdens c).value = virialCrit g H overdens c := by
  unfold virialCritT virialCrit
  value_simp
  simp (config := {failIfUnchanged := false}) only [retT_value, pcStartT_value]

theorem energiesT_value (specific full projected : Bool) (soft : ℝ) (c : Cluster) :
    (energiesT g specific full projected soft c).value = energies g specific full projected soft c := by
  unfold energiesT energies
  value_simp
  simp (config := {failIfUnchanged := false}) only [retT_value]

theorem energiesIdsT_value (specific pr : Bool) (mask : List Bool) (soft : ℝ) (c : Cluster) :
    (energiesIdsT g specific pr mask soft c).value = energiesIds g specific pr mask soft c := by
  unfold energiesIdsT energiesIds
  value_simp
  simp (config := {failIfUnchanged := false}) only [retT_value]

theorem massFunctionT_value (a : MassArgs) (e : PStars) (indx : Option ℕ) (mem : Mem) (c : Cluster) :
    (massFunctionT g a e indx mem c).value = massFunction g a e indx mem c := by
  unfold massFunctionT massFunction
  value_simp
  simp (config := {failIfUnchanged := false}) only [retT_value]

theorem etaFunctionT_value (a : EtaArgs) (meq : Option CurveFit) (e : PStars) (indx : Option ℕ) (mem : Mem) (c : Cluster) :
    (etaFunctionT g a meq e indx mem c).value = etaFunction g a meq e indx mem c := by
  unfold etaFunctionT etaFunction
  value_simp
  simp (config := {failIfUnchanged := false}) only [retT_value]

theorem meqFunctionT_value (a : EtaArgs) (q : CurveFit) (e : PStars) (indx : Option ℕ) (mem : Mem) (c : Cluster) :
    (meqFunctionT g a q e indx mem c).value = meqFunction g a q e indx mem c := by
  unfold meqFunctionT meqFunction
  value_simp
  simp (config := {failIfUnchanged := false}) only [retT_value, etaFunctionT_value]

theorem ckinT_value (a : EtaArgs) (q : CurveFit) (e : PStars) (indx : Option ℕ) (mem : Mem) (c : Cluster) :
    (ckinT g a q e indx mem c).value = ckin g a q e indx mem c := by
  unfold ckinT ckin
  value_simp
  simp (config := {failIfUnchanged := false}) only [retT_value, rlagrangeT_value, etaFunctionT_value]

theorem profStartT_value (sortMove sortStay : Bool) (c : Cluster) :
    (profStartT g sortMove sortStay c).value = profStart g sortMove sortStay c := by
  unfold profStartT profStart
  value_simp

theorem mProfT_value (a : ProfArgs) (cumulative : Bool) (e : PStars) (indx : Option ℕ) (mem : Mem) (c : Cluster) :
    (mProfT g a cumulative e indx mem c).value = mProf g a cumulative e indx mem c := by
  unfold mProfT mProf
  value_simp
  simp (config := {failIfUnchanged := false}) only [retT_value, profStartT_value]

theorem rhoProfT_value (a : ProfArgs) (e : PStars) (indx : Option ℕ) (mem : Mem) (c : Cluster) :
    (rhoProfT g a e indx mem c).value = rhoProf g a e indx mem c := by
  unfold rhoProfT rhoProf
  value_simp
  simp (config := {failIfUnchanged := false}) only [retT_value, profStartT_value]

theorem velDataT_value (k : VKind) (coord : Option VCoord) (projected : Bool) (c1 : Cluster) :
    (velDataT g k coord projected c1).value = velData g k coord projected c1 := by
  unfold velDataT velData
  value_simp
  simp (config := {failIfUnchanged := false}) only [sphereCoordsT_value]
  cases coord
  · rfl
  · show (if projected then _ else _ : Tr _).value = (if projected then _ else _ : Except Err _)
    value_simp
    value_cases

theorem velProfT_value (k : VKind) (a : ProfArgs) (coord : Option VCoord) (e : PStars) (indx : Option ℕ) (mem : Mem) (c : Cluster) :
    (velProfT g k a coord e indx mem c).value = velProf g k a coord e indx mem c := by
  unfold velProfT velProf
  value_simp
  simp (config := {failIfUnchanged := false}) only [retT_value, profStartT_value, velDataT_value]
  value_cases

theorem betaProfT_value (a : ProfArgs) (e : PStars) (indx : Option ℕ) (mem : Mem) (c : Cluster) :
    (betaProfT g a e indx mem c).value = betaProf g a e indx mem c := by
  unfold betaProfT betaProf
  value_simp
  simp (config := {failIfUnchanged := false}) only [retT_value, profStartT_value, velDataT_value]
  value_cases

theorem vcircProfT_value (a : ProfArgs) (all : Bool) (e : PStars) (indx : Option ℕ) (mem : Mem) (c : Cluster) :
    (vcircProfT g a all e indx mem c).value = vcircProf g a all e indx mem c := by
  unfold vcircProfT vcircProf
  value_simp
  simp (config := {failIfUnchanged := false}) only [retT_value, profStartT_value]
  value_walk
  rename_i x
  obtain ⟨o, m⟩ := x
  cases o <;> value_simp
  try simp only [retT_value]

theorem alphaBinsT_value (q : MassArgs) (e : PStars) (B : Binned) (l : List ℕ) : ∀ (c : Cluster) (mem : Mem),
    (alphaBinsT g q e B l c mem).value = alphaBins g q e B l c mem := by
  induction l with
  | nil => intro c mem; rfl
  | cons i l ih =>
    intro c mem
    unfold alphaBinsT alphaBins
    value_simp
    simp only [massFunctionT_value, ih]

theorem etaBinsT_value (a : EtaProfArgs) (q : Option CurveFit) (e : PStars) (l : List (ℝ × ℝ)) : ∀ (c : Cluster) (mem : Mem),
    (etaBinsT g a q e l c mem).value = etaBins g a q e l c mem := by
  induction l with
  | nil => intro c mem; rfl
  | cons i l ih =>
    intro c mem
    unfold etaBinsT etaBins
    value_simp
    simp only [etaFunctionT_value, ih]

theorem rtidalT_value (tide : ℝ → ℝ → ℝ → ℝ) (a : TideArgs) (indx : Option (List Bool)) (c : Cluster) :
    (rtidalT g tide a indx c).value = rtidal g tide a indx c := by
  unfold rtidalT rtidal
  value_simp
  simp (config := {failIfUnchanged := false}) only [retT_value, profStartT_value]

theorem rhoProfRawT_value (a : ProfArgs) (e : PStars) (indx : Option ℕ) (mem : Mem) (c : Cluster) :
    (rhoProfRawT g a e indx mem c).value = rhoProfRaw g a e indx mem c := by
  unfold rhoProfRawT rhoProfRaw
  value_simp
  simp (config := {failIfUnchanged := false}) only [retT_value, profStartT_value]

theorem coreStartT_value (find : Cluster → Except Err Cluster) (c1 : Cluster) :
    (coreStartT find c1).value = coreStart find c1 := by
  unfold coreStartT coreStart
  value_simp
  value_cases

theorem rcoreDensityT_value (find : Cluster → Except Err Cluster) (e : PStars) (mfrac : ℝ) (projected : Bool) (c : Cluster) :
    (rcoreDensityT g find e mfrac projected c).value = rcoreDensity g find e mfrac projected c := by
  unfold rcoreDensityT rcoreDensity
  value_simp
  simp (config := {failIfUnchanged := false}) only [retT_value, rlagrangeFracT_value, rhoProfRawT_value, coreStartT_value]

theorem rlimitingT_value (dens : ℝ → ℝ → ℝ) (a : TideArgs) (nrad : ℕ) (projected : Bool) (e : PStars) (c : Cluster) :
    (rlimitingT g dens a nrad projected e c).value = rlimiting g dens a nrad projected e c := by
  unfold rlimitingT rlimiting
  value_simp
  simp (config := {failIfUnchanged := false}) only [retT_value, rhoProfRawT_value]

theorem rcoreCentreT_value (kd : KDTree) (c : Cluster) :
    (rcoreCentreT g kd c).value = rcoreCentre g kd c := by
  unfold rcoreCentreT rcoreCentre
  value_simp

theorem rcoreStartT_value (kd : KDTree) (c1 : Cluster) :
    (rcoreStartT g kd c1).value = rcoreStart g kd c1 := by
  unfold rcoreStartT rcoreStart
  value_simp
  simp (config := {failIfUnchanged := false}) only [rcoreCentreT_value]
  value_cases

theorem rcoreT_value (kd : KDTree) (k : ℕ) (projected : Bool) (c : Cluster) :
    (rcoreT g kd k projected c).value = rcore g kd k projected c := by
  unfold rcoreT rcore
  value_simp
  simp (config := {failIfUnchanged := false}) only [retT_value, rcoreStartT_value]

theorem coreRelaxationTimeT_value (kd : KDTree) (coulomb : ℝ) (projected : Bool) (c : Cluster) :
    (coreRelaxationTimeT g kd coulomb projected c).value = coreRelaxationTime g kd coulomb projected c := by
  unfold coreRelaxationTimeT coreRelaxationTime
  value_simp
  simp (config := {failIfUnchanged := false}) only [retT_value, pcStartT_value, rcoreT_value]

theorem initializeOrbitT_value (fromCentre : Bool) (c : Cluster) :
    (initializeOrbitT g fromCentre c).value = initializeOrbit g fromCentre c := by
  unfold initializeOrbitT initializeOrbit
  value_simp
  simp (config := {failIfUnchanged := false}) only [retT_value]

theorem interpStartT_value (tfinal : Option ℝ) (c : Cluster) :
    (interpStartT g tfinal c).value = interpStart g tfinal c := by
  unfold interpStartT interpStart
  value_simp

theorem interpolateOrbitT_value (flow : ℝ → Ph → Ph) (a : PathArgs) (c : Cluster) :
    (interpolateOrbitT g flow a c).value = interpolateOrbit g flow a c := by
  unfold interpolateOrbitT interpolateOrbit
  value_simp
  simp (config := {failIfUnchanged := false}) only [retT_value, initializeOrbitT_value, interpStartT_value]

theorem initializeOrbitsT_value (c : Cluster) :
    (initializeOrbitsT g c).value = initializeOrbits g c := by
  unfold initializeOrbitsT initializeOrbits
  value_simp
  simp (config := {failIfUnchanged := false}) only [retT_value]

theorem interpolateOrbitsT_value (flow : ℝ → Ph → Ph) (a : PathArgs) (c : Cluster) :
    (interpolateOrbitsT g flow a c).value = interpolateOrbits g flow a c := by
  unfold interpolateOrbitsT interpolateOrbits
  value_simp
  simp (config := {failIfUnchanged := false}) only [retT_value, interpStartT_value, initializeOrbitsT_value]

theorem orbitalPathT_value (flow : ℝ → Ph → Ph) (a : PathArgs) (c : Cluster) :
    (orbitalPathT g flow a c).value = orbitalPath g flow a c := by
  unfold orbitalPathT orbitalPath
  value_simp
  simp (config := {failIfUnchanged := false}) only [initializeOrbitT_value]

theorem orbitalPathSkyT_value (flow : ℝ → Ph → Ph) (a : PathArgs) (c : Cluster) :
    (orbitalPathSkyT g flow a c).value = orbitalPathSky g flow a c := by
  unfold orbitalPathSkyT orbitalPathSky
  value_simp
  simp (config := {failIfUnchanged := false}) only [initializeOrbitT_value]

theorem matchPathT_value (flow : ℝ → Ph → Ph) (a : MatchArgs) (c : Cluster) :
    (matchPathT g flow a c).value = matchPath g flow a c := by
  unfold matchPathT matchPath
  value_simp
  simp (config := {failIfUnchanged := false}) only [orbitalPathT_value]

theorem orbitalPathMatchT_value (flow : ℝ → Ph → Ph) (a : MatchArgs) (c : Cluster) :
    (orbitalPathMatchT g flow a c).value = orbitalPathMatch g flow a c := by
  unfold orbitalPathMatchT orbitalPathMatch
  value_simp
  simp (config := {failIfUnchanged := false}) only [retT_value, matchPathT_value]

theorem toTailT_value (rotTo : ℝ × ℝ × ℝ → Mat3) (c : Cluster) :
    (toTailT g rotTo c).value = toTail g rotTo c := by
  unfold toTailT toTail
  value_simp
  simp (config := {failIfUnchanged := false}) only [retT_value]

theorem tailPathT_value (flow : ℝ → Ph → Ph) (a : TailArgs) (c : Cluster) :
    (tailPathT g flow a c).value = tailPath g flow a c := by
  unfold tailPathT tailPath
  value_simp
  simp (config := {failIfUnchanged := false}) only [retT_value, orbitalPathT_value, orbitalPathMatchT_value]

theorem tailPathMatchT_value (flow : ℝ → Ph → Ph) (a : TailArgs) (path : Option (List PathPt)) (c : Cluster) :
    (tailPathMatchT g flow a path c).value = tailPathMatch g flow a path c := by
  unfold tailPathMatchT tailPathMatch
  value_simp
  simp (config := {failIfUnchanged := false}) only [orbitalPathMatchT_value, tailPathT_value]

theorem findCentreT_value (a : CentreArgs) (meth : DensityMethod) (fuel : ℕ) (mask : Option (List Bool)) (ids : List ℤ) (c : Cluster) :
    (findCentreT g a meth fuel mask ids c).value = findCentre g a meth fuel mask ids c := by
  unfold findCentreT findCentre
  value_simp
  simp (config := {failIfUnchanged := false}) only [retT_value]

theorem gyroutT_value (vk : ℝ) (eps : Option Eps) (epsunits : Option Units) (c : Cluster) :
    (gyroutT g vk eps epsunits c).value = gyrout g vk eps epsunits c := by
  unfold gyroutT gyrout
  value_simp
  simp (config := {failIfUnchanged := false}) only [retT_value]
  value_walk
  generalize (Option.elim eps _ _ : Except Err (List (List ℝ))) = o
  cases o <;> value_simp
  try simp only [retT_value]

theorem alphaProfT_value (a : AlphaArgs) (e : PStars) (indx : Option ℕ) (mem : Mem) (c : Cluster) :
    (alphaProfT g a e indx mem c).value = alphaProf g a e indx mem c := by
  unfold alphaProfT alphaProf
  value_simp
  simp only [retT_value, profStartT_value, alphaBinsT_value]

theorem etaProfT_value (a : EtaProfArgs) (q : Option CurveFit) (e : PStars) (indx : Option ℕ) (mem : Mem) (c : Cluster) :
    (etaProfT g a q e indx mem c).value = etaProf g a q e indx mem c := by
  unfold etaProfT etaProf
  value_simp
  simp only [retT_value, profStartT_value, etaBinsT_value]

end

end CT
