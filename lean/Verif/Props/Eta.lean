/- C91: dispersion of the speeds against mass. -/
import Verif.Props.MassFunction3
import Verif.Props.Profiles2
import Verif.Spec.Eta

namespace CT

noncomputable section

set_option linter.unusedSimpArgs false

/-- The dispersions of the bins. -/
def sigOf (a : EtaArgs) (c : Cluster) (B : Binned) : List ℝ :=
  (List.range a.nmass).map (fun i => npStd (maskSel (B.at i) (c.st.map (speed0 a.sub.projected))))

theorem eta_speeds_eq {c : Cluster} (f : Fresh c) (pr : Bool) : (if pr then c.d.vpro else c.d.v) = c.st.map (speed0 pr) := by
  cases pr
  · simp only [Bool.false_eq_true, if_false]; rw [f.v.eq_map]; rfl
  · simp only [if_true]; rw [f.vpro.eq_map]; rfl

theorem aminE_ok {l : List ℝ} (h : l ≠ []) : ∃ x, aminE l = .ok x := by cases l with
  | nil => exact absurd rfl h
  | cons a l => exact ⟨_, rfl⟩

theorem amaxE_ok {l : List ℝ} (h : l ≠ []) : ∃ x, amaxE l = .ok x := by cases l with
  | nil => exact absurd rfl h
  | cons a l => exact ⟨_, rfl⟩

/-- The run with enough stars: what is left is the fit. -/
theorem eta_run {g : Galpy} {c : Cluster} (p : Pos g c) (l : Lin c) (hg : Good c) (f : Fresh c) {a : EtaArgs} {q : Option CurveFit} {e : PStars}
    {indx : Option ℕ} {mem : Mem} (he : e.Ok a.sub c.st.length) (hm : ∀ q, indx = some q → mem[q]!.length = c.st.length)
    (hn : 2 * a.nmass ≤ numOver c.st.length (MassSelected a.sub e indx mem c)) (h0 : 0 < a.nmass)
    (hd : ∃ i j, i < c.st.length ∧ j < c.st.length ∧ MassSelected a.sub e indx mem c i ∧ MassSelected a.sub e indx mem c j ∧ c.m[i]! ≠ c.m[j]!) :
    ∃ k mem' B P c2 lo hi, MaskOf mem'[k]! c.st.length (MassSelected a.sub e indx mem c) ∧
      profBinned a.mass.prof c.m (some k, mem') = .ok B ∧
      BinnedOk a.mass.prof c.st.length (MassSelected a.sub e indx mem c) (fun i => c.m[i]!) B P ∧ c2.data = c.data ∧ Fresh c2 ∧ Good c2 ∧
      c2.rest = c.rest ∧ aminE c.m = .ok lo ∧ amaxE c.m = .ok hi ∧
      etaFunction g a q e indx mem c =
        if B.mid.length ≠ a.nmass then .error (q.elim .typeError (fun _ => .valueError))
        else (q.elim (polyfitLog B.mid (sigOf a c B)) (fun q => q B.mid (sigOf a c B) lo hi)).bind (fun fit => .ok (⟨B.mid, sigOf a c B, fit⟩, c2, mem')) := by
  obtain ⟨c1, h1, s1, m1, g1, l1, f1, r1, w1, -, -⟩ := strip_amuse p l hg f
  obtain ⟨k, mem', h2, hS⟩ := mass_selected_mask (e := e) (q := a.sub) (indx := indx) (mem := mem) hg he hm
  have hc : BinsCover a.mass.prof c.st.length (MassSelected a.sub e indx mem c) (fun i => c.m[i]!) := by
    obtain ⟨i, j, x1, x2, x3, x4, x5⟩ := hd
    exact .inl ⟨rfl, h0, i, j, x1, x2, x3, x4, x5⟩
  obtain ⟨B, P, h3, hB⟩ := binned_ok hg.len hS hc
  obtain ⟨c2, h4, d2, f2, g2, -, r2⟩ := return_of_world (sort := false) (cm := none) p l hg g1 l1 r1 w1
  have hmne : c.m ≠ [] := by
    intro h
    exact hg.ne (List.length_eq_zero_iff.mp (by rw [← hg.len, h]; rfl))
  obtain ⟨lo, hlo⟩ := aminE_ok hmne
  obtain ⟨hi, hhi⟩ := amaxE_ok hmne
  refine ⟨k, mem', B, P, c2, lo, hi, hS, h3, hB, d2, f2, g2, r2, hlo, hhi, ?_⟩
  have hen : enough (2 * a.nmass) (some k, mem') = true := by
    simp only [enough, Option.elim]
    rw [hS.count]; simpa using hn
  have hsp : (if a.sub.projected then c1.d.vpro else c1.d.v) = c.st.map (speed0 a.sub.projected) := by rw [eta_speeds_eq f1, s1]
  have hfit : etaFit a q c.m (c.st.map (speed0 a.sub.projected)) (some k, mem') =
      if B.mid.length ≠ a.nmass then .error (q.elim .typeError (fun _ => .valueError))
      else (q.elim (polyfitLog B.mid (sigOf a c B)) (fun q => q B.mid (sigOf a c B) lo hi)).bind (fun fit => .ok ⟨B.mid, sigOf a c B, fit⟩) := by
    unfold etaFit
    simp only [h3, bind, Except.bind, pure, Except.pure, hlo, hhi]
    by_cases hlen : B.mid.length ≠ a.nmass
    · rw [if_pos hlen, if_pos hlen]; rfl
    · rw [if_neg hlen, if_neg hlen]; rfl
  have hv : viewOf c1 e = rowsView c.st c.m e := by rw [fresh_view f1, s1, m1]
  have rest : ∀ c1', c1' = c1 → ((getSubset a.sub (viewOf c1' e) indx mem).bind fun sel =>
      if enough (2 * a.nmass) sel = true then (etaFit a q c1'.m (if a.sub.projected then c1'.d.vpro else c1'.d.v) sel).bind fun out =>
        (returnCluster g (saveCluster c) false none c1').bind fun c2 => pure (out, c2, sel.2)
      else (Except.ok a.tooFew).bind fun out =>
        (returnCluster g (saveCluster c) false none c1').bind fun c2 => pure (out, c2, sel.2)) =
      if B.mid.length ≠ a.nmass then .error (q.elim .typeError (fun _ => .valueError))
      else (q.elim (polyfitLog B.mid (sigOf a c B)) (fun q => q B.mid (sigOf a c B) lo hi)).bind (fun fit => .ok (⟨B.mid, sigOf a c B, fit⟩, c2, mem')) := by
    rintro c1' rfl
    rw [hv, h2, hsp]
    simp only [Except.bind, hen, if_true, m1, hfit, h4, pure, Except.pure]
    by_cases hlen : B.mid.length ≠ a.nmass
    · rw [if_pos hlen, if_pos hlen]
    · rw [if_neg hlen, if_neg hlen]
      cases q.elim (polyfitLog B.mid (sigOf a c B)) (fun q => q B.mid (sigOf a c B) lo hi) <;> rfl
  unfold etaFunction
  simp only [bind]
  split at h1
  · rename_i hu
    rw [if_pos hu, h1]
    exact rest c1 rfl
  · rename_i hu
    rw [if_neg hu]
    injection h1 with h1
    exact rest c h1

theorem eta_spec {c : Cluster} {a : EtaArgs} {e : PStars} {indx : Option ℕ} {mem : Mem} {B : Binned} {P : List (ℝ × ℝ)}
    (hB : BinnedOk a.mass.prof c.st.length (MassSelected a.sub e indx mem c) (fun i => c.m[i]!) B P) (hl : B.mid.length = a.nmass)
    (fit : LineFit) : IsEtaFunction a e indx mem c P ⟨B.mid, sigOf a c B, fit⟩ := by
  obtain ⟨lo, hi, q1, q2, q3⟩ := hB.contig
  have hPl : P.length = a.nmass := by rw [← hB.lenm, hl]
  refine ⟨⟨lo, hi, q1, q2, (q3 rfl).1, (q3 rfl).2⟩, hPl, hB.ranks rfl rfl, ⟨hl, by simp [sigOf]⟩, ?_, ?_⟩
  · intro k hk
    obtain ⟨y1, y2⟩ := hB.midNum rfl rfl k (by omega)
    refine ⟨y1, ?_⟩
    have : (0 : ℝ) < numOver c.st.length (InMassBin a.sub e indx mem c P k) := by exact_mod_cast y1
    unfold meanOver
    rw [eq_div_iff this.ne']
    exact y2
  · intro k hk
    show (sigOf a c B)[k]! = _
    unfold sigOf
    rw [map_get! _ _ (by omega), std_mask (hB.atBin k (by omega)) (by simp)]
    refine stdOver_congr fun i hi => ?_
    rw [getElem!_pos _ i (by simpa using hi), getElem!_pos c.st i hi, List.getElem_map]

/-- **C91.**  Whatever `eta_function` returns for at least `2·nmass` selected stars of different masses: bins with equal numbers of stars,
the mean mass and the dispersion of the speeds in each, the least-squares line through their logarithms.  The cluster is left as it was. -/
theorem C91_eta_function {g : Galpy} {c : Cluster} (p : Pos g c) (l : Lin c) (hg : Good c) (f : Fresh c) {a : EtaArgs} {e : PStars}
    {indx : Option ℕ} {mem : Mem} (he : e.Ok a.sub c.st.length) (hm : ∀ q, indx = some q → mem[q]!.length = c.st.length)
    (hn : 2 * a.nmass ≤ numOver c.st.length (MassSelected a.sub e indx mem c)) (h0 : 0 < a.nmass)
    (hd : ∃ i j, i < c.st.length ∧ j < c.st.length ∧ MassSelected a.sub e indx mem c i ∧ MassSelected a.sub e indx mem c j ∧ c.m[i]! ≠ c.m[j]!)
    {o : EtaOut} {c2 : Cluster} {mem' : Mem} (h : etaFunction g a none e indx mem c = .ok (o, c2, mem')) :
    ∃ P, IsEtaFunction a e indx mem c P o ∧ IsLineFit (logPoints o.mean o.sig) o.fit ∧ c2.data = c.data ∧ Fresh c2 := by
  obtain ⟨k, mem'', B, P, c3, lo, hi, hS, h3, hB, d2, f2, g2, -, -, -, hrun⟩ := eta_run (q := none) p l hg f he hm hn h0 hd
  rw [hrun] at h
  split at h
  · cases h
  · rename_i hl
    obtain ⟨fit, hfit, h⟩ := bind_ok h
    injection h with h
    cases h
    exact ⟨P, eta_spec hB (not_not.mp hl) fit, (polyfitLog_fit hfit).2.1, d2, f2⟩

/-- The equal-number bins of stars of different masses are complete. -/
theorem eta_all_bins {c : Cluster} (hg : Good c) {a : EtaArgs} {S : ℕ → Prop} {k : ℕ} {mem' : Mem} (hS : MaskOf mem'[k]! c.st.length S)
    (h3 : 0 < a.nmass) (hn : 2 * a.nmass ≤ numOver c.st.length S)
    (hd : ∀ i j, i < c.st.length → j < c.st.length → S i → S j → c.m[i]! = c.m[j]! → i = j) {B : Binned} {P : List (ℝ × ℝ)}
    (hb : profBinned a.mass.prof c.m (some k, mem') = .ok B) (hB : BinnedOk a.mass.prof c.st.length S (fun i => c.m[i]!) B P) :
    P.length = a.nmass ∧ ∀ j < a.nmass, |(numOver c.st.length (fun i => S i ∧ InBin P j c.m[i]!) : ℝ) - (numOver c.st.length S : ℝ) / a.nmass| < 1 := by
  classical
  have hd2 : ∃ i j, i < c.st.length ∧ j < c.st.length ∧ S i ∧ S j ∧ c.m[i]! ≠ c.m[j]! := by
    have h1 : 1 < numOver c.st.length S := by omega
    unfold numOver at h1
    obtain ⟨i, hi, j, hj, hij⟩ := Finset.one_lt_card.mp h1
    simp only [Finset.mem_filter, Finset.mem_range] at hi hj
    exact ⟨i, j, hi.1, hj.1, hi.2, hj.2, fun h => hij (hd i j hi.1 hj.1 hi.2 hj.2 h)⟩
  have hnd := maskSel_nodup hS hg.len hd
  have hlen := hS.length hg.len
  obtain ⟨T, hT, t1, t2⟩ := C47_equal_numbers (maskSel mem'[k]! c.m) a.nmass (by omega) hnd (by rw [hlen]; exact hn)
  have hne : ∃ u ∈ maskSel mem'[k]! c.m, ∃ v ∈ maskSel mem'[k]! c.m, u ≠ v := by
    obtain ⟨i, j, x1, x2, x3, x4, x5⟩ := hd2
    exact ⟨_, (hS.mem hg.len).mpr ⟨i, x1, x3, rfl⟩, _, (hS.mem hg.len).mpr ⟨j, x2, x4, rfl⟩, x5⟩
  obtain ⟨T', -, -, hT', -, -, -, -, t6, -⟩ := C25_equal_number_bins _ a.nmass (by omega) hne
  rw [hT] at hT'; cases hT'
  have hTl : T.lower.length = a.nmass := by rw [← t1, t6]; simp
  have hBl : B.lower = T.lower ∧ B.upper = T.upper := by
    simp only [profBinned, profBins, MassArgs.prof, EtaArgs.mass, hT, bind, Except.bind, pure, Except.pure, Bool.false_eq_true, if_false] at hb
    injection hb with hb
    rw [← hb]; exact ⟨rfl, rfl⟩
  have hPl : P.length = a.nmass := by rw [← hB.lenl, hBl.1, hTl]
  refine ⟨hPl, fun j hj => ?_⟩
  have := t2 j hj
  rw [hlen] at this
  convert this using 3
  have hz : P = List.zip T.lower T.upper := by rw [hB.zip, hBl.1, hBl.2]
  rw [t6, List.getD_eq_getElem?_getD, List.getElem?_map, List.getElem?_range (by omega)]
  simp only [Option.map_some, Option.getD_some]
  have e1 := hS.filter_sum hg.len (InBin (List.zip T.lower T.upper) j) (fun _ => (1 : ℝ))
  rw [map_one_sum] at e1
  unfold inBin
  rw [numOver_eq, ← hz]
  rw [← hz] at e1
  exact e1.symm

end

end CT
