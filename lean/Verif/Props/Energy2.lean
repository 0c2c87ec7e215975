/-
Property theorems C33 (whole call) and C34 (`virialize`).
-/
import Verif.Props.Energy
import Verif.Props.ResetScale
import Verif.Lemmas.Frame
import Verif.Lemmas.Mask

namespace CT

noncomputable section

set_option linter.unusedSimpArgs false

/-! ### helpers -/

theorem areNorms_get {q : Ph → ℝ} {st : List Ph} {r : List ℝ} (h : AreNorms q st r) :
    r.length = st.length ∧ ∀ (i : ℕ) (hi : i < st.length), ∃ v, r[i]? = some v ∧ v ^ 2 = q st[i] := by
  induction h with
  | nil => exact ⟨rfl, fun i hi => absurd hi (by simp)⟩
  | cons hab _ ih =>
    refine ⟨by simp [ih.1], fun i hi => ?_⟩
    cases i with
    | zero => exact ⟨_, rfl, hab.2⟩
    | succ i => simpa using ih.2 i (by simpa using hi)

theorem kinetic_get {specific projected : Bool} {c : Cluster} (f : Fresh c) (hl : c.m.length = c.st.length) (i : ℕ)
    (hi : i < c.st.length) :
    (kinetic specific projected c)[i]? =
      some (((if specific then (1 : ℝ) else c.m[i]!) * (speedSq projected c.st[i]! / 2) : ℝ) : NanR) := by
  obtain ⟨v, hv, hq⟩ : ∃ v, (if projected then c.d.vpro else c.d.v)[i]? = some v ∧ v ^ 2 = speedSq projected c.st[i] := by
    cases projected
    · obtain ⟨v, h1, h2⟩ := (areNorms_get f.v).2 i hi
      exact ⟨v, h1, by rw [h2]; simp [speedSq]⟩
    · obtain ⟨v, h1, h2⟩ := (areNorms_get f.vpro).2 i hi
      exact ⟨v, h1, by rw [h2]; simp [speedSq]⟩
  rw [getElem!_pos c.st i hi, getElem!_pos c.m i (by omega)]
  unfold kinetic
  cases specific
  · simp only [Bool.false_eq_true, if_false, List.getElem?_zipWith, hv, List.getElem?_eq_getElem (show i < c.m.length by omega)]
    congr 2; rw [← hq]; ring
  · simp only [if_true, List.getElem?_map, hv, Option.map_some]
    congr 2; rw [← hq]; ring

theorem kinetic_length {specific projected : Bool} {c : Cluster} (f : Fresh c) (hl : c.m.length = c.st.length) :
    (kinetic specific projected c).length = c.st.length := by
  have h1 := (areNorms_get f.v).1
  have h2 := (areNorms_get f.vpro).1
  unfold kinetic
  cases specific <;> cases projected <;> simp [h1, h2, hl]

theorem potential_length {specific full projected : Bool} {soft : ℝ} {c : Cluster} (hl : c.m.length = c.st.length) :
    (potential specific full projected soft c).length = c.st.length := by
  unfold potential potentialLoop
  cases specific <;> cases full <;> simp [potentialFull_length, rows4_length _ _ _ hl, hl]

theorem inner_length (c : Cluster) : (inner c).length = c.st.length := by unfold inner; split <;> simp

theorem inner_sep (projected : Bool) (c : Cluster) (i j : ℕ) (hi : i < c.st.length) (hj : j < c.st.length) :
    rowDist projected (inner c)[i]! (inner c)[j]! = rowDist projected c.st[i]! c.st[j]! := by
  unfold inner
  split
  · rw [get!_map _ _ _ hi, get!_map _ _ _ hj]
    simp [rowDist]
  · rfl

theorem inner_distinct {projected : Bool} {c : Cluster} (h : Distinct projected c.st) : Distinct projected (inner c) := by
  intro i j hi hj hne
  rw [inner_length] at hi hj
  rw [inner_sep projected c i j hi hj]
  exact h i j hi hj hne

theorem inner_gravPot {projected : Bool} {G soft : ℝ} {c : Cluster} {i : ℕ} (hi : i < c.st.length) :
    gravPot projected G soft c.m (inner c) i = gravPot projected G soft c.m c.st i := by
  unfold gravPot
  rw [inner_length]
  congr 1
  refine Finset.sum_congr rfl fun j hj => ?_
  simp only [Finset.mem_erase, Finset.mem_range] at hj
  unfold softSep
  rw [inner_sep projected c i j hi hj.2]

/-- The prologue, the energies and the return, put together. -/
theorem energies_run {g : Galpy} {specific full projected : Bool} {soft : ℝ} {c : Cluster} (p : Pos g c) (l : Lin c)
    (hg : Good c) (f : Fresh c) :
    ∃ c2 c', Framed g c c2 ∧
      energies g specific full projected soft c =
        .ok (kinetic specific projected c2, potential specific full projected soft c2, c') ∧
      c'.data = c.data ∧ Fresh c' ∧ Good c' ∧ c'.rest = c.rest := by
  obtain ⟨c1, c2, h1, h2, fr⟩ := prologue p l hg f
  obtain ⟨c3, h3, hd, f3, g3, -, hr⟩ :=
    return_of_world (sort := false) (cm := none) p l hg fr.good fr.lin fr.rest fr.world
  refine ⟨c2, c3, fr, ?_, hd, f3, g3, hr⟩
  unfold energies
  simp only [bind]
  refine ite_bind_of h1 (ite_bind_of h2 ?_)
  rw [h3]; rfl

theorem Lin.of_data {c c' : Cluster} (h : c'.data = c.data) (l : Lin c) : Lin c' := by
  have h1 : c'.units = c.units := congrArg Data.units h
  have h2 : c'.origin = c.origin := congrArg Data.origin h
  exact ⟨by rw [h1]; exact l.units, by rw [h2]; exact l.origin⟩

/-- C33 (whole call): from any linear units and origin `energies` returns, restores the caller's cluster, and reports
for star `i` the kinetic energy `m_i |v_i|²/2` in the cluster frame and the potential energy `m_i Φ_i` (both per unit
mass when `specific`); for the `full=False` loop only without softening. -/
theorem C33_energies (g : Galpy) (specific full projected : Bool) (soft : ℝ) (c : Cluster) (p : Pos g c) (l : Lin c)
    (hg : Good c) (f : Fresh c) (hd : Distinct projected c.st) (hm : specific = true → ∀ x ∈ c.m, x ≠ 0)
    (hs : full = true ∨ soft = 0) :
    ∃ kin pot c', energies g specific full projected soft c = .ok (kin, pot, c') ∧ c'.data = c.data ∧ Fresh c' ∧
      kin = (List.range c.st.length).map (fun (i : ℕ) =>
        (((if specific then (1 : ℝ) else c.m[i]!) * (speedSq projected (inner c)[i]! / 2) : ℝ) : NanR)) ∧
      pot = (List.range c.st.length).map (fun (i : ℕ) =>
        (((if specific then (1 : ℝ) else c.m[i]!) * gravPot projected (getGrav c.units) soft c.m c.st i : ℝ) : NanR)) := by
  obtain ⟨c2, c', fr, h, hdat, f', -, -⟩ := energies_run (specific := specific) (full := full) (projected := projected)
    (soft := soft) p l hg f
  have hlen : c2.st.length = c.st.length := by rw [fr.st, inner_length]
  have hl2 : c2.m.length = c2.st.length := fr.good.len
  have hd2 : Distinct projected c2.st := by rw [fr.st]; exact inner_distinct hd
  refine ⟨_, _, c', h, hdat, f', ?_, ?_⟩
  · refine List.ext_getElem? fun i => ?_
    rw [List.getElem?_map]
    by_cases hi : i < c.st.length
    · rw [kinetic_get fr.fresh hl2 i (by omega), List.getElem?_range hi, fr.m, fr.st]; rfl
    · rw [List.getElem?_eq_none (by rw [kinetic_length fr.fresh hl2]; omega),
        List.getElem?_eq_none (by simpa using hi)]; rfl
  · refine List.ext_getElem? fun i => ?_
    rw [List.getElem?_map]
    by_cases hi : i < c.st.length
    · have hi2 : i < c2.st.length := by omega
      have key : (potential specific full projected soft c2)[i]? =
          some (((if specific then 1 else c2.m[i]!) * gravPot projected (getGrav c2.units) soft c2.m c2.st i : ℝ) : NanR) := by
        cases full with
        | true =>
          refine C33_full specific projected soft c2 hl2 hd2 i hi2 (fun h => ?_)
          rw [getElem!_pos c2.m i (by omega)]
          have : c2.m[i]'(by omega) ∈ c.m := by rw [← fr.m]; exact List.getElem_mem _
          exact hm h _ this
        | false =>
          have h0 : soft = 0 := by simpa using hs
          subst h0
          exact C33_loop specific projected c2 hl2 hd2 i hi2
      rw [key, List.getElem?_range hi, Option.map_some, fr.m, fr.st, fr.grav, inner_gravPot hi]
    · rw [List.getElem?_eq_none (by rw [potential_length hl2]; omega),
        List.getElem?_eq_none (by simpa using hi)]; rfl

/-- C33 (subset of stars): with a boolean mask `energies` returns, restores the caller's cluster and reports, for the
selected stars in order, the kinetic energy and the potential energy due to *all* other stars.  `projected` has no
effect: the reported energies are the three-dimensional ones. -/
theorem C33_energies_ids (g : Galpy) (specific projected : Bool) (soft : ℝ) (mask : List Bool) (c : Cluster)
    (p : Pos g c) (l : Lin c) (hg : Good c) (f : Fresh c) (hd : Distinct false c.st)
    (hm : specific = true → ∀ x ∈ c.m, x ≠ 0) (hmask : mask.length = c.st.length) :
    ∃ kin pot c', energiesIds g specific projected mask soft c = .ok (kin, pot, c') ∧ c'.data = c.data ∧ Fresh c' ∧
      kin = ((List.range c.st.length).filter (fun i => mask[i]!)).map (fun (i : ℕ) =>
        (((if specific then (1 : ℝ) else c.m[i]!) * (speedSq false (inner c)[i]! / 2) : ℝ) : NanR)) ∧
      pot = ((List.range c.st.length).filter (fun i => mask[i]!)).map (fun (i : ℕ) =>
        (((if specific then (1 : ℝ) else c.m[i]!) * gravPot false (getGrav c.units) soft c.m c.st i : ℝ) : NanR)) := by
  obtain ⟨c1, c2, h1, h2, fr⟩ := prologue p l hg f
  obtain ⟨c3, h3, hdat, f3, -⟩ :=
    return_of_world (sort := false) (cm := none) p l hg fr.good fr.lin fr.rest fr.world
  have hlen : c2.st.length = c.st.length := by rw [fr.st, inner_length]
  have hl2 : c2.m.length = c2.st.length := fr.good.len
  have hd2 : Distinct false c2.st := by rw [fr.st]; exact inner_distinct hd
  have hrl := rows4_length false c2.m c2.st hl2
  generalize hsel : (List.range c.st.length).filter (fun i => mask[i]!) = sel
  have hlt : ∀ i ∈ sel, i < c2.st.length := by
    intro i hi; rw [← hsel] at hi; have := (List.mem_filter.mp hi).1; rw [hlen]; exact List.mem_range.mp this
  have s1 : maskSel mask c2.m = sel.map (fun i => c2.m[i]!) := by
    rw [maskSel_eq mask c2.m (by omega), hl2, hlen, hsel]
  have s2 : maskSel mask c2.d.v = sel.map (fun i => c2.d.v[i]!) := by
    have := (areNorms_get fr.fresh.v).1
    rw [maskSel_eq mask c2.d.v (by omega), this, hlen, hsel]
  have s3 : maskSel mask (rows4 false c2.m c2.st) = sel.map (fun i => (rows4 false c2.m c2.st)[i]!) := by
    rw [maskSel_eq mask _ (by omega), hrl, hlen, hsel]
  refine ⟨kineticIds specific mask c2, potentialIds specific mask soft c2, c3, ?_, hdat, f3, ?_, ?_⟩
  · unfold energiesIds
    simp only [bind]
    refine ite_bind_of h1 (ite_bind_of h2 ?_)
    rw [h3]; rfl
  · unfold kineticIds
    rw [s1, s2]
    refine List.ext_getElem? fun k => ?_
    rw [List.getElem?_map]
    by_cases hk : k < sel.length
    · have hki := hlt _ (List.getElem_mem hk)
      obtain ⟨v, hv, hq⟩ := (areNorms_get fr.fresh.v).2 sel[k] hki
      have hv' : c2.d.v[sel[k]]! = v := by simp [List.getElem!_eq_getElem?_getD, hv]
      have hsq : v ^ 2 = speedSq false c2.st[sel[k]]! := by
        rw [hq, getElem!_pos c2.st _ hki]; simp [speedSq]
      rw [List.getElem?_eq_getElem hk, Option.map_some]
      cases specific
      · simp only [Bool.false_eq_true, if_false, List.getElem?_zipWith, List.getElem?_map, List.getElem?_eq_getElem hk,
          Option.map_some, hv', hsq, fr.m, fr.st]
        congr 2; ring
      · have hmk : c2.m[sel[k]]! ≠ 0 := by
          rw [getElem!_pos c2.m _ (by omega)]
          have : c2.m[sel[k]]'(by omega) ∈ c.m := by rw [← fr.m]; exact List.getElem_mem _
          exact hm rfl _ this
        simp only [if_true, List.getElem?_zipWith, List.getElem?_map, List.getElem?_eq_getElem hk,
          Option.map_some, hv']
        show some ((_ : ℝ) : NanR) = _
        congr 2
        rw [← fr.st, ← hsq]
        field_simp
        norm_num; ring
    · rw [List.getElem?_eq_none (by cases specific <;> simp <;> omega), List.getElem?_eq_none (by omega)]; rfl
  · unfold potentialIds
    simp only
    rw [s1, s3]
    refine List.ext_getElem? fun k => ?_
    rw [List.getElem?_map]
    by_cases hk : k < sel.length
    · have hki := hlt _ (List.getElem_mem hk)
      have e := C33_subset soft c2.m c2.st hl2 hd2 sel hlt k hk
      have hG : gravPot false (getGrav c.units) soft c.m c.st sel[k] =
          getGrav c2.units * gravPot false 1 soft c2.m c2.st sel[k] := by
        rw [fr.m, fr.st, fr.grav, inner_gravPot (by omega)]
        unfold gravPot; ring
      rw [List.getElem?_eq_getElem hk, Option.map_some, hG, ← fr.m]
      cases specific
      · simp only [Bool.false_eq_true, if_false, List.getElem?_map, e, Option.map_some]
        congr 1
        show ((_ : ℝ) : NanR) = _
        congr 1; ring
      · have hmk : c2.m[sel[k]]! ≠ 0 := by
          rw [getElem!_pos c2.m _ (by omega)]
          have : c2.m[sel[k]]'(by omega) ∈ c.m := by rw [← fr.m]; exact List.getElem_mem _
          exact hm rfl _ this
        simp only [if_true, List.getElem?_zipWith, List.getElem?_map, e, List.getElem?_eq_getElem hk, Option.map_some]
        show some ((_ : ℝ) : NanR) = _
        congr 2
        field_simp
    · have hpl : (potentialSubset soft (sel.map (fun i => (rows4 false c2.m c2.st)[i]!)) (rows4 false c2.m c2.st)).length
          = sel.length := by simp [potentialSubset_length]
      rw [List.getElem?_eq_none (by cases specific <;> simp only [Bool.false_eq_true, if_false, if_true, List.length_zipWith,
        List.length_map, hpl] <;> omega), List.getElem?_eq_none (by omega)]; rfl

/-! ### C34 -/

/-- Ratio of the kinetic to the potential energy of a cluster in its own frame, all stars weighted as equal masses
(what `qvir` is with `specific=True`). -/
def specificRatio (projected : Bool) (G soft : ℝ) (m : List ℝ) (st : List Ph) : ℝ :=
  (∑ i ∈ Finset.range st.length, speedSq projected st[i]! / 2) /
    ((∑ i ∈ Finset.range st.length, gravPot projected G soft m st i) / 2)

/-- What the energies method stores. -/
theorem energiesMethod_run {g : Galpy} {projected : Bool} {soft : ℝ} {e : ECluster} (p : Pos g e.c) (l : Lin e.c)
    (hg : Good e.c) (f : Fresh e.c) (hd : Distinct projected e.c.st) (hm : ∀ x ∈ e.c.m, x ≠ 0) :
    ∃ e', energiesMethod g true true projected soft e = .ok e' ∧ e'.c.data = e.c.data ∧ Fresh e'.c ∧ Good e'.c ∧
      e'.c.rest = e.c.rest ∧
      e'.qvir = some (specificRatio projected (getGrav e.c.units) soft e.c.m (inner e.c)) := by
  obtain ⟨c1, c2, h1, h2, fr⟩ := prologue p l hg f
  have hlen : c2.st.length = e.c.st.length := by rw [fr.st, inner_length]
  have hd2 : Distinct projected c2.st := by rw [fr.st]; exact inner_distinct hd
  have hinn : inner c2 = c2.st := by
    unfold inner
    rw [if_neg]
    rw [fr.origin]
    split
    · simp
    · assumption
  obtain ⟨kin, pot, c3, h3, hd3, f3, hk, hp⟩ := C33_energies g true true projected soft c2 (p.of_rest fr.rest) fr.lin
    fr.good fr.fresh hd2 (fun _ x hx => hm x (by rw [← fr.m]; exact hx)) (.inl rfl)
  obtain ⟨c2', c3', fr', h3', hdd', hff', g3, r3⟩ := energies_run (specific := true) (full := true) (projected := projected)
    (soft := soft) (p.of_rest fr.rest) fr.lin fr.good fr.fresh
  rw [h3] at h3'
  simp only [Except.ok.injEq, Prod.mk.injEq] at h3'
  obtain ⟨-, -, rfl⟩ := h3'
  obtain ⟨c4, h4, hd4, f4, g4, -, r4⟩ := return_of_world (c := e.c) (c1 := c3) (sort := false) (cm := none) p l hg g3
    (fr.lin.of_data hd3) (r3.trans fr.rest) ((world_of_data hd3 r3).trans fr.world)
  refine ⟨addEnergies kin pot { e with c := c4 }, ?_, hd4, f4, g4, r4, ?_⟩
  · unfold energiesMethod
    simp only [bind]
    refine ite_bind_of h1 (ite_bind_of h2 ?_)
    rw [h3]
    simp only [Except.bind]
    rw [h4]; rfl
  · have e1 : (kin.map NanR.toNum).sum = ∑ i ∈ Finset.range c2.st.length, speedSq projected c2.st[i]! / 2 := by
      rw [hk, List.map_map, sum_list_range]
      refine Finset.sum_congr rfl fun i _ => ?_
      rw [hinn]
      show (if true = true then (1 : ℝ) else _) * _ = _
      simp
    have e2 : (pot.map NanR.toNum).sum = ∑ i ∈ Finset.range c2.st.length,
        gravPot projected (getGrav c2.units) soft c2.m c2.st i := by
      rw [hp, List.map_map, sum_list_range]
      refine Finset.sum_congr rfl fun i _ => ?_
      show (if true = true then (1 : ℝ) else _) * _ = _
      simp
    show some _ = some _
    rw [e1, e2]
    unfold specificRatio
    rw [fr.st, fr.m, fr.grav]

/-- The frame `virialize` works in. -/
structure VFrame (g : Galpy) (c c1 : Cluster) : Prop where
  good : Good c1
  fresh : Fresh c1
  lin : Lin c1
  world : world g c1 = world g c
  rest : c1.rest = c.rest
  m : c1.m = c.m
  units : c1.units = c.units
  origin : c1.origin = if c.origin = some .galaxy then some .centre else c.origin

theorem vframe {g : Galpy} {sort : Bool} {c : Cluster} (l : Lin c) (hg : Good c) (f : Fresh c) :
    ∃ c1, (if c.origin ≠ some .cluster ∧ c.origin ≠ some .centre then toCentre sort none c else .ok c) = .ok c1 ∧
      VFrame g c c1 := by
  obtain ⟨⟨u, hu, hul⟩, ⟨o, ho, hol⟩⟩ := l
  have hur : c.units ≠ some .radec := by rw [hu]; rintro h; cases h; exact hul
  by_cases hgal : o = .galaxy
  · subst hgal
    obtain ⟨c1, h1, g1⟩ := toCentre_total (s := sort) (cm := none) hur hg
    have os := toCentre_ostep ho hol hur h1
    exact ⟨c1, by rw [if_pos (by rw [ho]; simp)]; exact h1, g1, toCentre_fresh f h1,
      ⟨⟨u, os.units.trans hu, hul⟩, ⟨_, os.origin, trivial⟩⟩, os.world (by rw [ho]; simp), os.rest, os.m, os.units,
      by rw [os.origin, ho, if_pos rfl]⟩
  · refine ⟨c, ?_, hg, f, ⟨⟨u, hu, hul⟩, ⟨o, ho, hol⟩⟩, rfl, rfl, rfl, rfl, ?_⟩
    · rw [if_neg]
      cases o <;> simp [Origin.linear] at hol hgal <;> simp [ho]
    · rw [if_neg (by rw [ho]; simpa using hgal)]

theorem VFrame.inner {g : Galpy} {c c1 : Cluster} (v : VFrame g c c1) : inner c1 = c1.st := by
  unfold CT.inner
  rw [if_neg]
  rw [v.origin]
  split
  · simp
  · assumption

theorem VFrame.data {g : Galpy} {c c' c1 c1' : Cluster} (p : Pos g c) (v : VFrame g c c1) (v' : VFrame g c' c1')
    (hd : c'.data = c.data) (hr : c'.rest = c.rest) : c1'.data = c1.data := by
  obtain ⟨⟨u, hu, hul⟩, ⟨o, ho, hol⟩⟩ := v.lin
  have h1 : c'.units = c.units := congrArg Data.units hd
  have h2 : c'.origin = c.origin := congrArg Data.origin hd
  refine data_of_world (p.of_rest v.rest).nz (v'.rest.trans (hr.trans v.rest.symm)) hu ?_ hul ho ?_ hol
    (v'.world.trans ((world_of_data hd hr).trans v.world.symm))
  · rw [v'.units, h1, ← v.units, hu]
  · rw [v'.origin, h2, ← v.origin, ho]

theorem VFrame.distinct {g : Galpy} {projected : Bool} {c c1 : Cluster} (p : Pos g c) (l : Lin c) (v : VFrame g c c1)
    (h : Distinct projected c.st) : c1.st.length = c.st.length ∧ Distinct projected c1.st := by
  obtain ⟨⟨u, hu, hul⟩, ⟨o, ho, hol⟩⟩ := l
  obtain ⟨⟨u1, hu1, hul1⟩, ⟨o1, ho1, hol1⟩⟩ := v.lin
  have huu : u1 = u := by have := v.units; rw [hu, hu1] at this; injection this
  subst huu
  obtain ⟨s, hs⟩ := unitScale_linear (g := g) (c := c) hul
  have hs1 : unitScale g c1 u1 = some s := by
    obtain ⟨e1, e2, e3, e4⟩ := rest_scales v.rest
    rw [← hs]; unfold unitScale; rw [e1, e2, e3, e4]
  obtain ⟨-, hl, hp⟩ := world_pairs hu hu1 ho ho1 hol hol1 hs hs1 v.world
  refine ⟨hl, fun i j hi hj hne h0 => ?_⟩
  have := hp projected i j (by omega) (by omega)
  have n1 := (unitScale_nz p.nz hs).1
  have scale : ∀ p q : Ph, rowDist projected (s.ph p) (s.ph q) = |s.len| * rowDist projected p q := by
    intro p q
    unfold rowDist Scale.ph
    rw [← Real.sqrt_sq_eq_abs, ← Real.sqrt_mul (by positivity)]
    congr 1
    cases projected <;> simp <;> ring
  rw [scale, scale, h0, mul_zero] at this
  rcases mul_eq_zero.mp this.symm with h3 | h3
  · exact n1 (by simpa using h3)
  · exact h i j (by omega) (by omega) hne h3

/-- The whole of `virialize`: in its frame the velocities are multiplied by the factor, and the stored ratio is what
it was, or the one just computed. -/
theorem virialize_run {g : Galpy} {q : ℝ} {projected : Bool} {soft : ℝ} {e : ECluster} (p : Pos g e.c) (l : Lin e.c)
    (hg : Good e.c) (f : Fresh e.c) (hd : Distinct projected e.c.st) (hm : ∀ x ∈ e.c.m, x ≠ 0) :
    ∃ c1 S e' ρ, VFrame g e.c c1 ∧ virialize g q projected soft e = .ok e' ∧
      ρ = e.qvir.getD (specificRatio projected (getGrav e.c.units) soft e.c.m c1.st) ∧
      S = { c1 with st := c1.st.map (fun p => p.mulVel (Real.sqrt |q / ρ|)) } ∧
      e'.qvir = some ρ ∧ Fresh e'.c ∧ Good e'.c ∧ Lin e'.c ∧ e'.c.rest = e.c.rest ∧ e'.c.units = e.c.units ∧
      e'.c.origin = e.c.origin ∧ world g e'.c = world g S := by
  obtain ⟨c1, h1, v⟩ := vframe (g := g) (sort := true) l hg f
  have p1 := p.of_rest v.rest
  obtain ⟨-, hd1⟩ := v.distinct p l hd
  -- the ratio
  obtain ⟨e2, h2, d2, f2, g2, r2, q2⟩ : ∃ e2, ensureQvir g projected soft { e with c := c1 } = .ok e2 ∧
      e2.c.data = c1.data ∧ Fresh e2.c ∧ Good e2.c ∧ e2.c.rest = c1.rest ∧
      e2.qvir = some (e.qvir.getD (specificRatio projected (getGrav e.c.units) soft e.c.m c1.st)) := by
    unfold ensureQvir
    cases hq : e.qvir with
    | some ρ => exact ⟨{ e with c := c1 }, by simp [hq], rfl, v.fresh, v.good, rfl, by simp [hq]⟩
    | none =>
      obtain ⟨e2, h2, d2, f2, g2, r2, q2⟩ := energiesMethod_run (projected := projected) (soft := soft)
        (e := { e with c := c1 }) p1 v.lin v.good v.fresh hd1 (by show ∀ x ∈ c1.m, x ≠ 0; rw [v.m]; exact hm)
      refine ⟨e2, by simpa [hq] using h2, d2, f2, g2, r2, ?_⟩
      rw [q2]
      show some (specificRatio projected (getGrav c1.units) soft c1.m (inner c1)) = _
      rw [v.inner, v.m, v.units]; rfl
  generalize hρ : e.qvir.getD (specificRatio projected (getGrav e.c.units) soft e.c.m c1.st) = ρ at *
  obtain ⟨c3, h3, d3, f3, g3, -, r3⟩ := return_of_world (c := e.c) (c1 := e2.c) (sort := false) (cm := none) p l hg g2
    (v.lin.of_data d2) (r2.trans v.rest) ((world_of_data d2 r2).trans v.world)
  have hF : virializeFactor g q projected soft e = .ok (Real.sqrt |q / ρ|, { e2 with c := c3 }) := by
    unfold virializeFactor
    simp only [bind]
    refine ite_bind_of h1 ?_
    rw [h2]
    simp only [Except.bind]
    rw [h3, q2]; rfl
  obtain ⟨c1', h1', v'⟩ := vframe (g := g) (sort := false) (l.of_data d3) g3 f3
  have hdd := v.data p v' d3 r3
  have p1' := (p.of_rest r3).of_rest v'.rest
  obtain ⟨S', hS'⟩ : ∃ S' : Cluster, S' = { c1' with st := c1'.st.map (fun p => p.mulVel (Real.sqrt |q / ρ|)) } := ⟨_, rfl⟩
  obtain ⟨⟨u, hu, hul⟩, ⟨o, ho, hol⟩⟩ := l
  have hu3 : c3.units = some u := (congrArg Data.units d3 :).trans hu
  have ho3 : c3.origin = some o := (congrArg Data.origin d3 :).trans ho
  have hst : c1'.st.length = c3.st.length := by
    have := (v'.distinct (p.of_rest r3) ⟨⟨u, hu3, hul⟩, ⟨o, ho3, hol⟩⟩ (projected := projected)
      (by rw [show c3.st = e.c.st from (congrArg Data.st d3 :)]; exact hd)).1
    exact this
  have gS : Good S' := by rw [hS']; exact v'.good.rescale _ rfl (.inl rfl) rfl rfl
  obtain ⟨c4, h4, w4, u4, o4, r4, f4, g4⟩ := return_to (g := g) (c1 := S') (u := u) (o := o) (r := c3.rorder)
    (ro := c3.rorderOrigin) (sort := false) (cm := none) (by rw [hS']; exact Pos.of_rest (c := c1') rfl p1') gS
    (by rw [hS']; exact ⟨v'.lin.units, v'.lin.origin⟩) hul hol
    (fun x hx => by rw [hS']; simpa [hst] using g3.ro x hx)
  refine ⟨c1, _, { e2 with c := c4 }, ρ, v, ?_, hρ.symm, rfl, q2, f4, g4, ⟨⟨u, u4, hul⟩, ⟨o, o4, hol⟩⟩, ?_,
    u4.trans hu.symm, o4.trans ho.symm, ?_⟩
  · unfold virialize
    simp only [bind]
    rw [hF]
    simp only [Except.bind]
    refine ite_bind_of h1' ?_
    have hs : saveCluster c3 = (some u, some o, c3.rorder, c3.rorderOrigin) := by
      unfold saveCluster; rw [hu3, ho3]
    rw [hs, ← hS', h4]; rfl
  · rw [r4, hS']; exact (v'.rest.trans r3)
  · rw [w4, hS']
    refine world_of_data ?_ (v'.rest.trans (r3.trans v.rest.symm))
    have k1 : c1'.units = c1.units := congrArg Data.units hdd
    have k2 : c1'.origin = c1.origin := congrArg Data.origin hdd
    have k3 : c1'.tphys = c1.tphys := congrArg Data.tphys hdd
    have k4 : c1'.m = c1.m := congrArg Data.m hdd
    have k5 : c1'.st = c1.st := congrArg Data.st hdd
    have k6 : c1'.c = c1.c := congrArg Data.c hdd
    have k7 : c1'.gc = c1.gc := congrArg Data.gc hdd
    simp only [Cluster.data, k1, k2, k3, k4, k5, k6, k7]

theorem gravPot_mulVel {projected : Bool} {G soft k : ℝ} {m : List ℝ} {st : List Ph} {i : ℕ} (hi : i < st.length) :
    gravPot projected G soft m (st.map (fun p => p.mulVel k)) i = gravPot projected G soft m st i := by
  unfold gravPot
  rw [List.length_map]
  congr 1
  refine Finset.sum_congr rfl fun j hj => ?_
  simp only [Finset.mem_erase, Finset.mem_range] at hj
  unfold softSep
  rw [get!_map _ _ _ hi, get!_map _ _ _ hj.2]
  rfl

theorem specificRatio_mulVel {projected : Bool} {G soft k : ℝ} {m : List ℝ} {st : List Ph} :
    specificRatio projected G soft m (st.map (fun p => p.mulVel k)) = k ^ 2 * specificRatio projected G soft m st := by
  unfold specificRatio
  rw [List.length_map]
  have e1 : ∑ i ∈ Finset.range st.length, speedSq projected (st.map (fun p => p.mulVel k))[i]! / 2 =
      k ^ 2 * ∑ i ∈ Finset.range st.length, speedSq projected st[i]! / 2 := by
    rw [Finset.mul_sum]
    refine Finset.sum_congr rfl fun i hi => ?_
    rw [get!_map _ _ _ (Finset.mem_range.mp hi)]
    unfold speedSq Ph.mulVel
    cases projected <;> simp <;> ring
  have e2 : ∑ i ∈ Finset.range st.length, gravPot projected G soft m (st.map (fun p => p.mulVel k)) i =
      ∑ i ∈ Finset.range st.length, gravPot projected G soft m st i :=
    Finset.sum_congr rfl fun i hi => gravPot_mulVel (Finset.mem_range.mp hi)
  rw [e1, e2]; ring

theorem getGrav_pos (u : Option Units) : 0 < getGrav u := by
  unfold getGrav; split <;> norm_num

theorem specificRatio_neg {projected : Bool} {G soft : ℝ} {m : List ℝ} {st : List Ph} (hG : 0 < G)
    (hl : m.length = st.length) (hm : ∀ x ∈ m, 0 < x) (hn : 2 ≤ st.length) (hd : Distinct projected st)
    (hv : ∃ p ∈ st, speedSq projected p ≠ 0) : specificRatio projected G soft m st < 0 := by
  unfold specificRatio
  refine div_neg_of_pos_of_neg ?_ ?_
  · obtain ⟨p, hp, hv⟩ := hv
    obtain ⟨i, hi, rfl⟩ := List.mem_iff_getElem.mp hp
    have nn : ∀ p, 0 ≤ speedSq projected p := by
      intro p; unfold speedSq; split <;> positivity
    refine Finset.sum_pos' (fun i _ => by have := nn st[i]!; linarith) ⟨i, Finset.mem_range.mpr hi, ?_⟩
    rw [getElem!_pos st i hi]
    have := lt_of_le_of_ne (nn st[i]) (Ne.symm hv)
    linarith
  · refine div_neg_of_neg_of_pos ?_ (by norm_num)
    refine Finset.sum_neg (fun i hi => ?_) ⟨0, Finset.mem_range.mpr (by omega)⟩
    have hi' := Finset.mem_range.mp hi
    unfold gravPot
    refine mul_neg_of_neg_of_pos (by linarith) ?_
    refine Finset.sum_pos (fun j hj => ?_) ?_
    · simp only [Finset.mem_erase, Finset.mem_range] at hj
      rw [getElem!_pos m j (by omega)]
      refine div_pos (hm _ (List.getElem_mem _)) ?_
      exact lt_of_le_of_ne (Real.sqrt_nonneg _) (Ne.symm (softSep_ne projected soft (hd i j hi' hj.2 (Ne.symm hj.1))))
    · rcases Nat.eq_zero_or_pos i with rfl | h0
      · exact ⟨1, by simp only [Finset.mem_erase, Finset.mem_range]; omega⟩
      · exact ⟨0, by simp only [Finset.mem_erase, Finset.mem_range]; omega⟩

/-- Recomputing after `virialize`, in the frame `virialize` works in. -/
theorem virialize_recompute {g : Galpy} {q : ℝ} {projected : Bool} {soft : ℝ} {e : ECluster} (p : Pos g e.c)
    (l : Lin e.c) (hg : Good e.c) (f : Fresh e.c) (hd : Distinct projected e.c.st) (hm : ∀ x ∈ e.c.m, 0 < x) :
    ∃ c1 e' ρ, VFrame g e.c c1 ∧ virialize g q projected soft e = .ok e' ∧
      ρ = e.qvir.getD (specificRatio projected (getGrav e.c.units) soft e.c.m c1.st) ∧ e'.qvir = some ρ ∧
      Pos g e'.c ∧ Lin e'.c ∧ Good e'.c ∧ Fresh e'.c ∧ Distinct projected e'.c.st ∧ e'.c.m = e.c.m ∧
      e'.c.units = e.c.units ∧ e'.c.origin = e.c.origin ∧
      ∀ c5, VFrame g e'.c c5 → ∃ e'', energiesMethod g true true projected soft { e' with c := c5 } = .ok e'' ∧
        c5.st = c1.st.map (fun p => p.mulVel (Real.sqrt |q / ρ|)) ∧
        e''.qvir = some (|q / ρ| * specificRatio projected (getGrav e.c.units) soft e.c.m c1.st) := by
  obtain ⟨c1, S, e', ρ, v, h, hρ, hS, hq, f', g', l', r', u', o', w'⟩ := virialize_run (q := q) (projected := projected)
    (soft := soft) p l hg f hd (fun x hx => (hm x hx).ne')
  have p' := p.of_rest r'
  have key : ∀ c5, VFrame g e'.c c5 → c5.data = S.data := by
    intro c5 v5
    obtain ⟨⟨u, hu, hul⟩, ⟨o, ho, hol⟩⟩ := v.lin
    have hSr : S.rest = c1.rest := by rw [hS]; rfl
    have hSu : S.units = c1.units := by rw [hS]
    have hSo : S.origin = c1.origin := by rw [hS]
    refine data_of_world ((p.of_rest v.rest).of_rest hSr).nz
      (v5.rest.trans (r'.trans (v.rest.symm.trans hSr.symm))) (hSu.trans hu) ?_ hul (hSo.trans ho) ?_ hol
      (v5.world.trans w')
    · rw [v5.units, u', ← v.units, hu]
    · rw [v5.origin, o', ← v.origin, ho]
  have hstS : S.st = c1.st.map (fun p => p.mulVel (Real.sqrt |q / ρ|)) := by rw [hS]
  have hmS : S.m = c1.m := by rw [hS]
  have hdS : Distinct projected S.st := by
    have hd1 := (v.distinct p l hd).2
    rw [hstS]
    intro i j hi hj hne
    rw [List.length_map] at hi hj
    rw [get!_map _ _ _ hi, get!_map _ _ _ hj]
    exact hd1 i j hi hj hne
  -- a frame of the result exists
  obtain ⟨c5, h5, v5⟩ := vframe (g := g) (sort := true) l' g' f'
  have hd' : Distinct projected e'.c.st := by
    have h5d : Distinct projected c5.st := by
      rw [show c5.st = S.st from (congrArg Data.st (key c5 v5) :)]; exact hdS
    obtain ⟨⟨u, hu, hul⟩, ⟨o, ho, hol⟩⟩ := l'
    obtain ⟨⟨u1, hu1, hul1⟩, ⟨o1, ho1, hol1⟩⟩ := v5.lin
    obtain ⟨s, hs⟩ := unitScale_linear (g := g) (c := e'.c) hul
    obtain ⟨s1, hs1⟩ := unitScale_linear (g := g) (c := c5) hul1
    have hv : VFrame g c5 c5 := ⟨v5.good, v5.fresh, v5.lin, rfl, rfl, rfl, rfl, by
      rw [if_neg]; rw [v5.origin]; split
      · simp
      · assumption⟩
    obtain ⟨-, hl, hp⟩ := world_pairs hu hu1 ho ho1 hol hol1 hs hs1 v5.world
    have hss : s1 = s := by
      have huu : u1 = u := by have := v5.units; rw [hu, hu1] at this; injection this
      subst huu
      obtain ⟨e1, e2, e3, e4⟩ := rest_scales v5.rest
      have : unitScale g c5 u1 = unitScale g e'.c u1 := by unfold unitScale; rw [e1, e2, e3, e4]
      rw [hs, hs1] at this; injection this
    subst hss
    have n1 := (unitScale_nz p'.nz hs).1
    have scale : ∀ p q : Ph, rowDist projected (s1.ph p) (s1.ph q) = |s1.len| * rowDist projected p q := by
      intro p q
      unfold rowDist Scale.ph
      rw [← Real.sqrt_sq_eq_abs, ← Real.sqrt_mul (by positivity)]
      congr 1
      cases projected <;> simp <;> ring
    intro i j hi hj hne h0
    have := hp projected i j hi hj
    rw [scale, scale, h0, mul_zero] at this
    rcases mul_eq_zero.mp this with h3 | h3
    · exact n1 (by simpa using h3)
    · exact h5d i j (by omega) (by omega) hne h3
  have hm' : e'.c.m = e.c.m := by
    rw [← v5.m, show c5.m = S.m from (congrArg Data.m (key c5 v5) :), hmS, v.m]
  refine ⟨c1, e', ρ, v, h, hρ, hq, p', l', g', f', hd', hm', u', o', fun c5 v5 => ?_⟩
  have hk := key c5 v5
  have hst5 : c5.st = S.st := (congrArg Data.st hk :)
  have hm5 : c5.m = e.c.m := by rw [show c5.m = S.m from (congrArg Data.m hk :), hmS, v.m]
  have hu5 : c5.units = e.c.units := by rw [v5.units, u']
  obtain ⟨e2, h2, -, -, -, -, q2⟩ := energiesMethod_run (projected := projected) (soft := soft)
    (e := { e' with c := c5 }) (p'.of_rest v5.rest) v5.lin v5.good v5.fresh (by show Distinct projected c5.st; rw [hst5]; exact hdS)
    (by show ∀ x ∈ c5.m, x ≠ 0; rw [hm5]; exact fun x hx => (hm x hx).ne')
  refine ⟨e2, h2, by rw [hst5, hstS], ?_⟩
  rw [q2]
  show some (specificRatio projected (getGrav c5.units) soft c5.m (inner c5)) = _
  rw [v5.inner, hst5, hm5, hu5, hstS, specificRatio_mulVel, Real.sq_sqrt (abs_nonneg _)]

theorem abs_div_mul_neg {q ρ : ℝ} (h : ρ < 0) : |q / ρ| * ρ = -|q| := by
  rw [abs_div, abs_of_neg h]
  have : ρ ≠ 0 := h.ne
  field_simp

theorem vframe_self {g : Galpy} {c : Cluster} (l : Lin c) (hg : Good c) (f : Fresh c) (h : c.origin ≠ some .galaxy) :
    VFrame g c c := ⟨hg, f, l, rfl, rfl, rfl, rfl, by rw [if_neg h]⟩

theorem VFrame.same {g : Galpy} {c c1 : Cluster} (p : Pos g c) (v : VFrame g c c1) (l : Lin c) (h : c.origin ≠ some .galaxy) :
    c1.data = c.data := by
  obtain ⟨⟨u, hu, hul⟩, ⟨o, ho, hol⟩⟩ := l
  refine data_of_world p.nz v.rest hu (v.units.trans hu) hul ho ?_ hol v.world
  rw [v.origin, if_neg h, ho]

/-- C34: for a cluster in its own frame (origin `cluster` or `centre`) whose energies have not been computed yet,
`virialize(q)` keeps masses and labels, and the virial ratio recomputed afterwards (by `energies`, as `virialize`
itself computes it) has exactly the requested absolute value. -/
theorem C34_virialize_partial (g : Galpy) (q : ℝ) (projected : Bool) (soft : ℝ) (e : ECluster) (hq : e.qvir = none)
    (p : Pos g e.c) (l : Lin e.c) (hg : Good e.c) (f : Fresh e.c) (ho : e.c.origin ≠ some .galaxy)
    (hd : Distinct projected e.c.st) (hm : ∀ x ∈ e.c.m, 0 < x) (hn : 2 ≤ e.c.st.length)
    (hv : ∃ p ∈ e.c.st, speedSq projected p ≠ 0) :
    ∃ e' e'', virialize g q projected soft e = .ok e' ∧ e'.c.m = e.c.m ∧ e'.c.units = e.c.units ∧
      e'.c.origin = e.c.origin ∧
      energiesMethod g true true projected soft e' = .ok e'' ∧ e''.qvir = some (-|q|) := by
  obtain ⟨c1, e', ρ, v, h, hρ, -, p', l', g', f', -, hm', hu', ho', key⟩ := virialize_recompute (q := q)
    (projected := projected) (soft := soft) p l hg f hd hm
  obtain ⟨e'', h2, -, q2⟩ := key e'.c (vframe_self l' g' f' (by rw [ho']; exact ho))
  refine ⟨e', e'', h, hm', hu', ho', h2, ?_⟩
  have hst : c1.st = e.c.st := (congrArg Data.st (v.same p l ho) :)
  rw [hq] at hρ
  simp only [Option.getD_none] at hρ
  rw [q2, ← hρ, abs_div_mul_neg]
  rw [hρ, hst]
  exact specificRatio_neg (getGrav_pos _) hg.len hm hn hd hv

/-- C34 is false of the code when a virial ratio is already stored (in particular for the second of two calls): the
stored ratio is not refreshed, so the second call rescales by the wrong factor.  The ratio recomputed after
`virialize(q1); virialize(q2)` is `-|q2| * |q1| / |q0|`, `q0` being the ratio before the first call. -/
theorem C34_second_call_violated (g : Galpy) (q1 q2 : ℝ) (projected : Bool) (soft : ℝ) (e : ECluster) (hq : e.qvir = none)
    (p : Pos g e.c) (l : Lin e.c) (hg : Good e.c) (f : Fresh e.c) (ho : e.c.origin ≠ some .galaxy)
    (hd : Distinct projected e.c.st) (hm : ∀ x ∈ e.c.m, 0 < x) (hn : 2 ≤ e.c.st.length)
    (hv : ∃ p ∈ e.c.st, speedSq projected p ≠ 0) :
    ∃ e1 e2 e3, virialize g q1 projected soft e = .ok e1 ∧ virialize g q2 projected soft e1 = .ok e2 ∧
      energiesMethod g true true projected soft e2 = .ok e3 ∧
      e3.qvir = some (-|q2| * (|q1| /
        |specificRatio projected (getGrav e.c.units) soft e.c.m e.c.st|)) := by
  obtain ⟨c1, e1, ρ, v, h1, hρ, hq1, p1, l1, g1, f1, d1, hm1, hu1, ho1, key1⟩ := virialize_recompute (q := q1)
    (projected := projected) (soft := soft) p l hg f hd hm
  have hst : c1.st = e.c.st := (congrArg Data.st (v.same p l ho) :)
  have hog1 : e1.c.origin ≠ some .galaxy := by rw [ho1]; exact ho
  obtain ⟨-, -, hs1, -⟩ := key1 e1.c (vframe_self l1 g1 f1 hog1)
  obtain ⟨c2, e2, ρ2, v2, h2, hρ2, -, p2, l2, g2, f2, -, -, -, ho2, key2⟩ := virialize_recompute (q := q2)
    (projected := projected) (soft := soft) p1 l1 g1 f1 d1 (by rw [hm1]; exact hm)
  have hst2 : c2.st = e1.c.st := (congrArg Data.st (v2.same p1 l1 hog1) :)
  obtain ⟨e3, h3, -, q3⟩ := key2 e2.c (vframe_self l2 g2 f2 (by rw [ho2]; exact hog1))
  refine ⟨e1, e2, e3, h1, h2, h3, ?_⟩
  rw [hq] at hρ
  simp only [Option.getD_none] at hρ
  rw [hq1] at hρ2
  simp only [Option.getD_some] at hρ2
  have hneg : ρ < 0 := by
    rw [hρ, hst]; exact specificRatio_neg (getGrav_pos _) hg.len hm hn hd hv
  rw [q3, hst2, hs1, specificRatio_mulVel, Real.sq_sqrt (abs_nonneg _), hρ2, hu1, hm1, ← hρ]
  rw [← hst, ← hρ]
  congr 1
  rw [abs_div, abs_div, abs_of_neg hneg]
  have : ρ ≠ 0 := hneg.ne
  field_simp

/-- C34 (galaxy origin): the ratio that is set is the one in the frame of the cluster centre. -/
theorem C34_virialize_galaxy_partial (g : Galpy) (q : ℝ) (projected : Bool) (soft : ℝ) (e : ECluster)
    (hq : e.qvir = none) (p : Pos g e.c) (l : Lin e.c) (hg : Good e.c) (f : Fresh e.c)
    (ho : e.c.origin = some .galaxy) (hd : Distinct projected e.c.st) (hm : ∀ x ∈ e.c.m, 0 < x)
    (hn : 2 ≤ e.c.st.length)
    (hv : ∃ p ∈ e.c.st, speedSq projected ((p.sub e.c.gc).sub e.c.c) ≠ 0) :
    ∃ e' c5 e'', virialize g q projected soft e = .ok e' ∧ e'.c.m = e.c.m ∧ e'.c.units = e.c.units ∧
      e'.c.origin = e.c.origin ∧ toCentre true none e'.c = .ok c5 ∧
      energiesMethod g true true projected soft { e' with c := c5 } = .ok e'' ∧ e''.qvir = some (-|q|) := by
  obtain ⟨c1, e', ρ, v, h, hρ, -, p', l', g', f', -, hm', hu', ho', key⟩ := virialize_recompute (q := q)
    (projected := projected) (soft := soft) p l hg f hd hm
  obtain ⟨c5, h5, v5⟩ := vframe (g := g) (sort := true) l' g' f'
  rw [if_pos (by rw [ho', ho]; simp)] at h5
  obtain ⟨e'', h2, -, q2⟩ := key c5 v5
  refine ⟨e', c5, e'', h, hm', hu', ho', h5, h2, ?_⟩
  rw [hq] at hρ
  simp only [Option.getD_none] at hρ
  rw [q2, ← hρ, abs_div_mul_neg]
  obtain ⟨hl1, hd1⟩ := v.distinct p l hd
  rw [hρ]
  refine specificRatio_neg (getGrav_pos _) (by rw [← v.m]; exact v.good.len) hm (by omega) hd1 ?_
  -- rows of the frame
  have hrows : c1.st = e.c.st.map (fun p => (p.sub e.c.gc).sub e.c.c) := by
    obtain ⟨⟨u, hu, hul⟩, -⟩ := l
    obtain ⟨sc, hs⟩ := unitScale_linear (g := g) (c := e.c) hul
    have hu1 := v.units.trans hu
    have ho1 : c1.origin = some .centre := by rw [v.origin, if_pos ho]
    have hs1 : unitScale g c1 u = some sc := by
      obtain ⟨e1, e2, e3, e4⟩ := rest_scales v.rest
      rw [← hs]; unfold unitScale; rw [e1, e2, e3, e4]
    obtain ⟨n1, n2, -, -⟩ := unitScale_nz p.nz hs
    have hw := v.world
    unfold world phys at hw
    simp only [hu, hu1, ho, ho1, hs, hs1, Option.some.injEq, World.mk.injEq] at hw
    obtain ⟨-, -, w3, w4, w5⟩ := hw
    have kc := Scale.ph_inj n1 n2 w4
    have kg := Scale.ph_inj n1 n2 w5
    simp only [galRows, galactocentric, List.map_map, kc, kg] at w3
    refine List.ext_getElem? fun i => ?_
    have := congrArg (fun l => l[i]?) w3
    simp only [List.getElem?_map] at this ⊢
    by_cases hi : i < e.c.st.length
    · rw [List.getElem?_eq_getElem hi, List.getElem?_eq_getElem (hl1 ▸ hi)] at this ⊢
      simp only [Option.map_some, Option.some.injEq, Function.comp] at this ⊢
      simp only [galactocentric, Option.some.injEq] at this
      have a1 := congrArg Ph.x this
      have a2 := congrArg Ph.y this
      have a3 := congrArg Ph.z this
      have a4 := congrArg Ph.vx this
      have a5 := congrArg Ph.vy this
      have a6 := congrArg Ph.vz this
      simp only [phAdd, Scale.ph] at a1 a2 a3 a4 a5 a6
      ext <;> simp only [Ph.sub]
      · apply mul_right_cancel₀ n1; linarith
      · apply mul_right_cancel₀ n1; linarith
      · apply mul_right_cancel₀ n1; linarith
      · apply mul_right_cancel₀ n2; linarith
      · apply mul_right_cancel₀ n2; linarith
      · apply mul_right_cancel₀ n2; linarith
    · rw [List.getElem?_eq_none (by omega), List.getElem?_eq_none (by omega)]; rfl
  obtain ⟨x, hx, hvx⟩ := hv
  exact ⟨_, by rw [hrows]; exact List.mem_map_of_mem hx, hvx⟩

/-- The demo cluster after an `analyze`. -/
theorem demo_fresh : ∃ c, analyze true demo = .ok c ∧ Pos demoG c ∧ Lin c ∧ Good c ∧ Fresh c ∧ c.m = demo.m ∧
    c.st = demo.st ∧ c.origin = some .cluster ∧ c.units = some .pckms := by
  obtain ⟨c, h, hg⟩ := analyze_total (s := true) (p := true) demo_good
  obtain ⟨h1, h2, h3, h4, h5, h6⟩ := analyze_same h
  refine ⟨c, h, demo_pos.of_rest (core_fields (analyze_core h)).2.2.2.2.2.2.2.2.2.2.2, ?_, hg, analyze_fresh h, h1, h2, h4, h3⟩
  exact ⟨by rw [h3]; exact demo_lin.units, by rw [h4]; exact demo_lin.origin⟩

theorem demo_distinct : Distinct false demo.st := by
  intro i j hi hj hne
  have hi' : i < 2 := hi
  have hj' : j < 2 := hj
  unfold rowDist
  rw [Real.sqrt_ne_zero (by positivity)]
  interval_cases i <;> interval_cases j <;> first | exact absurd rfl hne | norm_num [demo]

/-- C34 instance: the hypotheses hold of the demo cluster. -/
example : ∃ (e e' e'' : ECluster), e.c.st = demo.st ∧ virialize demoG 0.5 false 0 e = .ok e' ∧
    energiesMethod demoG true true false 0 e' = .ok e'' ∧ e''.qvir = some (-|0.5|) := by
  obtain ⟨c, -, p, l, hg, f, hm, hst, ho, -⟩ := demo_fresh
  obtain ⟨e', e'', h1, -, -, -, h2, h3⟩ := C34_virialize_partial demoG 0.5 false 0
    { c := c, kin := [], pot := [], ektot := 0, ptot := 0, qvir := none } rfl p l hg f
    (by show c.origin ≠ _; rw [ho]; simp) (by show Distinct false c.st; rw [hst]; exact demo_distinct)
    (by show ∀ x ∈ c.m, _; rw [hm]; simp [demo]) (by show 2 ≤ c.st.length; rw [hst]; simp [demo])
    ⟨⟨3, 0, 4, 1, 0, 0⟩, by show _ ∈ c.st; rw [hst]; simp [demo], by norm_num [speedSq]⟩
  exact ⟨_, e', e'', hst, h1, h2, h3⟩

/-- Virial ratio with the stars' masses: total kinetic over total potential energy. -/
def massRatio (projected : Bool) (G soft : ℝ) (m : List ℝ) (st : List Ph) : ℝ :=
  (∑ i ∈ Finset.range st.length, m[i]! * (speedSq projected st[i]! / 2)) /
    ((∑ i ∈ Finset.range st.length, m[i]! * gravPot projected G soft m st i) / 2)

theorem massRatio_mulVel {projected : Bool} {G soft k : ℝ} {m : List ℝ} {st : List Ph} :
    massRatio projected G soft m (st.map (fun p => p.mulVel k)) = k ^ 2 * massRatio projected G soft m st := by
  unfold massRatio
  rw [List.length_map]
  have e1 : ∑ i ∈ Finset.range st.length, m[i]! * (speedSq projected (st.map (fun p => p.mulVel k))[i]! / 2) =
      k ^ 2 * ∑ i ∈ Finset.range st.length, m[i]! * (speedSq projected st[i]! / 2) := by
    rw [Finset.mul_sum]
    refine Finset.sum_congr rfl fun i hi => ?_
    rw [get!_map _ _ _ (Finset.mem_range.mp hi)]
    unfold speedSq Ph.mulVel
    cases projected <;> simp <;> ring
  have e2 : ∑ i ∈ Finset.range st.length, m[i]! * gravPot projected G soft m (st.map (fun p => p.mulVel k)) i =
      ∑ i ∈ Finset.range st.length, m[i]! * gravPot projected G soft m st i :=
    Finset.sum_congr rfl fun i hi => by rw [gravPot_mulVel (Finset.mem_range.mp hi)]
  rw [e1, e2]; ring

/-- C34 is false of the code for stars of unequal mass, whatever `specific` the caller passes: the ratio that is set is
the unweighted one, so the true virial ratio (energies with masses) ends at `|q|·Q/|ρ|`, with `Q`, `ρ` the true and
the unweighted ratio before the call — not at the requested value unless these agree. -/
theorem C34_unequal_masses_violated (g : Galpy) (q : ℝ) (projected : Bool) (soft : ℝ) (e : ECluster)
    (hq : e.qvir = none) (p : Pos g e.c) (l : Lin e.c) (hg : Good e.c) (f : Fresh e.c)
    (ho : e.c.origin ≠ some .galaxy) (hd : Distinct projected e.c.st) (hm : ∀ x ∈ e.c.m, 0 < x) :
    ∃ e', virialize g q projected soft e = .ok e' ∧ e'.c.m = e.c.m ∧
      massRatio projected (getGrav e'.c.units) soft e'.c.m e'.c.st =
        |q| * massRatio projected (getGrav e.c.units) soft e.c.m e.c.st /
          |specificRatio projected (getGrav e.c.units) soft e.c.m e.c.st| := by
  obtain ⟨c1, e', ρ, v, h, hρ, -, p', l', g', f', -, hm', hu', ho', key⟩ := virialize_recompute (q := q)
    (projected := projected) (soft := soft) p l hg f hd hm
  obtain ⟨-, -, hs, -⟩ := key e'.c (vframe_self l' g' f' (by rw [ho']; exact ho))
  have hst : c1.st = e.c.st := (congrArg Data.st (v.same p l ho) :)
  rw [hq] at hρ
  simp only [Option.getD_none] at hρ
  refine ⟨e', h, hm', ?_⟩
  rw [hs, massRatio_mulVel, Real.sq_sqrt (abs_nonneg _), hm', hu', hst, ← hst, ← hρ, abs_div]
  ring

/-- The two ratios differ for two stars of masses 1 and 3. -/
example : massRatio false 1 0 demo.m demo.st ≠ specificRatio false 1 0 demo.m demo.st := by
  have hd : softSep false 0 demo.st[0]! demo.st[1]! ≠ 0 :=
    softSep_ne false 0 (demo_distinct 0 1 (by simp [demo]) (by simp [demo]) (by simp))
  have hs : softSep false 0 demo.st[1]! demo.st[0]! = softSep false 0 demo.st[0]! demo.st[1]! := by
    unfold softSep rowDist; congr 3; ring_nf
  have h0 : gravPot false 1 0 demo.m demo.st 0 = -(3 / softSep false 0 demo.st[0]! demo.st[1]!) := by
    unfold gravPot
    have : (Finset.range demo.st.length).erase 0 = {1} := by show (Finset.range 2).erase 0 = {1}; decide
    rw [this, Finset.sum_singleton, show demo.m[1]! = 3 from rfl]; ring
  have h1 : gravPot false 1 0 demo.m demo.st 1 = -(1 / softSep false 0 demo.st[0]! demo.st[1]!) := by
    unfold gravPot
    have : (Finset.range demo.st.length).erase 1 = {0} := by show (Finset.range 2).erase 1 = {0}; decide
    rw [this, Finset.sum_singleton, hs, show demo.m[0]! = 1 from rfl]; ring
  unfold massRatio specificRatio
  rw [show demo.st.length = 2 from rfl]
  simp only [Finset.sum_range_succ, Finset.sum_range_zero, h0, h1, show demo.m[0]! = 1 from rfl,
    show demo.m[1]! = 3 from rfl]
  generalize softSep false 0 demo.st[0]! demo.st[1]! = d at hd
  have e0 : speedSq false demo.st[0]! = 1 := by norm_num [speedSq, demo]
  have e1 : speedSq false demo.st[1]! = 29 := by norm_num [speedSq, demo]
  rw [e0, e1]
  field_simp
  intro h
  norm_num at h
  exact hd (by linarith)

end

end CT
