/- C173, C174: the path of the tidal tails on the sky. -/
import Verif.Model.SkyTail
import Verif.Spec.SkyTail
import Verif.Props.SkyPath
import Verif.Props.TailsDemo

namespace CT

noncomputable section

set_option linter.unusedSimpArgs false

/-- `orbital_path(skypath=True)` in kpc. -/
theorem path_kpc {g : Galpy} {flow : ℝ → Ph → Ph} (hf : IsFlow flow) {a : PathArgs} {c : Cluster} (p : Pos g c) (l : Lin c) (hg : Good c)
    (hu : c.units = some .kpckms) {T : ℝ} (hT : a.tfinal = some T) (hn : 2 ≤ a.nt) :
    ∃ path c', orbitalPathSky g flow a c = .ok (path, c') ∧ c'.data = c.data ∧ Good c' ∧ c'.rest = c.rest ∧
      IsSkyOrbit g flow (orbitStart kpcScale a.fromCentre c) T a.nt path := by
  obtain ⟨c', h, d', f', g', r'⟩ := initializeOrbit_ok (fc := a.fromCentre) (s := kpcScale) p l hg hu rfl
  have hu' : c'.units = some .kpckms := (congrArg Data.units d').trans hu
  have h2 : naturalTime g c a.tfinal = T / g.timeGyr := by simp [naturalTime, hT, hu, Units.isPc, Units.isKpc]
  have htm := p.time.ne'
  have hro := p.ro.ne'
  refine ⟨(linspace (-1 * (T / g.timeGyr)) (T / g.timeGyr) a.nt).map (fun t =>
    (⟨t * g.timeGyr, g.toSky (orbitRow g (flow t (natural g (orbitStart kpcScale a.fromCentre c))))⟩ : PathPt)), c', ?_, d', g', r', by simp [linspace], ?_⟩
  · unfold orbitalPathSky
    simp only [h, h2, bind, Except.bind, pathRows_ok hf hro p.vo.ne' hn, pure, Except.pure, List.map_map]
    congr 2
    refine List.map_congr_left fun t _ => ?_
    simp [Function.comp, skyTime, hu', Units.isPc, Units.isKpc]
  · intro k hk
    have hlen : k < (linspace (-1 * (T / g.timeGyr)) (T / g.timeGyr) a.nt).length := by simpa [linspace] using hk
    have hn1 : (a.nt : ℝ) - 1 ≠ 0 := by
      have : (2 : ℝ) ≤ a.nt := by exact_mod_cast hn
      intro h; linarith
    rw [list_map_at hlen]
    dsimp only
    rw [linspace_get hk]
    constructor
    · field_simp
      ring
    · congr 1
      unfold orbitAt
      generalize (-1 * (T / g.timeGyr) + ↑k * ((T / g.timeGyr - -1 * (T / g.timeGyr)) / ((a.nt : ℝ) - 1))) = τ
      have e : τ * g.timeGyr * 1000 / (1000 * g.timeGyr) = τ := by field_simp
      rw [e]
      ext <;> simp [orbitRow, kpcRow, Ph.mulPos, Ph.mulVel, natural] <;> field_simp

theorem meanOver_map (n : ℕ) (S : ℕ → Prop) (f : ℕ → ℝ) (q : ℝ) : meanOver n S (fun i => f i * q) = meanOver n S f * q := by
  unfold meanOver
  rw [← sumOver_mul]
  ring

/-- `tail_path(skypath=True)` with bins that cover the times of the path. -/
theorem skyTail_run {g : Galpy} {S : Truth} {flow : ℝ → Ph → Ph} (hf : IsFlow flow) {sky : Ph → Ph} {a : TailArgs} {c : Cluster} {u : Units} {s : Scale}
    (h : LinInv g S c) (hu : c.units = some u) (hs : unitScale g c u = some s) {T : ℝ} (hT : a.tfinal = some T) (hn : 2 ≤ a.no)
    (hd : a.doFull = false) (ht : a.toPath = false) {Q : List ℝ → List (ℝ × ℝ) → List ℝ → Prop}
    (hbins : ∀ times : List ℝ, times.length = a.no → (∀ k < a.no, times[k]! = -T + k * (2 * T / (a.no - 1))) →
      ∃ Tb B lo hi, tailBins a times = .ok Tb ∧ Contig lo hi B ∧ (∀ t ∈ times, lo ≤ t ∧ t ≤ hi) ∧ Tb.upper = B.map Prod.snd ∧
        Tb.mid.length = B.length ∧ Q times B Tb.mid) :
    ∃ (path : List PathPt) (near : ℕ → ℕ) (off : ℕ → ℝ) (B : List (ℝ × ℝ)) (mid : List ℝ) (ks : List ℕ) (rows : List PathPt) (c' : Cluster),
      tailPathSky g flow sky a c = .ok (rows, c') ∧ LinInv g S c' ∧ c'.units = c.units ∧ c'.origin = c.origin ∧
      IsSkyOrbit g flow (orbitStart s a.fromCentre c) T a.no path ∧ NearOnSky g S.stars path near off ∧
      Q (path.map PathPt.t) B mid ∧ ks.Pairwise (· < ·) ∧
      (∀ k, k ∈ ks ↔ k < B.length ∧ 0 < numOver S.stars.length (InTailBin path near (a.dmax.map (· * s.len / 1000)) (fun i => |off i|) B k)) ∧
      List.Forall₂ (fun k row => row.t * s.time = mid[k]! * 1000 ∧
        row.p = sky (kpcRow (meanStar S.stars (InTailBin path near (a.dmax.map (· * s.len / 1000)) (fun i => |off i|) B k)))) ks rows := by
  obtain ⟨c1, c2, h1, h2, ik⟩ := in_kpc (sort := false) h.pos h.lin h.good hu hs
  have i2 : LinInv g S c2 := h.of_world ik.lin ik.good ik.rest ik.world
  obtain ⟨path, c3, h3, d3, g3, r3, hso⟩ := path_kpc (flow := flow) hf (a := a.pathArgs) i2.pos ik.lin ik.good ik.units hT hn
  have hno : a.pathArgs.nt = a.no := rfl
  have hfc : a.pathArgs.fromCentre = a.fromCentre := rfl
  rw [hno, hfc] at hso
  have hstart : orbitStart kpcScale a.fromCentre c2 = orbitStart s a.fromCentre c := by
    have e1 := ik.gc
    have e2 := ik.ctr
    unfold orbitStart
    cases a.fromCentre
    · exact e1
    · simp only [if_true]
      have add : ∀ (s : Scale) (p q : Ph), s.ph (phAdd p q) = phAdd (s.ph p) (s.ph q) := by
        intro s p q; simp [Scale.ph, phAdd, add_mul]
      rw [add, add, e1, e2]
  rw [hstart] at hso
  obtain ⟨hlen, hpts⟩ := id hso
  have hne : path ≠ [] := by rintro rfl; simp at hlen; omega
  have l3 := lin_of_data d3 ik.lin
  have i3 : LinInv g S c3 := i2.of_world l3 g3 r3 (world_of_data d3 r3)
  have hu3 : c3.units = some .kpckms := (congrArg Data.units d3).trans ik.units
  have ho3 : c3.origin = some .galaxy := (congrArg Data.origin d3).trans ik.origin
  obtain ⟨Tb, B, lo, hi, hTb, hB, hrange, hup, hmid, hQ⟩ := hbins (path.map PathPt.t) (by simpa using hlen) (fun k hk => by
    rw [list_map_at (by omega)]; exact (hpts k hk).1)
  obtain ⟨π, i0, out, c4, s1, hπ, -, h4, i4, u4, o4, is1, os1, -, hol, hm⟩ := sky_run (flow := flow) (a := a.matchArgs (some path)) i3 ht hd
    (given_sky (g := g) (S := S) (flow := flow) (path := path) rfl hne)
  rw [hπ] at hm
  have hsky : s1.st = S.stars.map (fun p => g.toSky (kpcRow p)) := desc_length is1 (by rw [os1, ho3]; simp)
  have hst4 : c4.st = S.stars.map kpcRow := (describes_kpc (u4.trans hu3) (o4.trans ho3) i4.desc).1
  obtain ⟨c5, h5, i5, u5, o5⟩ := return_lin h (.inl i4) false none
  have hm' : ∀ i < S.stars.length, ∃ k d, (out[i]!).t = (path[k]!).t ∧ (out[i]!).dpath = some d ∧
      Nearest true (fun j => (path[j]!).p) path.length (g.toSky (kpcRow S.stars[i]!)) k ∧
      OffPath (fun j => (path[j]!).p) path.length (g.toSky (kpcRow S.stars[i]!)) k d := by
    intro i hi'
    obtain ⟨m, d, e1, e2, k, e3, e4, -, e5⟩ := hm i hi'
    rw [convertMatch_kpc (u4.trans hu3) rfl] at e1
    rw [hsky, list_map_at hi'] at e3 e5
    exact ⟨k, d, by rw [e1]; exact e4, by rw [e1]; exact e2, e3, e5⟩
  choose! near off hnear using hm'
  set I : ℕ → Prop := fun i => ∀ d, a.dmax.map (· * s.len / 1000) = some d → |off i| ≤ d with hI
  have hmask : MaskOf (tailMask (a.dmax.map (fun d => c.units.elim d (fun u => convertLength g c2 u .kpckms d))) out) S.stars.length I := by
    refine ⟨by simp [tailMask, hol], fun i hi' => ?_⟩
    unfold tailMask
    rw [list_map_at (by omega)]
    cases hdm : a.dmax with
    | none => simp [hI, hdm]
    | some d =>
      have hc := C38_length (h.pos.of_rest ik.rest).nz (u := u) (t := .kpckms) (su := s) (st := kpcScale)
        (by rw [unitScale_of_rest ik.rest]; exact hs) rfl d
      simp only [kpcScale] at hc
      have hc' : convertLength g c2 u .kpckms d = d * s.len / 1000 := by rw [← hc]; ring
      simp only [Option.map_some, Option.elim, hu, hI, Option.some.injEq, forall_eq', hdm, (hnear i hi').2.1, decide_eq_true_eq, hc']
  have hts : ∀ i < S.stars.length, (out.map Matched.t)[i]! = (path[near i]!).t := fun i hi' => by
    rw [list_map_at (by omega)]; exact (hnear i hi').1
  obtain ⟨ks, rows, hr, hks, hkm, hrows⟩ := tailRows_ok hB hmask (T := Tb) (ts := out.map Matched.t) (st := c4.st) (by simpa using hol)
    (by rw [hst4, List.length_map])
    (fun i hi' => by
      rw [hts i hi']
      refine hrange _ (List.mem_map.mpr ⟨path[near i]!, ?_, rfl⟩)
      have := (hnear i hi').2.2.1.1
      rw [getElem!_pos path _ this]
      exact List.getElem_mem _) hup hmid
  have hcongr : ∀ k, ∀ i < S.stars.length, (I i ∧ InBin B k (out.map Matched.t)[i]!) ↔
      InTailBin path near (a.dmax.map (· * s.len / 1000)) (fun i => |off i|) B k i := by
    intro k i hi'
    rw [hts i hi']
    rfl
  have hnum : ∀ k, numOver S.stars.length (fun i => I i ∧ InBin B k (out.map Matched.t)[i]!) = numOver S.stars.length
      (InTailBin path near (a.dmax.map (· * s.len / 1000)) (fun i => |off i|) B k) := by
    intro k
    have : (numOver S.stars.length (fun i => I i ∧ InBin B k (out.map Matched.t)[i]!) : ℝ) = _ :=
      (numOver_eq _ _).trans ((sumOver_congr (hcongr k) fun _ _ _ => rfl).trans (numOver_eq _ _).symm)
    exact_mod_cast this
  refine ⟨path, near, off, B, Tb.mid, ks, rows.map (fun q => { t := (convertTail g c5 q).t, p := sky q.p }), c5, ?_, i5, u5, o5, hso,
    fun i hi' => (hnear i hi').2.2, hQ, hks, ?_, ?_⟩
  · unfold tailPathSky
    simp only [h1, h2, bind, Except.bind, h3, hTb, h4, hr, h5, pure, Except.pure]
  · intro k
    rw [hkm k, hnum k]
  · rw [List.forall₂_map_right_iff]
    have hrows' := (List.forall₂_and_left (p := fun k => k ∈ ks) ks rows).mpr ⟨fun _ h => h, hrows⟩
    refine hrows'.imp ?_
    rintro k row ⟨hk, e0, ex, ey, ez, evx, evy, evz⟩
    have hpos : (0 : ℝ) < numOver S.stars.length (InTailBin path near (a.dmax.map (· * s.len / 1000)) (fun i => |off i|) B k) := by
      have := ((hkm k).mp hk).2
      rw [hnum k] at this
      exact_mod_cast this
    have key : ∀ (f : Ph → ℝ) (x : ℝ), x * numOver S.stars.length (fun i => I i ∧ InBin B k (out.map Matched.t)[i]!) =
          sumOver S.stars.length (fun i => I i ∧ InBin B k (out.map Matched.t)[i]!) (fun i => f c4.st[i]!) →
        x = meanOver S.stars.length (InTailBin path near (a.dmax.map (· * s.len / 1000)) (fun i => |off i|) B k) (fun i => f (kpcRow S.stars[i]!)) := by
      intro f x e
      rw [meanOver, eq_div_iff hpos.ne', ← hnum k, e]
      refine sumOver_congr (hcongr k) fun i hi' _ => ?_
      rw [hst4, list_map_at hi']
    have hs5 : unitScale g c5 u = some s := by
      obtain ⟨_, -, -, -, -, -, e1⟩ := i5.desc
      obtain ⟨_, -, -, -, -, -, e2⟩ := h.desc
      have : (c5.zmbar, c5.rbar, c5.vbar, c5.tbar) = (c.zmbar, c.rbar, c.vbar, c.tbar) := e1.trans e2.symm
      simp only [Prod.mk.injEq] at this
      obtain ⟨k1, k2, k3, k4⟩ := this
      rw [← hs]
      cases u <;> simp [unitScale, k1, k2, k3, k4]
    refine ⟨?_, ?_⟩
    · show (convertTail g c5 row).t * s.time = _
      simp only [convertTail, u5, hu, Option.elim]
      rw [C38_time i5.pos.nz (su := 1000) (.inl rfl) (.inl (by rw [hs5]; rfl)), e0]
    · show sky row.p = _
      congr 1
      have m : ∀ f : ℕ → ℝ, ∀ q : ℝ, meanOver S.stars.length (InTailBin path near (a.dmax.map (· * s.len / 1000)) (fun i => |off i|) B k)
          (fun i => f i / q) = meanOver S.stars.length (InTailBin path near (a.dmax.map (· * s.len / 1000)) (fun i => |off i|) B k) f / q := by
        intro f q
        simp only [div_eq_mul_inv]
        exact meanOver_map _ _ _ _
      ext
      · rw [key Ph.x _ ex]; exact m _ _
      · rw [key Ph.y _ ey]; exact m _ _
      · rw [key Ph.z _ ez]; exact m _ _
      · exact key Ph.vx _ evx
      · exact key Ph.vy _ evy
      · exact key Ph.vz _ evz
theorem stars_ne {g : Galpy} {S : Truth} {c : Cluster} (h : LinInv g S c) : S.stars ≠ [] := by
  obtain ⟨u, hu, hul⟩ := h.lin.units
  obtain ⟨o, ho, -⟩ := h.lin.origin
  obtain ⟨W, e, -, -, k, -⟩ := h.desc
  obtain ⟨s, hs⟩ := unitScale_linear (g := g) (c := c) hul
  unfold world phys at e
  simp only [hu, ho, hs, Option.some.injEq] at e
  subst e
  intro h0
  rw [h0] at k
  simp only [galRows, List.map_nil, List.map_eq_nil_iff] at k
  exact h.good.ne k

/-- Every star lies in a bin. -/
theorem sky_bin {g : Galpy} {stars : List Ph} {flow : ℝ → Ph → Ph} {start : Ph} {T : ℝ} {n : ℕ} (hn : 2 ≤ n) {path : List PathPt}
    {near : ℕ → ℕ} {off : ℕ → ℝ} {B : List (ℝ × ℝ)} (ho : IsSkyOrbit g flow start T n path) (hN : NearOnSky g stars path near off)
    (hB : Contig (-|T|) |T| B) {i : ℕ} (hi : i < stars.length) : ∃ k, k < B.length ∧ InBin B k (path[near i]!).t := by
  have hr := (times_range hn (times := path.map PathPt.t) (by simpa using ho.1) (fun k hk => by
    rw [list_map_at (by rw [ho.1]; exact hk)]; exact (ho.2 k hk).1)).2.2
  have hm : (path[near i]!).t ∈ path.map PathPt.t := by
    refine List.mem_map.mpr ⟨path[near i]!, ?_, rfl⟩
    rw [getElem!_pos path _ (hN i hi).1.1]
    exact List.getElem_mem _
  obtain ⟨k, -, hk⟩ := hB.index _ (hr _ hm)
  exact ⟨k, by obtain ⟨_, _, e, _⟩ := hk; exact (List.getElem?_eq_some_iff.mp e).1, hk⟩

theorem numOver_pos {n : ℕ} {P : ℕ → Prop} {i : ℕ} (hi : i < n) (h : P i) : 0 < numOver n P := by
  classical
  unfold numOver
  refine Finset.card_pos.mpr ⟨i, ?_⟩
  simp [hi, h]

/-- **C173.**  `tail_path(skypath=True)` without `dmax` and with `ntail ≤ nt`, from any linear units and origin: the orbit of the cluster (or of its
centre) is seen on the sky at `no` times from `tfinal` Gyr ago to `tfinal` Gyr from now; every star belongs to the point of it that is nearest in
right ascension and declination; the times are divided into contiguous bins, and there is one entry, in the order of time, for each bin that holds
stars: the time of the bin in the units of the cluster and the place on the sky of the mean of its stars in space.  There is at least one entry,
and the cluster describes the same stars afterwards with the same labels. -/
theorem C173_sky_tail {g : Galpy} {S : Truth} {flow : ℝ → Ph → Ph} (hf : IsFlow flow) {sky : Ph → Ph} {a : TailArgs} {c : Cluster} {u : Units}
    {s : Scale} (p : Pos g c) (l : Lin c) (hg : Good c) (hds : DescribesLinear g S c) (hc : CachesOf g S c) (hu : c.units = some u)
    (hs : unitScale g c u = some s) {T : ℝ} (hT : a.tfinal = some T) (hT0 : T ≠ 0) (hn : 2 ≤ a.no) (hb : 0 < a.nt) (hr : a.ntail ≤ a.nt)
    (hdm : a.dmax = none) (hd : a.doFull = false) (ht : a.toPath = false) :
    ∃ (path : List PathPt) (near : ℕ → ℕ) (off : ℕ → ℝ) (B : List (ℝ × ℝ)) (mid : List ℝ) (ks : List ℕ) (rows : List PathPt) (c' : Cluster),
      tailPathSky g flow sky a c = .ok (rows, c') ∧ (Pos g c' ∧ Lin c' ∧ Good c' ∧ DescribesLinear g S c' ∧ CachesOf g S c') ∧
      c'.units = c.units ∧ c'.origin = c.origin ∧ rows ≠ [] ∧
      IsSkyOrbit g flow (orbitStart s a.fromCentre c) T a.no path ∧ NearOnSky g S.stars path near off ∧
      TailBins a (path.map PathPt.t) T B mid ∧ ks.Pairwise (· < ·) ∧
      (∀ k, k ∈ ks ↔ k < B.length ∧ ∃ i < S.stars.length, InBin B k (path[near i]!).t) ∧
      List.Forall₂ (fun k row => row.t * s.time = mid[k]! * 1000 ∧
        row.p = sky (kpcRow (meanStar S.stars (fun i => InBin B k (path[near i]!).t)))) ks rows := by
  have h : LinInv g S c := LinInv.mk' p l hg hds hc
  obtain ⟨path, near, off, B, mid, ks, rows, c', h1, h2, h3, h4, h5, h6, h7, h8, h9, h10⟩ := skyTail_run (sky := sky) hf h hu hs hT hn hd ht
    (fun _ h1 h2 => tailBins_ok hT0 hn hb hr h1 h2)
  have e : ∀ k, InTailBin path near (a.dmax.map (· * s.len / 1000)) (fun i => |off i|) B k = fun i => InBin B k (path[near i]!).t := by
    intro k
    funext i
    simp [InTailBin, hdm]
  simp only [e] at h9 h10
  have h9' : ∀ k, k ∈ ks ↔ k < B.length ∧ ∃ i < S.stars.length, InBin B k (path[near i]!).t := by
    intro k
    rw [h9 k]
    refine and_congr_right fun _ => ⟨fun hp => ?_, fun ⟨i, hi, hb⟩ => numOver_pos hi hb⟩
    classical
    unfold numOver at hp
    obtain ⟨i, hi⟩ := Finset.card_pos.mp hp
    simp only [Finset.mem_filter, Finset.mem_range] at hi
    exact ⟨i, hi.1, hi.2⟩
  refine ⟨path, near, off, B, mid, ks, rows, c', h1, ⟨h2.pos, h2.lin, h2.good, h2.desc, h2.caches⟩, h3, h4, ?_, h5, h6, h7, h8, h9', h10⟩
  rintro rfl
  have h0 : 0 < S.stars.length := List.length_pos_iff.mpr (stars_ne h)
  obtain ⟨k, hk, hb⟩ := sky_bin hn h5 h6 h7.contig h0
  have := (h9' k).mpr ⟨hk, 0, h0, hb⟩
  rw [List.forall₂_nil_right_iff.mp h10] at this
  cases this

/-- **C173 (no star lost, none counted twice).** -/
theorem C173_each_star_once {g : Galpy} {stars : List Ph} {flow : ℝ → Ph → Ph} {start : Ph} {T : ℝ} {n : ℕ} (hn : 2 ≤ n) {path : List PathPt}
    {near : ℕ → ℕ} {off : ℕ → ℝ} {B : List (ℝ × ℝ)} (ho : IsSkyOrbit g flow start T n path) (hN : NearOnSky g stars path near off)
    (hB : Contig (-|T|) |T| B) {i : ℕ} (hi : i < stars.length) : ∃! k, k < B.length ∧ InBin B k (path[near i]!).t := by
  obtain ⟨k, hk, hb⟩ := sky_bin hn ho hN hB hi
  exact ⟨k, ⟨hk, hb⟩, fun j hj => hB.inBin_unique hj.2 hb⟩

/-- **C173 (matching).**  `tail_path_match(skypath=True)` of a cluster in kpc at the Galactic centre, without a path and `dmax`, matches every star to
the entry of that tail path nearest on the sky. -/
theorem C173_match {g : Galpy} {S : Truth} {flow : ℝ → Ph → Ph} (hf : IsFlow flow) {sky : Ph → Ph} {a : TailArgs} {c : Cluster} {u : Units}
    (p : Pos g c) (l : Lin c) (hg : Good c) (hds : DescribesLinear g S c) (hc : CachesOf g S c) (hu : c.units = some u) (hk : u.isKpc = true)
    (ho : c.origin = some .galaxy) {T : ℝ} (hT : a.tfinal = some T) (hT0 : T ≠ 0) (hn : 2 ≤ a.no) (hb : 0 < a.nt) (hr : a.ntail ≤ a.nt)
    (hdm : a.dmax = none) (hd : a.doFull = false) (ht : a.toPath = false) :
    ∃ rows c1 i0 out c', tailPathSky g flow sky { a with projected := false } c = .ok (rows, c1) ∧ rows ≠ [] ∧ Present rows i0 ∧
      tailPathMatchSky g flow sky a none c = .ok (out, c') ∧ DescribesLinear g S c' ∧ c'.units = c.units ∧ c'.origin = c.origin ∧
      out.length = S.stars.length ∧ ∀ i < S.stars.length, ∃ d, (out[i]!).dpath = some d ∧
        MatchedOnSky rows i0 (g.toSky (kpcRow S.stars[i]!)) (out[i]!).t (out[i]!).dprog d := by
  obtain ⟨s, hs⟩ := unitScale_linear (g := g) (c := c) (isKpc_linear hk)
  obtain ⟨-, -, -, -, -, -, rows, c1, h1, ⟨p1, l1, g1, d1, k1⟩, u1, o1, hne, -⟩ := C173_sky_tail (sky := sky) (a := { a with projected := false }) hf p l hg hds hc
    hu hs hT hT0 hn hb hr hdm hd ht
  obtain ⟨i0, out, c', h2, h3, h4, h5, h6, -, h7, h8⟩ := C171_nearest (flow := flow) (a := a.matchArgs (some rows)) p1 l1 g1 d1 k1 (u1.trans hu) hk (o1.trans ho) rfl
    hne ht hd
  refine ⟨rows, c1, i0, out, c', h1, hne, h2, ?_, h4, h5.trans u1, h6.trans o1, h7, h8⟩
  have e : ({ a with toPath := false, doFull := false, projected := false } : TailArgs) = { a with projected := false } := by
    cases a
    simp_all
  unfold tailPathMatchSky
  simp only [Option.elim, e, h1, bind, Except.bind, h3]

/-- **C174 is violated for `dmax`:** the distance from the orbit on the sky, in degrees, is compared with `dmax` in kpc. -/
theorem C174_dmax_violated {g : Galpy} {S : Truth} {flow : ℝ → Ph → Ph} (hf : IsFlow flow) {sky : Ph → Ph} {a : TailArgs} {c : Cluster} {u : Units}
    {s : Scale} (p : Pos g c) (l : Lin c) (hg : Good c) (hds : DescribesLinear g S c) (hc : CachesOf g S c) (hu : c.units = some u)
    (hs : unitScale g c u = some s) {T : ℝ} (hT : a.tfinal = some T) (hT0 : T ≠ 0) (hn : 2 ≤ a.no) (hb : 0 < a.nt) (hr : a.ntail ≤ a.nt)
    {D : ℝ} (hdm : a.dmax = some D) (hd : a.doFull = false) (ht : a.toPath = false) :
    ∃ (path : List PathPt) (near : ℕ → ℕ) (degrees : ℕ → ℝ) (B : List (ℝ × ℝ)) (mid : List ℝ) (ks : List ℕ) (rows : List PathPt) (c' : Cluster),
      tailPathSky g flow sky a c = .ok (rows, c') ∧ IsSkyOrbit g flow (orbitStart s a.fromCentre c) T a.no path ∧
      NearOnSky g S.stars path near degrees ∧ TailBins a (path.map PathPt.t) T B mid ∧
      List.Forall₂ (fun k row => row.t * s.time = mid[k]! * 1000 ∧
        row.p = sky (kpcRow (meanStar S.stars (fun i => |degrees i| ≤ D * s.len / 1000 ∧ InBin B k (path[near i]!).t)))) ks rows ∧
      ∀ k, k ∈ ks ↔ k < B.length ∧ 0 < numOver S.stars.length (fun i => |degrees i| ≤ D * s.len / 1000 ∧ InBin B k (path[near i]!).t) := by
  have h : LinInv g S c := LinInv.mk' p l hg hds hc
  obtain ⟨path, near, off, B, mid, ks, rows, c', h1, -, -, -, h5, h6, h7, -, h9, h10⟩ := skyTail_run (sky := sky) hf h hu hs hT hn hd ht
    (fun _ h1 h2 => tailBins_ok hT0 hn hb hr h1 h2)
  have e : ∀ k, InTailBin path near (a.dmax.map (· * s.len / 1000)) (fun i => |off i|) B k =
      fun i => |off i| ≤ D * s.len / 1000 ∧ InBin B k (path[near i]!).t := by
    intro k
    funext i
    simp [InTailBin, hdm]
  simp only [e] at h9 h10
  exact ⟨path, near, off, B, mid, ks, rows, c', h1, h5, h6, h7, h10, h9⟩

theorem meanOver_const {n : ℕ} {S : ℕ → Prop} {f : ℕ → ℝ} {x : ℝ} (h : ∀ i < n, f i = x) (hp : 0 < numOver n S) : meanOver n S f = x := by
  have h0 : (numOver n S : ℝ) ≠ 0 := by exact_mod_cast hp.ne'
  unfold meanOver
  have e : sumOver n S f = sumOver n S (fun _ => 1 * x) := sumOver_congr (fun _ _ => Iff.rfl) fun i hi _ => by rw [h i hi, one_mul]
  rw [div_eq_iff h0, e, ← sumOver_mul, numOver_eq, mul_comm]

/-- **C174 is violated for the observer:** the entries are seen from the Sun of coordinates.py whatever the constants of the cluster are: when all
stars are at one place and the cluster's own Sun sees that place elsewhere, no entry is where the stars are on the sky. -/
theorem C174_observer_violated {g : Galpy} {S : Truth} {flow : ℝ → Ph → Ph} (hf : IsFlow flow) {sky : Ph → Ph} {a : TailArgs} {c : Cluster} {u : Units}
    {s : Scale} (p : Pos g c) (l : Lin c) (hg : Good c) (hds : DescribesLinear g S c) (hc : CachesOf g S c) (hu : c.units = some u)
    (hs : unitScale g c u = some s) {T : ℝ} (hT : a.tfinal = some T) (hT0 : T ≠ 0) (hn : 2 ≤ a.no) (hb : 0 < a.nt) (hr : a.ntail ≤ a.nt)
    (hdm : a.dmax = none) (hd : a.doFull = false) (ht : a.toPath = false) {P : Ph} (hP : ∀ q ∈ S.stars, q = P)
    (hsky : sky (kpcRow P) ≠ g.toSky (kpcRow P)) :
    ∃ rows c', tailPathSky g flow sky a c = .ok (rows, c') ∧ rows ≠ [] ∧ ∀ row ∈ rows, ∀ q ∈ S.stars, row.p ≠ g.toSky (kpcRow q) := by
  obtain ⟨path, near, off, B, mid, ks, rows, c', h1, -, -, -, h4, -, -, -, -, h9, h10⟩ := C173_sky_tail (sky := sky) hf p l hg hds hc hu hs hT hT0 hn hb hr hdm hd ht
  refine ⟨rows, c', h1, h4, fun row hrow q hq => ?_⟩
  obtain ⟨j, hj, rfl⟩ := List.getElem_of_mem hrow
  have hl := h10.length_eq
  have hjk := List.Forall₂.get h10 (i := j) (by omega) hj
  simp only [List.get_eq_getElem] at hjk
  obtain ⟨-, i, hi, hib⟩ := (h9 ks[j]).mp (List.getElem_mem _)
  rw [hP q hq, hjk.2]
  have hp := numOver_pos (P := fun i => InBin B ks[j] (path[near i]!).t) hi hib
  have hall : ∀ i < S.stars.length, S.stars[i]! = P := fun i hi' => hP _ (by rw [getElem!_pos _ i hi']; exact List.getElem_mem _)
  have : meanStar S.stars (fun i => InBin B ks[j] (path[near i]!).t) = P := by
    ext <;> exact meanOver_const (fun i hi' => by rw [hall i hi']) hp
  rw [this]
  exact hsky

/-- **C174 is violated for `ntail > nt`,** as in C60: a star is counted only in the first window that holds it. -/
theorem C174_roaming_violated {g : Galpy} {S : Truth} {flow : ℝ → Ph → Ph} (hf : IsFlow flow) {sky : Ph → Ph} {a : TailArgs} {c : Cluster} {u : Units}
    {s : Scale} (p : Pos g c) (l : Lin c) (hg : Good c) (hds : DescribesLinear g S c) (hc : CachesOf g S c) (hu : c.units = some u)
    (hs : unitScale g c u = some s) {T : ℝ} (hT : a.tfinal = some T) (hT0 : T ≠ 0) (hn : 2 ≤ a.no) (hb : 2 ≤ a.nt) (hr : a.nt < a.ntail)
    (hnum : a.num = false) (hdm : a.dmax = none) (hd : a.doFull = false) (ht : a.toPath = false) :
    ∃ (path : List PathPt) (near : ℕ → ℕ) (off : ℕ → ℝ) (B : List (ℝ × ℝ)) (mid : List ℝ) (ks : List ℕ) (rows : List PathPt) (c' : Cluster),
      tailPathSky g flow sky a c = .ok (rows, c') ∧ IsSkyOrbit g flow (orbitStart s a.fromCentre c) T a.no path ∧
      NearOnSky g S.stars path near off ∧ RoamBins a T B mid ∧
      (∀ k, k ∈ ks ↔ k < B.length ∧ 0 < numOver S.stars.length (fun i => InBin B k (path[near i]!).t)) ∧
      List.Forall₂ (fun k row => row.t * s.time = mid[k]! * 1000 ∧
        row.p = sky (kpcRow (meanStar S.stars (fun i => InBin B k (path[near i]!).t)))) ks rows := by
  obtain ⟨path, near, off, B, mid, ks, rows, c', h1, -, -, -, h5, h6, h7, -, h9, h10⟩ := skyTail_run (sky := sky) (Q := fun _ B mid => RoamBins a T B mid) hf
    (LinInv.mk' p l hg hds hc) hu hs hT hn hd ht (fun _ h1 h2 => roamBins_ok hT0 hn hb hr hnum h1 h2)
  have e : ∀ k, InTailBin path near (a.dmax.map (· * s.len / 1000)) (fun i => |off i|) B k = fun i => InBin B k (path[near i]!).t := by
    intro k
    funext i
    simp [InTailBin, hdm]
  simp only [e] at h9 h10
  exact ⟨path, near, off, B, mid, ks, rows, c', h1, h5, h6, h7, h9, h10⟩

/-! ### witnesses -/

/-- `C173_sky_tail`: the demo cluster in kpc, default bins. -/
example : ∃ rows c', tailPathSky demoG freeFlow (fun _ => ⟨0, 0, 0, 0, 0, 0⟩) {} demoSkyKpc = .ok (rows, c') ∧ rows ≠ [] ∧ c'.units = some .kpckms := by
  obtain ⟨_, _, _, _, _, _, rows, c', h1, -, h2, -, h3, -⟩ := C173_sky_tail (sky := fun _ => ⟨0, 0, 0, 0, 0, 0⟩) freeFlow_isFlow (a := {}) demoSkyKpc_pos demoSkyKpc_lin
    demoSkyKpc_good demoSkyKpc_desc demoSkyKpc_caches rfl rfl rfl (by norm_num) (by norm_num) (by norm_num) (by norm_num) rfl rfl rfl
  exact ⟨rows, c', h1, h3, h2⟩

/-- `C173_match`. -/
example : ∃ rows c1 out c', tailPathSky demoG freeFlow (fun _ => ⟨0, 0, 0, 0, 0, 0⟩) {} demoSkyKpc = .ok (rows, c1) ∧
    tailPathMatchSky demoG freeFlow (fun _ => ⟨0, 0, 0, 0, 0, 0⟩) {} none demoSkyKpc = .ok (out, c') ∧ out.length = 2 := by
  obtain ⟨rows, c1, i0, out, c', h1, -, -, h2, -, -, -, h3, -⟩ := C173_match (sky := fun _ => ⟨0, 0, 0, 0, 0, 0⟩) freeFlow_isFlow (a := {}) demoSkyKpc_pos demoSkyKpc_lin
    demoSkyKpc_good demoSkyKpc_desc demoSkyKpc_caches rfl rfl rfl rfl (by norm_num) (by norm_num) (by norm_num) (by norm_num) rfl rfl rfl
  exact ⟨rows, c1, out, c', h1, h2, h3⟩

/-- `C174_dmax_violated`. -/
example : ∃ rows c', tailPathSky demoG freeFlow (fun p => p) { dmax := some 0.05 } demoSkyKpc = .ok (rows, c') := by
  obtain ⟨_, _, _, _, _, _, rows, c', h1, -⟩ := C174_dmax_violated (sky := fun p => p) freeFlow_isFlow (a := { dmax := some 0.05 }) demoSkyKpc_pos demoSkyKpc_lin
    demoSkyKpc_good demoSkyKpc_desc demoSkyKpc_caches rfl rfl rfl (by norm_num) (by norm_num) (by norm_num) (by norm_num) rfl rfl rfl
  exact ⟨rows, c', h1⟩

/-- `C174_roaming_violated`. -/
example : ∃ rows c', tailPathSky demoG freeFlow (fun p => p) { ntail := 1000 } demoSkyKpc = .ok (rows, c') := by
  obtain ⟨_, _, _, _, _, _, rows, c', h1, -⟩ := C174_roaming_violated (sky := fun p => p) freeFlow_isFlow (a := { ntail := 1000 }) demoSkyKpc_pos demoSkyKpc_lin
    demoSkyKpc_good demoSkyKpc_desc demoSkyKpc_caches rfl rfl rfl (by norm_num) (by norm_num) (by norm_num) (by norm_num) rfl rfl rfl rfl
  exact ⟨rows, c', h1⟩

/-- Two stars at one place, at the Galactic centre. -/
def demoSkyOne : Cluster := { demoSkyKpc with st := [⟨8, 0, 0.02, 0, 220, 0⟩, ⟨8, 0, 0.02, 0, 220, 0⟩] }

/-- `C174_observer_violated`. -/
example : ∃ rows c', tailPathSky demoG freeFlow (fun _ => ⟨1, 2, 3, 0, 0, 0⟩) {} demoSkyOne = .ok (rows, c') ∧ rows ≠ [] ∧
    ∀ row ∈ rows, row.p ≠ demoG.toSky (kpcRow ⟨8000, 0, 20, 0, 220, 0⟩) := by
  obtain ⟨rows, c', h1, h2, h3⟩ := C174_observer_violated (S := { demoGalaxyTruth with stars := [⟨8000, 0, 20, 0, 220, 0⟩, ⟨8000, 0, 20, 0, 220, 0⟩] })
    (sky := fun _ => ⟨1, 2, 3, 0, 0, 0⟩) freeFlow_isFlow (a := {}) (c := demoSkyOne) (P := ⟨8000, 0, 20, 0, 220, 0⟩)
    ⟨demo_pos.rbar, demo_pos.vbar, demo_pos.zmbar, demo_pos.tbar, demo_pos.ro, demo_pos.vo, demo_pos.time, demo_pos.mass, demo_pos.vel⟩
    ⟨⟨_, rfl, trivial⟩, ⟨_, rfl, trivial⟩⟩ ⟨by simp [demoSkyOne], by simp [demoSkyOne, demoSkyKpc, demo], demo_good.mass, demo_good.ro, demo_good.rpo⟩
    (by
      unfold DescribesLinear world phys
      simp only [demoSkyOne, demoSkyKpc, demo, unitScale, demoGalaxyTruth]
      refine ⟨_, rfl, ?_, ?_, ?_, ?_, by simp⟩ <;> norm_num [galRows, galactocentric, phAdd, Scale.ph])
    ⟨fun _ h => by simp [demoSkyOne, demoSkyKpc, demo] at h, fun _ h => by simp [demoSkyOne, demoSkyKpc, demo] at h⟩
    rfl rfl rfl (by norm_num) (by norm_num) (by norm_num) (by norm_num) rfl rfl rfl (by simp) (by simp [demoG, kpcRow])
  exact ⟨rows, c', h1, h2, fun row hr => h3 row hr _ (by simp)⟩

end

end CT
