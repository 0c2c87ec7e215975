/- The common prologue of the analysis functions: move to the cluster frame, strip AMUSE units. -/
import Verif.Lemmas.Return
import Verif.Spec.Frame
import Verif.Model.Energy

namespace CT

noncomputable section

set_option linter.unusedSimpArgs false

/-- What the prologue leaves. -/
structure Framed (g : Galpy) (c c2 : Cluster) : Prop where
  good : Good c2
  fresh : Fresh c2
  lin : Lin c2
  world : world g c2 = world g c
  rest : c2.rest = c.rest
  m : c2.m = c.m
  st : c2.st = inner c
  grav : getGrav c2.units = getGrav c.units
  units : c2.units = if c.units = some .amuse then some .pckms else c.units
  origin : c2.origin = if c.origin = some .galaxy then some .cluster else c.origin

theorem analyze_same {s p : Bool} {c c' : Cluster} (h : analyze s c p = .ok c') :
    c'.m = c.m ∧ c'.st = c.st ∧ c'.units = c.units ∧ c'.origin = c.origin ∧ c'.c = c.c ∧ c'.gc = c.gc := by
  obtain ⟨k1, k2, k3, k4, k5, k6, k7, -⟩ := core_fields (analyze_core h)
  exact ⟨k4, k5, k1, k2, k6, k7⟩

theorem toCluster_galaxy_rows {s : Bool} {c c' : Cluster} (ho : c.origin = some .galaxy) (hu : c.units ≠ some .radec)
    (h : toCluster s none c = .ok c') : c'.st = inner c := by
  simp only [toCluster, ho, bind, setMethod, hu, if_false] at h
  simp only [ne_eq, reduceCtorEq, not_true, not_false_eq_true, if_true, if_false, Except.bind] at h
  rw [(analyze_same h).2.1]
  simp only [inner, ho, if_true]
  rfl

theorem toPckms_amuse {g : Galpy} {c c' : Cluster} (hu : c.units = some .amuse) (h : toPckms g true c = .ok c') :
    c'.m = c.m ∧ c'.st = c.st ∧ c'.units = some .pckms ∧ c'.origin = c.origin ∧ Fresh c' := by
  simp only [toPckms, hu, bind, fromAmuse, reduceCtorEq, or_self, if_false, if_true, Except.bind, pckmsStep,
    Option.some.injEq] at h
  have := analyze_same h
  exact ⟨this.1, this.2.1, this.2.2.1, this.2.2.2.1, analyze_fresh h⟩

theorem prologue {g : Galpy} {c : Cluster} (p : Pos g c) (l : Lin c) (hg : Good c) (f : Fresh c) :
    ∃ c1 c2, (if c.origin ≠ some .cluster ∧ c.origin ≠ some .centre then toCluster false none c else .ok c) = .ok c1 ∧
      (if c1.units = some .amuse then toPckms g true c1 else .ok c1) = .ok c2 ∧ Framed g c c2 := by
  obtain ⟨⟨u, hu, hul⟩, ⟨o, ho, hol⟩⟩ := l
  have hur : c.units ≠ some .radec := by rw [hu]; rintro h; cases h; exact hul
  obtain ⟨c1, h1, g1, f1, w1, r1, m1, s1, u1, o1⟩ : ∃ c1,
      (if c.origin ≠ some .cluster ∧ c.origin ≠ some .centre then toCluster false none c else .ok c) = .ok c1 ∧
      Good c1 ∧ Fresh c1 ∧ world g c1 = world g c ∧ c1.rest = c.rest ∧ c1.m = c.m ∧ c1.st = inner c ∧
      c1.units = c.units ∧ c1.origin = if c.origin = some .galaxy then some .cluster else c.origin := by
    by_cases hgal : o = .galaxy
    · subst hgal
      obtain ⟨c1, h1, g1⟩ := toCluster_total (s := false) (cm := none) hur hg
      have os := toCluster_ostep ho hol hur h1
      refine ⟨c1, by rw [if_pos (by rw [ho]; simp)]; exact h1, g1, toCluster_fresh f h1, os.world (by rw [ho]; simp),
        os.rest, os.m, toCluster_galaxy_rows ho hur h1, os.units, by rw [os.origin, ho, if_pos rfl]⟩
    · refine ⟨c, ?_, hg, f, rfl, rfl, rfl, ?_, rfl, ?_⟩
      · rw [if_neg]
        cases o <;> simp [Origin.linear] at hol hgal <;> simp [ho]
      · unfold inner; rw [if_neg (by rw [ho]; simpa using hgal)]
      · rw [if_neg (by rw [ho]; simpa using hgal)]
  have p1 := p.of_rest r1
  have ol1 : ∃ o1, c1.origin = some o1 ∧ o1.linear := by
    rw [o1, ho]; split
    · exact ⟨_, rfl, trivial⟩
    · exact ⟨_, rfl, hol⟩
  by_cases ha : c1.units = some .amuse
  · obtain ⟨c2, h2, g2⟩ := toPckms_total (g := g) (a := true) ha trivial p1 g1
    have us := toPckms_ustep ha trivial h2
    obtain ⟨k1, k2, k3, k4, k5⟩ := toPckms_amuse ha h2
    refine ⟨c1, c2, h1, by rw [if_pos ha]; exact h2, g2, k5, ⟨⟨_, k3, trivial⟩, by rw [k4]; exact ol1⟩,
      us.world.trans w1, us.rest.trans r1, k1.trans m1, k2.trans s1, ?_, ?_, k4.trans o1⟩
    · rw [k3, ← u1, ha]; rfl
    · rw [k3, if_pos (by rw [← u1, ha])]
  · refine ⟨c1, c1, h1, by rw [if_neg ha], g1, f1, ⟨⟨u, by rw [u1, hu], hul⟩, ol1⟩, w1, r1, m1, s1, by rw [u1], ?_, o1⟩
    rw [if_neg (by rw [← u1]; exact ha), u1]

end

end CT
