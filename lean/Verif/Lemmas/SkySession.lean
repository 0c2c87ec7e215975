/- Every analysis function returns the cluster it was given, in linear units or on the sky. -/
import Verif.Lemmas.Session
import Verif.Props.SkyPath
import Verif.Model.SkyTail

namespace CT

noncomputable section

/-- `c` describes `S`, in linear units or on the sky, and its radii belong to its rows. -/
def SRel (g : Galpy) (S : Truth) (c : Cluster) : Prop := Inv g S c ∧ Fresh c

/-- The same with the labels of `c0`. -/
def SBack (g : Galpy) (S : Truth) (c0 c : Cluster) : Prop := SRel g S c ∧ c.units = c0.units ∧ c.origin = c0.origin

theorem SRel.ofCall {g : Galpy} {S : Truth} {c : Cluster} (h : SRel g S c) (k : Call) (hf : ∀ c', k.exec g c = .ok c' → Fresh c') :
    Ok (k.exec g c) (SRel g S) := by
  intro c' e
  obtain ⟨x, e', i⟩ := call_inv h.1 k
  rw [e] at e'
  cases e'
  exact ⟨i, hf _ e⟩

theorem SRel.toPckms {g : Galpy} {S : Truth} {c : Cluster} (h : SRel g S c) : Ok (CT.toPckms g true c) (SRel g S) :=
  h.ofCall (.op (.toPckms true)) fun _ => toPckms_fresh h.2
theorem SRel.toKpckms {g : Galpy} {S : Truth} {c : Cluster} (h : SRel g S c) : Ok (CT.toKpckms g true c) (SRel g S) :=
  h.ofCall (.op (.toKpckms true)) fun _ => toKpckms_fresh h.2
theorem SRel.toGalpy {g : Galpy} {S : Truth} {c : Cluster} (h : SRel g S c) : Ok (CT.toGalpy g c) (SRel g S) :=
  h.ofCall (.op .toGalpy) fun _ => toGalpy_fresh h.2
theorem SRel.toCentre {g : Galpy} {S : Truth} {c : Cluster} {s : Bool} {cm : Option CentreMethod} (h : SRel g S c) :
    Ok (CT.toCentre s cm c) (SRel g S) :=
  h.ofCall (.op (.toCentre s cm)) fun _ => toCentre_fresh h.2
theorem SRel.toCluster {g : Galpy} {S : Truth} {c : Cluster} {s : Bool} {cm : Option CentreMethod} (h : SRel g S c) :
    Ok (CT.toCluster s cm c) (SRel g S) :=
  h.ofCall (.op (.toCluster s cm)) fun _ => toCluster_fresh h.2
theorem SRel.toGalaxy {g : Galpy} {S : Truth} {c : Cluster} {s : Bool} (h : SRel g S c) : Ok (CT.toGalaxy g s c) (SRel g S) :=
  h.ofCall (.op (.toGalaxy s)) fun _ => toGalaxy_fresh h.2

theorem toRadec_fresh {g : Galpy} {s : Bool} {cm : Option CentreMethod} {c c' : Cluster} (f : Fresh c) (h : toRadec g s cm true c = .ok c') :
    Fresh c' := by
  unfold toRadec at h
  simp only [bind, pure, Except.pure, if_true] at h
  repeat' first | split at h | (with_reducible replace h := bind_ok h; obtain ⟨_, -, h⟩ := h)
  all_goals first | exact analyze_fresh h | (cases h; exact f)

theorem toSky_fresh {g : Galpy} {s : Bool} {cm : Option CentreMethod} {c c' : Cluster} (f : Fresh c) (h : toSky g s cm c = .ok c') :
    Fresh c' := by
  unfold toSky toSkyRadec at h
  simp only [bind, pure, Except.pure] at h
  repeat' first | split at h | (with_reducible replace h := bind_ok h; obtain ⟨_, -, h⟩ := h)
  all_goals first | exact analyze_fresh h | (cases h; exact f)

theorem SRel.toRadec {g : Galpy} {S : Truth} {c : Cluster} {s : Bool} {cm : Option CentreMethod} (h : SRel g S c) :
    Ok (CT.toRadec g s cm true c) (SRel g S) :=
  h.ofCall (.toRadec s cm true) fun _ => toRadec_fresh h.2
theorem SRel.toSky {g : Galpy} {S : Truth} {c : Cluster} {s : Bool} {cm : Option CentreMethod} (h : SRel g S c) :
    Ok (CT.toSky g s cm c) (SRel g S) :=
  h.ofCall (.toSky s cm) fun _ => toSky_fresh h.2

theorem SRel.sort {g : Galpy} {S : Truth} {c : Cluster} (h : SRel g S c) : SRel g S (sortstars true c.d.r c.d.rpro c) := by
  obtain ⟨i, f⟩ := h
  have hcore := sortstars_core true c.d.r c.d.rpro c
  obtain ⟨k1, k2, k3, k4, k5, k6, k7, k8, k9, k10, k11, k12⟩ := core_fields hcore
  constructor
  · rcases i with i | i
    · exact .inl (i.of_world ⟨by rw [k1]; exact i.lin.1, by rw [k2]; exact i.lin.2⟩
        (sortstars_good i.good f.r.length_eq.symm f.rpro.length_eq.symm) k12 (world_core hcore))
    · exact .inr (i.of_keep ((SkyKeep.refl c).core hcore) (sortstars_good i.good f.r.length_eq.symm f.rpro.length_eq.symm)
        (by rw [k2]; exact i.state.origin) (fun k => by rw [k5]; exact i.state.sky (k2.symm.trans k)))
  · have hd := sortstars_d true c.d.r c.d.rpro c
    exact ⟨by rw [hd, k1]; exact f.units, by rw [hd, k2]; exact f.origin, by rw [hd, k5]; exact f.r, by rw [hd, k5]; exact f.rpro,
      by rw [hd, k5]; exact f.v, by rw [hd, k5]; exact f.vpro, by rw [hd, k4]; exact f.mtot, by rw [hd, k4]; exact f.mmean,
      by rw [hd, k5]; exact f.rmean, by rw [hd, k5]; exact f.rmeanpro, by rw [hd]; exact f.rmax, by rw [hd]; exact f.rmaxpro⟩

theorem returnCluster_fresh {g : Galpy} {s : Option Units × Option Origin × Option (List ℕ) × Option Origin} {b : Bool} {cm : Option CentreMethod}
    {c c' : Cluster} (h : returnCluster g s b cm c = .ok c') : Fresh c' := by
  unfold returnCluster at h
  simp only [bind] at h
  repeat' first | split at h | (with_reducible replace h := bind_ok h; obtain ⟨_, -, h⟩ := h)
  all_goals exact analyze_fresh h

theorem sret_back {g : Galpy} {S : Truth} {c0 c : Cluster} {s : Bool} {cm : Option CentreMethod} (d : SRel g S c0) (h : SRel g S c) :
    Ok (returnCluster g (saveCluster c0) s cm c) (SBack g S c0) := by
  intro c' e
  have f := returnCluster_fresh e
  rcases d.1 with i | i
  · obtain ⟨x, e', k, u, o⟩ := return_lin i h.1 s cm
    rw [e] at e'; cases e'
    exact ⟨⟨.inl k, f⟩, u, o⟩
  · obtain ⟨x, e', k, o, -⟩ := return_sky i h.1 s cm
    rw [e] at e'; cases e'
    exact ⟨⟨.inr k, f⟩, k.state.units.trans i.state.units.symm, o⟩

end

end CT
