/- Specification vocabulary for the relation of velocity dispersion and mass. -/
import Verif.Model.Eta
import Verif.Spec.MassFunction

namespace CT

noncomputable section

/-- The dispersions of the speeds of the selected stars (in the frame of the cluster) in mass bins `P`, and a line fitted to their
logarithms. -/
structure IsEtaFunction (a : EtaArgs) (e : PStars) (indx : Option ℕ) (mem : Mem) (c : Cluster) (P : List (ℝ × ℝ)) (o : EtaOut) :
    Prop where
  contig : ∃ lo hi, Contig lo hi P ∧ (∀ i < c.st.length, MassSelected a.sub e indx mem c i → lo ≤ c.m[i]! ∧ c.m[i]! ≤ hi) ∧
    (∃ i < c.st.length, MassSelected a.sub e indx mem c i ∧ c.m[i]! = lo) ∧
    ∃ i < c.st.length, MassSelected a.sub e indx mem c i ∧ c.m[i]! = hi
  count : P.length = a.nmass
  ranks : EqualNumberBins c.st.length (MassSelected a.sub e indx mem c) (fun i => c.m[i]!) a.nmass P
  lens : o.mean.length = a.nmass ∧ o.sig.length = a.nmass
  mean : ∀ k < a.nmass, 0 < numOver c.st.length (InMassBin a.sub e indx mem c P k) ∧
    o.mean[k]! = meanOver c.st.length (InMassBin a.sub e indx mem c P k) (fun i => c.m[i]!)
  sig : ∀ k < a.nmass, o.sig[k]! = stdOver c.st.length (InMassBin a.sub e indx mem c P k) (fun i => speed0 a.sub.projected c.st[i]!)

/-- The filter restricted to the shell between two radii. -/
def EtaArgs.shell (a : EtaArgs) (r0 r1 : ℝ) : EtaArgs := { a with sub := { a.sub with rmin := some r0, rmax := some r1 } }

end

end CT
