/- Vocabulary for stellar evolution data: rows. -/
import Verif.Model.Evolution

namespace CT

noncomputable section

/-- Evolution data of a star; epoch and spin are 0 when nobody has given them. -/
structure StarEvo where
  kw : ℝ
  logl : ℝ
  logr : ℝ
  ep : ℝ := 0
  ospin : ℝ := 0

/-- Evolution data of a binary. -/
structure PairEvo where
  id1 : ℤ
  id2 : ℤ
  kw1 : ℝ
  kw2 : ℝ
  kcm : ℝ
  ecc : ℝ
  pb : ℝ
  semi : ℝ
  m1 : ℝ
  m2 : ℝ
  logl1 : ℝ
  logl2 : ℝ
  logr1 : ℝ
  logr2 : ℝ
  ep1 : ℝ
  ep2 : ℝ
  ospin1 : ℝ
  ospin2 : ℝ

/-- The columns of a cluster say about star `i` and binary `j` what row `i` of `S` and row `j` of `B` say, and nothing more; epochs and
spins of binaries are present (`spun`) or absent. -/
structure EvoTab.Holds (S : List StarEvo) (B : List PairEvo) (spun : Bool) (e : EvoTab) : Prop where
  kw : e.kw = S.map StarEvo.kw
  logl : e.logl = S.map StarEvo.logl
  logr : e.logr = S.map StarEvo.logr
  ep : e.ep = S.map (fun s => some s.ep)
  ospin : e.ospin = S.map (fun s => some s.ospin)
  lum : e.lum = S.map (fun s => (10 : ℝ) ^ s.logl)
  ltot : e.ltot = (S.map (fun s => (10 : ℝ) ^ s.logl)).sum
  id1 : e.id1 = B.map PairEvo.id1
  id2 : e.id2 = B.map PairEvo.id2
  kw1 : e.kw1 = B.map PairEvo.kw1
  kw2 : e.kw2 = B.map PairEvo.kw2
  kcm : e.kcm = B.map PairEvo.kcm
  ecc : e.ecc = B.map PairEvo.ecc
  pb : e.pb = B.map PairEvo.pb
  semi : e.semi = B.map PairEvo.semi
  m1 : e.m1 = B.map PairEvo.m1
  m2 : e.m2 = B.map PairEvo.m2
  logl1 : e.logl1 = B.map PairEvo.logl1
  logl2 : e.logl2 = B.map PairEvo.logl2
  logr1 : e.logr1 = B.map PairEvo.logr1
  logr2 : e.logr2 = B.map PairEvo.logr2
  ep1 : e.ep1 = if spun then B.map PairEvo.ep1 else []
  ep2 : e.ep2 = if spun then B.map PairEvo.ep2 else []
  ospin1 : e.ospin1 = if spun then B.map PairEvo.ospin1 else []
  ospin2 : e.ospin2 = if spun then B.map PairEvo.ospin2 else []
  eb : e.eb = B.map (fun b => 0.5 * b.m1 * b.m2 / b.semi)
  nb : e.nb = B.length

/-- A call in terms of rows: stars with or without epochs and spins, or binaries. -/
inductive EvoRows
  | stars (S : List StarEvo) (ep ospin : Bool)
  | pairs (B : List PairEvo)

/-- The call the user writes: the columns of the rows; no `arg`. -/
def EvoRows.call (spun : Bool) : EvoRows → EvoCall
  | .stars S ep ospin =>
    .sse { kw := S.map StarEvo.kw, logl := S.map StarEvo.logl, logr := S.map StarEvo.logr
           ep := if ep then some (S.map StarEvo.ep) else none
           ospin := if ospin then some (S.map StarEvo.ospin) else none }
  | .pairs B =>
    .bse { id1 := B.map PairEvo.id1, id2 := B.map PairEvo.id2, kw1 := B.map PairEvo.kw1, kw2 := B.map PairEvo.kw2, kcm := B.map PairEvo.kcm
           ecc := B.map PairEvo.ecc, pb := B.map PairEvo.pb, semi := B.map PairEvo.semi, m1 := B.map PairEvo.m1, m2 := B.map PairEvo.m2
           logl1 := B.map PairEvo.logl1, logl2 := B.map PairEvo.logl2, logr1 := B.map PairEvo.logr1, logr2 := B.map PairEvo.logr2
           ep1 := if spun then some (B.map PairEvo.ep1) else none
           ep2 := if spun then some (B.map PairEvo.ep2) else none
           ospin1 := if spun then some (B.map PairEvo.ospin1) else none
           ospin2 := if spun then some (B.map PairEvo.ospin2) else none }

/-- The stars of a call: what is not given is 0. -/
def EvoRows.stars' : EvoRows → List StarEvo
  | .stars S ep ospin => S.map (fun s => { s with ep := if ep then s.ep else 0, ospin := if ospin then s.ospin else 0 })
  | .pairs _ => []

def EvoRows.pairs' : EvoRows → List PairEvo
  | .stars .. => []
  | .pairs B => B

end

end CT
