/-
Specification vocabulary for C159: the same calculation asked for on another grid of temperatures and pressures.
-/
import Verif.QHA.Spec

namespace Verif.QHA.Spec
open Verif.Py

variable {nt np nt' np' : ℕ}

/-- The same settings, asked for at other temperatures and pressures. -/
def onGrid (s : Settings nt np) (T : Fin nt' → ℝ) (p : Fin np' → ℝ) : Settings nt' np' :=
  { scheme := s.scheme, minimization := s.minimization, eos := s.eos, edeg := s.edeg, fdeg := s.fdeg, eunit := s.eunit,
    vunit := s.vunit, funit := s.funit, tunit := s.tunit, punit := s.punit, kieffer := s.kieffer, temperature := T,
    pressure := p }

/-- The same settings, asked for at a single temperature and a single pressure. -/
def alone (s : Settings nt np) (t p : ℝ) : Settings 1 1 := onGrid s (fun _ => t) fun _ => p

/-- Two tables hold the same volume, bulk modulus and its derivative, energies, entropy and isochoric heat capacity at a
node of the one and a node of the other. -/
structure SameNode (r : Results nt np) (i : Fin nt) (j : Fin np) (r' : Results nt' np') (i' : Fin nt') (j' : Fin np') :
    Prop where
  VT : r.VT i j = r'.VT i' j'
  KT : r.KT i j = r'.KT i' j'
  Kp : r.Kp i j = r'.Kp i' j'
  Uzp : r.Uzp i j = r'.Uzp i' j'
  Uth : r.Uth i j = r'.Uth i' j'
  Utot : r.Utot i j = r'.Utot i' j'
  S : r.S i j = r'.S i' j'
  Cv : r.Cv i j = r'.Cv i' j'
  Fvib : r.Fvib i j = r'.Fvib i' j'
  F : r.F i j = r'.F i' j'
  H : r.H i j = r'.H i' j'
  G : r.G i j = r'.G i' j'

/-- Two tables hold the same thermal expansion and the quantities derived from it. -/
structure SameExpansion (r : Results nt np) (i : Fin nt) (j : Fin np) (r' : Results nt' np') (i' : Fin nt')
    (j' : Fin np') : Prop where
  alphaV : r.alphaV i j = r'.alphaV i' j'
  CpmCv : r.CpmCv i j = r'.CpmCv i' j'
  Cp : r.Cp i j = r'.Cp i' j'
  KS : r.KS i j = r'.KS i' j'
  gruneisen : r.gruneisen i j = r'.gruneisen i' j'

end Verif.QHA.Spec
