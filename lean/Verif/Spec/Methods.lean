import Verif.Model.DriverParams

/-! Specification: the operators that belong to each method.  A method that keeps `n`-body amplitudes needs a cluster operator
of order `n`; methods with a `P` space keep the highest rank as a list (`CC(P)`: rank 3; ionised and attached methods count
the position 2).  Electron-attached and ionised methods are described by the numbers of particles and holes. -/

namespace Ccpy.Spec
open Ccpy.DriverParams

/-- All amplitudes up to `n`-body, stored in full. -/
def full (n : ℕ) : Built := .cluster n [none] [none]
/-- As `full`, with the rank `p` stored as a list. -/
def withP (n p : ℕ) : Built := .cluster n [some p] [none]
def changed (p h : ℕ) : Built := .fock p h [none]
def changedP (p h k : ℕ) : Built := .fock p h [some k]

/-- Command, methods, operator. -/
def methodTable : List (Command × List String × Built) :=
  [(.cc, ["cc2", "ccd", "ccsd", "ccsd_chol", "accd", "accsd", "cc3"], full 2),
   (.cc, ["ccsdt", "ccsdt_chol", "cc4", "cc4-old"], full 3),
   (.cc, ["ccsdtq"], full 4),
   (.eccc, ["eccc2"], full 2),
   (.ccp, ["ccsdt_p", "ccsdt_p_chol", "accsdt_p"], withP 3 3),
   (.lrcc, ["lrccsd"], full 2),
   (.eomcc, ["eomcc2", "eomccsd", "eomccsd_chol", "eomcc3"], full 2),
   (.eomcc, ["eomccsdt"], full 3),
   (.eomccp, ["eomccsdt_p"], withP 3 3),
   (.eomccMultiroot, ["eomccsdt_p"], withP 3 3),
   (.sfeomcc, ["sfeomccsd"], .spinFlip 2),
   (.sfeomcc, ["sfeomcc23"], .spinFlip 3),
   (.deaeomcc, ["deaeom2"], changed 2 0),
   (.deaeomcc, ["deaeom3"], changed 3 1),
   (.deaeomcc, ["deaeom4"], changed 4 2),
   (.deaeomccp, ["deaeom4_p"], changedP 4 2 2),
   (.dipeomcc, ["dipeom3"], changed 1 3),
   (.dipeomcc, ["dipeom4", "dipeomccsdt", "dipeomccsdta"], changed 2 4),
   (.ipeomcc, ["ipeom2"], changed 1 2),
   (.ipeomcc, ["ipeom3", "ipeomccsdta", "ipeomccsdt"], changed 2 3),
   (.ipeomccp, ["ipeom3_p", "ipeomccsdt_p"], changedP 2 3 2),
   (.ipeomccpMultiroot, ["ipeom3_p", "ipeomccsdt_p"], changedP 2 3 2),
   (.eaeomcc, ["eaeom2"], changed 2 1),
   (.eaeomcc, ["eaeom3", "eaeomccsdt"], changed 3 2),
   (.eaeomccp, ["eaeom3_p"], changedP 3 2 2),
   (.eaeomccpMultiroot, ["eaeom3_p"], changedP 3 2 2),
   (.leftcc, ["left_ccsd", "left_ccsd_chol"], full 2),
   (.leftcc, ["left_ccsdt"], full 3),
   (.lefteomcc, ["left_ccsd", "left_ccsd_chol"], full 2),
   (.lefteomcc, ["left_ccsdt"], full 3),
   (.leftccp, ["left_ccsdt_p"], withP 3 3),
   (.lefteomccp, ["left_ccsdt_p"], withP 3 3),
   (.leftipeomcc, ["left_ipeom2"], changed 1 2),
   (.leftipeomcc, ["left_ipeom3"], changed 2 3),
   (.leftipeomccp, ["left_ipeom3_p"], changedP 2 3 2),
   (.lefteaeomcc, ["left_eaeom2"], changed 2 1),
   (.lefteaeomcc, ["left_eaeom3"], changed 3 2),
   (.lefteaeomccp, ["left_eaeom3_p"], changedP 3 2 2)]

/-- The operator that belongs to a method run with a command. -/
def Belongs (c : Command) (m : String) (b : Built) : Prop := ∃ e ∈ methodTable, e.1 = c ∧ m ∈ e.2.1 ∧ e.2.2 = b

end Ccpy.Spec
