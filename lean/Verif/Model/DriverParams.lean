import Mathlib.Data.List.Basic

/-! How a `Driver` chooses the operators of a calculation, `/repo/ccpy/drivers/driver.py`: the parameters kept between runs
and the operators that each `run_…` function builds or takes over from an earlier run. -/

namespace Ccpy.DriverParams

/-- What is known about the shape of an operator object: class, order or particle/hole numbers, and `p_orders`. -/
inductive Built where
  | cluster (order : ℕ) (pOrders : List (Option ℕ)) (activeOrders : List (Option ℕ))
  | spinFlip (order : ℕ)
  | fock (particles holes : ℕ) (pOrders : List (Option ℕ))
  deriving DecidableEq, Repr

/-- The attributes of a `Driver` that the choice depends on.  `order … holes`, `activeOrders`, `numActive`, `pOrders` are the
dictionary `operator_params`, lines 100-105; `attrParticles`, `attrHoles` are the attributes `num_particles`, `num_holes`,
which do not exist before `set_operator_params` creates them (`none`).  The attributes `order` and `Ms`, which
`set_operator_params` also sets, are read nowhere in the class.  `T`, `R`, `L` are lines 106-108. -/
structure State where
  order : ℕ
  particles : ℕ
  holes : ℕ
  activeOrders : List (Option ℕ)
  numActive : Option (List ℕ)
  pOrders : List (Option ℕ)
  attrParticles : Option ℕ
  attrHoles : Option ℕ
  T : Option Built
  R : ℕ → Option Built
  L : ℕ → Option Built

/-- `Driver.__init__`, `/repo/ccpy/drivers/driver.py:68-134`. -/
def init : State := ⟨0, 0, 0, [none], none, [none], none, none, none, fun _ => none, fun _ => none⟩

/-- `Driver.set_operator_params`, `/repo/ccpy/drivers/driver.py:140-224`; `m` is `method.lower()`. -/
def setOperatorParams (m : String) (s : State) : State :=
  if m ∈ ["ccs"] then { s with order := 1, particles := 1, holes := 1 }
  else if m ∈ ["cc2", "ccd", "ccsd", "ccsd_chol", "accd", "accsd", "eomcc2", "eomccsd", "eomccsd_chol", "left_ccsd",
      "left_ccsd_chol", "eccc2", "cc3", "eomcc3", "lrccsd"] then { s with order := 2, particles := 2, holes := 2 }
  else if m ∈ ["ccsdt", "ccsdt_chol", "eomccsdt", "left_ccsdt", "cc4", "cc4-old", "lrccsdt"] then
    { s with order := 3, particles := 3, holes := 3 }
  else if m ∈ ["ccsdtq"] then { s with order := 4, particles := 4, holes := 4 }
  else if m ∈ ["ccsdt_p", "ccsdt_p_chol", "accsdt_p", "eomccsdt_p", "left_ccsdt_p", "lrccsdt_p"] then
    { s with order := 3, particles := 3, holes := 3, pOrders := [some 3] }
  else if m ∈ ["ipeom2", "left_ipeom2"] then { s with attrParticles := some 1, attrHoles := some 2 }
  else if m ∈ ["ipeom3", "left_ipeom3", "ipeomccsdta", "ipeomccsdt"] then { s with attrParticles := some 2, attrHoles := some 3 }
  else if m ∈ ["ipeom3_p", "left_ipeom3_p", "ipeomccsdt_p"] then
    { s with order := 3, particles := 2, holes := 3, pOrders := [some 2] }
  else if m ∈ ["eaeom2", "left_eaeom2"] then { s with attrParticles := some 2, attrHoles := some 1 }
  else if m ∈ ["eaeom3", "left_eaeom3", "eaeomccsdta", "eaeomccsdt"] then { s with attrParticles := some 3, attrHoles := some 2 }
  else if m ∈ ["eaeom3_p", "left_eaeom3_p"] then { s with order := 3, particles := 3, holes := 2, pOrders := [some 2] }
  else if m ∈ ["dipeom3", "left_dipeom3"] then { s with attrParticles := some 1, attrHoles := some 3 }
  else if m ∈ ["dipeom4", "left_dipeom4", "dipeomccsdt", "dipeomccsdta"] then
    { s with attrParticles := some 2, attrHoles := some 4 }
  else if m ∈ ["deaeom2", "left_deaeom2"] then { s with attrParticles := some 2, attrHoles := some 0 }
  else if m ∈ ["deaeom3", "left_deaeom3"] then { s with attrParticles := some 3, attrHoles := some 1 }
  else if m ∈ ["deaeom4", "left_deaeom4"] then { s with attrParticles := some 4, attrHoles := some 2 }
  else if m ∈ ["deaeom4_p", "left_deaeom4_p"] then { s with order := 4, particles := 4, holes := 2, pOrders := [some 2] }
  else s  -- "sfeomccsd" and "sfeomcc23" set only the attributes `order` and `Ms`; other names set nothing

/-- `MODULES` of `/repo/ccpy/cc/__init__.py`, `/repo/ccpy/eomcc/__init__.py`, `/repo/ccpy/left/__init__.py` and
`/repo/ccpy/lrcc/__init__.py`. -/
def ccModules : List String := ["cc2", "ccd", "ccsd", "ccsd_chol", "accd", "accsd", "cc3", "ccsdt", "ccsdt_chol", "cc4-old",
  "cc4", "ccsdtq", "ccsdt_p", "ccsdt_p_chol", "accsdt_p", "eccc2"]
def eomModules : List String := ["eomcc2", "eomccsd", "eomccsd_chol", "eomcc3", "eomccsdt", "eomccsdt_p", "ipeom2", "ipeom3",
  "ipeom3_p", "ipeomccsdta", "ipeomccsdt_p", "ipeomccsdt", "eaeom2", "eaeom3", "eaeom3_p", "eaeomccsdt", "sfeomccsd",
  "sfeomcc23", "deaeom2", "deaeom3", "deaeom4", "deaeom4_p", "dipeom3", "dipeom4", "dipeomccsdt", "dipeomccsdta", "teaeom2"]
def leftModules : List String := ["left_ccsd", "left_ccsd_chol", "left_ccsdt", "left_ccsdt_p", "left_ipeom2", "left_ipeom3",
  "left_ipeom3_p", "left_eaeom2", "left_eaeom3", "left_eaeom3_p"]
def lrModules : List String := ["lrccsd"]

/-- The `run_…` functions that build operators, in the order of the file. -/
inductive Command where
  | cc | ccp | lrcc | eomccp | eomccMultiroot | eomcc | sfeomcc | deaeomcc | deaeomccp | dipeomcc | ipeomcc | ipeomccp
  | ipeomccpMultiroot | eaeomcc | eaeomccp | eaeomccpMultiroot | leftcc | lefteomcc | leftccp | lefteomccp | leftipeomcc
  | lefteaeomcc | lefteaeomccp | leftipeomccp | eccc
  deriving DecidableEq, Repr

/-- Lines 265, 327, 406, 507, 598, 693, 796, 857, 919, 986, 1048, 1131, 1201, 1269, 1333, 1403, 1470, 1533, 1595, 1693, 1774,
1835, 1895, 1970, 2050. -/
def Command.modules : Command → List String
  | .cc | .ccp | .eccc => ccModules
  | .lrcc => lrModules
  | .leftcc | .lefteomcc | .leftccp | .lefteomccp | .leftipeomcc | .lefteaeomcc | .lefteaeomccp | .leftipeomccp => leftModules
  | _ => eomModules

/-- The constructor call, `none` for the `AttributeError` of a missing attribute.  Cluster operators without and with `P`
space: lines 288-296, 363-376, 428-436, 539-566, 634-664, 714-728, 1491-1511, 1555-1569, 1656-1671, 1729-1742, 2067-2082; spin
flip: 815-829; with the attributes: 875-890, 1004-1019, 1066-1081, 1287-1302, 1795-1803, 1856-1864; with the dictionary:
945-961, 1157-1173, 1228-1244, 1359-1375, 1430-1446, 1928-1941, 2003-2016. -/
def Command.build (c : Command) (s : State) : Option Built :=
  match c with
  | .cc | .lrcc | .eomcc | .leftcc | .lefteomcc | .eccc => some (.cluster s.order [none] s.activeOrders)
  | .ccp | .eomccp | .eomccMultiroot | .leftccp | .lefteomccp => some (.cluster s.order s.pOrders [none])
  | .sfeomcc => some (.spinFlip s.order)
  | .deaeomcc | .dipeomcc | .ipeomcc | .eaeomcc | .leftipeomcc | .lefteaeomcc =>
    match s.attrParticles, s.attrHoles with
    | some p, some h => some (.fock p h [none])
    | _, _ => none
  | .deaeomccp | .ipeomccp | .ipeomccpMultiroot | .eaeomccp | .eaeomccpMultiroot | .lefteaeomccp | .leftipeomccp =>
    some (.fock s.particles s.holes s.pOrders)

/-- Where the vector that the solver works on is kept.  `run_lrcc` builds a new one each time. -/
inductive Slot where
  | T | R | L | fresh
  deriving DecidableEq

def Command.slot : Command → Slot
  | .cc | .ccp | .eccc => .T
  | .lrcc => .fresh
  | .leftcc | .lefteomcc | .leftccp | .lefteomccp | .leftipeomcc | .lefteaeomcc | .lefteaeomccp | .leftipeomccp => .L
  | _ => .R

/-- The vector kept for state `i`. -/
def State.kept (s : State) (i : ℕ) : Slot → Option Built
  | .T => s.T
  | .R => s.R i
  | .L => s.L i
  | .fresh => none

def State.keep (s : State) (i : ℕ) (b : Built) : Slot → State
  | .T => { s with T := some b }
  | .R => { s with R := fun j => if j = i then some b else s.R j }
  | .L => { s with L := fun j => if j = i then some b else s.L j }
  | .fresh => s

inductive Outcome where
  | notImplemented
  | attributeError
  /-- The operator the solver iterates on and the operator that holds the residual. -/
  | ran (vector residual : Built)
  deriving DecidableEq, Repr

/-- A `run_…` call for state `i`, up to the call of the solver.  Assertions on `flag_hbar` and on the closed-shell option, the
guess vectors and the lengths of the `P` space (C11) are left out; a kept vector with a `P` space is extended, which does not
change its order. -/
def run (c : Command) (m : String) (i : ℕ) (s : State) : State × Outcome :=
  if m ∈ c.modules then
    let s := setOperatorParams m s
    match c.build s with
    | none => (s, .attributeError)
    | some b =>
      match s.kept i c.slot with
      | none => (s.keep i b c.slot, .ran b b)
      | some old => (s, .ran old b)
  else (s, .notImplemented)

/-- The steps of a session.  `cct3` is `run_ccp3("cct3", num_active=n)`, lines 2143-2148 (and 2172-2177 for `cct3_chol`), the
only place outside `set_operator_params` that changes `operator_params`. -/
inductive Step where
  | run (c : Command) (m : String) (i : ℕ)
  | cct3 (n : ℕ)

def step (s : State) : Step → State
  | .run c m i => (run c m i s).1
  | .cct3 n => if n = 1 ∨ n = 2 ∨ n = 3 then { s with numActive := some [n] } else s

/-- A session on a new driver. -/
def session (h : List Step) : State := h.foldl step init

end Ccpy.DriverParams
