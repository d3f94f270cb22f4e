import Verif.Model.Diis
import Mathlib.Algebra.Order.Group.Abs
import Mathlib.Algebra.Order.Field.Basic

/-! Model of the Jacobi/DIIS iterations of ccpy/drivers/solvers.py: `eccc_jacobi` (473-548), `cc_jacobi`
(550-638), `left_cc_jacobi` (641-747) and `lrcc_jacobi` (749-831). The four functions differ in the
update, the energy, and the scaling step of `left_cc_jacobi`; these are parameters here.

Simplifications: printing and timing are left out; the updates are functions of the vector and the
residual passed to them (the Hamiltonian, the options and the excitation lists are fixed during a run);
`records` is a ghost log of the iterations. -/

namespace Ccpy.Jacobi

open Ccpy.Diis (Slots push)

/-- What distinguishes the four functions. -/
structure Method (V D K : Type) where
  /-- `update_t` or `update_l`. -/
  update : V → D → V × D
  /-- `get_cc_energy`, `get_lcc_energy + omega`, `get_lrcc_energy`. -/
  energy : V → D → K
  /-- `np.linalg.norm` of the flattened residual. -/
  norm : D → K
  /-- `diis_engine.extrapolate()`. -/
  extrapolate : Slots V D → V
  /-- Lines 734-736, for `left_cc_jacobi` with an excited state: the overlap and the scaled vector. -/
  scale : Option (V → K × V)

/-- The options read by the loop. -/
structure Options (K : Type) where
  maximumIterations : ℕ
  ampConvergence : K
  energyConvergence : K
  diisSize : ℤ

inductive Err where
  /-- `np.zeros` with a negative dimension. -/
  | valueError
  /-- `iteration % 0`. -/
  | zeroDivision
  deriving DecidableEq, Repr

/-- One iteration, as observed from outside. -/
structure Record (V D K : Type) where
  tIn : V
  dIn : D
  tOut : V
  dOut : D
  energy : K
  energyOld : K
  /-- The DIIS lists when `extrapolate` is called. -/
  buffer : Option (Slots V D)

/-- The variables of the loop. -/
structure State (V D K : Type) where
  t : V
  d : D
  energy : K
  energyOld : K
  lr : K
  slots : Slots V D

/-- The returned values (`lr` for `left_cc_jacobi` only). -/
structure Final (V K : Type) where
  t : V
  energy : K
  lr : K
  converged : Bool

variable {V D K : Type} [Field K] [LinearOrder K]

/-- The exit condition, ccpy/drivers/solvers.py:597-601. -/
def exitTest (m : Method V D K) (o : Options K) (d : D) (energy energyOld : K) : Bool :=
  m.norm d < o.ampConvergence && |energy - energyOld| < o.energyConvergence

/-- Saving the vectors, ccpy/drivers/solvers.py:618-619. -/
def save (o : Options K) (slots : Slots V D) (t : V) (d : D) (n : ℕ) : Except Err (Slots V D) :=
  if o.diisSize = -1 then .ok slots
  else match push o.diisSize.toNat slots t d n with
    | some slots => .ok slots
    | none => .error .zeroDivision

/-- The lists read by the extrapolation, if there is one, ccpy/drivers/solvers.py:622. -/
def bufferAt (o : Options K) (slots : Slots V D) (n : ℕ) : Option (Slots V D) :=
  if o.diisSize ≤ n ∧ o.diisSize ≠ -1 then some slots else none

/-- The extrapolation, line 624, and the scaling of `left_cc_jacobi`, lines 734-736. -/
def finish (m : Method V D K) (buffer : Option (Slots V D)) (t : V) (lr : K) : K × V :=
  let t' := match buffer with
    | some b => m.extrapolate b
    | none => t
  match m.scale with
  | some f => f t'
  | none => (lr, t')

/-- The loop, ccpy/drivers/solvers.py:574-632; `fuel` iterations remain, `n` is `niter`. -/
def loop (m : Method V D K) (o : Options K) :
    ℕ → ℕ → State V D K → Except Err (List (Record V D K) × Final V K)
  | 0, _, s => .ok ([], ⟨s.t, s.energy, s.lr, false⟩)
  | fuel + 1, n, s =>
    let (t, d) := m.update s.t s.d
    let energy := m.energy t d
    if exitTest m o d energy s.energyOld then
      .ok ([⟨s.t, s.d, t, d, energy, s.energyOld, none⟩], ⟨t, energy, s.lr, true⟩)
    else do
      let slots ← save o s.slots t d n
      let buffer := bufferAt o slots n
      let next := finish m buffer t s.lr
      let rest ← loop m o fuel (n + 1) ⟨next.2, d, energy, energy, next.1, slots⟩
      .ok (⟨s.t, s.d, t, d, energy, s.energyOld, buffer⟩ :: rest.1, rest.2)

/-- A whole call, ccpy/drivers/solvers.py:550-638. -/
def run (m : Method V D K) (o : Options K) (t : V) (d : D) :
    Except Err (List (Record V D K) × Final V K) :=
  if o.diisSize < -1 then .error .valueError
  else loop m o o.maximumIterations 0 ⟨t, d, 0, m.energy t d, 0, fun _ => none⟩

end Ccpy.Jacobi
