import Mathlib.Algebra.Module.LinearMap.Defs
import Mathlib.Algebra.BigOperators.Group.Finset.Basic
import Mathlib.Algebra.Module.BigOperators
import Mathlib.Algebra.Order.Ring.Rat

/-! The Davidson solvers, `/repo/ccpy/drivers/solvers.py:92-230` and `360-471`.

A flattened excitation operator is an element of a module `V`.  The numerical steps whose result does not matter for the
bookkeeping (eigenvalue routine and choice of the root, preconditioner, orthogonalisation, `qr`) are arbitrary functions. -/

namespace Ccpy.Davidson

open Finset

/-- What the solvers are given, and the numerical routines they call. -/
structure Tools (V : Type) [AddCommGroup V] [Module ℚ V] where
  /-- `HR`: the product with the matrix to be diagonalised. -/
  HR : V → V
  /-- `np.dot` of two vectors. -/
  dot : V → V → ℚ
  /-- `np.linalg.norm`. -/
  norm : V → ℚ
  /-- `np.linalg.eig` of the leading block of `G` and the choice of a column: eigenvalue and coefficients.  The arguments are
  the size of the block, the elements, the number of the root and its current energy. -/
  eig : ℕ → (ℕ → ℕ → ℚ) → ℕ → ℚ → ℚ × (ℕ → ℚ)
  /-- `update_r` and the orthogonalisation against the listed number of basis vectors. -/
  correct : V → ℚ → ℕ → (ℕ → V) → V
  /-- `np.linalg.qr` of the restart block. -/
  qr : (ℕ → V) → ℕ → V
  ampTol : ℚ
  energyTol : ℚ

variable {V : Type} [AddCommGroup V] [Module ℚ V]

/-- `np.dot(X[:n, :].T, alpha)`. -/
def combine (n : ℕ) (X : ℕ → V) (alpha : ℕ → ℚ) : V := ∑ p ∈ range n, alpha p • X p

/-! ### One root -/

structure State (V : Type) where
  B : ℕ → V
  sigma : ℕ → V
  G : ℕ → ℕ → ℚ
  size : ℕ
  omega : ℚ
  /-- The columns of `restart_block`. -/
  recent : ℕ → V
  r : Option V
  converged : Bool

/-- `A[k, :] = x`. -/
def setRow (A : ℕ → V) (k : ℕ) (x : V) : ℕ → V := fun p => if p = k then x else A p

/-- Lines 128-141. -/
def start (t : Tools V) (b₀ : V) (omega : ℚ) : State V :=
  ⟨setRow (fun _ => 0) 0 b₀, setRow (fun _ => 0) 0 (t.HR b₀), fun _ _ => 0, 1, omega, fun _ => 0, none, false⟩

/-- Lines 147-149: the last row, then the last column of the projected matrix are computed. -/
def project (t : Tools V) (s : State V) : State V :=
  let G := fun p q => if p = s.size - 1 ∧ q < s.size then t.dot (s.B (s.size - 1)) (s.sigma q) else s.G p q
  let G := fun p q => if q = s.size - 1 ∧ p < s.size then t.dot (s.sigma (s.size - 1)) (s.B p) else G p q
  { s with G := G }

/-- The rest of an iteration, lines 150-221, for the block `project` has completed.  `nrest` is the number of restart vectors
(the program has `nrest = 1`, `noffset = 0`).  The vector that is tested for convergence is the last component. -/
def advance (t : Tools V) (maxSize nrest niter : ℕ) (s : State V) : State V × V :=
  let x := t.eig s.size s.G 0 s.omega
  let r := combine s.size s.B x.2
  let recent := setRow s.recent (niter % nrest) r
  let residual := combine s.size s.sigma x.2 - x.1 • r
  if t.norm residual < t.ampTol ∧ |x.1 - s.omega| < t.energyTol then
    (⟨s.B, s.sigma, s.G, s.size, x.1, recent, some r, true⟩, residual)
  else
    let q := t.correct residual x.1 s.size s.B
    if s.size < maxSize then
      (⟨setRow s.B s.size q, setRow s.sigma s.size (t.HR q), s.G, s.size + 1, x.1, recent, some r, false⟩, residual)
    else
      let block := t.qr recent
      (⟨fun p => if p < nrest then block p else s.B p, fun p => if p < nrest then t.HR (block p) else s.sigma p, s.G, nrest, x.1,
        block, some r, false⟩, residual)

/-- The loop, `niter` from `k` on with `n` iterations left. -/
def loop (t : Tools V) (maxSize nrest : ℕ) : ℕ → ℕ → State V → State V
  | 0, _, s => s
  | n + 1, k, s =>
    let s' := (advance t maxSize nrest k (project t s)).1
    if s'.converged then s' else loop t maxSize nrest n (k + 1) s'

/-- `eomcc_davidson`, `/repo/ccpy/drivers/solvers.py:92-230`: the vector, the energy and the flag; `none` for the
UnboundLocalError when there is no iteration, and for the IndexError of an empty subspace. -/
def davidson (t : Tools V) (maxSize maxit : ℕ) (b₀ : V) (omega : ℚ) : Option (V × ℚ × Bool) :=
  if maxSize = 0 then none
  else
    let s := loop t maxSize 1 maxit 0 (start t b₀ omega)
    s.r.map fun r => (r, s.omega, s.converged)

/-! ### Several roots -/

structure Block (V : Type) where
  B : ℕ → V
  sigma : ℕ → V
  G : ℕ → ℕ → ℚ
  size : ℕ
  added : ℕ
  omega : ℕ → ℚ
  R : ℕ → V
  converged : ℕ → Bool

/-- Lines 379-397: the start vectors of the roots `0, …, nroot - 1`. -/
def startBlock (t : Tools V) (nroot : ℕ) (b₀ : ℕ → V) (omega : ℕ → ℚ) : Block V :=
  ⟨fun p => if p < nroot then b₀ p else 0, fun p => if p < nroot then t.HR (b₀ p) else 0, fun _ _ => 0, nroot, nroot, omega, b₀,
    fun _ => false⟩

/-- Lines 406-410: rows and columns `size - added, …, size - 1`. -/
def projectBlock (t : Tools V) (s : Block V) : Block V :=
  { s with G := fun p q =>
      if s.size - s.added ≤ q ∧ q < s.size ∧ p < s.size then t.dot (s.sigma q) (s.B p)
      else if s.size - s.added ≤ p ∧ p < s.size ∧ q < s.size then t.dot (s.B p) (s.sigma q)
      else s.G p q }

/-- Lines 417-461 for root `j`; `omegaOld` is the copy of the energies of line 404.  `none` for the IndexError of a column
outside the arrays. -/
def root (t : Tools V) (maxSize : ℕ) (omegaOld : ℕ → ℚ) (s : Block V) (j : ℕ) : Option (Block V) :=
  if s.converged j then some s
  else
    let x := t.eig s.size s.G j (omegaOld j)
    let r := combine s.size s.B x.2
    let residual := combine s.size s.sigma x.2 - x.1 • r
    let s := { s with omega := fun i => if i = j then x.1 else s.omega i }
    if t.norm residual < t.ampTol ∧ |x.1 - omegaOld j| < t.energyTol then
      some { s with converged := fun i => if i = j then true else s.converged i, R := fun i => if i = j then r else s.R i }
    else
      let q := t.correct residual x.1 (s.size + s.added) s.B
      if s.size + s.added < maxSize then
        some ⟨setRow s.B (s.size + s.added) q, setRow s.sigma (s.size + s.added) (t.HR q), s.G, s.size, s.added + 1, s.omega,
          fun i => if i = j then r else s.R i, s.converged⟩
      else none

/-- One iteration, lines 402-469, except for the exit. -/
def sweep (t : Tools V) (maxSize nroot : ℕ) (s : Block V) : Option (Block V) :=
  let s := projectBlock t s
  (List.range nroot).foldlM (root t maxSize s.omega) { s with added := 0 }

def allConverged (nroot : ℕ) (s : Block V) : Bool := (List.range nroot).all s.converged

def loopBlock (t : Tools V) (maxSize nroot : ℕ) : ℕ → Block V → Option (Block V)
  | 0, s => some s
  | n + 1, s => do
    let s ← sweep t maxSize nroot s
    if allConverged nroot s then some s else loopBlock t maxSize nroot n { s with size := s.size + s.added }

/-- `eomcc_block_davidson`, `/repo/ccpy/drivers/solvers.py:360-471`; the roots are numbered by their position in
`state_index`. -/
def blockDavidson (t : Tools V) (nroot maxit : ℕ) (b₀ : ℕ → V) (omega : ℕ → ℚ) : Option (Block V) :=
  if nroot ≤ nroot * maxit then loopBlock t (nroot * maxit) nroot maxit (startBlock t nroot b₀ omega) else none

end Ccpy.Davidson
