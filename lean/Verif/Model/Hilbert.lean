import Mathlib.Algebra.Order.Ring.Rat
import Mathlib.Data.List.Sort
import Mathlib.Algebra.BigOperators.Group.List.Basic
import Mathlib.Algebra.BigOperators.Group.Finset.Basic

/-! Determinants and excitations, `/repo/ccpy/models/hilbert.py:5-247`.

Point-group labels are not modelled here. -/

namespace Ccpy.Hilbert

inductive Err
  | assertion
  | value
  | index
  deriving DecidableEq, Repr

/-- `Determinant.spin_to_spatial`, `/repo/ccpy/models/hilbert.py:211-215`, and the same method of `Excitation`, 116-120. -/
def spatial (x : ℕ) : ℕ := if x % 2 = 1 then x / 2 + 1 else x / 2

/-- The fields of a determinant: spin-orbital numbers from one, alpha and beta in turn, and the occupied orbitals from zero. -/
structure Det where
  occupation : List ℕ
  occA : List ℕ
  occB : List ℕ
  deriving DecidableEq, Repr

/-- Python's `sorted` on integers. -/
def sorted (l : List ℕ) : List ℕ := l.insertionSort (· ≤ ·)

/-- `Determinant.__init__`, `/repo/ccpy/models/hilbert.py:124-144`, without the unoccupied orbitals and the symmetry; `na`, `nb`
are `system.noccupied_alpha`, `system.noccupied_beta`, and `system.nelectrons` is their sum. -/
def determinant (na nb : ℕ) (a b : List ℕ) : Except Err Det :=
  if a.length = na ∧ b.length = nb then
    .ok ⟨sorted (a.map (fun i => 2 * i - 1) ++ b.map (fun i => 2 * i)), sorted (a.map (· - 1)), sorted (b.map (· - 1))⟩
  else .error .assertion

/-- `Excitation`: orbitals from zero and the phase, `/repo/ccpy/models/hilbert.py:7-17`. -/
structure Excitation where
  toA : List ℕ
  fromA : List ℕ
  toB : List ℕ
  fromB : List ℕ
  phase : ℚ
  deriving DecidableEq, Repr

/-- `Excitation.__init__`, `/repo/ccpy/models/hilbert.py:7-17`, for orbital numbers from one. -/
def excitation (pA hA pB hB : List ℕ) (phase : ℚ) : Except Err Excitation :=
  if pA.length = hA.length ∧ pB.length = hB.length then
    .ok ⟨pA.map (· - 1), hA.map (· - 1), pB.map (· - 1), hB.map (· - 1), phase⟩
  else .error .assertion

/-- One of the two loops of `Determinant.get_excitation`, `/repo/ccpy/models/hilbert.py:180-190` and `192-202`: the spin orbitals
of `l` that are not in `other`, and the contribution to `nperm`, with `ka` and `kb` orbitals found so far.  `idx[0]` is the position
of the orbital. -/
def scan (d : Det) (other : List ℕ) : List ℕ → ℕ → ℕ → ℕ → List ℕ × ℕ × ℕ × ℕ
  | [], nperm, ka, kb => ([], nperm, ka, kb)
  | p :: l, nperm, ka, kb =>
    if p ∈ other then scan d other l nperm ka kb
    else if p % 2 = 0 then
      let x := scan d other l (nperm + (d.occB.length - d.occB.idxOf (spatial p - 1) + 1 + kb)) ka (kb + 1)
      (p :: x.1, x.2)
    else
      let x := scan d other l (nperm + (d.occA.length - d.occA.idxOf (spatial p - 1) + 1 + ka)) (ka + 1) kb
      (p :: x.1, x.2)

/-- `Determinant.get_excitation`, `/repo/ccpy/models/hilbert.py:161-209`. -/
def getExcitation (d₁ d₂ : Det) : Except Err Excitation :=
  let x := scan d₁ d₂.occupation d₁.occupation 0 0 0
  let y := scan d₂ d₁.occupation d₂.occupation x.2.1 0 0
  if x.2.2.1 = y.2.2.1 ∧ x.2.2.2 = y.2.2.2 then
    excitation ((x.1.filter (· % 2 = 1)).map spatial) ((y.1.filter (· % 2 = 1)).map spatial)
      ((x.1.filter (· % 2 = 0)).map spatial) ((y.1.filter (· % 2 = 0)).map spatial) ((-1) ^ y.2.1)
  else .error .assertion

/-- The integrals `slater_eval` is given. -/
structure Arrays where
  (a b : ℕ → ℕ → ℚ)
  (aa ab bb : ℕ → ℕ → ℕ → ℕ → ℚ)

/-- `np.einsum("ii->", np.squeeze(X))` for `X` of shape `(1, n, 1, n)`: with `n = 1` the axes to be traced are squeezed away, and
`einsum` raises ValueError. -/
def squeezedTrace (occ : List ℕ) (f : ℕ → ℚ) : Except Err ℚ := if occ.length = 1 then .error .value else .ok (occ.map f).sum

/-- `slater_eval`, `/repo/ccpy/models/hilbert.py:217-247`. -/
def slaterEval (H : Arrays) (d₁ d₂ : Det) : Except Err ℚ := do
  let x ← getExcitation d₁ d₂
  let val : ℚ ←
    match x.toA, x.fromA, x.toB, x.fromB with
    | [p, q], [r, s], [], [] => pure (H.aa p q r s)
    | [p], [r], [q], [s] => pure (H.ab p q r s)
    | [], [], [p, q], [r, s] => pure (H.bb p q r s)
    | [p], [r], [], [] => do
      let u ← squeezedTrace d₂.occA fun k => H.aa p k r k
      let v ← squeezedTrace d₂.occB fun k => H.ab p k r k
      pure (H.a p r + u + v)
    | [], [], [p], [r] => do
      let u ← squeezedTrace d₂.occB fun k => H.bb p k r k
      let v ← squeezedTrace d₂.occA fun k => H.ab k p k r
      pure (H.b p r + u + v)
    | [], [], [], [] =>
      pure ((d₂.occA.map fun i => H.a i i).sum + (d₂.occB.map fun i => H.b i i).sum
        + (1 / 2) * (d₂.occA.map fun i => (d₂.occA.map fun j => H.aa i j i j).sum).sum
        + (d₂.occA.map fun i => (d₂.occB.map fun j => H.ab i j i j).sum).sum
        + (1 / 2) * (d₂.occB.map fun i => (d₂.occB.map fun j => H.bb i j i j).sum).sum)
    | _, _, _, _ => pure 0
  pure (val * x.phase)

/-- One word of `Excitation.bitstring` after `get_bitstring`, `/repo/ccpy/models/hilbert.py:43-58`: the sum of the powers for the
orbitals of the list that belong to word `w`.  An orbital outside the `words` words raises IndexError. -/
def bitstring (words len : ℕ) (l : List ℕ) : Except Err (List ℕ) :=
  l.foldlM (fun b x => if x / len < b.length then .ok (b.set (x / len) (b.getD (x / len) 0 + 2 ^ (x % len))) else .error .index)
    (List.replicate words 0)

/-- `self.N_int`, line 22. -/
def words (norb len : ℕ) : ℕ := (norb - 1) / len + 1

/-- One of the two loops of `Excitation.get_determinant`, `/repo/ccpy/models/hilbert.py:102-112`: `occupation.index` raises
ValueError for an unoccupied orbital. -/
def replace (occ : List ℕ) : List (ℕ × ℕ) → Except Err (List ℕ)
  | [] => .ok occ
  | (h, p) :: l => if h ∈ occ then replace (occ.set (occ.idxOf h) p) l else .error .value

/-- `Excitation.get_determinant` with the default reference, `/repo/ccpy/models/hilbert.py:90-114`. -/
def getDeterminant (na nb : ℕ) (x : Excitation) : Except Err Det := do
  let occ := List.range' 1 (na + nb)
  let occ ← replace occ ((x.fromA.zip x.toA).map fun (i, a) => (2 * (i + 1) - 1, 2 * (a + 1 + na) - 1))
  let occ ← replace occ ((x.fromB.zip x.toB).map fun (i, a) => (2 * (i + 1), 2 * (a + 1 + nb)))
  determinant na nb ((occ.filter (· % 2 = 1)).map spatial) ((occ.filter (· % 2 = 0)).map spatial)

end Ccpy.Hilbert
