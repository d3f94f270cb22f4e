import Mathlib.Data.Nat.Notation

/-! Independent description of ordered excitations: which particle and hole indices an n-fold
excitation of given spins may have, how many of them are active, and their symmetry. -/

namespace Ccpy.Spec

inductive Spin where
  | α
  | β
deriving DecidableEq, Repr

/-- The orbital spaces: occupied and unoccupied orbitals of each spin, how many of them are active
(the highest occupied and the lowest unoccupied ones), and the irrep number of every correlated
spatial orbital. -/
structure Space where
  occ : Spin → ℕ
  unocc : Spin → ℕ
  actOcc : Spin → ℕ
  actUnocc : Spin → ℕ
  irrep : ℕ → ℕ

/-- Indices (counted from 0) of orbitals of the given spins: each is below the number of orbitals
of its spin, and indices of equal spin increase from left to right. -/
structure OrderedIndices (n : Spin → ℕ) (spins : List Spin) (xs : List ℕ) : Prop where
  length_eq : xs.length = spins.length
  bound : ∀ q ∈ spins.zip xs, q.2 < n q.1
  sorted : (spins.zip xs).Pairwise fun p q => p.1 = q.1 → p.2 < q.2

/-- How many holes are among the `actOcc` highest occupied orbitals of their spin. -/
def activeHoles (S : Space) (spins : List Spin) (hs : List ℕ) : ℕ :=
  (spins.zip hs).countP fun q => decide (S.occ q.1 - S.actOcc q.1 ≤ q.2)

/-- How many particles are among the `actUnocc` lowest unoccupied orbitals of their spin. -/
def activeParticles (S : Space) (spins : List Spin) (ps : List ℕ) : ℕ :=
  (spins.zip ps).countP fun q => decide (q.2 < S.actUnocc q.1)

/-- Product (bitwise exclusive or) of the irreps of all orbitals an excitation touches; a particle
index of spin σ counts from the first orbital unoccupied in spin σ. -/
def excitationIrrep (S : Space) (pSpins : List Spin) (ps hs : List ℕ) : ℕ :=
  (hs.map S.irrep ++ (pSpins.zip ps).map fun q => S.irrep (q.2 + S.occ q.1)).foldl Nat.xor 0

/-- The state reached from a reference of irrep `ref` has the target irrep (any if none is
given). -/
def HasSymmetry (S : Space) (ref : ℕ) (target : Option ℕ) (pSpins : List Spin)
    (ps hs : List ℕ) : Prop :=
  ∀ t, target = some t → Nat.xor ref (excitationIrrep S pSpins ps hs) = t

/-- A list row: the particle indices then the hole indices, counted from 1. -/
def row (ps hs : List ℕ) : List ℕ := (ps ++ hs).map (· + 1)

/-- A row that stands for an ordered excitation with the given spins. -/
def IsExcitationRow (S : Space) (pSpins hSpins : List Spin) (r : List ℕ) : Prop :=
  ∃ ps hs, r = row ps hs ∧ OrderedIndices S.unocc pSpins ps ∧ OrderedIndices S.occ hSpins hs

end Ccpy.Spec
