import Verif.Spec.Antisymmetry

/-! Specification: exchange symmetry of excitation tensors with given spins, and the tensor that a
list of ordered excitations with amplitudes stands for. -/

namespace Ccpy.Spec
open Equiv

/-- The permutations of particle and hole positions that only exchange equal spins. -/
def SpinExchange {m n : ℕ} (sp : Fin m → Bool) (sh : Fin n → Bool) :
    Set (Perm (Fin m) × Perm (Fin n)) :=
  {g | (∀ i, sp (g.1 i) = sp i) ∧ ∀ i, sh (g.2 i) = sh i}

/-- Indices of equal spin increase strictly. -/
def OrderedWithin {m : ℕ} (sp : Fin m → Bool) (P : Fin m → ℕ) : Prop :=
  ∀ i j, i < j → sp i = sp j → P i < P j

/-- `T` is the antisymmetric tensor with the listed amplitudes and zero outside the list. -/
structure Expands {m n : ℕ} {R : Type*} [AddCommGroup R] (sp : Fin m → Bool) (sh : Fin n → Bool)
    (entries : List ((Fin m → ℕ) × (Fin n → ℕ) × R))
    (T : (Fin m → ℕ) × (Fin n → ℕ) → R) : Prop where
  stored : ∀ e ∈ entries, T (e.1, e.2.1) = e.2.2
  antisym : AntisymUnder (SpinExchange sp sh) T
  zero : ∀ P H, (∀ e ∈ entries, ∀ g ∈ SpinExchange sp sh, (P, H) ≠ (e.1 ∘ g.1, e.2.1 ∘ g.2)) →
    T (P, H) = 0

/-- The 1-based row of an excitation list that denotes the 0-based excitation `(P, H)`. -/
def rowOf {m n : ℕ} (P : Fin m → ℕ) (H : Fin n → ℕ) : List ℕ :=
  (List.ofFn P).map (· + 1) ++ (List.ofFn H).map (· + 1)

/-- A duplicate-free list of ordered excitations inside orbital spaces of the given sizes
(`nv` virtual and `no` occupied orbitals of each spin; `false` is alpha). -/
structure ValidExcitations {m n : ℕ} {R : Type*} (sp : Fin m → Bool) (sh : Fin n → Bool)
    (nv no : Bool → ℕ) (entries : List ((Fin m → ℕ) × (Fin n → ℕ) × R)) : Prop where
  ordered : ∀ e ∈ entries, OrderedWithin sp e.1 ∧ OrderedWithin sh e.2.1
  inRange : ∀ e ∈ entries, (∀ i, e.1 i < nv (sp i)) ∧ ∀ i, e.2.1 i < no (sh i)
  nodup : (entries.map fun e => (e.1, e.2.1)).Nodup

/-- The list of rows handed to the code: the 1-based rows, or the single row of ones that marks an
empty list. -/
def rowsOf {m n : ℕ} {R : Type*} (entries : List ((Fin m → ℕ) × (Fin n → ℕ) × R)) : List (List ℕ) :=
  match entries with
  | [] => [List.replicate (m + n) 1]
  | _ => entries.map fun e => rowOf e.1 e.2.1

end Ccpy.Spec
