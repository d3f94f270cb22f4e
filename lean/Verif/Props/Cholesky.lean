import Verif.Model.Cholesky
import Verif.Props.Integrals

/-! The Cholesky Hamiltonian agrees with the exact one built from the same integrals (C30). -/

namespace Ccpy.Integrals
open Ccpy.Spec Ccpy.Operators

variable {K : Type*} [Field K]

/-- The two-electron integrals that the Cholesky vectors stand for: `⟨pq|rs⟩ = Σ_x R x p r · R x q s`. -/
def cholIntegrals (nx : ℕ) (R : ℕ → ℕ → ℕ → K) (p q r s : ℕ) : K :=
  ∑ x ∈ Finset.range nx, R x p r * R x q s

theorem cholIntegrals_exchange (nx : ℕ) (R : ℕ → ℕ → ℕ → K) (p q r s : ℕ) :
    cholIntegrals nx R p q r s = cholIntegrals nx R q p s r :=
  Finset.sum_congr rfl fun _ _ => mul_comm _ _

/-- The Fock matrices agree. -/
theorem C30_fock (s : Orbitals) (nx : ℕ) (e1 : ℕ → ℕ → K) (R : ℕ → ℕ → ℕ → K) (p q : ℕ) :
    (buildFChol s nx e1 R).a p q = (buildF s ⟨e1, e1⟩ (buildV (cholIntegrals nx R))).a p q ∧
    (buildFChol s nx e1 R).b p q = (buildF s ⟨e1, e1⟩ (buildV (cholIntegrals nx R))).b p q := by
  simp only [buildFChol, buildF, buildV, cholIntegrals, Finset.sum_sub_distrib]
  constructor
  · rw [Finset.sum_comm (s := Finset.range nx), Finset.sum_comm (s := Finset.range nx),
      Finset.sum_comm (s := Finset.range nx)]
    ring
  · rw [Finset.sum_comm (s := Finset.range nx), Finset.sum_comm (s := Finset.range nx),
      Finset.sum_comm (s := Finset.range nx)]
    ring

/-- The reference energies agree. -/
theorem C30_energy (s : Orbitals) (nx : ℕ) (e1 : ℕ → ℕ → K) (R : ℕ → ℕ → ℕ → K) :
    calcHfEnergyChol s nx e1 R = calcHfEnergy s e1 (cholIntegrals nx R) := by
  unfold calcHfEnergyChol calcHfEnergy meanFieldEnergy cholIntegrals
  simp only [Finset.sum_sub_distrib, Nat.add_comm s.nfrozen, one_mul]

/-- The blocks that a Cholesky Hamiltonian has. -/
def cholBlockNames : List (Name × Name) :=
  [(['a'], ['o', 'o']), (['a'], ['o', 'v']), (['a'], ['v', 'o']), (['a'], ['v', 'v']),
   (['b'], ['o', 'o']), (['b'], ['o', 'v']), (['b'], ['v', 'o']), (['b'], ['v', 'v'])] ++
  ([['o', 'o', 'o', 'o'], ['o', 'o', 'o', 'v'], ['v', 'o', 'o', 'o'], ['v', 'o', 'o', 'v'], ['o', 'o', 'v', 'v'],
    ['v', 'v', 'o', 'o']].flatMap fun attr => [(['a', 'a'], attr), (['b', 'b'], attr)]) ++
  [['o', 'o', 'o', 'o'], ['o', 'o', 'o', 'v'], ['o', 'o', 'v', 'o'], ['v', 'o', 'o', 'o'], ['o', 'v', 'o', 'o'],
    ['v', 'o', 'o', 'v'], ['o', 'v', 'v', 'o'], ['v', 'o', 'v', 'o'], ['o', 'v', 'o', 'v'], ['o', 'o', 'v', 'v'],
    ['v', 'v', 'o', 'o']].map fun attr => (['a', 'b'], attr)

/-- Every one-body block of the Cholesky Hamiltonian. -/
theorem C30_onebody {s : Orbitals} (no : Bool) (nx : ℕ)
    (e1 : ℕ → ℕ → K) (R : ℕ → ℕ → ℕ → K) {σ : Char} (hσ : σ ∈ ['a', 'b']) {k0 k1 : Char} (hk : IsKinds 2 [k0, k1]) :
    ∃ t, (getCholeskyHamiltonian s no nx e1 R).block [σ] [k0, k1] = some t ∧
      t.shape = [kindSize (occ s σ) s.norb k0, kindSize (occ s σ) s.norb k1] ∧
      ∀ i0 i1 : ℕ, t.entry [i0, i1] = oneBodyOperator s (restricted e1 (cholIntegrals nx R)) no
        (spinOrbital s σ k0 i0) (spinOrbital s σ k1 i1) := by
  have hop : ∀ p q, (if no then buildFChol s nx e1 R else ⟨e1, e1⟩ : OneBody K).a p q =
      oneBodyOperator s (restricted e1 (cholIntegrals nx R)) no (p, false) (q, false) ∧
      (if no then buildFChol s nx e1 R else ⟨e1, e1⟩ : OneBody K).b p q =
      oneBodyOperator s (restricted e1 (cholIntegrals nx R)) no (p, true) (q, true) := by
    intro p q
    cases no
    · simp [oneBodyOperator, Integrals.onebody, restricted]
    · have h := C30_fock s nx e1 R p q
      have h' := C29_fock s e1 (cholIntegrals nx R) (cholIntegrals_exchange nx R) p q
      exact ⟨h.1.trans h'.1, h.2.trans h'.2⟩
  obtain ⟨-, hkk⟩ := hk
  have h0 := hkk k0 (by simp)
  have h1 := hkk k1 (by simp)
  simp only [List.mem_cons, List.not_mem_nil, or_false] at hσ
  rcases hσ with rfl | rfl <;> rcases h0 with rfl | rfl <;> rcases h1 with rfl | rfl
  all_goals
    refine ⟨_, rfl, rfl, ?_⟩
    intro i0 i1
    first
    | exact (hop _ _).1
    | exact (hop _ _).2

/-- Contents of one two-body block of the Cholesky Hamiltonian. -/
def HasCholBlock (s : Orbitals) (no : Bool) (nx : ℕ) (e1 : ℕ → ℕ → K) (R : ℕ → ℕ → ℕ → K)
    (σ τ k0 k1 k2 k3 : Char) : Prop :=
  ∃ t, (getCholeskyHamiltonian s no nx e1 R).block [σ, τ] [k0, k1, k2, k3] = some t ∧
    t.shape = [kindSize (occ s σ) s.norb k0, kindSize (occ s τ) s.norb k1,
      kindSize (occ s σ) s.norb k2, kindSize (occ s τ) s.norb k3] ∧
    ∀ i0 i1 i2 i3 : ℕ, t.entry [i0, i1, i2, i3] = (restricted e1 (cholIntegrals nx R)).twobody
      (spinOrbital s σ k0 i0) (spinOrbital s τ k1 i1) (spinOrbital s σ k2 i2) (spinOrbital s τ k3 i3)

section
set_option linter.unusedSimpArgs false

theorem chol_aa_oooo (s : Orbitals) (no : Bool) (nx : ℕ) (e1 : ℕ → ℕ → K) (R : ℕ → ℕ → ℕ → K) :
    HasCholBlock s no nx e1 R 'a' 'a' 'o' 'o' 'o' 'o' := by
  unfold HasCholBlock
  rw [show (getCholeskyHamiltonian s no nx e1 R).block ['a', 'a'] ['o', 'o', 'o', 'o'] = subTensor
      (einsum [['x', 'm', 'i'], ['x', 'n', 'j']] ['m', 'n', 'i', 'j']
        [cholSlice s nx R 'a' 'o' 'o', cholSlice s nx R 'a' 'o' 'o'])
      (einsum [['x', 'm', 'j'], ['x', 'n', 'i']] ['m', 'n', 'i', 'j']
        [cholSlice s nx R 'a' 'o' 'o', cholSlice s nx R 'a' 'o' 'o']) from rfl]
  simp [einsum, labelDims, consistentDims, summedLabels, sumLabels, cholSlice, subTensor, kindSize, occ,
    Orbitals.nua, Orbitals.nub, Integrals.twobody, restricted, cholIntegrals, spinOrbital, kindOrbital, List.lookup]

theorem chol_aa_ooov (s : Orbitals) (no : Bool) (nx : ℕ) (e1 : ℕ → ℕ → K) (R : ℕ → ℕ → ℕ → K) :
    HasCholBlock s no nx e1 R 'a' 'a' 'o' 'o' 'o' 'v' := by
  unfold HasCholBlock
  rw [show (getCholeskyHamiltonian s no nx e1 R).block ['a', 'a'] ['o', 'o', 'o', 'v'] = subTensor
      (einsum [['x', 'm', 'i'], ['x', 'n', 'e']] ['m', 'n', 'i', 'e']
        [cholSlice s nx R 'a' 'o' 'o', cholSlice s nx R 'a' 'o' 'v'])
      (einsum [['x', 'n', 'i'], ['x', 'm', 'e']] ['m', 'n', 'i', 'e']
        [cholSlice s nx R 'a' 'o' 'o', cholSlice s nx R 'a' 'o' 'v']) from rfl]
  simp [einsum, labelDims, consistentDims, summedLabels, sumLabels, cholSlice, subTensor, kindSize, occ,
    Orbitals.nua, Orbitals.nub, Integrals.twobody, restricted, cholIntegrals, spinOrbital, kindOrbital, List.lookup]
  intro i0 i1 i2 i3
  exact Finset.sum_congr rfl fun _ _ => mul_comm _ _

theorem chol_aa_vooo (s : Orbitals) (no : Bool) (nx : ℕ) (e1 : ℕ → ℕ → K) (R : ℕ → ℕ → ℕ → K) :
    HasCholBlock s no nx e1 R 'a' 'a' 'v' 'o' 'o' 'o' := by
  unfold HasCholBlock
  rw [show (getCholeskyHamiltonian s no nx e1 R).block ['a', 'a'] ['v', 'o', 'o', 'o'] = subTensor
      (einsum [['x', 'a', 'i'], ['x', 'm', 'j']] ['a', 'm', 'i', 'j']
        [cholSlice s nx R 'a' 'v' 'o', cholSlice s nx R 'a' 'o' 'o'])
      (einsum [['x', 'a', 'j'], ['x', 'm', 'i']] ['a', 'm', 'i', 'j']
        [cholSlice s nx R 'a' 'v' 'o', cholSlice s nx R 'a' 'o' 'o']) from rfl]
  simp [einsum, labelDims, consistentDims, summedLabels, sumLabels, cholSlice, subTensor, kindSize, occ,
    Orbitals.nua, Orbitals.nub, Integrals.twobody, restricted, cholIntegrals, spinOrbital, kindOrbital, List.lookup]

theorem chol_aa_voov (s : Orbitals) (no : Bool) (nx : ℕ) (e1 : ℕ → ℕ → K) (R : ℕ → ℕ → ℕ → K) :
    HasCholBlock s no nx e1 R 'a' 'a' 'v' 'o' 'o' 'v' := by
  unfold HasCholBlock
  rw [show (getCholeskyHamiltonian s no nx e1 R).block ['a', 'a'] ['v', 'o', 'o', 'v'] = subTensor
      (einsum [['x', 'a', 'i'], ['x', 'm', 'e']] ['a', 'm', 'i', 'e']
        [cholSlice s nx R 'a' 'v' 'o', cholSlice s nx R 'a' 'o' 'v'])
      (einsum [['x', 'a', 'e'], ['x', 'm', 'i']] ['a', 'm', 'i', 'e']
        [cholSlice s nx R 'a' 'v' 'v', cholSlice s nx R 'a' 'o' 'o']) from rfl]
  simp [einsum, labelDims, consistentDims, summedLabels, sumLabels, cholSlice, subTensor, kindSize, occ,
    Orbitals.nua, Orbitals.nub, Integrals.twobody, restricted, cholIntegrals, spinOrbital, kindOrbital, List.lookup]

theorem chol_aa_oovv (s : Orbitals) (no : Bool) (nx : ℕ) (e1 : ℕ → ℕ → K) (R : ℕ → ℕ → ℕ → K) :
    HasCholBlock s no nx e1 R 'a' 'a' 'o' 'o' 'v' 'v' := by
  unfold HasCholBlock
  rw [show (getCholeskyHamiltonian s no nx e1 R).block ['a', 'a'] ['o', 'o', 'v', 'v'] = subTensor
      (einsum [['x', 'm', 'e'], ['x', 'n', 'f']] ['m', 'n', 'e', 'f']
        [cholSlice s nx R 'a' 'o' 'v', cholSlice s nx R 'a' 'o' 'v'])
      (einsum [['x', 'm', 'f'], ['x', 'n', 'e']] ['m', 'n', 'e', 'f']
        [cholSlice s nx R 'a' 'o' 'v', cholSlice s nx R 'a' 'o' 'v']) from rfl]
  simp [einsum, labelDims, consistentDims, summedLabels, sumLabels, cholSlice, subTensor, kindSize, occ,
    Orbitals.nua, Orbitals.nub, Integrals.twobody, restricted, cholIntegrals, spinOrbital, kindOrbital, List.lookup]

theorem chol_aa_vvoo (s : Orbitals) (no : Bool) (nx : ℕ) (e1 : ℕ → ℕ → K) (R : ℕ → ℕ → ℕ → K) :
    HasCholBlock s no nx e1 R 'a' 'a' 'v' 'v' 'o' 'o' := by
  unfold HasCholBlock
  rw [show (getCholeskyHamiltonian s no nx e1 R).block ['a', 'a'] ['v', 'v', 'o', 'o'] = subTensor
      (einsum [['x', 'a', 'i'], ['x', 'b', 'j']] ['a', 'b', 'i', 'j']
        [cholSlice s nx R 'a' 'v' 'o', cholSlice s nx R 'a' 'v' 'o'])
      (einsum [['x', 'a', 'j'], ['x', 'b', 'i']] ['a', 'b', 'i', 'j']
        [cholSlice s nx R 'a' 'v' 'o', cholSlice s nx R 'a' 'v' 'o']) from rfl]
  simp [einsum, labelDims, consistentDims, summedLabels, sumLabels, cholSlice, subTensor, kindSize, occ,
    Orbitals.nua, Orbitals.nub, Integrals.twobody, restricted, cholIntegrals, spinOrbital, kindOrbital, List.lookup]

theorem chol_bb_oooo (s : Orbitals) (no : Bool) (nx : ℕ) (e1 : ℕ → ℕ → K) (R : ℕ → ℕ → ℕ → K) :
    HasCholBlock s no nx e1 R 'b' 'b' 'o' 'o' 'o' 'o' := by
  unfold HasCholBlock
  rw [show (getCholeskyHamiltonian s no nx e1 R).block ['b', 'b'] ['o', 'o', 'o', 'o'] = subTensor
      (einsum [['x', 'm', 'i'], ['x', 'n', 'j']] ['m', 'n', 'i', 'j']
        [cholSlice s nx R 'b' 'o' 'o', cholSlice s nx R 'b' 'o' 'o'])
      (einsum [['x', 'm', 'j'], ['x', 'n', 'i']] ['m', 'n', 'i', 'j']
        [cholSlice s nx R 'b' 'o' 'o', cholSlice s nx R 'b' 'o' 'o']) from rfl]
  simp [einsum, labelDims, consistentDims, summedLabels, sumLabels, cholSlice, subTensor, kindSize, occ,
    Orbitals.nua, Orbitals.nub, Integrals.twobody, restricted, cholIntegrals, spinOrbital, kindOrbital, List.lookup]

theorem chol_bb_ooov (s : Orbitals) (no : Bool) (nx : ℕ) (e1 : ℕ → ℕ → K) (R : ℕ → ℕ → ℕ → K) :
    HasCholBlock s no nx e1 R 'b' 'b' 'o' 'o' 'o' 'v' := by
  unfold HasCholBlock
  rw [show (getCholeskyHamiltonian s no nx e1 R).block ['b', 'b'] ['o', 'o', 'o', 'v'] = subTensor
      (einsum [['x', 'm', 'i'], ['x', 'n', 'e']] ['m', 'n', 'i', 'e']
        [cholSlice s nx R 'b' 'o' 'o', cholSlice s nx R 'b' 'o' 'v'])
      (einsum [['x', 'n', 'i'], ['x', 'm', 'e']] ['m', 'n', 'i', 'e']
        [cholSlice s nx R 'b' 'o' 'o', cholSlice s nx R 'b' 'o' 'v']) from rfl]
  simp [einsum, labelDims, consistentDims, summedLabels, sumLabels, cholSlice, subTensor, kindSize, occ,
    Orbitals.nua, Orbitals.nub, Integrals.twobody, restricted, cholIntegrals, spinOrbital, kindOrbital, List.lookup]
  intro i0 i1 i2 i3
  exact Finset.sum_congr rfl fun _ _ => mul_comm _ _

theorem chol_bb_vooo (s : Orbitals) (no : Bool) (nx : ℕ) (e1 : ℕ → ℕ → K) (R : ℕ → ℕ → ℕ → K) :
    HasCholBlock s no nx e1 R 'b' 'b' 'v' 'o' 'o' 'o' := by
  unfold HasCholBlock
  rw [show (getCholeskyHamiltonian s no nx e1 R).block ['b', 'b'] ['v', 'o', 'o', 'o'] = subTensor
      (einsum [['x', 'a', 'i'], ['x', 'm', 'j']] ['a', 'm', 'i', 'j']
        [cholSlice s nx R 'b' 'v' 'o', cholSlice s nx R 'b' 'o' 'o'])
      (einsum [['x', 'a', 'j'], ['x', 'm', 'i']] ['a', 'm', 'i', 'j']
        [cholSlice s nx R 'b' 'v' 'o', cholSlice s nx R 'b' 'o' 'o']) from rfl]
  simp [einsum, labelDims, consistentDims, summedLabels, sumLabels, cholSlice, subTensor, kindSize, occ,
    Orbitals.nua, Orbitals.nub, Integrals.twobody, restricted, cholIntegrals, spinOrbital, kindOrbital, List.lookup]

theorem chol_bb_voov (s : Orbitals) (no : Bool) (nx : ℕ) (e1 : ℕ → ℕ → K) (R : ℕ → ℕ → ℕ → K) :
    HasCholBlock s no nx e1 R 'b' 'b' 'v' 'o' 'o' 'v' := by
  unfold HasCholBlock
  rw [show (getCholeskyHamiltonian s no nx e1 R).block ['b', 'b'] ['v', 'o', 'o', 'v'] = subTensor
      (einsum [['x', 'a', 'i'], ['x', 'm', 'e']] ['a', 'm', 'i', 'e']
        [cholSlice s nx R 'b' 'v' 'o', cholSlice s nx R 'b' 'o' 'v'])
      (einsum [['x', 'a', 'e'], ['x', 'm', 'i']] ['a', 'm', 'i', 'e']
        [cholSlice s nx R 'b' 'v' 'v', cholSlice s nx R 'b' 'o' 'o']) from rfl]
  simp [einsum, labelDims, consistentDims, summedLabels, sumLabels, cholSlice, subTensor, kindSize, occ,
    Orbitals.nua, Orbitals.nub, Integrals.twobody, restricted, cholIntegrals, spinOrbital, kindOrbital, List.lookup]

theorem chol_bb_oovv (s : Orbitals) (no : Bool) (nx : ℕ) (e1 : ℕ → ℕ → K) (R : ℕ → ℕ → ℕ → K) :
    HasCholBlock s no nx e1 R 'b' 'b' 'o' 'o' 'v' 'v' := by
  unfold HasCholBlock
  rw [show (getCholeskyHamiltonian s no nx e1 R).block ['b', 'b'] ['o', 'o', 'v', 'v'] = subTensor
      (einsum [['x', 'm', 'e'], ['x', 'n', 'f']] ['m', 'n', 'e', 'f']
        [cholSlice s nx R 'b' 'o' 'v', cholSlice s nx R 'b' 'o' 'v'])
      (einsum [['x', 'm', 'f'], ['x', 'n', 'e']] ['m', 'n', 'e', 'f']
        [cholSlice s nx R 'b' 'o' 'v', cholSlice s nx R 'b' 'o' 'v']) from rfl]
  simp [einsum, labelDims, consistentDims, summedLabels, sumLabels, cholSlice, subTensor, kindSize, occ,
    Orbitals.nua, Orbitals.nub, Integrals.twobody, restricted, cholIntegrals, spinOrbital, kindOrbital, List.lookup]

theorem chol_bb_vvoo (s : Orbitals) (no : Bool) (nx : ℕ) (e1 : ℕ → ℕ → K) (R : ℕ → ℕ → ℕ → K) :
    HasCholBlock s no nx e1 R 'b' 'b' 'v' 'v' 'o' 'o' := by
  unfold HasCholBlock
  rw [show (getCholeskyHamiltonian s no nx e1 R).block ['b', 'b'] ['v', 'v', 'o', 'o'] = subTensor
      (einsum [['x', 'a', 'i'], ['x', 'b', 'j']] ['a', 'b', 'i', 'j']
        [cholSlice s nx R 'b' 'v' 'o', cholSlice s nx R 'b' 'v' 'o'])
      (einsum [['x', 'a', 'j'], ['x', 'b', 'i']] ['a', 'b', 'i', 'j']
        [cholSlice s nx R 'b' 'v' 'o', cholSlice s nx R 'b' 'v' 'o']) from rfl]
  simp [einsum, labelDims, consistentDims, summedLabels, sumLabels, cholSlice, subTensor, kindSize, occ,
    Orbitals.nua, Orbitals.nub, Integrals.twobody, restricted, cholIntegrals, spinOrbital, kindOrbital, List.lookup]

theorem chol_ab_oooo (s : Orbitals) (no : Bool) (nx : ℕ) (e1 : ℕ → ℕ → K) (R : ℕ → ℕ → ℕ → K) :
    HasCholBlock s no nx e1 R 'a' 'b' 'o' 'o' 'o' 'o' := by
  unfold HasCholBlock
  rw [show (getCholeskyHamiltonian s no nx e1 R).block ['a', 'b'] ['o', 'o', 'o', 'o'] = einsum [['x', 'm', 'i'], ['x', 'n', 'j']] ['m', 'n', 'i', 'j']
        [cholSlice s nx R 'a' 'o' 'o', cholSlice s nx R 'b' 'o' 'o'] from rfl]
  simp [einsum, labelDims, consistentDims, summedLabels, sumLabels, cholSlice, subTensor, kindSize, occ,
    Orbitals.nua, Orbitals.nub, Integrals.twobody, restricted, cholIntegrals, spinOrbital, kindOrbital, List.lookup]

theorem chol_ab_ooov (s : Orbitals) (no : Bool) (nx : ℕ) (e1 : ℕ → ℕ → K) (R : ℕ → ℕ → ℕ → K) :
    HasCholBlock s no nx e1 R 'a' 'b' 'o' 'o' 'o' 'v' := by
  unfold HasCholBlock
  rw [show (getCholeskyHamiltonian s no nx e1 R).block ['a', 'b'] ['o', 'o', 'o', 'v'] = einsum [['x', 'm', 'i'], ['x', 'n', 'e']] ['m', 'n', 'i', 'e']
        [cholSlice s nx R 'a' 'o' 'o', cholSlice s nx R 'b' 'o' 'v'] from rfl]
  simp [einsum, labelDims, consistentDims, summedLabels, sumLabels, cholSlice, subTensor, kindSize, occ,
    Orbitals.nua, Orbitals.nub, Integrals.twobody, restricted, cholIntegrals, spinOrbital, kindOrbital, List.lookup]

theorem chol_ab_oovo (s : Orbitals) (no : Bool) (nx : ℕ) (e1 : ℕ → ℕ → K) (R : ℕ → ℕ → ℕ → K) :
    HasCholBlock s no nx e1 R 'a' 'b' 'o' 'o' 'v' 'o' := by
  unfold HasCholBlock
  rw [show (getCholeskyHamiltonian s no nx e1 R).block ['a', 'b'] ['o', 'o', 'v', 'o'] = einsum [['x', 'm', 'e'], ['x', 'n', 'i']] ['m', 'n', 'e', 'i']
        [cholSlice s nx R 'a' 'o' 'v', cholSlice s nx R 'b' 'o' 'o'] from rfl]
  simp [einsum, labelDims, consistentDims, summedLabels, sumLabels, cholSlice, subTensor, kindSize, occ,
    Orbitals.nua, Orbitals.nub, Integrals.twobody, restricted, cholIntegrals, spinOrbital, kindOrbital, List.lookup]

theorem chol_ab_vooo (s : Orbitals) (no : Bool) (nx : ℕ) (e1 : ℕ → ℕ → K) (R : ℕ → ℕ → ℕ → K) :
    HasCholBlock s no nx e1 R 'a' 'b' 'v' 'o' 'o' 'o' := by
  unfold HasCholBlock
  rw [show (getCholeskyHamiltonian s no nx e1 R).block ['a', 'b'] ['v', 'o', 'o', 'o'] = einsum [['x', 'a', 'i'], ['x', 'm', 'j']] ['a', 'm', 'i', 'j']
        [cholSlice s nx R 'a' 'v' 'o', cholSlice s nx R 'b' 'o' 'o'] from rfl]
  simp [einsum, labelDims, consistentDims, summedLabels, sumLabels, cholSlice, subTensor, kindSize, occ,
    Orbitals.nua, Orbitals.nub, Integrals.twobody, restricted, cholIntegrals, spinOrbital, kindOrbital, List.lookup]

theorem chol_ab_ovoo (s : Orbitals) (no : Bool) (nx : ℕ) (e1 : ℕ → ℕ → K) (R : ℕ → ℕ → ℕ → K) :
    HasCholBlock s no nx e1 R 'a' 'b' 'o' 'v' 'o' 'o' := by
  unfold HasCholBlock
  rw [show (getCholeskyHamiltonian s no nx e1 R).block ['a', 'b'] ['o', 'v', 'o', 'o'] = einsum [['x', 'm', 'j'], ['x', 'a', 'i']] ['m', 'a', 'j', 'i']
        [cholSlice s nx R 'a' 'o' 'o', cholSlice s nx R 'b' 'v' 'o'] from rfl]
  simp [einsum, labelDims, consistentDims, summedLabels, sumLabels, cholSlice, subTensor, kindSize, occ,
    Orbitals.nua, Orbitals.nub, Integrals.twobody, restricted, cholIntegrals, spinOrbital, kindOrbital, List.lookup]

theorem chol_ab_voov (s : Orbitals) (no : Bool) (nx : ℕ) (e1 : ℕ → ℕ → K) (R : ℕ → ℕ → ℕ → K) :
    HasCholBlock s no nx e1 R 'a' 'b' 'v' 'o' 'o' 'v' := by
  unfold HasCholBlock
  rw [show (getCholeskyHamiltonian s no nx e1 R).block ['a', 'b'] ['v', 'o', 'o', 'v'] = einsum [['x', 'a', 'i'], ['x', 'm', 'e']] ['a', 'm', 'i', 'e']
        [cholSlice s nx R 'a' 'v' 'o', cholSlice s nx R 'b' 'o' 'v'] from rfl]
  simp [einsum, labelDims, consistentDims, summedLabels, sumLabels, cholSlice, subTensor, kindSize, occ,
    Orbitals.nua, Orbitals.nub, Integrals.twobody, restricted, cholIntegrals, spinOrbital, kindOrbital, List.lookup]

theorem chol_ab_ovvo (s : Orbitals) (no : Bool) (nx : ℕ) (e1 : ℕ → ℕ → K) (R : ℕ → ℕ → ℕ → K) :
    HasCholBlock s no nx e1 R 'a' 'b' 'o' 'v' 'v' 'o' := by
  unfold HasCholBlock
  rw [show (getCholeskyHamiltonian s no nx e1 R).block ['a', 'b'] ['o', 'v', 'v', 'o'] = einsum [['x', 'm', 'e'], ['x', 'a', 'i']] ['m', 'a', 'e', 'i']
        [cholSlice s nx R 'a' 'o' 'v', cholSlice s nx R 'b' 'v' 'o'] from rfl]
  simp [einsum, labelDims, consistentDims, summedLabels, sumLabels, cholSlice, subTensor, kindSize, occ,
    Orbitals.nua, Orbitals.nub, Integrals.twobody, restricted, cholIntegrals, spinOrbital, kindOrbital, List.lookup]

theorem chol_ab_vovo (s : Orbitals) (no : Bool) (nx : ℕ) (e1 : ℕ → ℕ → K) (R : ℕ → ℕ → ℕ → K) :
    HasCholBlock s no nx e1 R 'a' 'b' 'v' 'o' 'v' 'o' := by
  unfold HasCholBlock
  rw [show (getCholeskyHamiltonian s no nx e1 R).block ['a', 'b'] ['v', 'o', 'v', 'o'] = einsum [['x', 'a', 'e'], ['x', 'm', 'i']] ['a', 'm', 'e', 'i']
        [cholSlice s nx R 'a' 'v' 'v', cholSlice s nx R 'b' 'o' 'o'] from rfl]
  simp [einsum, labelDims, consistentDims, summedLabels, sumLabels, cholSlice, subTensor, kindSize, occ,
    Orbitals.nua, Orbitals.nub, Integrals.twobody, restricted, cholIntegrals, spinOrbital, kindOrbital, List.lookup]

theorem chol_ab_ovov (s : Orbitals) (no : Bool) (nx : ℕ) (e1 : ℕ → ℕ → K) (R : ℕ → ℕ → ℕ → K) :
    HasCholBlock s no nx e1 R 'a' 'b' 'o' 'v' 'o' 'v' := by
  unfold HasCholBlock
  rw [show (getCholeskyHamiltonian s no nx e1 R).block ['a', 'b'] ['o', 'v', 'o', 'v'] = einsum [['x', 'm', 'j'], ['x', 'b', 'e']] ['m', 'b', 'j', 'e']
        [cholSlice s nx R 'a' 'o' 'o', cholSlice s nx R 'b' 'v' 'v'] from rfl]
  simp [einsum, labelDims, consistentDims, summedLabels, sumLabels, cholSlice, subTensor, kindSize, occ,
    Orbitals.nua, Orbitals.nub, Integrals.twobody, restricted, cholIntegrals, spinOrbital, kindOrbital, List.lookup]

theorem chol_ab_oovv (s : Orbitals) (no : Bool) (nx : ℕ) (e1 : ℕ → ℕ → K) (R : ℕ → ℕ → ℕ → K) :
    HasCholBlock s no nx e1 R 'a' 'b' 'o' 'o' 'v' 'v' := by
  unfold HasCholBlock
  rw [show (getCholeskyHamiltonian s no nx e1 R).block ['a', 'b'] ['o', 'o', 'v', 'v'] = einsum [['x', 'm', 'e'], ['x', 'n', 'f']] ['m', 'n', 'e', 'f']
        [cholSlice s nx R 'a' 'o' 'v', cholSlice s nx R 'b' 'o' 'v'] from rfl]
  simp [einsum, labelDims, consistentDims, summedLabels, sumLabels, cholSlice, subTensor, kindSize, occ,
    Orbitals.nua, Orbitals.nub, Integrals.twobody, restricted, cholIntegrals, spinOrbital, kindOrbital, List.lookup]

theorem chol_ab_vvoo (s : Orbitals) (no : Bool) (nx : ℕ) (e1 : ℕ → ℕ → K) (R : ℕ → ℕ → ℕ → K) :
    HasCholBlock s no nx e1 R 'a' 'b' 'v' 'v' 'o' 'o' := by
  unfold HasCholBlock
  rw [show (getCholeskyHamiltonian s no nx e1 R).block ['a', 'b'] ['v', 'v', 'o', 'o'] = einsum [['x', 'a', 'i'], ['x', 'b', 'j']] ['a', 'b', 'i', 'j']
        [cholSlice s nx R 'a' 'v' 'o', cholSlice s nx R 'b' 'v' 'o'] from rfl]
  simp [einsum, labelDims, consistentDims, summedLabels, sumLabels, cholSlice, subTensor, kindSize, occ,
    Orbitals.nua, Orbitals.nub, Integrals.twobody, restricted, cholIntegrals, spinOrbital, kindOrbital, List.lookup]

end

/-- The two-body blocks that the Cholesky Hamiltonian has. -/
theorem C30_twobody {s : Orbitals} (no : Bool) (nx : ℕ) (e1 : ℕ → ℕ → K) (R : ℕ → ℕ → ℕ → K)
    {σ τ k0 k1 k2 k3 : Char} (h : ([σ, τ], [k0, k1, k2, k3]) ∈ cholBlockNames) :
    HasCholBlock s no nx e1 R σ τ k0 k1 k2 k3 := by
  simp only [cholBlockNames, List.flatMap_cons, List.flatMap_nil, List.map_cons, List.map_nil, List.cons_append,
    List.nil_append, List.append_nil, List.mem_cons, Prod.mk.injEq, List.cons.injEq, List.not_mem_nil, or_false,
    and_true, reduceCtorEq, and_false, false_or] at h
  rcases h with ⟨⟨rfl, rfl⟩, rfl, rfl, rfl, rfl⟩ | ⟨⟨rfl, rfl⟩, rfl, rfl, rfl, rfl⟩ | ⟨⟨rfl, rfl⟩, rfl, rfl, rfl, rfl⟩ |
    ⟨⟨rfl, rfl⟩, rfl, rfl, rfl, rfl⟩ | ⟨⟨rfl, rfl⟩, rfl, rfl, rfl, rfl⟩ | ⟨⟨rfl, rfl⟩, rfl, rfl, rfl, rfl⟩ |
    ⟨⟨rfl, rfl⟩, rfl, rfl, rfl, rfl⟩ | ⟨⟨rfl, rfl⟩, rfl, rfl, rfl, rfl⟩ | ⟨⟨rfl, rfl⟩, rfl, rfl, rfl, rfl⟩ |
    ⟨⟨rfl, rfl⟩, rfl, rfl, rfl, rfl⟩ | ⟨⟨rfl, rfl⟩, rfl, rfl, rfl, rfl⟩ | ⟨⟨rfl, rfl⟩, rfl, rfl, rfl, rfl⟩ |
    ⟨⟨rfl, rfl⟩, rfl, rfl, rfl, rfl⟩ | ⟨⟨rfl, rfl⟩, rfl, rfl, rfl, rfl⟩ | ⟨⟨rfl, rfl⟩, rfl, rfl, rfl, rfl⟩ |
    ⟨⟨rfl, rfl⟩, rfl, rfl, rfl, rfl⟩ | ⟨⟨rfl, rfl⟩, rfl, rfl, rfl, rfl⟩ | ⟨⟨rfl, rfl⟩, rfl, rfl, rfl, rfl⟩ |
    ⟨⟨rfl, rfl⟩, rfl, rfl, rfl, rfl⟩ | ⟨⟨rfl, rfl⟩, rfl, rfl, rfl, rfl⟩ | ⟨⟨rfl, rfl⟩, rfl, rfl, rfl, rfl⟩ |
    ⟨⟨rfl, rfl⟩, rfl, rfl, rfl, rfl⟩ | ⟨⟨rfl, rfl⟩, rfl, rfl, rfl, rfl⟩
  · exact chol_aa_oooo s no nx e1 R
  · exact chol_bb_oooo s no nx e1 R
  · exact chol_aa_ooov s no nx e1 R
  · exact chol_bb_ooov s no nx e1 R
  · exact chol_aa_vooo s no nx e1 R
  · exact chol_bb_vooo s no nx e1 R
  · exact chol_aa_voov s no nx e1 R
  · exact chol_bb_voov s no nx e1 R
  · exact chol_aa_oovv s no nx e1 R
  · exact chol_bb_oovv s no nx e1 R
  · exact chol_aa_vvoo s no nx e1 R
  · exact chol_bb_vvoo s no nx e1 R
  · exact chol_ab_oooo s no nx e1 R
  · exact chol_ab_ooov s no nx e1 R
  · exact chol_ab_oovo s no nx e1 R
  · exact chol_ab_vooo s no nx e1 R
  · exact chol_ab_ovoo s no nx e1 R
  · exact chol_ab_voov s no nx e1 R
  · exact chol_ab_ovvo s no nx e1 R
  · exact chol_ab_vovo s no nx e1 R
  · exact chol_ab_ovov s no nx e1 R
  · exact chol_ab_oovv s no nx e1 R
  · exact chol_ab_vvoo s no nx e1 R

/-- The blocks of a Cholesky Hamiltonian are those of the Hamiltonian built from the full array of
integrals. -/
theorem C30_blocks {s : Orbitals} (ha : s.noa ≤ s.norb) (hb : s.nob ≤ s.norb) (no : Bool) (nx : ℕ)
    (e1 : ℕ → ℕ → K) (R : ℕ → ℕ → ℕ → K) :
    ∃ H, getHamiltonian s no e1 (cholIntegrals nx R) = some H ∧ ∀ name attr, (name, attr) ∈ cholBlockNames →
      ∃ t t', (getCholeskyHamiltonian s no nx e1 R).block name attr = some t ∧ H.block name attr = some t' ∧
        t.shape = t'.shape ∧ ∀ idx, WithinShape t.shape idx → t.entry idx = t'.entry idx := by
  obtain ⟨H, hH, h1, h2⟩ := C28_hamiltonian ha hb no e1 (cholIntegrals nx R) (cholIntegrals_exchange nx R)
  refine ⟨H, hH, ?_⟩
  intro name attr hmem
  have hall : ∀ na ∈ cholBlockNames, ((∃ σ k0 k1, na = ([σ], [k0, k1]) ∧ σ ∈ ['a', 'b'] ∧ (k0 = 'o' ∨ k0 = 'v') ∧
      (k1 = 'o' ∨ k1 = 'v')) ∨ (∃ σ τ k0 k1 k2 k3, na = ([σ, τ], [k0, k1, k2, k3]) ∧
      (σ, τ) ∈ [('a', 'a'), ('a', 'b'), ('b', 'b')] ∧ IsKinds 4 [k0, k1, k2, k3])) := by
    intro na hna
    unfold cholBlockNames at hna
    simp only [List.mem_append, List.mem_cons, List.not_mem_nil, or_false, List.mem_flatMap, List.mem_map] at hna
    rcases hna with (hna | ⟨at', hat, hna⟩) | ⟨at', hat, hna⟩
    · left
      rcases hna with rfl | rfl | rfl | rfl | rfl | rfl | rfl | rfl
      all_goals exact ⟨_, _, _, rfl, by decide, by decide, by decide⟩
    · right
      rcases hat with rfl | rfl | rfl | rfl | rfl | rfl <;> rcases hna with rfl | rfl
      all_goals exact ⟨_, _, _, _, _, _, rfl, by decide, rfl, by decide⟩
    · right
      subst hna
      rcases hat with rfl | rfl | rfl | rfl | rfl | rfl | rfl | rfl | rfl | rfl | rfl
      all_goals exact ⟨_, _, _, _, _, _, rfl, by decide, rfl, by decide⟩
  rcases hall _ hmem with ⟨σ, k0, k1, h, hσ, hk0, hk1⟩ | ⟨σ, τ, k0, k1, k2, k3, h, hστ, hk⟩
  · cases h
    have hk : IsKinds 2 [k0, k1] := ⟨rfl, by
      intro c hc
      simp only [List.mem_cons, List.not_mem_nil, or_false] at hc
      rcases hc with rfl | rfl <;> assumption⟩
    obtain ⟨t, ht, hs, he⟩ := C30_onebody (s := s) no nx e1 R hσ hk
    obtain ⟨t', ht', hs', he'⟩ := h1 σ hσ k0 k1 hk
    refine ⟨t, t', ht, ht', by rw [hs, hs'], ?_⟩
    intro idx hidx
    rw [hs] at hidx
    unfold WithinShape at hidx
    match idx, hidx with
    | [i, j], _ => rw [he, he']
  · cases h
    obtain ⟨t, ht, hs, he⟩ := C30_twobody (s := s) no nx e1 R hmem
    obtain ⟨t', ht', hs', he'⟩ := h2 σ τ hστ k0 k1 k2 k3 hk
    refine ⟨t, t', ht, ht', by rw [hs, hs'], ?_⟩
    intro idx hidx
    rw [hs] at hidx
    unfold WithinShape at hidx
    match idx, hidx with
    | [i, j, k, l], _ => rw [he, he']

/-- All other blocks stay `None`. -/
theorem C30_missing (s : Orbitals) (no : Bool) (nx : ℕ) (e1 : ℕ → ℕ → K) (R : ℕ → ℕ → ℕ → K) :
    ∀ name ∈ [['a', 'a'], ['a', 'b'], ['b', 'b']], ∀ attr,
      (name, attr) ∉ cholBlockNames → (getCholeskyHamiltonian s no nx e1 R).block name attr = none := by
  intro name hname attr h
  have key : ∀ l : List (Name × Option (Tensor K)), (∀ e ∈ l, (name, e.1) ∈ cholBlockNames) →
      l.lookup attr = none := by
    intro l hl
    rw [List.lookup_eq_none_iff]
    intro e he
    simp only [bne_iff_ne, ne_eq, beq_eq_false_iff_ne, Bool.not_eq_true']
    rintro rfl
    exact h (hl e he)
  simp only [List.mem_cons, List.not_mem_nil, or_false] at hname
  rcases hname with rfl | rfl | rfl
  · rw [show (getCholeskyHamiltonian s no nx e1 R).block ['a', 'a'] attr =
      ((cholBlocksAa (cholSlice s nx R)).lookup attr).bind id from rfl, key _ ?_]
    · rfl
    · intro e he
      have : e.1 ∈ (cholBlocksAa (cholSlice s nx R)).map Prod.fst := List.mem_map_of_mem he
      simp only [cholBlocksAa, List.map_cons, List.map_nil] at this
      revert this
      generalize e.1 = x
      revert x
      decide
  · rw [show (getCholeskyHamiltonian s no nx e1 R).block ['a', 'b'] attr =
      ((cholBlocksAb (cholSlice s nx R)).lookup attr).bind id from rfl, key _ ?_]
    · rfl
    · intro e he
      have : e.1 ∈ (cholBlocksAb (cholSlice s nx R)).map Prod.fst := List.mem_map_of_mem he
      simp only [cholBlocksAb, List.map_cons, List.map_nil] at this
      revert this
      generalize e.1 = x
      revert x
      decide
  · rw [show (getCholeskyHamiltonian s no nx e1 R).block ['b', 'b'] attr =
      ((cholBlocksBb (cholSlice s nx R)).lookup attr).bind id from rfl, key _ ?_]
    · rfl
    · intro e he
      have : e.1 ∈ (cholBlocksBb (cholSlice s nx R)).map Prod.fst := List.mem_map_of_mem he
      simp only [cholBlocksBb, List.map_cons, List.map_nil] at this
      revert this
      generalize e.1 = x
      revert x
      decide

/-- `calc_g_matrix` cannot be used with a Cholesky Hamiltonian: blocks it reads are `None`. -/
theorem C30_g_matrix_unavailable (s : Orbitals) (no : Bool) (nx : ℕ) (e1 : ℕ → ℕ → K) (R : ℕ → ℕ → ℕ → K) :
    calcGMatrix (getCholeskyHamiltonian s no nx e1 R) 'a' ['o', 'v'] = none := rfl

/-- The batches of four-particle integrals are the corresponding parts of the missing `vvvv` blocks. -/
theorem C30_batches (s : Orbitals) (nx : ℕ) (e1 : ℕ → ℕ → K) (R : ℕ → ℕ → ℕ → K) (a b : ℕ) :
    (∀ σ ∈ ['a', 'b'], ∃ t, batch2Same (cholSlice s nx R σ 'v' 'v') a b = some t ∧
      t.shape = [s.norb - occ s σ, s.norb - occ s σ] ∧
      ∀ e f : ℕ, t.entry [e, f] = (restricted e1 (cholIntegrals nx R)).twobody (spinOrbital s σ 'v' a)
        (spinOrbital s σ 'v' b) (spinOrbital s σ 'v' e) (spinOrbital s σ 'v' f)) ∧
    (∀ σ ∈ ['a', 'b'], ∃ t, batch2SameHerm (cholSlice s nx R σ 'v' 'v') a b = some t ∧
      t.shape = [s.norb - occ s σ, s.norb - occ s σ] ∧
      ∀ e f : ℕ, t.entry [e, f] = (restricted e1 (cholIntegrals nx R)).twobody (spinOrbital s σ 'v' e)
        (spinOrbital s σ 'v' f) (spinOrbital s σ 'v' a) (spinOrbital s σ 'v' b)) ∧
    (∃ t, batch2Ab (cholSlice s nx R 'a' 'v' 'v') (cholSlice s nx R 'b' 'v' 'v') a b = some t ∧
      t.shape = [s.nua, s.nub] ∧
      ∀ e f : ℕ, t.entry [e, f] = (restricted e1 (cholIntegrals nx R)).twobody (spinOrbital s 'a' 'v' a)
        (spinOrbital s 'b' 'v' b) (spinOrbital s 'a' 'v' e) (spinOrbital s 'b' 'v' f)) ∧
    (∃ t, batch2AbHerm (cholSlice s nx R 'a' 'v' 'v') (cholSlice s nx R 'b' 'v' 'v') a b = some t ∧
      t.shape = [s.nua, s.nub] ∧
      ∀ e f : ℕ, t.entry [e, f] = (restricted e1 (cholIntegrals nx R)).twobody (spinOrbital s 'a' 'v' e)
        (spinOrbital s 'b' 'v' f) (spinOrbital s 'a' 'v' a) (spinOrbital s 'b' 'v' b)) ∧
    (∃ t, batch3Ab (cholSlice s nx R 'a' 'v' 'v') (cholSlice s nx R 'b' 'v' 'v') a = some t ∧
      t.shape = [s.nub, s.nua, s.nub] ∧
      ∀ c e f : ℕ, t.entry [c, e, f] = (restricted e1 (cholIntegrals nx R)).twobody (spinOrbital s 'a' 'v' a)
        (spinOrbital s 'b' 'v' c) (spinOrbital s 'a' 'v' e) (spinOrbital s 'b' 'v' f)) ∧
    (∃ t, batch3AbHerm (cholSlice s nx R 'a' 'v' 'v') (cholSlice s nx R 'b' 'v' 'v') a = some t ∧
      t.shape = [s.nub, s.nua, s.nub] ∧
      ∀ c e f : ℕ, t.entry [c, e, f] = (restricted e1 (cholIntegrals nx R)).twobody (spinOrbital s 'a' 'v' e)
        (spinOrbital s 'b' 'v' f) (spinOrbital s 'a' 'v' a) (spinOrbital s 'b' 'v' c)) := by
  refine ⟨?_, ?_, ?_, ?_, ?_, ?_⟩
  · intro σ hσ
    simp only [List.mem_cons, List.not_mem_nil, or_false] at hσ
    rcases hσ with rfl | rfl
    all_goals
      simp [batch2Same, einsum, labelDims, consistentDims, summedLabels, sumLabels, cholSlice, subTensor, occ,
        Orbitals.nua, Orbitals.nub, Integrals.twobody, restricted, cholIntegrals, spinOrbital, kindOrbital,
        List.lookup, takeRow, transposeTensor]
  · intro σ hσ
    simp only [List.mem_cons, List.not_mem_nil, or_false] at hσ
    rcases hσ with rfl | rfl
    all_goals
      simp [batch2SameHerm, einsum, labelDims, consistentDims, summedLabels, sumLabels, cholSlice, subTensor, occ,
        Orbitals.nua, Orbitals.nub, Integrals.twobody, restricted, cholIntegrals, spinOrbital, kindOrbital,
        List.lookup, takeCol, transposeTensor]
      intro e f
      exact Finset.sum_congr rfl fun _ _ => mul_comm _ _
  all_goals
      simp [batch2Ab, batch2AbHerm, batch3Ab, batch3AbHerm, einsum, labelDims, consistentDims, summedLabels,
        sumLabels, cholSlice, occ,
        Orbitals.nua, Orbitals.nub, Integrals.twobody, restricted, cholIntegrals, spinOrbital, kindOrbital,
        List.lookup, takeCol, takeRow]

/-- Cholesky vectors for the examples. -/
def exR (x p q : ℕ) : ℚ := x + p + 2 * q + 1

example : ((getCholeskyHamiltonian exS true 2 exZ exR).block ['a', 'a'] ['v', 'o', 'o', 'v']).map
    (fun t => (t.shape, t.entry [0, 1, 0, 0])) = some ([1, 2, 2, 1], 8) := by decide +kernel
example : calcHfEnergyChol exS 2 exZ exR = 129 := by decide +kernel
example : (['a', 'a'], ['v', 'o', 'o', 'v']) ∈ cholBlockNames ∧ (['a', 'a'], ['v', 'v', 'v', 'v']) ∉ cholBlockNames := by
  decide
example : (batch3Ab (cholSlice exS 2 exR 'a' 'v' 'v') (cholSlice exS 2 exR 'b' 'v' 'v') 0).map
    (fun t => (t.shape, t.entry [1, 0, 1])) = some ([2, 1, 2], 221) := by decide +kernel

end Ccpy.Integrals
