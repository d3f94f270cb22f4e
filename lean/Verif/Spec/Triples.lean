import Verif.Spec.EquationOfMotion

/-! Specification: triple excitations.  The cluster operator is `T₁ + T₂ + T₃`. -/

namespace Ccpy.Fock

variable {ι : Type*} [LinearOrder ι]

/-- Amplitudes of triple excitations, `t a b c i j k` for excitations from the occupied orbitals `i`, `j`, `k` to the
unoccupied orbitals `a`, `b`, `c`. -/
structure Triples where
  (tAAA tAAB tABB tBBB : ℕ → ℕ → ℕ → ℕ → ℕ → ℕ → ℚ)

/-- The amplitudes change sign under the exchange of two orbitals of the same spin. -/
structure Triples.Antisym (T : Triples) : Prop where
  aaa : ∀ a b c i j k, T.tAAA b a c i j k = - T.tAAA a b c i j k ∧ T.tAAA a c b i j k = - T.tAAA a b c i j k
    ∧ T.tAAA a b c j i k = - T.tAAA a b c i j k ∧ T.tAAA a b c i k j = - T.tAAA a b c i j k
  aab : ∀ a b c i j k, T.tAAB b a c i j k = - T.tAAB a b c i j k ∧ T.tAAB a b c j i k = - T.tAAB a b c i j k
  abb : ∀ a b c i j k, T.tABB a c b i j k = - T.tABB a b c i j k ∧ T.tABB a b c i k j = - T.tABB a b c i j k
  bbb : ∀ a b c i j k, T.tBBB b a c i j k = - T.tBBB a b c i j k ∧ T.tBBB a c b i j k = - T.tBBB a b c i j k
    ∧ T.tBBB a b c j i k = - T.tBBB a b c i j k ∧ T.tBBB a b c i k j = - T.tBBB a b c i j k

noncomputable section

/-- The operator `T₃`. -/
def triplesOperator (S : Orbitals ι) (T : Triples) : Operator ι :=
  (1 / 36 : ℚ) • ∑ a ∈ Finset.range S.ua, ∑ b ∈ Finset.range S.ua, ∑ c ∈ Finset.range S.ua,
    ∑ i ∈ Finset.range S.na, ∑ j ∈ Finset.range S.na, ∑ k ∈ Finset.range S.na, T.tAAA a b c i j k
      • (cre (S.virA a) * cre (S.virA b) * cre (S.virA c) * ann (S.occA k) * ann (S.occA j) * ann (S.occA i))
  + (1 / 4 : ℚ) • ∑ a ∈ Finset.range S.ua, ∑ b ∈ Finset.range S.ua, ∑ c ∈ Finset.range S.ub,
    ∑ i ∈ Finset.range S.na, ∑ j ∈ Finset.range S.na, ∑ k ∈ Finset.range S.nb, T.tAAB a b c i j k
      • (cre (S.virA a) * cre (S.virA b) * cre (S.virB c) * ann (S.occB k) * ann (S.occA j) * ann (S.occA i))
  + (1 / 4 : ℚ) • ∑ a ∈ Finset.range S.ua, ∑ b ∈ Finset.range S.ub, ∑ c ∈ Finset.range S.ub,
    ∑ i ∈ Finset.range S.na, ∑ j ∈ Finset.range S.nb, ∑ k ∈ Finset.range S.nb, T.tABB a b c i j k
      • (cre (S.virA a) * cre (S.virB b) * cre (S.virB c) * ann (S.occB k) * ann (S.occB j) * ann (S.occA i))
  + (1 / 36 : ℚ) • ∑ a ∈ Finset.range S.ub, ∑ b ∈ Finset.range S.ub, ∑ c ∈ Finset.range S.ub,
    ∑ i ∈ Finset.range S.nb, ∑ j ∈ Finset.range S.nb, ∑ k ∈ Finset.range S.nb, T.tBBB a b c i j k
      • (cre (S.virB a) * cre (S.virB b) * cre (S.virB c) * ann (S.occB k) * ann (S.occB j) * ann (S.occB i))

/-- The cluster operator `T₁ + T₂ + T₃`. -/
def clusterOperator3 (S : Orbitals ι) (T : Cluster) (T₃ : Triples) : Operator ι :=
  clusterOperator S T + triplesOperator S T₃

/-- The similarity-transformed Hamiltonian `e^{-T} H e^{T}` with `T = T₁ + T₂ + T₃`. -/
def transformed3 (S : Orbitals ι) (Z : Integrals) (T : Cluster) (T₃ : Triples) : Operator ι :=
  IsNilpotent.exp (-(clusterOperator3 S T T₃)) * hamiltonian S Z * IsNilpotent.exp (clusterOperator3 S T T₃)

/-- Triply excited determinants. -/
def Orbitals.tripleAAA (S : Orbitals ι) (a b c i j k : ℕ) : Vec ι :=
  cre (S.virA a) (cre (S.virA b) (cre (S.virA c) (ann (S.occA k) (ann (S.occA j) (ann (S.occA i) S.ref)))))
def Orbitals.tripleAAB (S : Orbitals ι) (a b c i j k : ℕ) : Vec ι :=
  cre (S.virA a) (cre (S.virA b) (cre (S.virB c) (ann (S.occB k) (ann (S.occA j) (ann (S.occA i) S.ref)))))
def Orbitals.tripleABB (S : Orbitals ι) (a b c i j k : ℕ) : Vec ι :=
  cre (S.virA a) (cre (S.virB b) (cre (S.virB c) (ann (S.occB k) (ann (S.occB j) (ann (S.occA i) S.ref)))))
def Orbitals.tripleBBB (S : Orbitals ι) (a b c i j k : ℕ) : Vec ι :=
  cre (S.virB a) (cre (S.virB b) (cre (S.virB c) (ann (S.occB k) (ann (S.occB j) (ann (S.occB i) S.ref)))))

/-- The CCSDT equations: the projections of `e^{-T} H e^{T} |Φ⟩` on all singly, doubly and triply excited determinants
vanish. -/
structure SolvesCCSDT (S : Orbitals ι) (Z : Integrals) (T : Cluster) (T₃ : Triples) : Prop where
  a : ∀ a i, a < S.ua → i < S.na → S.element (S.singleA a i) (transformed3 S Z T T₃) = 0
  b : ∀ a i, a < S.ub → i < S.nb → S.element (S.singleB a i) (transformed3 S Z T T₃) = 0
  aa : ∀ a b i j, a < S.ua → b < S.ua → i < S.na → j < S.na → S.element (S.doubleAA a b i j) (transformed3 S Z T T₃) = 0
  ab : ∀ a b i j, a < S.ua → b < S.ub → i < S.na → j < S.nb → S.element (S.doubleAB a b i j) (transformed3 S Z T T₃) = 0
  bb : ∀ a b i j, a < S.ub → b < S.ub → i < S.nb → j < S.nb → S.element (S.doubleBB a b i j) (transformed3 S Z T T₃) = 0
  aaa : ∀ a b c i j k, a < S.ua → b < S.ua → c < S.ua → i < S.na → j < S.na → k < S.na →
    S.element (S.tripleAAA a b c i j k) (transformed3 S Z T T₃) = 0
  aab : ∀ a b c i j k, a < S.ua → b < S.ua → c < S.ub → i < S.na → j < S.na → k < S.nb →
    S.element (S.tripleAAB a b c i j k) (transformed3 S Z T T₃) = 0
  abb : ∀ a b c i j k, a < S.ua → b < S.ub → c < S.ub → i < S.na → j < S.nb → k < S.nb →
    S.element (S.tripleABB a b c i j k) (transformed3 S Z T T₃) = 0
  bbb : ∀ a b c i j k, a < S.ub → b < S.ub → c < S.ub → i < S.nb → j < S.nb → k < S.nb →
    S.element (S.tripleBBB a b c i j k) (transformed3 S Z T T₃) = 0

end

def Triples.zero : Triples :=
  ⟨fun _ _ _ _ _ _ => 0, fun _ _ _ _ _ _ => 0, fun _ _ _ _ _ _ => 0, fun _ _ _ _ _ _ => 0⟩

/-- The contents of the arrays `106, …, 109`. -/
def Triples.amp (T : Triples) (name : ℕ) (l : List ℕ) : ℚ :=
  match name, l with
  | 106, [a, b, c, i, j, k] => T.tAAA a b c i j k
  | 107, [a, b, c, i, j, k] => T.tAAB a b c i j k
  | 108, [a, b, c, i, j, k] => T.tABB a b c i j k
  | 109, [a, b, c, i, j, k] => T.tBBB a b c i j k
  | _, _ => 0

/-- The arrays of several sets of amplitudes: `6, …, 10` for the single and double excitations of the first set, `11, …, 15`
for those of the second set and so on, `106, …, 109` for the triple excitations of the first set, `110, …, 113` for those of
the second set and so on. -/
def store3 (l : List Cluster) (l₃ : List Triples) (name : ℕ) (idx : List ℕ) : ℚ :=
  if name < 106 then Cluster.store l name idx else (l₃.getD ((name - 106) / 4) Triples.zero).amp (106 + (name - 106) % 4) idx

end Ccpy.Fock
