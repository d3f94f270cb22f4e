import Verif.Spec.LeftStates
import Verif.Spec.Triples

/-! Specification: the CR-CC(2,3) correction.  It is a sum over triply excited determinants `K` of
`⟨K| e^{-T} H e^{T} |Φ⟩ ⟨Φ| (1 + L) e^{-T} H e^{T} |K⟩ / D(K)`. -/

namespace Ccpy.Fock

variable {ι : Type*} [LinearOrder ι]

noncomputable section

/-- Excitations of three electrons. -/
def Orbitals.exciteAAA (S : Orbitals ι) (a b c i j k : ℕ) : Operator ι :=
  cre (S.virA a) * cre (S.virA b) * cre (S.virA c) * ann (S.occA k) * ann (S.occA j) * ann (S.occA i)
def Orbitals.exciteAAB (S : Orbitals ι) (a b c i j k : ℕ) : Operator ι :=
  cre (S.virA a) * cre (S.virA b) * cre (S.virB c) * ann (S.occB k) * ann (S.occA j) * ann (S.occA i)
def Orbitals.exciteABB (S : Orbitals ι) (a b c i j k : ℕ) : Operator ι :=
  cre (S.virA a) * cre (S.virB b) * cre (S.virB c) * ann (S.occB k) * ann (S.occB j) * ann (S.occA i)
def Orbitals.exciteBBB (S : Orbitals ι) (a b c i j k : ℕ) : Operator ι :=
  cre (S.virB a) * cre (S.virB b) * cre (S.virB c) * ann (S.occB k) * ann (S.occB j) * ann (S.occB i)

/-- What the determinant `τ Φ` contributes, with the energy difference `D`. -/
def crccTerm (S : Orbitals ι) (Z : Integrals) (T L : Cluster) (τ : Operator ι) (D : ℚ) : ℚ :=
  S.element (τ S.ref) (transformed S Z T) * S.element S.ref ((1 + deexcitation S L) * transformed S Z T * τ) / D

open Finset in
/-- The sums over triply excited determinants, with energy differences for each of them. -/
def crccAAA (S : Orbitals ι) (Z : Integrals) (T L : Cluster) (D : ℕ → ℕ → ℕ → ℕ → ℕ → ℕ → ℚ) : ℚ :=
  ∑ i ∈ range S.na, ∑ j ∈ Ico (i + 1) S.na, ∑ k ∈ Ico (j + 1) S.na,
    ∑ a ∈ range S.ua, ∑ b ∈ Ico (a + 1) S.ua, ∑ c ∈ Ico (b + 1) S.ua,
      crccTerm S Z T L (S.exciteAAA a b c i j k) (D a b c i j k)
open Finset in
def crccAAB (S : Orbitals ι) (Z : Integrals) (T L : Cluster) (D : ℕ → ℕ → ℕ → ℕ → ℕ → ℕ → ℚ) : ℚ :=
  ∑ i ∈ range S.na, ∑ j ∈ Ico (i + 1) S.na, ∑ k ∈ range S.nb,
    ∑ a ∈ range S.ua, ∑ b ∈ Ico (a + 1) S.ua, ∑ c ∈ range S.ub,
      crccTerm S Z T L (S.exciteAAB a b c i j k) (D a b c i j k)
open Finset in
def crccABB (S : Orbitals ι) (Z : Integrals) (T L : Cluster) (D : ℕ → ℕ → ℕ → ℕ → ℕ → ℕ → ℚ) : ℚ :=
  ∑ i ∈ range S.na, ∑ j ∈ range S.nb, ∑ k ∈ Ico (j + 1) S.nb,
    ∑ a ∈ range S.ua, ∑ b ∈ range S.ub, ∑ c ∈ Ico (b + 1) S.ub,
      crccTerm S Z T L (S.exciteABB a b c i j k) (D a b c i j k)
open Finset in
def crccBBB (S : Orbitals ι) (Z : Integrals) (T L : Cluster) (D : ℕ → ℕ → ℕ → ℕ → ℕ → ℕ → ℚ) : ℚ :=
  ∑ i ∈ range S.nb, ∑ j ∈ Ico (i + 1) S.nb, ∑ k ∈ Ico (j + 1) S.nb,
    ∑ a ∈ range S.ub, ∑ b ∈ Ico (a + 1) S.ub, ∑ c ∈ Ico (b + 1) S.ub,
      crccTerm S Z T L (S.exciteBBB a b c i j k) (D a b c i j k)

/-- Energy differences of each spin case. -/
structure Gaps where
  (aaa aab abb bbb : ℕ → ℕ → ℕ → ℕ → ℕ → ℕ → ℚ)

/-- The correction. -/
def crcc (S : Orbitals ι) (Z : Integrals) (T L : Cluster) (D : Gaps) : ℚ :=
  crccAAA S Z T L D.aaa + crccAAB S Z T L D.aab + crccABB S Z T L D.abb + crccBBB S Z T L D.bbb

/-- The Møller–Plesset energy differences of variant A. -/
def gapsA (S : Orbitals ι) (Z : Integrals) : Gaps where
  aaa a b c i j k := fockA S Z i i + fockA S Z j j + fockA S Z k k
    - fockA S Z (S.na + a) (S.na + a) - fockA S Z (S.na + b) (S.na + b) - fockA S Z (S.na + c) (S.na + c)
  aab a b c i j k := fockA S Z i i + fockA S Z j j + fockB S Z k k
    - fockA S Z (S.na + a) (S.na + a) - fockA S Z (S.na + b) (S.na + b) - fockB S Z (S.nb + c) (S.nb + c)
  abb a b c i j k := fockA S Z i i + fockB S Z j j + fockB S Z k k
    - fockA S Z (S.na + a) (S.na + a) - fockB S Z (S.nb + b) (S.nb + b) - fockB S Z (S.nb + c) (S.nb + c)
  bbb a b c i j k := fockB S Z i i + fockB S Z j j + fockB S Z k k
    - fockB S Z (S.nb + a) (S.nb + a) - fockB S Z (S.nb + b) (S.nb + b) - fockB S Z (S.nb + c) (S.nb + c)

/-- `⟨Φ| e^{-T} H e^{T} |Φ⟩ - ⟨K| e^{-T} H e^{T} |K⟩` for `K = τ Φ`. -/
def gap (S : Orbitals ι) (Z : Integrals) (T : Cluster) (τ : Operator ι) : ℚ :=
  S.element S.ref (transformed S Z T) - S.element (τ S.ref) (transformed S Z T * τ)

/-- The Epstein–Nesbet energy differences of variant D. -/
def gapsD (S : Orbitals ι) (Z : Integrals) (T : Cluster) : Gaps where
  aaa a b c i j k := gap S Z T (S.exciteAAA a b c i j k)
  aab a b c i j k := gap S Z T (S.exciteAAB a b c i j k)
  abb a b c i j k := gap S Z T (S.exciteABB a b c i j k)
  bbb a b c i j k := gap S Z T (S.exciteBBB a b c i j k)

/-- The orbitals that an excitation empties or fills, as operators on the reference determinant. -/
def Orbitals.quasiAAA (S : Orbitals ι) (a b c i j k : ℕ) : List (Operator ι) :=
  [ann (S.occA i), ann (S.occA j), ann (S.occA k), cre (S.virA a), cre (S.virA b), cre (S.virA c)]
def Orbitals.quasiAAB (S : Orbitals ι) (a b c i j k : ℕ) : List (Operator ι) :=
  [ann (S.occA i), ann (S.occA j), ann (S.occB k), cre (S.virA a), cre (S.virA b), cre (S.virB c)]
def Orbitals.quasiABB (S : Orbitals ι) (a b c i j k : ℕ) : List (Operator ι) :=
  [ann (S.occA i), ann (S.occB j), ann (S.occB k), cre (S.virA a), cre (S.virB b), cre (S.virB c)]
def Orbitals.quasiBBB (S : Orbitals ι) (a b c i j k : ℕ) : List (Operator ι) :=
  [ann (S.occB i), ann (S.occB j), ann (S.occB k), cre (S.virB a), cre (S.virB b), cre (S.virB c)]

/-- The energy differences of variant B: the removal of each electron and the attachment of each electron by itself. -/
def gapsB (S : Orbitals ι) (Z : Integrals) (T : Cluster) : Gaps where
  aaa a b c i j k := ((S.quasiAAA a b c i j k).map (gap S Z T)).sum
  aab a b c i j k := ((S.quasiAAB a b c i j k).map (gap S Z T)).sum
  abb a b c i j k := ((S.quasiABB a b c i j k).map (gap S Z T)).sum
  bbb a b c i j k := ((S.quasiBBB a b c i j k).map (gap S Z T)).sum

/-- The interaction of three electrons in the transformed Hamiltonian, for two occupied and one unoccupied orbital (`o`) or one
occupied and two unoccupied orbitals (`v`).  The letters are the spin of the single orbital and that of the sum. -/
def threeAAo (S : Orbitals ι) (Z : Integrals) (T : Cluster) (a i j : ℕ) : ℚ :=
  ∑ e ∈ Finset.range S.ua, Z.vAA i j (S.na + a) (S.na + e) * T.tAA a e i j
def threeAAv (S : Orbitals ι) (Z : Integrals) (T : Cluster) (a b i : ℕ) : ℚ :=
  ∑ n ∈ Finset.range S.na, Z.vAA i n (S.na + a) (S.na + b) * T.tAA a b i n
def threeABo (S : Orbitals ι) (Z : Integrals) (T : Cluster) (a i j : ℕ) : ℚ :=
  ∑ e ∈ Finset.range S.ub, Z.vAB i j (S.na + a) (S.nb + e) * T.tAB a e i j
def threeABv (S : Orbitals ι) (Z : Integrals) (T : Cluster) (a b i : ℕ) : ℚ :=
  ∑ n ∈ Finset.range S.nb, Z.vAB i n (S.na + a) (S.nb + b) * T.tAB a b i n
def threeBAo (S : Orbitals ι) (Z : Integrals) (T : Cluster) (b i j : ℕ) : ℚ :=
  ∑ e ∈ Finset.range S.ua, Z.vAB i j (S.na + e) (S.nb + b) * T.tAB e b i j
def threeBAv (S : Orbitals ι) (Z : Integrals) (T : Cluster) (a b j : ℕ) : ℚ :=
  ∑ n ∈ Finset.range S.na, Z.vAB n j (S.na + a) (S.nb + b) * T.tAB a b n j
def threeBBo (S : Orbitals ι) (Z : Integrals) (T : Cluster) (a i j : ℕ) : ℚ :=
  ∑ e ∈ Finset.range S.ub, Z.vBB i j (S.nb + a) (S.nb + e) * T.tBB a e i j
def threeBBv (S : Orbitals ι) (Z : Integrals) (T : Cluster) (a b i : ℕ) : ℚ :=
  ∑ n ∈ Finset.range S.nb, Z.vBB i n (S.nb + a) (S.nb + b) * T.tBB a b i n

/-- The energy differences of variant C: those of variant D without the interactions of three electrons. -/
def gapsC (S : Orbitals ι) (Z : Integrals) (T : Cluster) : Gaps where
  aaa a b c i j k := gap S Z T (S.exciteAAA a b c i j k)
    - (threeAAo S Z T a i j + threeAAo S Z T a i k + threeAAo S Z T a j k + threeAAo S Z T b i j
      + threeAAo S Z T b i k + threeAAo S Z T b j k + threeAAo S Z T c i j + threeAAo S Z T c i k
      + threeAAo S Z T c j k + threeAAv S Z T a b i + threeAAv S Z T a c i + threeAAv S Z T b c i
      + threeAAv S Z T a b j + threeAAv S Z T a c j + threeAAv S Z T b c j + threeAAv S Z T a b k
      + threeAAv S Z T a c k + threeAAv S Z T b c k)
  aab a b c i j k := gap S Z T (S.exciteAAB a b c i j k)
    - (threeAAo S Z T a i j + threeABo S Z T a i k + threeABo S Z T a j k + threeAAo S Z T b i j
      + threeABo S Z T b i k + threeABo S Z T b j k + threeBAo S Z T c i k + threeBAo S Z T c j k
      + threeAAv S Z T a b i + threeABv S Z T a c i + threeABv S Z T b c i + threeAAv S Z T a b j
      + threeABv S Z T a c j + threeABv S Z T b c j + threeBAv S Z T a c k + threeBAv S Z T b c k)
  abb a b c i j k := gap S Z T (S.exciteABB a b c i j k)
    - (threeABo S Z T a i j + threeABo S Z T a i k + threeBAo S Z T b i j + threeBAo S Z T b i k
      + threeBBo S Z T b j k + threeBAo S Z T c i j + threeBAo S Z T c i k + threeBBo S Z T c j k
      + threeABv S Z T a b i + threeABv S Z T a c i + threeBAv S Z T a b j + threeBAv S Z T a c j
      + threeBBv S Z T b c j + threeBAv S Z T a b k + threeBAv S Z T a c k + threeBBv S Z T b c k)
  bbb a b c i j k := gap S Z T (S.exciteBBB a b c i j k)
    - (threeBBo S Z T a i j + threeBBo S Z T a i k + threeBBo S Z T a j k + threeBBo S Z T b i j
      + threeBBo S Z T b i k + threeBBo S Z T b j k + threeBBo S Z T c i j + threeBBo S Z T c i k
      + threeBBo S Z T c j k + threeBBv S Z T a b i + threeBBv S Z T a c i + threeBBv S Z T b c i
      + threeBBv S Z T a b j + threeBBv S Z T a c j + threeBBv S Z T b c j + threeBBv S Z T a b k
      + threeBBv S Z T a c k + threeBBv S Z T b c k)

end

end Ccpy.Fock
