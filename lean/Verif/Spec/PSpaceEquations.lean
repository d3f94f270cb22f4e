import Verif.Spec.PSpaceLists
import Verif.Spec.Triples

/-! The equations of CCSDT(P): the projections of the similarity transformed Hamiltonian on all single and double and on the listed
triple excitations vanish. -/

namespace Ccpy.PSpace
open Ccpy.Fock

variable {ι : Type*} [LinearOrder ι]

/-- The energy denominators of triple excitations. -/
def tripleGapAAA (S : Orbitals ι) (Z : Integrals) (a b c i j k : ℕ) : ℚ := fockA S Z i i + fockA S Z j j + fockA S Z k k
  - fockA S Z (S.na + a) (S.na + a) - fockA S Z (S.na + b) (S.na + b) - fockA S Z (S.na + c) (S.na + c)
def tripleGapAAB (S : Orbitals ι) (Z : Integrals) (a b c i j k : ℕ) : ℚ := fockA S Z i i + fockA S Z j j + fockB S Z k k
  - fockA S Z (S.na + a) (S.na + a) - fockA S Z (S.na + b) (S.na + b) - fockB S Z (S.nb + c) (S.nb + c)
def tripleGapABB (S : Orbitals ι) (Z : Integrals) (a b c i j k : ℕ) : ℚ := fockA S Z i i + fockB S Z j j + fockB S Z k k
  - fockA S Z (S.na + a) (S.na + a) - fockB S Z (S.nb + b) (S.nb + b) - fockB S Z (S.nb + c) (S.nb + c)
def tripleGapBBB (S : Orbitals ι) (Z : Integrals) (a b c i j k : ℕ) : ℚ := fockB S Z i i + fockB S Z j j + fockB S Z k k
  - fockB S Z (S.nb + a) (S.nb + a) - fockB S Z (S.nb + b) (S.nb + b) - fockB S Z (S.nb + c) (S.nb + c)

/-- The shifted energy denominators of the listed excitations are not zero. -/
structure ListedDenominators (S : Orbitals ι) (Z : Integrals) (shift : ℚ) (t3a t3b t3c t3d : Buffer) : Prop where
  aaa : ∀ q ∈ t3a.excits, ListedAAA S.ua S.na q → atRow (tripleGapAAA S Z) q - shift ≠ 0
  aab : ∀ q ∈ t3b.excits, ListedAAB S.ua S.ub S.na S.nb q → atRow (tripleGapAAB S Z) q - shift ≠ 0
  abb : ∀ q ∈ t3c.excits, ListedABB S.ua S.ub S.na S.nb q → atRow (tripleGapABB S Z) q - shift ≠ 0
  bbb : ∀ q ∈ t3d.excits, ListedAAA S.ub S.nb q → atRow (tripleGapBBB S Z) q - shift ≠ 0

/-- Four lists of triple excitations, each excitation at most once. -/
structure ProperLists (S : Orbitals ι) (t3a t3b t3c t3d : Buffer) : Prop where
  aaa : t3a.Usable (ListedAAA S.ua S.na)
  aab : t3b.Usable (ListedAAB S.ua S.ub S.na S.nb)
  abb : t3c.Usable (ListedABB S.ua S.ub S.na S.nb)
  bbb : t3d.Usable (ListedAAA S.ub S.nb)
  aaa_once : t3a.excits.Nodup
  aab_once : t3b.excits.Nodup
  abb_once : t3c.excits.Nodup
  bbb_once : t3d.excits.Nodup

/-- The lists of a closed shell: exchanging the spins turns the second list into the third and the first into the fourth. -/
structure MirroredLists (aaa aab abb bbb : TripleList) : Prop where
  abb : abb.Perm (aab.map fun x =>
    ([x.1.getD 2 0, x.1.getD 0 0, x.1.getD 1 0, x.1.getD 5 0, x.1.getD 3 0, x.1.getD 4 0], x.2))
  bbb : bbb.Perm aaa

/-- The equations of CCSDT(P).  The placeholder of an empty list is not an excitation. -/
structure SolvesCCSDTP (S : Orbitals ι) (Z : Integrals) (T : Cluster) (t3a t3b t3c t3d : Buffer) : Prop where
  a : ∀ a i, a < S.ua → i < S.na →
    S.element (S.singleA a i) (transformed3 S Z T (listed3 t3a.list t3b.list t3c.list t3d.list)) = 0
  b : ∀ a i, a < S.ub → i < S.nb →
    S.element (S.singleB a i) (transformed3 S Z T (listed3 t3a.list t3b.list t3c.list t3d.list)) = 0
  aa : ∀ a b i j, a < S.ua → b < S.ua → i < S.na → j < S.na →
    S.element (S.doubleAA a b i j) (transformed3 S Z T (listed3 t3a.list t3b.list t3c.list t3d.list)) = 0
  ab : ∀ a b i j, a < S.ua → b < S.ub → i < S.na → j < S.nb →
    S.element (S.doubleAB a b i j) (transformed3 S Z T (listed3 t3a.list t3b.list t3c.list t3d.list)) = 0
  bb : ∀ a b i j, a < S.ub → b < S.ub → i < S.nb → j < S.nb →
    S.element (S.doubleBB a b i j) (transformed3 S Z T (listed3 t3a.list t3b.list t3c.list t3d.list)) = 0
  aaa : ∀ q ∈ t3a.excits, ListedAAA S.ua S.na q →
    atRow (fun a b c i j k => S.element (S.tripleAAA a b c i j k)
      (transformed3 S Z T (listed3 t3a.list t3b.list t3c.list t3d.list))) q = 0
  aab : ∀ q ∈ t3b.excits, ListedAAB S.ua S.ub S.na S.nb q →
    atRow (fun a b c i j k => S.element (S.tripleAAB a b c i j k)
      (transformed3 S Z T (listed3 t3a.list t3b.list t3c.list t3d.list))) q = 0
  abb : ∀ q ∈ t3c.excits, ListedABB S.ua S.ub S.na S.nb q →
    atRow (fun a b c i j k => S.element (S.tripleABB a b c i j k)
      (transformed3 S Z T (listed3 t3a.list t3b.list t3c.list t3d.list))) q = 0
  bbb : ∀ q ∈ t3d.excits, ListedAAA S.ub S.nb q →
    atRow (fun a b c i j k => S.element (S.tripleBBB a b c i j k)
      (transformed3 S Z T (listed3 t3a.list t3b.list t3c.list t3d.list))) q = 0

end Ccpy.PSpace
