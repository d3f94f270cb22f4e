import Verif.Lemmas.Mp3Sums
import Verif.Lemmas.Mp3Loops
import Verif.Lemmas.CcsdPtValues
import Verif.Spec.Mp3

/-! The values of the factors of the energies of second and third order. -/

namespace Ccpy.Mp3
open Ccpy.Fock Ccpy.Tensor Ccpy.Engine Ccpy.HbarCcsd Ccpy.Ccsdt Ccpy.PSpace Ccpy.Ccsd
open Ccpy.CrCc (bare evalS_bare)
open Finset (range Ico)

variable {ι : Type*} [LinearOrder ι]

theorem evalS_listInteraction {S : Orbitals ι} (h : S.Proper) (Z : Fock.Integrals) (amp : ℕ → List ℕ → ℚ) (ρ : Env) :
    evalS (Tensor.elements S.na S.nb (stF S Z) (stV Z) amp) (opX S) (dimS S) listInteraction ρ = fluctuation S Z := by
  have e := evalS_listH h Z amp ρ
  have f := evalS_listFock h Z amp ρ
  have l : listH = app (listF 1 0 ⟨false, 1, 1⟩) (app (listF 2 2 ⟨false, 1, 1⟩) listInteraction) := rfl
  rw [l, app_eq, app_eq, evalS_append, evalS_append] at e
  unfold listFock at f
  rw [app_eq, evalS_append] at f
  rw [← add_assoc, f] at e
  rw [fluctuation, ← e, add_sub_cancel_left]

theorem one_antisym {T : Cluster} (hT : T.Antisym) : ∀ C ∈ [T], C.Antisym := fun C hC => by
  simp only [List.mem_cons, List.not_mem_nil, or_false] at hC
  rcases hC with rfl
  exact hT

/-- A projection of the commutator of the interaction with double excitations. -/
theorem value_commV {S : Orbitals ι} (h : S.Proper) {Z : Fock.Integrals} (hZ : Z.Antisym) {T : Cluster} (hT : T.Antisym)
    {x : Ex} {ext : List ℕ} {bra : List Op} (hb : ∀ o ∈ bra, o.2 ∈ ext)
    (hx : dcheck (groups tableC) bare listInteraction x ext [] false (commV bra) = true) {ρ : Env} (hρ : ExtOk (dimS S) ext ρ) :
    value S Z (Cluster.store [T]) x (ext.map ρ) = expect S (evalO (opX S) ρ bra
      * (fluctuation S Z * clusterOperator S T.doubles - clusterOperator S T.doubles * fluctuation S Z)) := by
  have h0 := store_holds [T] 0
  rw [dcheck_sound h (antiSym_C hZ (one_antisym hT)) (fun m ρ => evalS_bare m ρ) IsNilpotent.zero hx
    (evalS_listInteraction h Z _ ρ) hρ .nil (ws := [(evalO (opX S) ρ bra, clusterOperator S T.doubles, 1)])
    (.cons ⟨fun ρ' hr => ?_, fun m ρ' _ => evalS_listDoubles S T h0 m ρ', fun ρ' m hr => rfl⟩ .nil)]
  · simp [commV, sg]
  · simp only [List.map_cons, List.map_nil, List.prod_cons, List.prod_nil, mul_one]
    exact evalS_slot hr hb

/-- A projection of the Hamiltonian. -/
theorem value_braH {S : Orbitals ι} (h : S.Proper) {Z : Fock.Integrals} (hZ : Z.Antisym) {T : Cluster} (hT : T.Antisym)
    {x : Ex} {ext : List ℕ} {bra : List Op} (hb : ∀ o ∈ bra, o.2 ∈ ext)
    (hx : check (groups tableC) bare listH x ext (left bra) = true) {ρ : Env} (hρ : ExtOk (dimS S) ext ρ) :
    value S Z (Cluster.store [T]) x (ext.map ρ) = expect S (evalO (opX S) ρ bra * hamiltonian S Z) := by
  rw [check_sound' h (antiSym_C hZ (one_antisym hT)) (fun m ρ => evalS_bare m ρ) IsNilpotent.zero hx (evalS_listH h Z _ ρ) hρ
    (vs := [(evalO (opX S) ρ bra, 1)])
    (.cons ⟨fun ρ' hr => ?_, fun ρ' m hr => rfl⟩ .nil)]
  · simp only [left, List.zipWith, Bool.false_eq_true, if_false, one_mul, List.sum_cons, List.sum_nil, add_zero, neg_zero,
      IsNilpotent.exp_zero, mul_one]
  · simp only [List.map_cons, List.map_nil, List.prod_cons, List.prod_nil, mul_one]
    exact evalS_slot hr hb

/-- What the Hamiltonian leaves of an excited determinant. -/
theorem value_ketH {S : Orbitals ι} (h : S.Proper) {Z : Fock.Integrals} (hZ : Z.Antisym) {T : Cluster} (hT : T.Antisym)
    {x : Ex} {ext : List ℕ} {τ : List Op} (hb : ∀ o ∈ τ, o.2 ∈ ext)
    (hx : check (groups tableC) bare listH x ext (plainH τ) = true) {ρ : Env} (hρ : ExtOk (dimS S) ext ρ) :
    value S Z (Cluster.store [T]) x (ext.map ρ) = S.element S.ref (hamiltonian S Z * evalO (opX S) ρ τ) := by
  rw [check_sound' h (antiSym_C hZ (one_antisym hT)) (fun m ρ => evalS_bare m ρ) IsNilpotent.zero hx (evalS_listH h Z _ ρ) hρ
    (vs := [(1, evalO (opX S) ρ τ)])
    (.cons ⟨fun ρ' hr => rfl, fun ρ' m hr => ?_⟩ .nil)]
  · simp only [plainH, List.zipWith, Bool.false_eq_true, if_false, one_mul, List.sum_cons, List.sum_nil, add_zero, neg_zero,
      IsNilpotent.exp_zero, mul_one]
    rfl
  · simp only [List.map_cons, List.map_nil, List.prod_cons, List.prod_nil, mul_one]
    exact evalS_slot hr hb

theorem firstOrder_antisym {S : Orbitals ι} {Z : Fock.Integrals} (hZ : Z.Antisym) : (firstOrder S Z).Antisym := by
  constructor
  · intro a b i j
    constructor
    · simp only [firstOrder, gapAA]; rw [(hZ.aa _ _ _ _).1, sub_right_comm, neg_div]
    · simp only [firstOrder, gapAA]; rw [(hZ.aa _ _ _ _).2, add_comm (fockA S Z j j), neg_div]
  · intro a b i j
    constructor
    · simp only [firstOrder, gapBB]; rw [(hZ.bb _ _ _ _).1, sub_right_comm, neg_div]
    · simp only [firstOrder, gapBB]; rw [(hZ.bb _ _ _ _).2, add_comm (fockB S Z j j), neg_div]

theorem zero_antisym : Cluster.zero.Antisym := by
  constructor <;> intro p q r s <;> constructor <;> exact neg_zero.symm

section
variable {S : Orbitals ι} (h : S.Proper) {Z : Fock.Integrals} (hZ : Z.Antisym) {a b i j : ℕ}
include h hZ

theorem value_m2a (ha : a < S.ua) (hb : b < S.ua) (hi : i < S.na) (hj : j < S.na) {T : Cluster} (hT : T.Antisym) :
    value S Z (Cluster.store [T]) (m2a amplitudes stored) [a, b, i, j] = S.element (S.exciteAA a b i j S.ref)
      (fluctuation S Z * clusterOperator S T.doubles - clusterOperator S T.doubles * fluctuation S Z) := by
  have hρ : ExtOk (dimS S) [1, 5, 8, 12] (env [1, 5, 8, 12] [a, b, i, j]) := fun v hv => by
    simp only [List.mem_cons, List.not_mem_nil, or_false] at hv
    rcases hv with rfl | rfl | rfl | rfl <;> assumption
  have e := value_commV h hZ hT (by decide) check_m2a hρ
  rw [evalO_four, element_double] at e
  exact e

theorem element_va (ha : a < S.ua) (hb : b < S.ua) (hi : i < S.na) (hj : j < S.na) :
    S.element (S.exciteAA a b i j S.ref) (hamiltonian S Z) = Z.vAA (S.na + a) (S.na + b) i j := by
  have hρ : ExtOk (dimS S) [1, 5, 8, 12] (env [1, 5, 8, 12] [a, b, i, j]) := fun v hv => by
    simp only [List.mem_cons, List.not_mem_nil, or_false] at hv
    rcases hv with rfl | rfl | rfl | rfl <;> assumption
  have e := value_braH h hZ zero_antisym (by decide) check_va hρ
  rw [evalO_four, element_double] at e
  exact e.symm

theorem element_oa (ha : a < S.ua) (hb : b < S.ua) (hi : i < S.na) (hj : j < S.na) :
    S.element S.ref (hamiltonian S Z * S.exciteAA a b i j) = Z.vAA i j (S.na + a) (S.na + b) := by
  have hρ : ExtOk (dimS S) [1, 5, 8, 12] (env [1, 5, 8, 12] [a, b, i, j]) := fun v hv => by
    simp only [List.mem_cons, List.not_mem_nil, or_false] at hv
    rcases hv with rfl | rfl | rfl | rfl <;> assumption
  have e := value_ketH h hZ zero_antisym (by decide) check_oa hρ
  have ev : evalO (opX S) (env [1, 5, 8, 12] [a, b, i, j]) [(true, 1), (true, 5), (false, 12), (false, 8)] = S.exciteAA a b i j := by
    rw [evalO_four]
    simp only [← mul_assoc]
    rfl
  rw [ev] at e
  exact e.symm.trans (mul_one _)

theorem value_m2b (ha : a < S.ua) (hb : b < S.ub) (hi : i < S.na) (hj : j < S.nb) {T : Cluster} (hT : T.Antisym) :
    value S Z (Cluster.store [T]) (m2b amplitudes stored) [a, b, i, j] = S.element (S.exciteAB a b i j S.ref)
      (fluctuation S Z * clusterOperator S T.doubles - clusterOperator S T.doubles * fluctuation S Z) := by
  have hρ : ExtOk (dimS S) [1, 7, 8, 14] (env [1, 7, 8, 14] [a, b, i, j]) := fun v hv => by
    simp only [List.mem_cons, List.not_mem_nil, or_false] at hv
    rcases hv with rfl | rfl | rfl | rfl <;> assumption
  have e := value_commV h hZ hT (by decide) check_m2b hρ
  rw [evalO_four, element_double] at e
  exact e

theorem element_vb (ha : a < S.ua) (hb : b < S.ub) (hi : i < S.na) (hj : j < S.nb) :
    S.element (S.exciteAB a b i j S.ref) (hamiltonian S Z) = Z.vAB (S.na + a) (S.nb + b) i j := by
  have hρ : ExtOk (dimS S) [1, 7, 8, 14] (env [1, 7, 8, 14] [a, b, i, j]) := fun v hv => by
    simp only [List.mem_cons, List.not_mem_nil, or_false] at hv
    rcases hv with rfl | rfl | rfl | rfl <;> assumption
  have e := value_braH h hZ zero_antisym (by decide) check_vb hρ
  rw [evalO_four, element_double] at e
  exact e.symm

theorem element_ob (ha : a < S.ua) (hb : b < S.ub) (hi : i < S.na) (hj : j < S.nb) :
    S.element S.ref (hamiltonian S Z * S.exciteAB a b i j) = Z.vAB i j (S.na + a) (S.nb + b) := by
  have hρ : ExtOk (dimS S) [1, 7, 8, 14] (env [1, 7, 8, 14] [a, b, i, j]) := fun v hv => by
    simp only [List.mem_cons, List.not_mem_nil, or_false] at hv
    rcases hv with rfl | rfl | rfl | rfl <;> assumption
  have e := value_ketH h hZ zero_antisym (by decide) check_ob hρ
  have ev : evalO (opX S) (env [1, 7, 8, 14] [a, b, i, j]) [(true, 1), (true, 7), (false, 14), (false, 8)] = S.exciteAB a b i j := by
    rw [evalO_four]
    simp only [← mul_assoc]
    rfl
  rw [ev] at e
  exact e.symm.trans (mul_one _)

theorem value_m2c (ha : a < S.ub) (hb : b < S.ub) (hi : i < S.nb) (hj : j < S.nb) {T : Cluster} (hT : T.Antisym) :
    value S Z (Cluster.store [T]) (m2c amplitudes stored) [a, b, i, j] = S.element (S.exciteBB a b i j S.ref)
      (fluctuation S Z * clusterOperator S T.doubles - clusterOperator S T.doubles * fluctuation S Z) := by
  have hρ : ExtOk (dimS S) [3, 7, 10, 14] (env [3, 7, 10, 14] [a, b, i, j]) := fun v hv => by
    simp only [List.mem_cons, List.not_mem_nil, or_false] at hv
    rcases hv with rfl | rfl | rfl | rfl <;> assumption
  have e := value_commV h hZ hT (by decide) check_m2c hρ
  rw [evalO_four, element_double] at e
  exact e

theorem element_vc (ha : a < S.ub) (hb : b < S.ub) (hi : i < S.nb) (hj : j < S.nb) :
    S.element (S.exciteBB a b i j S.ref) (hamiltonian S Z) = Z.vBB (S.nb + a) (S.nb + b) i j := by
  have hρ : ExtOk (dimS S) [3, 7, 10, 14] (env [3, 7, 10, 14] [a, b, i, j]) := fun v hv => by
    simp only [List.mem_cons, List.not_mem_nil, or_false] at hv
    rcases hv with rfl | rfl | rfl | rfl <;> assumption
  have e := value_braH h hZ zero_antisym (by decide) check_vc hρ
  rw [evalO_four, element_double] at e
  exact e.symm

theorem element_oc (ha : a < S.ub) (hb : b < S.ub) (hi : i < S.nb) (hj : j < S.nb) :
    S.element S.ref (hamiltonian S Z * S.exciteBB a b i j) = Z.vBB i j (S.nb + a) (S.nb + b) := by
  have hρ : ExtOk (dimS S) [3, 7, 10, 14] (env [3, 7, 10, 14] [a, b, i, j]) := fun v hv => by
    simp only [List.mem_cons, List.not_mem_nil, or_false] at hv
    rcases hv with rfl | rfl | rfl | rfl <;> assumption
  have e := value_ketH h hZ zero_antisym (by decide) check_oc hρ
  have ev : evalO (opX S) (env [3, 7, 10, 14] [a, b, i, j]) [(true, 3), (true, 7), (false, 14), (false, 10)] = S.exciteBB a b i j := by
    rw [evalO_four]
    simp only [← mul_assoc]
    rfl
  rw [ev] at e
  exact e.symm.trans (mul_one _)

end

end Ccpy.Mp3
