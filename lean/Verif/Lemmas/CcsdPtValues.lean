import Verif.Lemmas.CcsdPtLinks
import Verif.Lemmas.CrCcLeftValue

/-! The values of the two factors of each CCSD(T) term. -/

namespace Ccpy.CrCc
open Ccpy.Fock Ccpy.Tensor Ccpy.Engine Ccpy.HbarCcsd Ccpy.Ccsdt Ccpy.PSpace Ccpy.Ccsd
open Finset (range Ico)

variable {ι : Type*} [LinearOrder ι]

theorem evalS_bare {A : Type*} [Ring A] [Algebra ℚ A] {I : ℕ → List (ℕ × ℕ) → ℚ} {X : Bool → ℕ × ℕ → A} {dim : ℕ → ℕ} (m : ℕ)
    (ρ : Env) : evalS I X dim (bare m) ρ = 0 := evalS_noT m ρ

/-- A projection of the commutator of the Hamiltonian with the cluster operator. -/
theorem value_commT {S : Orbitals ι} (h : S.Proper) {Z : Fock.Integrals} (hZ : Z.Antisym) {T : Cluster} (hT : T.Antisym)
    {x : Ex} {ext : List ℕ} {bra : List Op} (hb : ∀ o ∈ bra, o.2 ∈ ext)
    (hx : dcheck (groups tableC) bare listH x ext [] false (commT bra) = true) {ρ : Env} (hρ : ExtOk (dimS S) ext ρ) :
    value S Z (Cluster.store [T]) x (ext.map ρ) = expect S (evalO (opX S) ρ bra
      * (hamiltonian S Z * clusterOperator S T - clusterOperator S T * hamiltonian S Z)) := by
  have hall : ∀ C ∈ [T], C.Antisym := fun C hC => by
    simp only [List.mem_cons, List.not_mem_nil, or_false] at hC
    rcases hC with rfl
    assumption
  have h0 := store_holds [T] 0
  rw [dcheck_sound h (antiSym_C hZ hall) (fun m ρ => evalS_bare m ρ) IsNilpotent.zero hx
    (evalS_listH h Z _ ρ) hρ .nil (ws := [(evalO (opX S) ρ bra, clusterOperator S T, 1)])
    (.cons ⟨fun ρ' hr => ?_, fun m ρ' _ => evalS_listC S T h0 m ρ', fun ρ' m hr => rfl⟩ .nil)]
  · simp [commT, sg]
  · simp only [List.map_cons, List.map_nil, List.prod_cons, List.prod_nil, mul_one]
    exact evalS_slot hr hb

/-- What an operator leaves of an excited determinant after deexcitation. -/
theorem value_undoT {S : Orbitals ι} (h : S.Proper) {Z : Fock.Integrals} (hZ : Z.Antisym) {T : Cluster} (hT : T.Antisym)
    {L : List Piece} {V : Operator ι}
    (hV : ∀ ρ, evalS (Tensor.elements S.na S.nb (stF S Z) (stV Z) (Cluster.store [T])) (opX S) (dimS S) L ρ = V)
    {x : Ex} {ext : List ℕ} {τ : List Op} (hb : ∀ o ∈ τ, o.2 ∈ ext)
    (hx : check (groups tableC) bare L x ext (undoT τ) = true) {ρ : Env} (hρ : ExtOk (dimS S) ext ρ) :
    value S Z (Cluster.store [T]) x (ext.map ρ) = S.element S.ref (deexcitation S T * V * evalO (opX S) ρ τ) := by
  have hall : ∀ C ∈ [T], C.Antisym := fun C hC => by
    simp only [List.mem_cons, List.not_mem_nil, or_false] at hC
    rcases hC with rfl
    assumption
  have h0 := store_holds [T] 0
  rw [check_sound' h (antiSym_C hZ hall) (fun m ρ => evalS_bare m ρ) IsNilpotent.zero hx (hV ρ) hρ
    (vs := [(deexcitation S T, evalO (opX S) ρ τ)])
    (.cons ⟨fun ρ' hr => ?_, fun ρ' m hr => ?_⟩ .nil)]
  · simp only [undoT, List.zipWith, Bool.false_eq_true, if_false, one_mul, List.sum_cons, List.sum_nil, add_zero, neg_zero,
      IsNilpotent.exp_zero, mul_one]
    rfl
  · simp only [List.map_cons, List.map_nil, List.prod_cons, List.prod_nil, mul_one]
    exact evalS_listL S T h0 15 ρ'
  · simp only [List.map_cons, List.map_nil, List.prod_cons, List.prod_nil, mul_one]
    exact evalS_slot hr hb

section
variable {S : Orbitals ι} (h : S.Proper) {Z : Fock.Integrals} (hZ : Z.Antisym) {T : Cluster} (hT : T.Antisym)
  {a b c i j k : ℕ}
include h hZ hT

theorem value_m3a (ha : a < S.ua) (hb : b < S.ua) (hc : c < S.ua) (hi : i < S.na) (hj : j < S.na) (hk : k < S.na) :
    value S Z (Cluster.store [T]) (m3a amplitudes stored) [a, b, c, i, j, k] = S.element (S.exciteAAA a b c i j k S.ref)
      (hamiltonian S Z * clusterOperator S T - clusterOperator S T * hamiltonian S Z) := by
  have hρ : ExtOk (dimS S) [1, 5, 9, 12, 16, 20] (env [1, 5, 9, 12, 16, 20] [a, b, c, i, j, k]) := fun v hv => by
    simp only [List.mem_cons, List.not_mem_nil, or_false] at hv
    rcases hv with rfl | rfl | rfl | rfl | rfl | rfl <;> assumption
  have e := value_commT h hZ hT (by decide) check_m3a hρ
  rw [evalO_six, element_triple] at e
  exact e

theorem value_pta (ha : a < S.ua) (hb : b < S.ua) (hc : c < S.ua) (hi : i < S.na) (hj : j < S.na) (hk : k < S.na) :
    value S Z (Cluster.store [T]) (l3a amplitudes stored) [a, b, c, i, j, k]
      = S.element S.ref (deexcitation S T * hamiltonian S Z * S.exciteAAA a b c i j k) := by
  have hρ : ExtOk (dimS S) [1, 5, 9, 12, 16, 20] (env [1, 5, 9, 12, 16, 20] [a, b, c, i, j, k]) := fun v hv => by
    simp only [List.mem_cons, List.not_mem_nil, or_false] at hv
    rcases hv with rfl | rfl | rfl | rfl | rfl | rfl <;> assumption
  have e := value_undoT h hZ hT (fun ρ => evalS_listH h Z _ ρ) (by decide) check_pta hρ
  have ev : evalO (opX S) (env [1, 5, 9, 12, 16, 20] [a, b, c, i, j, k]) [(true, 1), (true, 5), (true, 9), (false, 20), (false, 16), (false, 12)] = S.exciteAAA a b c i j k := by
    rw [evalO_six]
    simp only [← mul_assoc]
    rfl
  rw [ev] at e
  exact e

theorem value_f3a (ha : a < S.ua) (hb : b < S.ua) (hc : c < S.ua) (hi : i < S.na) (hj : j < S.na) (hk : k < S.na) :
    value S Z (Cluster.store [T]) (f3a amplitudes stored) [a, b, c, i, j, k]
      = S.element S.ref (deexcitation S T * fockOperator S Z * S.exciteAAA a b c i j k) := by
  have hρ : ExtOk (dimS S) [1, 5, 9, 12, 16, 20] (env [1, 5, 9, 12, 16, 20] [a, b, c, i, j, k]) := fun v hv => by
    simp only [List.mem_cons, List.not_mem_nil, or_false] at hv
    rcases hv with rfl | rfl | rfl | rfl | rfl | rfl <;> assumption
  have e := value_undoT h hZ hT (fun ρ => evalS_listFock h Z _ ρ) (by decide) check_f3a hρ
  have ev : evalO (opX S) (env [1, 5, 9, 12, 16, 20] [a, b, c, i, j, k]) [(true, 1), (true, 5), (true, 9), (false, 20), (false, 16), (false, 12)] = S.exciteAAA a b c i j k := by
    rw [evalO_six]
    simp only [← mul_assoc]
    rfl
  rw [ev] at e
  exact e

theorem value_m3b (ha : a < S.ua) (hb : b < S.ua) (hc : c < S.ub) (hi : i < S.na) (hj : j < S.na) (hk : k < S.nb) :
    value S Z (Cluster.store [T]) (m3b amplitudes stored) [a, b, c, i, j, k] = S.element (S.exciteAAB a b c i j k S.ref)
      (hamiltonian S Z * clusterOperator S T - clusterOperator S T * hamiltonian S Z) := by
  have hρ : ExtOk (dimS S) [1, 5, 11, 12, 16, 22] (env [1, 5, 11, 12, 16, 22] [a, b, c, i, j, k]) := fun v hv => by
    simp only [List.mem_cons, List.not_mem_nil, or_false] at hv
    rcases hv with rfl | rfl | rfl | rfl | rfl | rfl <;> assumption
  have e := value_commT h hZ hT (by decide) check_m3b hρ
  rw [evalO_six, element_triple] at e
  exact e

theorem value_ptb (ha : a < S.ua) (hb : b < S.ua) (hc : c < S.ub) (hi : i < S.na) (hj : j < S.na) (hk : k < S.nb) :
    value S Z (Cluster.store [T]) (l3b amplitudes stored) [a, b, c, i, j, k]
      = S.element S.ref (deexcitation S T * hamiltonian S Z * S.exciteAAB a b c i j k) := by
  have hρ : ExtOk (dimS S) [1, 5, 11, 12, 16, 22] (env [1, 5, 11, 12, 16, 22] [a, b, c, i, j, k]) := fun v hv => by
    simp only [List.mem_cons, List.not_mem_nil, or_false] at hv
    rcases hv with rfl | rfl | rfl | rfl | rfl | rfl <;> assumption
  have e := value_undoT h hZ hT (fun ρ => evalS_listH h Z _ ρ) (by decide) check_ptb hρ
  have ev : evalO (opX S) (env [1, 5, 11, 12, 16, 22] [a, b, c, i, j, k]) [(true, 1), (true, 5), (true, 11), (false, 22), (false, 16), (false, 12)] = S.exciteAAB a b c i j k := by
    rw [evalO_six]
    simp only [← mul_assoc]
    rfl
  rw [ev] at e
  exact e

theorem value_f3b (ha : a < S.ua) (hb : b < S.ua) (hc : c < S.ub) (hi : i < S.na) (hj : j < S.na) (hk : k < S.nb) :
    value S Z (Cluster.store [T]) (f3b amplitudes stored) [a, b, c, i, j, k]
      = S.element S.ref (deexcitation S T * fockOperator S Z * S.exciteAAB a b c i j k) := by
  have hρ : ExtOk (dimS S) [1, 5, 11, 12, 16, 22] (env [1, 5, 11, 12, 16, 22] [a, b, c, i, j, k]) := fun v hv => by
    simp only [List.mem_cons, List.not_mem_nil, or_false] at hv
    rcases hv with rfl | rfl | rfl | rfl | rfl | rfl <;> assumption
  have e := value_undoT h hZ hT (fun ρ => evalS_listFock h Z _ ρ) (by decide) check_f3b hρ
  have ev : evalO (opX S) (env [1, 5, 11, 12, 16, 22] [a, b, c, i, j, k]) [(true, 1), (true, 5), (true, 11), (false, 22), (false, 16), (false, 12)] = S.exciteAAB a b c i j k := by
    rw [evalO_six]
    simp only [← mul_assoc]
    rfl
  rw [ev] at e
  exact e

theorem value_m3c (ha : a < S.ua) (hb : b < S.ub) (hc : c < S.ub) (hi : i < S.na) (hj : j < S.nb) (hk : k < S.nb) :
    value S Z (Cluster.store [T]) (m3c amplitudes stored) [a, b, c, i, j, k] = S.element (S.exciteABB a b c i j k S.ref)
      (hamiltonian S Z * clusterOperator S T - clusterOperator S T * hamiltonian S Z) := by
  have hρ : ExtOk (dimS S) [1, 7, 11, 12, 18, 22] (env [1, 7, 11, 12, 18, 22] [a, b, c, i, j, k]) := fun v hv => by
    simp only [List.mem_cons, List.not_mem_nil, or_false] at hv
    rcases hv with rfl | rfl | rfl | rfl | rfl | rfl <;> assumption
  have e := value_commT h hZ hT (by decide) check_m3c hρ
  rw [evalO_six, element_triple] at e
  exact e

theorem value_ptc (ha : a < S.ua) (hb : b < S.ub) (hc : c < S.ub) (hi : i < S.na) (hj : j < S.nb) (hk : k < S.nb) :
    value S Z (Cluster.store [T]) (l3c amplitudes stored) [a, b, c, i, j, k]
      = S.element S.ref (deexcitation S T * hamiltonian S Z * S.exciteABB a b c i j k) := by
  have hρ : ExtOk (dimS S) [1, 7, 11, 12, 18, 22] (env [1, 7, 11, 12, 18, 22] [a, b, c, i, j, k]) := fun v hv => by
    simp only [List.mem_cons, List.not_mem_nil, or_false] at hv
    rcases hv with rfl | rfl | rfl | rfl | rfl | rfl <;> assumption
  have e := value_undoT h hZ hT (fun ρ => evalS_listH h Z _ ρ) (by decide) check_ptc hρ
  have ev : evalO (opX S) (env [1, 7, 11, 12, 18, 22] [a, b, c, i, j, k]) [(true, 1), (true, 7), (true, 11), (false, 22), (false, 18), (false, 12)] = S.exciteABB a b c i j k := by
    rw [evalO_six]
    simp only [← mul_assoc]
    rfl
  rw [ev] at e
  exact e

theorem value_f3c (ha : a < S.ua) (hb : b < S.ub) (hc : c < S.ub) (hi : i < S.na) (hj : j < S.nb) (hk : k < S.nb) :
    value S Z (Cluster.store [T]) (f3c amplitudes stored) [a, b, c, i, j, k]
      = S.element S.ref (deexcitation S T * fockOperator S Z * S.exciteABB a b c i j k) := by
  have hρ : ExtOk (dimS S) [1, 7, 11, 12, 18, 22] (env [1, 7, 11, 12, 18, 22] [a, b, c, i, j, k]) := fun v hv => by
    simp only [List.mem_cons, List.not_mem_nil, or_false] at hv
    rcases hv with rfl | rfl | rfl | rfl | rfl | rfl <;> assumption
  have e := value_undoT h hZ hT (fun ρ => evalS_listFock h Z _ ρ) (by decide) check_f3c hρ
  have ev : evalO (opX S) (env [1, 7, 11, 12, 18, 22] [a, b, c, i, j, k]) [(true, 1), (true, 7), (true, 11), (false, 22), (false, 18), (false, 12)] = S.exciteABB a b c i j k := by
    rw [evalO_six]
    simp only [← mul_assoc]
    rfl
  rw [ev] at e
  exact e

theorem value_m3d (ha : a < S.ub) (hb : b < S.ub) (hc : c < S.ub) (hi : i < S.nb) (hj : j < S.nb) (hk : k < S.nb) :
    value S Z (Cluster.store [T]) (m3d amplitudes stored) [a, b, c, i, j, k] = S.element (S.exciteBBB a b c i j k S.ref)
      (hamiltonian S Z * clusterOperator S T - clusterOperator S T * hamiltonian S Z) := by
  have hρ : ExtOk (dimS S) [3, 7, 11, 14, 18, 22] (env [3, 7, 11, 14, 18, 22] [a, b, c, i, j, k]) := fun v hv => by
    simp only [List.mem_cons, List.not_mem_nil, or_false] at hv
    rcases hv with rfl | rfl | rfl | rfl | rfl | rfl <;> assumption
  have e := value_commT h hZ hT (by decide) check_m3d hρ
  rw [evalO_six, element_triple] at e
  exact e

theorem value_ptd (ha : a < S.ub) (hb : b < S.ub) (hc : c < S.ub) (hi : i < S.nb) (hj : j < S.nb) (hk : k < S.nb) :
    value S Z (Cluster.store [T]) (l3d amplitudes stored) [a, b, c, i, j, k]
      = S.element S.ref (deexcitation S T * hamiltonian S Z * S.exciteBBB a b c i j k) := by
  have hρ : ExtOk (dimS S) [3, 7, 11, 14, 18, 22] (env [3, 7, 11, 14, 18, 22] [a, b, c, i, j, k]) := fun v hv => by
    simp only [List.mem_cons, List.not_mem_nil, or_false] at hv
    rcases hv with rfl | rfl | rfl | rfl | rfl | rfl <;> assumption
  have e := value_undoT h hZ hT (fun ρ => evalS_listH h Z _ ρ) (by decide) check_ptd hρ
  have ev : evalO (opX S) (env [3, 7, 11, 14, 18, 22] [a, b, c, i, j, k]) [(true, 3), (true, 7), (true, 11), (false, 22), (false, 18), (false, 14)] = S.exciteBBB a b c i j k := by
    rw [evalO_six]
    simp only [← mul_assoc]
    rfl
  rw [ev] at e
  exact e

theorem value_f3d (ha : a < S.ub) (hb : b < S.ub) (hc : c < S.ub) (hi : i < S.nb) (hj : j < S.nb) (hk : k < S.nb) :
    value S Z (Cluster.store [T]) (f3d amplitudes stored) [a, b, c, i, j, k]
      = S.element S.ref (deexcitation S T * fockOperator S Z * S.exciteBBB a b c i j k) := by
  have hρ : ExtOk (dimS S) [3, 7, 11, 14, 18, 22] (env [3, 7, 11, 14, 18, 22] [a, b, c, i, j, k]) := fun v hv => by
    simp only [List.mem_cons, List.not_mem_nil, or_false] at hv
    rcases hv with rfl | rfl | rfl | rfl | rfl | rfl <;> assumption
  have e := value_undoT h hZ hT (fun ρ => evalS_listFock h Z _ ρ) (by decide) check_f3d hρ
  have ev : evalO (opX S) (env [3, 7, 11, 14, 18, 22] [a, b, c, i, j, k]) [(true, 3), (true, 7), (true, 11), (false, 22), (false, 18), (false, 14)] = S.exciteBBB a b c i j k := by
    rw [evalO_six]
    simp only [← mul_assoc]
    rfl
  rw [ev] at e
  exact e

end

end Ccpy.CrCc
