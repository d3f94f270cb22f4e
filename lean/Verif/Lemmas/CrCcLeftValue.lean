import Verif.Lemmas.CrCcLeft
import Verif.Spec.CrCc

/-! The left moments. -/

namespace Ccpy.CrCc
open Ccpy.Fock Ccpy.Tensor Ccpy.Engine Ccpy.HbarCcsd Ccpy.Ccsdt Ccpy.PSpace
open Ccpy.EomCcsd (excitation)

variable {ι : Type*} [LinearOrder ι]

theorem value_leftOf {S : Orbitals ι} (h : S.Proper) {Z : Fock.Integrals} (hZ : Z.Antisym) {T L : Cluster} (hT : T.Antisym)
    (hL : L.Antisym) {x : Ex} {ext : List ℕ} {τ : List Op} (hb : ∀ o ∈ τ, o.2 ∈ ext)
    (hx : check (groups tableC) (listC 0) listH x ext (leftOf τ) = true) {ρ : Env} (hρ : ExtOk (dimS S) ext ρ) :
    value S Z (Cluster.store [T, L]) x (ext.map ρ)
      = S.element S.ref ((1 + deexcitation S L) * transformed S Z T * evalO (opX S) ρ τ) := by
  have hall : ∀ C ∈ [T, L], C.Antisym := fun C hC => by
    simp only [List.mem_cons, List.not_mem_nil, or_false] at hC
    rcases hC with rfl | rfl <;> assumption
  have h0 := store_holds [T, L] 0
  have h1 := store_holds [T, L] 1
  rw [check_sound h (antiSym_C hZ hall) (fun m ρ => evalS_listC S T h0 m ρ) (cluster_nilpotent h T) hx hρ
    (vs := [(1, evalO (opX S) ρ τ), (deexcitation S L, evalO (opX S) ρ τ)])
    (.cons ⟨fun ρ' hr => rfl, fun ρ' m hr => ?_⟩ (.cons ⟨fun ρ' hr => ?_, fun ρ' m hr => ?_⟩ .nil))]
  · simp only [leftOf, List.zipWith, Bool.false_eq_true, if_false, one_mul, List.sum_cons, List.sum_nil, add_zero]
    rw [add_mul, add_mul, one_mul]
    exact (map_add (expect S) _ _).symm
  · simp only [List.map_cons, List.map_nil, List.prod_cons, List.prod_nil, mul_one]
    exact evalS_slot hr hb
  · simp only [List.map_cons, List.map_nil, List.prod_cons, List.prod_nil, mul_one]
    exact evalS_listL S L h1 15 ρ'
  · simp only [List.map_cons, List.map_nil, List.prod_cons, List.prod_nil, mul_one]
    exact evalS_slot hr hb

section
variable {S : Orbitals ι} (h : S.Proper) {Z : Fock.Integrals} (hZ : Z.Antisym) {T L : Cluster} (hT : T.Antisym)
  (hL : L.Antisym) {a b c i j k : ℕ}
include h hZ hT hL

theorem value_l3a (ha : a < S.ua) (hb : b < S.ua) (hc : c < S.ua) (hi : i < S.na) (hj : j < S.na) (hk : k < S.na) :
    value S Z (Cluster.store [T, L]) (l3a excitation hbar) [a, b, c, i, j, k]
      = S.element S.ref ((1 + deexcitation S L) * transformed S Z T * S.exciteAAA a b c i j k) := by
  have hρ : ExtOk (dimS S) [1, 5, 9, 12, 16, 20] (env [1, 5, 9, 12, 16, 20] [a, b, c, i, j, k]) := fun v hv => by
    simp only [List.mem_cons, List.not_mem_nil, or_false] at hv
    rcases hv with rfl | rfl | rfl | rfl | rfl | rfl <;> assumption
  have e := value_leftOf h hZ hT hL (by decide) check_l3a hρ
  have ev : evalO (opX S) (env [1, 5, 9, 12, 16, 20] [a, b, c, i, j, k]) [(true, 1), (true, 5), (true, 9), (false, 20), (false, 16), (false, 12)]
      = S.exciteAAA a b c i j k := by
    rw [evalO_six]
    simp only [← mul_assoc]
    rfl
  rw [ev] at e
  exact e

theorem value_l3b (ha : a < S.ua) (hb : b < S.ua) (hc : c < S.ub) (hi : i < S.na) (hj : j < S.na) (hk : k < S.nb) :
    value S Z (Cluster.store [T, L]) (l3b excitation hbar) [a, b, c, i, j, k]
      = S.element S.ref ((1 + deexcitation S L) * transformed S Z T * S.exciteAAB a b c i j k) := by
  have hρ : ExtOk (dimS S) [1, 5, 11, 12, 16, 22] (env [1, 5, 11, 12, 16, 22] [a, b, c, i, j, k]) := fun v hv => by
    simp only [List.mem_cons, List.not_mem_nil, or_false] at hv
    rcases hv with rfl | rfl | rfl | rfl | rfl | rfl <;> assumption
  have e := value_leftOf h hZ hT hL (by decide) check_l3b hρ
  have ev : evalO (opX S) (env [1, 5, 11, 12, 16, 22] [a, b, c, i, j, k]) [(true, 1), (true, 5), (true, 11), (false, 22), (false, 16), (false, 12)]
      = S.exciteAAB a b c i j k := by
    rw [evalO_six]
    simp only [← mul_assoc]
    rfl
  rw [ev] at e
  exact e

theorem value_l3c (ha : a < S.ua) (hb : b < S.ub) (hc : c < S.ub) (hi : i < S.na) (hj : j < S.nb) (hk : k < S.nb) :
    value S Z (Cluster.store [T, L]) (l3c excitation hbar) [a, b, c, i, j, k]
      = S.element S.ref ((1 + deexcitation S L) * transformed S Z T * S.exciteABB a b c i j k) := by
  have hρ : ExtOk (dimS S) [1, 7, 11, 12, 18, 22] (env [1, 7, 11, 12, 18, 22] [a, b, c, i, j, k]) := fun v hv => by
    simp only [List.mem_cons, List.not_mem_nil, or_false] at hv
    rcases hv with rfl | rfl | rfl | rfl | rfl | rfl <;> assumption
  have e := value_leftOf h hZ hT hL (by decide) check_l3c hρ
  have ev : evalO (opX S) (env [1, 7, 11, 12, 18, 22] [a, b, c, i, j, k]) [(true, 1), (true, 7), (true, 11), (false, 22), (false, 18), (false, 12)]
      = S.exciteABB a b c i j k := by
    rw [evalO_six]
    simp only [← mul_assoc]
    rfl
  rw [ev] at e
  exact e

theorem value_l3d (ha : a < S.ub) (hb : b < S.ub) (hc : c < S.ub) (hi : i < S.nb) (hj : j < S.nb) (hk : k < S.nb) :
    value S Z (Cluster.store [T, L]) (l3d excitation hbar) [a, b, c, i, j, k]
      = S.element S.ref ((1 + deexcitation S L) * transformed S Z T * S.exciteBBB a b c i j k) := by
  have hρ : ExtOk (dimS S) [3, 7, 11, 14, 18, 22] (env [3, 7, 11, 14, 18, 22] [a, b, c, i, j, k]) := fun v hv => by
    simp only [List.mem_cons, List.not_mem_nil, or_false] at hv
    rcases hv with rfl | rfl | rfl | rfl | rfl | rfl <;> assumption
  have e := value_leftOf h hZ hT hL (by decide) check_l3d hρ
  have ev : evalO (opX S) (env [3, 7, 11, 14, 18, 22] [a, b, c, i, j, k]) [(true, 3), (true, 7), (true, 11), (false, 22), (false, 18), (false, 14)]
      = S.exciteBBB a b c i j k := by
    rw [evalO_six]
    simp only [← mul_assoc]
    rfl
  rw [ev] at e
  exact e

end

end Ccpy.CrCc
