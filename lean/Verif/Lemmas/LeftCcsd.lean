import Verif.Lemmas.LeftCcsdChecks

/-! The values of the left CCSD matrix-vector product. -/

namespace Ccpy.LeftCcsd
open Ccpy.Fock Ccpy.Tensor Ccpy.Engine Ccpy.HbarCcsd

variable {ι : Type*} [LinearOrder ι]

theorem ground_value {S : Orbitals ι} {Z : Fock.Integrals} {T L : Cluster} {τ : Operator ι} {x y : Ex} {idx : List ℕ}
    (hx : value S Z (Cluster.store [T, L]) x idx = leftElement S Z T (deexcitation S L) τ)
    (hy : value S Z (Cluster.store [T, L]) y idx = leftElement S Z T 1 τ) :
    value S Z (Cluster.store [T, L]) (x + y) idx
      = S.element S.ref ((1 + deexcitation S L) * (transformed S Z T * τ - τ * transformed S Z T)) := by
  have e : value S Z (Cluster.store [T, L]) (x + y) idx
    = value S Z (Cluster.store [T, L]) x idx + value S Z (Cluster.store [T, L]) y idx := rfl
  rw [e, hx, hy, add_mul, add_comm]
  exact (map_add (expect S) _ _).symm

section
variable {S : Orbitals ι}

theorem ext_a {a i : ℕ} (h₁ : a < S.ua) (h₂ : i < S.na) : ExtOk (dimS S) [1, 4] (env [1, 4] [a, i]) := fun v hv => by
  simp only [List.mem_cons, List.not_mem_nil, or_false] at hv
  rcases hv with rfl | rfl <;> assumption

theorem excite_a (a i : ℕ) : evalO (opX S) (env [1, 4] [a, i]) [(true, 1), (false, 4)] = S.exciteA a i := by
  rw [evalO_two]
  rfl

theorem ext_b {a i : ℕ} (h₁ : a < S.ub) (h₂ : i < S.nb) : ExtOk (dimS S) [3, 6] (env [3, 6] [a, i]) := fun v hv => by
  simp only [List.mem_cons, List.not_mem_nil, or_false] at hv
  rcases hv with rfl | rfl <;> assumption

theorem excite_b (a i : ℕ) : evalO (opX S) (env [3, 6] [a, i]) [(true, 3), (false, 6)] = S.exciteB a i := by
  rw [evalO_two]
  rfl

theorem ext_aa {a b i j : ℕ} (h₁ : a < S.ua) (h₂ : b < S.ua) (h₃ : i < S.na) (h₄ : j < S.na) : ExtOk (dimS S) [1, 5, 8, 12] (env [1, 5, 8, 12] [a, b, i, j]) := fun v hv => by
  simp only [List.mem_cons, List.not_mem_nil, or_false] at hv
  rcases hv with rfl | rfl | rfl | rfl <;> assumption

theorem excite_aa (a b i j : ℕ) : evalO (opX S) (env [1, 5, 8, 12] [a, b, i, j]) [(true, 1), (true, 5), (false, 12), (false, 8)] = S.exciteAA a b i j := by
  rw [evalO_four]
  simp only [← mul_assoc]; rfl

theorem ext_ab {a b i j : ℕ} (h₁ : a < S.ua) (h₂ : b < S.ub) (h₃ : i < S.na) (h₄ : j < S.nb) : ExtOk (dimS S) [1, 7, 8, 14] (env [1, 7, 8, 14] [a, b, i, j]) := fun v hv => by
  simp only [List.mem_cons, List.not_mem_nil, or_false] at hv
  rcases hv with rfl | rfl | rfl | rfl <;> assumption

theorem excite_ab (a b i j : ℕ) : evalO (opX S) (env [1, 7, 8, 14] [a, b, i, j]) [(true, 1), (true, 7), (false, 14), (false, 8)] = S.exciteAB a b i j := by
  rw [evalO_four]
  simp only [← mul_assoc]; rfl

theorem ext_bb {a b i j : ℕ} (h₁ : a < S.ub) (h₂ : b < S.ub) (h₃ : i < S.nb) (h₄ : j < S.nb) : ExtOk (dimS S) [3, 7, 10, 14] (env [3, 7, 10, 14] [a, b, i, j]) := fun v hv => by
  simp only [List.mem_cons, List.not_mem_nil, or_false] at hv
  rcases hv with rfl | rfl | rfl | rfl <;> assumption

theorem excite_bb (a b i j : ℕ) : evalO (opX S) (env [3, 7, 10, 14] [a, b, i, j]) [(true, 3), (true, 7), (false, 14), (false, 10)] = S.exciteBB a b i j := by
  rw [evalO_four]
  simp only [← mul_assoc]; rfl

end

section
variable {S : Orbitals ι} (h : S.Proper) {Z : Fock.Integrals} (hZ : Z.Antisym) {T : Cluster} (hT : T.Antisym)
  {L : Cluster} (hL : L.Antisym)
include h hZ hT hL

theorem value_a {a i : ℕ} (h₁ : a < S.ua) (h₂ : i < S.na) : value S Z (Cluster.store [T, L]) sigma.a [a, i]
    = leftElement S Z T (deexcitation S L) (S.exciteA a i) := by
  refine (value_leftR h hZ hT hL (by decide) check_a (ext_a h₁ h₂)).trans ?_
  rw [excite_a]

theorem valueBare_a {a i : ℕ} (h₁ : a < S.ua) (h₂ : i < S.na) : value S Z (Cluster.store [T, L]) bare.a [a, i]
    = leftElement S Z T 1 (S.exciteA a i) := by
  refine (value_bareR h hZ hT hL (by decide) bare_a (ext_a h₁ h₂)).trans ?_
  rw [excite_a]

theorem value_b {a i : ℕ} (h₁ : a < S.ub) (h₂ : i < S.nb) : value S Z (Cluster.store [T, L]) sigma.b [a, i]
    = leftElement S Z T (deexcitation S L) (S.exciteB a i) := by
  refine (value_leftR h hZ hT hL (by decide) check_b (ext_b h₁ h₂)).trans ?_
  rw [excite_b]

theorem valueBare_b {a i : ℕ} (h₁ : a < S.ub) (h₂ : i < S.nb) : value S Z (Cluster.store [T, L]) bare.b [a, i]
    = leftElement S Z T 1 (S.exciteB a i) := by
  refine (value_bareR h hZ hT hL (by decide) bare_b (ext_b h₁ h₂)).trans ?_
  rw [excite_b]

theorem value_aa {a b i j : ℕ} (h₁ : a < S.ua) (h₂ : b < S.ua) (h₃ : i < S.na) (h₄ : j < S.na) : value S Z (Cluster.store [T, L]) sigma.aa [a, b, i, j]
    = leftElement S Z T (deexcitation S L) (S.exciteAA a b i j) := by
  refine (value_leftR h hZ hT hL (by decide) check_aa (ext_aa h₁ h₂ h₃ h₄)).trans ?_
  rw [excite_aa]

theorem valueBare_aa {a b i j : ℕ} (h₁ : a < S.ua) (h₂ : b < S.ua) (h₃ : i < S.na) (h₄ : j < S.na) : value S Z (Cluster.store [T, L]) bare.aa [a, b, i, j]
    = leftElement S Z T 1 (S.exciteAA a b i j) := by
  refine (value_bareR h hZ hT hL (by decide) bare_aa (ext_aa h₁ h₂ h₃ h₄)).trans ?_
  rw [excite_aa]

theorem value_ab {a b i j : ℕ} (h₁ : a < S.ua) (h₂ : b < S.ub) (h₃ : i < S.na) (h₄ : j < S.nb) : value S Z (Cluster.store [T, L]) sigma.ab [a, b, i, j]
    = leftElement S Z T (deexcitation S L) (S.exciteAB a b i j) := by
  refine (value_leftR h hZ hT hL (by decide) check_ab (ext_ab h₁ h₂ h₃ h₄)).trans ?_
  rw [excite_ab]

theorem valueBare_ab {a b i j : ℕ} (h₁ : a < S.ua) (h₂ : b < S.ub) (h₃ : i < S.na) (h₄ : j < S.nb) : value S Z (Cluster.store [T, L]) bare.ab [a, b, i, j]
    = leftElement S Z T 1 (S.exciteAB a b i j) := by
  refine (value_bareR h hZ hT hL (by decide) bare_ab (ext_ab h₁ h₂ h₃ h₄)).trans ?_
  rw [excite_ab]

theorem value_bb {a b i j : ℕ} (h₁ : a < S.ub) (h₂ : b < S.ub) (h₃ : i < S.nb) (h₄ : j < S.nb) : value S Z (Cluster.store [T, L]) sigma.bb [a, b, i, j]
    = leftElement S Z T (deexcitation S L) (S.exciteBB a b i j) := by
  refine (value_leftR h hZ hT hL (by decide) check_bb (ext_bb h₁ h₂ h₃ h₄)).trans ?_
  rw [excite_bb]

theorem valueBare_bb {a b i j : ℕ} (h₁ : a < S.ub) (h₂ : b < S.ub) (h₃ : i < S.nb) (h₄ : j < S.nb) : value S Z (Cluster.store [T, L]) bare.bb [a, b, i, j]
    = leftElement S Z T 1 (S.exciteBB a b i j) := by
  refine (value_bareR h hZ hT hL (by decide) bare_bb (ext_bb h₁ h₂ h₃ h₄)).trans ?_
  rw [excite_bb]

end

end Ccpy.LeftCcsd
