import Verif.Lemmas.PSpaceEval
import Verif.Lemmas.PSpaceKernelA
import Verif.Lemmas.PSpaceKernelB
import Verif.Lemmas.PSpaceKernelC
import Verif.Lemmas.PSpaceKernelD
import Verif.Lemmas.KernelCalls3

/-! The antisymmetrised triples programs and the ordered sums of the P-space kernels. -/

set_option linter.unusedSimpArgs false

namespace Ccpy.PSpace
open Ccpy.Tensor Ccpy.Fock Ccpy.Ccsdt Ccpy.Rdm Ccpy.Spec Ccpy.UpdateKernels Ccpy.Writes
open Finset (range)

/-- The signed sum over all orders of three indices. -/
def full3 (F : ℕ → ℕ → ℕ → ℚ) (x y z : ℕ) : ℚ := F x y z - F y x z - F x z y + F y z x - F z y x + F z x y

theorem antisymmetrize_three (s : Bool) (X : (Fin 3 → ℕ) × (Fin 3 → ℕ) → ℚ) (a b c i j k : ℕ) :
    antisymmetrize ![s, s, s] ![s, s, s] X (![a, b, c], ![i, j, k])
      = full3 (fun i j k => full3 (fun a b c => X (![a, b, c], ![i, j, k])) a b c) i j k := by
  rw [← signedSum_at (lists_terms3 s)]
  have e₁ : ∀ x y z : ℕ, ![x, y, z] ∘ ![0, 1, 2] = ![x, y, z] := fun x y z => by ext i; fin_cases i <;> rfl
  have e₂ : ∀ x y z : ℕ, ![x, y, z] ∘ ![1, 0, 2] = ![y, x, z] := fun x y z => by ext i; fin_cases i <;> rfl
  have e₃ : ∀ x y z : ℕ, ![x, y, z] ∘ ![0, 2, 1] = ![x, z, y] := fun x y z => by ext i; fin_cases i <;> rfl
  have e₄ : ∀ x y z : ℕ, ![x, y, z] ∘ ![1, 2, 0] = ![y, z, x] := fun x y z => by ext i; fin_cases i <;> rfl
  have e₅ : ∀ x y z : ℕ, ![x, y, z] ∘ ![2, 1, 0] = ![z, y, x] := fun x y z => by ext i; fin_cases i <;> rfl
  have e₆ : ∀ x y z : ℕ, ![x, y, z] ∘ ![2, 0, 1] = ![z, x, y] := fun x y z => by ext i; fin_cases i <;> rfl
  simp [signedSum, At, patTerms3, prodPat', e₁, e₂, e₃, e₄, e₅, e₆, full3]
  ring

theorem antisymmetrize_aab (X : (Fin 3 → ℕ) × (Fin 3 → ℕ) → ℚ) (a b c i j k : ℕ) :
    antisymmetrize ![false, false, true] ![false, false, true] X (![a, b, c], ![i, j, k])
      = pick2 (fun i j => pick2 (fun a b => X (![a, b, c], ![i, j, k])) a b) i j := by
  rw [← signedSum_at lists_3b]
  have e₁ : ∀ x y z : ℕ, ![x, y, z] ∘ ![0, 1, 2] = ![x, y, z] := fun x y z => by ext i; fin_cases i <;> rfl
  have e₂ : ∀ x y z : ℕ, ![x, y, z] ∘ ![1, 0, 2] = ![y, x, z] := fun x y z => by ext i; fin_cases i <;> rfl
  simp [signedSum, At, patternAab, e₁, e₂, pick2]
  ring

theorem antisymmetrize_abb (X : (Fin 3 → ℕ) × (Fin 3 → ℕ) → ℚ) (a b c i j k : ℕ) :
    antisymmetrize ![false, true, true] ![false, true, true] X (![a, b, c], ![i, j, k])
      = pick2 (fun j k => pick2 (fun b c => X (![a, b, c], ![i, j, k])) b c) j k := by
  rw [← signedSum_at lists_3c]
  have e₁ : ∀ x y z : ℕ, ![x, y, z] ∘ ![0, 1, 2] = ![x, y, z] := fun x y z => by ext i; fin_cases i <;> rfl
  have e₂ : ∀ x y z : ℕ, ![x, y, z] ∘ ![0, 2, 1] = ![x, z, y] := fun x y z => by ext i; fin_cases i <;> rfl
  simp [signedSum, At, patternAbb, e₁, e₂, pick2]
  ring

section
variable {s : Setup} {mem : Memory} {H : Ints} (hH : Shaped H) {X : Dressed} (hX : dressed s mem amplitudes3.toAmps H = X)
  (hA : X.Anti) {d : Dims} (hd : dimsOf s = d) {T₃ : Triples} (hT : T₃.Antisym)
  (hAAA : ∀ a b c i j k, amplitudes3.aaa.denote (dims s.n s.na s.nb) (Tensor.elements s.na s.nb s.f s.v mem) [a, b, c, i, j, k] = T₃.tAAA a b c i j k)
  (hAAB : ∀ a b c i j k, amplitudes3.aab.denote (dims s.n s.na s.nb) (Tensor.elements s.na s.nb s.f s.v mem) [a, b, c, i, j, k] = T₃.tAAB a b c i j k)
  (hABB : ∀ a b c i j k, amplitudes3.abb.denote (dims s.n s.na s.nb) (Tensor.elements s.na s.nb s.f s.v mem) [a, b, c, i, j, k] = T₃.tABB a b c i j k)
  (hBBB : ∀ a b c i j k, amplitudes3.bbb.denote (dims s.n s.na s.nb) (Tensor.elements s.na s.nb s.f s.v mem) [a, b, c, i, j, k] = T₃.tBBB a b c i j k)
include hH hX hA hd hT hAAA hAAB hABB hBBB

theorem linkA (a b c i j k : ℕ) :
    antisymmetrize ![false, false, false] ![false, false, false] (fun k => s.eval mem (residualT3a amplitudes3 H stored) (listed k)) (![a, b, c], ![i, j, k])
      = resA X d T₃ a b c i j k := by
  rw [antisymmetrize_three false]
  have e : ∀ a b c i j k : ℕ, listed (![a, b, c], ![i, j, k]) = [a, b, c, i, j, k] := fun _ _ _ _ _ _ => by simp [listed]
  simp only [e, eval_residualT3a hH hX hd hAAA hAAB hABB hBBB]
  simp only [full3, pick3, resA, linAAA, crossAAA, momA1, momA2]
  simp only [hA.aa_t_v a b, hA.aa_vvvv_l a b, hA.aa_t_v a c, hA.aa_vvvv_l a c, hA.aa_t_v b c, hA.aa_vvvv_l b c, hA.aa_t_o _ _ i j, hA.aa_oooo_r _ _ i j, hA.aa_t_o _ _ i k, hA.aa_oooo_r _ _ i k, hA.aa_t_o _ _ j k, hA.aa_oooo_r _ _ j k, vvoA_anti hA d hT a b, vvoA_anti hA d hT a c, vvoA_anti hA d hT b c, vooA_anti hA d hT _ _ i j, vooA_anti hA d hT _ _ i k, vooA_anti hA d hT _ _ j k, (fun z i j k => (hT.aaa a b z i j k).1), (fun z i j k => (hT.aaa z a b i j k).2.1), (fun z i j k => (hT.aaa a c z i j k).1), (fun z i j k => (hT.aaa z a c i j k).2.1), (fun z i j k => (hT.aaa b c z i j k).1), (fun z i j k => (hT.aaa z b c i j k).2.1), (fun a b c z => (hT.aaa a b c i j z).2.2.1), (fun a b c z => (hT.aaa a b c z i j).2.2.2), (fun a b c z => (hT.aaa a b c i k z).2.2.1), (fun a b c z => (hT.aaa a b c z i k).2.2.2), (fun a b c z => (hT.aaa a b c j k z).2.2.1), (fun a b c z => (hT.aaa a b c z j k).2.2.2), (fun z i j k => (hT.aab a b z i j k).1), (fun z i j k => (hT.aab a c z i j k).1), (fun z i j k => (hT.aab b c z i j k).1), (fun a b c z => (hT.aab a b c i j z).2), (fun a b c z => (hT.aab a b c i k z).2), (fun a b c z => (hT.aab a b c j k z).2), neg_mul, mul_neg, neg_neg, Finset.sum_neg_distrib]
  ring

theorem linkB (a b c i j k : ℕ) :
    antisymmetrize ![false, false, true] ![false, false, true] (fun k => s.eval mem (residualT3b amplitudes3 H stored) (listed k)) (![a, b, c], ![i, j, k])
      = resB X d T₃ a b c i j k := by
  rw [antisymmetrize_aab]
  have e : ∀ a b c i j k : ℕ, listed (![a, b, c], ![i, j, k]) = [a, b, c, i, j, k] := fun _ _ _ _ _ _ => by simp [listed]
  simp only [e, eval_residualT3b hH hX hd hAAA hAAB hABB hBBB]
  simp only [pick2, resB, linB_t3b, linB_t3a, linB_t3c, momB1, momB2, momB3, momB4, momB5, momB6]
  simp only [hA.aa_t_v a b, hA.aa_vvvv_l a b, hA.aa_t_o _ _ i j, hA.aa_oooo_r _ _ i j, hA.bb_t_v a b, hA.bb_vvvv_l a b, hA.bb_t_o _ _ i j, hA.bb_oooo_r _ _ i j, vvoA_anti hA d hT a b, vooA_anti hA d hT _ _ i j, (fun z i j k => (hT.aaa a b z i j k).1), (fun z i j k => (hT.aaa z a b i j k).2.1), (fun a b c z => (hT.aaa a b c i j z).2.2.1), (fun a b c z => (hT.aaa a b c z i j).2.2.2), (fun z i j k => (hT.aab a b z i j k).1), (fun a b c z => (hT.aab a b c i j z).2), (fun z i j k => (hT.abb z a b i j k).1), (fun a b c z => (hT.abb a b c z i j).2), neg_mul, mul_neg, neg_neg, Finset.sum_neg_distrib]
  ring

theorem linkC (a b c i j k : ℕ) :
    antisymmetrize ![false, true, true] ![false, true, true] (fun k => s.eval mem (residualT3c amplitudes3 H stored) (listed k)) (![a, b, c], ![i, j, k])
      = resC X d T₃ a b c i j k := by
  rw [antisymmetrize_abb]
  have e : ∀ a b c i j k : ℕ, listed (![a, b, c], ![i, j, k]) = [a, b, c, i, j, k] := fun _ _ _ _ _ _ => by simp [listed]
  simp only [e, eval_residualT3c hH hX hd hAAA hAAB hABB hBBB]
  have rot : ∀ x y z u v w, T₃.tBBB z x y w u v = T₃.tBBB x y z u v w := fun x y z u v w => by
    rw [(hT.bbb x z y w u v).1, (hT.bbb x y z w u v).2.1, (hT.bbb x y z u w v).2.2.1, (hT.bbb x y z u v w).2.2.2]
    ring
  simp only [pick2, resC, linC_t3c, linC_t3d, linC_t3b, momC1, momC2, momC3, momC4, momC5, momC6]
  simp only [hA.aa_t_v b c, hA.aa_vvvv_l b c, hA.aa_t_o _ _ j k, hA.aa_oooo_r _ _ j k, hA.bb_t_v b c, hA.bb_vvvv_l b c, hA.bb_t_o _ _ j k, hA.bb_oooo_r _ _ j k, vvoC_anti hA d hT b c, vooC_anti hA d hT _ _ j k, (fun z i j k => (hT.bbb b c z i j k).1), (fun z i j k => (hT.bbb z b c i j k).2.1), (fun a b c z => (hT.bbb a b c j k z).2.2.1), (fun a b c z => (hT.bbb a b c z j k).2.2.2), (fun z i j k => (hT.aab b c z i j k).1), (fun a b c z => (hT.aab a b c j k z).2), (fun z i j k => (hT.abb z b c i j k).1), (fun a b c z => (hT.abb a b c z j k).2), neg_mul, mul_neg, neg_neg, Finset.sum_neg_distrib]
  simp only [(fun z w => rot b c z j k w)]
  ring

theorem linkD (a b c i j k : ℕ) :
    antisymmetrize ![true, true, true] ![true, true, true] (fun k => s.eval mem (residualT3d amplitudes3 H stored) (listed k)) (![a, b, c], ![i, j, k])
      = resD X d T₃ a b c i j k := by
  rw [antisymmetrize_three true]
  have e : ∀ a b c i j k : ℕ, listed (![a, b, c], ![i, j, k]) = [a, b, c, i, j, k] := fun _ _ _ _ _ _ => by simp [listed]
  simp only [e, eval_residualT3d hH hX hd hAAA hAAB hABB hBBB]
  have rot : ∀ x y z u v w, T₃.tBBB z x y w u v = T₃.tBBB x y z u v w := fun x y z u v w => by
    rw [(hT.bbb x z y w u v).1, (hT.bbb x y z w u v).2.1, (hT.bbb x y z u w v).2.2.1, (hT.bbb x y z u v w).2.2.2]
    ring
  simp only [full3, pick3, resD, linBBB, crossBBB, momD1, momD2]
  simp only [hA.bb_t_v a b, hA.bb_vvvv_l a b, hA.bb_t_v a c, hA.bb_vvvv_l a c, hA.bb_t_v b c, hA.bb_vvvv_l b c, hA.bb_t_o _ _ i j, hA.bb_oooo_r _ _ i j, hA.bb_t_o _ _ i k, hA.bb_oooo_r _ _ i k, hA.bb_t_o _ _ j k, hA.bb_oooo_r _ _ j k, vvoC_anti hA d hT a b, vvoC_anti hA d hT a c, vvoC_anti hA d hT b c, vooC_anti hA d hT _ _ i j, vooC_anti hA d hT _ _ i k, vooC_anti hA d hT _ _ j k, (fun z i j k => (hT.bbb a b z i j k).1), (fun z i j k => (hT.bbb z a b i j k).2.1), (fun z i j k => (hT.bbb a c z i j k).1), (fun z i j k => (hT.bbb z a c i j k).2.1), (fun z i j k => (hT.bbb b c z i j k).1), (fun z i j k => (hT.bbb z b c i j k).2.1), (fun a b c z => (hT.bbb a b c i j z).2.2.1), (fun a b c z => (hT.bbb a b c z i j).2.2.2), (fun a b c z => (hT.bbb a b c i k z).2.2.1), (fun a b c z => (hT.bbb a b c z i k).2.2.2), (fun a b c z => (hT.bbb a b c j k z).2.2.1), (fun a b c z => (hT.bbb a b c z j k).2.2.2), (fun z i j k => (hT.abb z a b i j k).1), (fun z i j k => (hT.abb z a c i j k).1), (fun z i j k => (hT.abb z b c i j k).1), (fun a b c z => (hT.abb a b c z i j).2), (fun a b c z => (hT.abb a b c z i k).2), (fun a b c z => (hT.abb a b c z j k).2), neg_mul, mul_neg, neg_neg, Finset.sum_neg_distrib]
  simp only [(fun z w => rot a b z i j w), (fun z w => rot a b z i k w), (fun z w => rot a b z j k w), (fun z w => rot a c z i j w), (fun z w => rot a c z i k w), (fun z w => rot a c z j k w), (fun z w => rot b c z i j w), (fun z w => rot b c z i k w), (fun z w => rot b c z j k w)]
  ring

end

end Ccpy.PSpace
