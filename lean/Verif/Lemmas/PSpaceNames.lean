import Verif.Lemmas.PSpaceHbar
import Verif.Lemmas.CcsdtStages
import Verif.Props.Ccsdt

/-! The arrays of the P-space kernels depend only on the amplitudes of single and double excitations. -/

namespace Ccpy.PSpace
open Ccpy.Tensor Ccpy.Fock Ccpy.Ccsdt Ccpy.Engine Ccpy.Ccsd

variable {ι : Type*} [LinearOrder ι]

/-- The names of the arrays that do not belong to triple excitations. -/
def low (n : ℕ) : ℕ := if n ≤ 10 then n else 0

theorem eval_low {S : Orbitals ι} {Z : Fock.Integrals} {m m' : Memory} (hm : ∀ n, 6 ≤ n → n ≤ 10 → m n = m' n) {x : Ex}
    (hx : x.rename low = x) : value S Z m x = value S Z m' x := by
  unfold value
  funext idx
  rw [← hx, Ex.denote_rename, Ex.denote_rename]
  congr 1
  funext n idx
  have e : ∀ k, 6 ≤ k → m k = m' k → Tensor.elements S.na S.nb ⟨fockA S Z, fockB S Z⟩ ⟨Z.vAA, Z.vAB, Z.vBB⟩ m k
      = Tensor.elements S.na S.nb ⟨fockA S Z, fockB S Z⟩ ⟨Z.vAA, Z.vAB, Z.vBB⟩ m' k := fun k hk hm => by
    obtain ⟨k, rfl⟩ := Nat.exists_eq_add_of_le' hk
    funext idx
    show m (k + 6) _ = m' (k + 6) _
    rw [hm]
  have e' : ∀ k, k < 6 → ∀ idx, Tensor.elements S.na S.nb ⟨fockA S Z, fockB S Z⟩ ⟨Z.vAA, Z.vAB, Z.vBB⟩ m k idx
      = Tensor.elements S.na S.nb ⟨fockA S Z, fockB S Z⟩ ⟨Z.vAA, Z.vAB, Z.vBB⟩ m' k idx := fun k hk idx => by
    match k, idx, hk with
    | 0, [], _ | 0, [_], _ | 0, [_, _], _ | 0, _ :: _ :: _ :: _, _ => rfl
    | 1, [], _ | 1, [_], _ | 1, [_, _], _ | 1, _ :: _ :: _ :: _, _ => rfl
    | 2, [], _ | 2, [_], _ | 2, [_, _], _ | 2, _ :: _ :: _ :: _, _ => rfl
    | 3, [], _ | 3, [_], _ | 3, [_, _], _ | 3, [_, _, _], _ | 3, [_, _, _, _], _ | 3, _ :: _ :: _ :: _ :: _ :: _, _ => rfl
    | 4, [], _ | 4, [_], _ | 4, [_, _], _ | 4, [_, _, _], _ | 4, [_, _, _, _], _ | 4, _ :: _ :: _ :: _ :: _ :: _, _ => rfl
    | 5, [], _ | 5, [_], _ | 5, [_, _], _ | 5, [_, _, _], _ | 5, [_, _, _, _], _ | 5, _ :: _ :: _ :: _ :: _ :: _, _ => rfl
  by_cases h6 : low n < 6
  · exact e' _ h6 _
  · have : low n ≤ 10 := by unfold low; split_ifs <;> omega
    rw [e _ (by omega) (hm _ (by omega) this)]

section
set_option maxRecDepth 100000

theorem dressed_low {S : Orbitals ι} {Z : Fock.Integrals} {m m' : Memory} (hm : ∀ n, 6 ≤ n → n ≤ 10 → m n = m' n) (shift : ℚ) :
    dressed (setup S Z shift) m amplitudes3.toAmps hbar2 = dressed (setup S Z shift) m' amplitudes3.toAmps hbar2 := by
  have key : ∀ {x : Ex}, x.rename low = x → (setup S Z shift).eval m x = (setup S Z shift).eval m' x := fun hx => eval_low hm hx
  unfold dressed
  congr 1 <;> (funext; exact congrFun (key rfl) _)

theorem dressed_start (X : Ints) (s : Setup) (m : Memory) :
    dressed s m amplitudes3.toAmps (atTriples X) = dressed s m amplitudes3.toAmps hbar2 := by
  unfold dressed
  congr 1

theorem dressed_stage (X : Ints) (s : Setup) {m : Memory} (hs : ∀ n, m n = m (backName 5 n)) :
    dressed s m stage5.toAmps (ints3 X) = dressed s m amplitudes3.toAmps hbar2 := by
  have key : ∀ {x y : Ex}, x.rename (backName 5) = y → s.eval m x = s.eval m y := fun hx => by rw [eval_backName _ hs, hx]
  unfold dressed
  congr 1 <;> (funext; exact congrFun (key rfl) _)

end

end Ccpy.PSpace
