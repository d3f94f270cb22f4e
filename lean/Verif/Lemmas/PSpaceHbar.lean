import Verif.Lemmas.PSpaceLink
import Verif.Lemmas.Ccsdt
import Verif.Engine.ClosedShell

/-! Antisymmetry of the blocks of the similarity transformed Hamiltonian. -/

namespace Ccpy.PSpace
open Ccpy.Tensor Ccpy.Fock Ccpy.Ccsdt Ccpy.Engine

theorem shaped_hbar2 : Shaped hbar2 := by constructor <;> rfl

/-- A sign for the exchange of two indices. -/
noncomputable def flips (x : Ex) (xs ys : List Var) : Bool := same (fun _ => false) (groups table3) x ys (.smul true 1 1 x) xs

section
set_option maxRecDepth 100000
theorem flips_aa_t_v : flips amplitudes3.aa [1, 5, 0, 4] [5, 1, 0, 4] = true := by decide +kernel
theorem flips_aa_t_o : flips amplitudes3.aa [1, 5, 0, 4] [1, 5, 4, 0] = true := by decide +kernel
theorem flips_aa_oovv_o : flips stored.aa.oovv [0, 4, 1, 5] [4, 0, 1, 5] = true := by decide +kernel
theorem flips_aa_oovv_v : flips stored.aa.oovv [0, 4, 1, 5] [0, 4, 5, 1] = true := by decide +kernel
theorem flips_aa_vooo : flips (hbar2.aa.vooo - (es% "me,aeij->amij" hbar2.a.ov, amplitudes3.aa)) [1, 0, 4, 8] [1, 0, 8, 4] = true := by decide +kernel
theorem flips_aa_vvov : flips hbar2.aa.vvov [1, 5, 0, 9] [5, 1, 0, 9] = true := by decide +kernel
theorem flips_aa_oooo_l : flips hbar2.aa.oooo [0, 4, 8, 12] [4, 0, 8, 12] = true := by decide +kernel
theorem flips_aa_oooo_r : flips hbar2.aa.oooo [0, 4, 8, 12] [0, 4, 12, 8] = true := by decide +kernel
theorem flips_aa_vvvv_l : flips hbar2.aa.vvvv [1, 5, 9, 13] [5, 1, 9, 13] = true := by decide +kernel
theorem flips_aa_vvvv_r : flips hbar2.aa.vvvv [1, 5, 9, 13] [1, 5, 13, 9] = true := by decide +kernel
theorem flips_bb_t_v : flips amplitudes3.bb [3, 7, 2, 6] [7, 3, 2, 6] = true := by decide +kernel
theorem flips_bb_t_o : flips amplitudes3.bb [3, 7, 2, 6] [3, 7, 6, 2] = true := by decide +kernel
theorem flips_bb_oovv_o : flips stored.bb.oovv [2, 6, 3, 7] [6, 2, 3, 7] = true := by decide +kernel
theorem flips_bb_oovv_v : flips stored.bb.oovv [2, 6, 3, 7] [2, 6, 7, 3] = true := by decide +kernel
theorem flips_bb_vooo : flips (hbar2.bb.vooo - (es% "me,aeij->amij" hbar2.b.ov, amplitudes3.bb)) [3, 2, 6, 10] [3, 2, 10, 6] = true := by decide +kernel
theorem flips_bb_vvov : flips hbar2.bb.vvov [3, 7, 2, 11] [7, 3, 2, 11] = true := by decide +kernel
theorem flips_bb_oooo_l : flips hbar2.bb.oooo [2, 6, 10, 14] [6, 2, 10, 14] = true := by decide +kernel
theorem flips_bb_oooo_r : flips hbar2.bb.oooo [2, 6, 10, 14] [2, 6, 14, 10] = true := by decide +kernel
theorem flips_bb_vvvv_l : flips hbar2.bb.vvvv [3, 7, 11, 15] [7, 3, 11, 15] = true := by decide +kernel
theorem flips_bb_vvvv_r : flips hbar2.bb.vvvv [3, 7, 11, 15] [3, 7, 15, 11] = true := by decide +kernel
end

theorem flips_sound {ι : Type*} [LinearOrder ι] {S : Orbitals ι} {Z : Fock.Integrals} (hZ : Z.Antisym) {l : List Cluster} {l₃ : List Triples}
    (hl : ∀ T ∈ l, T.Antisym) (hl₃ : ∀ T ∈ l₃, T.Antisym) {x : Ex} {xs ys : List Var} (h : flips x xs ys = true) (ρ : Env) :
    value S Z (store3 l l₃) x (ys.map ρ) = -value S Z (store3 l l₃) x (xs.map ρ) := by
  have := (same_sound (dim := dims S.n S.na S.nb) (I := Tensor.elements S.na S.nb (stF S Z) (stV Z) (store3 l l₃)) (E := fun _ => false)
    (by intro n hn; cases hn) (antiSym_3 hZ hl hl₃) h).2.2.2.2 ρ
  refine this.trans ?_
  show (if true then (-1 : ℚ) else 1) * (((1 : ℕ) : ℚ) / ((1 : ℕ) : ℚ)) * _ = _
  simp only [if_true, Nat.cast_one, div_one, mul_one, neg_mul, one_mul]
  rfl

theorem dressed_anti {ι : Type*} [LinearOrder ι] {S : Orbitals ι} {Z : Fock.Integrals} (hZ : Z.Antisym) {T : Cluster} {T₃ : Triples}
    (hT : T.Antisym) (hT₃ : T₃.Antisym) (shift : ℚ) :
    (dressed ⟨S.n, S.na, S.nb, ⟨fockA S Z, fockB S Z⟩, ⟨Z.vAA, Z.vAB, Z.vBB⟩, shift⟩ (store3 [T] [T₃]) amplitudes3.toAmps hbar2).Anti where
  aa_t_v p q u v := flips_sound (S := S) hZ (mem_one hT) (mem_one hT₃) flips_aa_t_v fun w => (if w = 1 then p else if w = 5 then q else if w = 0 then u else v)
  aa_t_o p q u v := flips_sound (S := S) hZ (mem_one hT) (mem_one hT₃) flips_aa_t_o fun w => (if w = 1 then p else if w = 5 then q else if w = 0 then u else v)
  aa_oovv_o p q u v := flips_sound (S := S) hZ (mem_one hT) (mem_one hT₃) flips_aa_oovv_o fun w => (if w = 0 then p else if w = 4 then q else if w = 1 then u else v)
  aa_oovv_v p q u v := flips_sound (S := S) hZ (mem_one hT) (mem_one hT₃) flips_aa_oovv_v fun w => (if w = 0 then p else if w = 4 then q else if w = 1 then u else v)
  aa_vooo p q u v := flips_sound (S := S) hZ (mem_one hT) (mem_one hT₃) flips_aa_vooo fun w => (if w = 1 then p else if w = 0 then q else if w = 4 then u else v)
  aa_vvov p q u v := flips_sound (S := S) hZ (mem_one hT) (mem_one hT₃) flips_aa_vvov fun w => (if w = 1 then p else if w = 5 then q else if w = 0 then u else v)
  aa_oooo_l p q u v := flips_sound (S := S) hZ (mem_one hT) (mem_one hT₃) flips_aa_oooo_l fun w => (if w = 0 then p else if w = 4 then q else if w = 8 then u else v)
  aa_oooo_r p q u v := flips_sound (S := S) hZ (mem_one hT) (mem_one hT₃) flips_aa_oooo_r fun w => (if w = 0 then p else if w = 4 then q else if w = 8 then u else v)
  aa_vvvv_l p q u v := flips_sound (S := S) hZ (mem_one hT) (mem_one hT₃) flips_aa_vvvv_l fun w => (if w = 1 then p else if w = 5 then q else if w = 9 then u else v)
  aa_vvvv_r p q u v := flips_sound (S := S) hZ (mem_one hT) (mem_one hT₃) flips_aa_vvvv_r fun w => (if w = 1 then p else if w = 5 then q else if w = 9 then u else v)
  bb_t_v p q u v := flips_sound (S := S) hZ (mem_one hT) (mem_one hT₃) flips_bb_t_v fun w => (if w = 3 then p else if w = 7 then q else if w = 2 then u else v)
  bb_t_o p q u v := flips_sound (S := S) hZ (mem_one hT) (mem_one hT₃) flips_bb_t_o fun w => (if w = 3 then p else if w = 7 then q else if w = 2 then u else v)
  bb_oovv_o p q u v := flips_sound (S := S) hZ (mem_one hT) (mem_one hT₃) flips_bb_oovv_o fun w => (if w = 2 then p else if w = 6 then q else if w = 3 then u else v)
  bb_oovv_v p q u v := flips_sound (S := S) hZ (mem_one hT) (mem_one hT₃) flips_bb_oovv_v fun w => (if w = 2 then p else if w = 6 then q else if w = 3 then u else v)
  bb_vooo p q u v := flips_sound (S := S) hZ (mem_one hT) (mem_one hT₃) flips_bb_vooo fun w => (if w = 3 then p else if w = 2 then q else if w = 6 then u else v)
  bb_vvov p q u v := flips_sound (S := S) hZ (mem_one hT) (mem_one hT₃) flips_bb_vvov fun w => (if w = 3 then p else if w = 7 then q else if w = 2 then u else v)
  bb_oooo_l p q u v := flips_sound (S := S) hZ (mem_one hT) (mem_one hT₃) flips_bb_oooo_l fun w => (if w = 2 then p else if w = 6 then q else if w = 10 then u else v)
  bb_oooo_r p q u v := flips_sound (S := S) hZ (mem_one hT) (mem_one hT₃) flips_bb_oooo_r fun w => (if w = 2 then p else if w = 6 then q else if w = 10 then u else v)
  bb_vvvv_l p q u v := flips_sound (S := S) hZ (mem_one hT) (mem_one hT₃) flips_bb_vvvv_l fun w => (if w = 3 then p else if w = 7 then q else if w = 11 then u else v)
  bb_vvvv_r p q u v := flips_sound (S := S) hZ (mem_one hT) (mem_one hT₃) flips_bb_vvvv_r fun w => (if w = 3 then p else if w = 7 then q else if w = 11 then u else v)

end Ccpy.PSpace
