import Verif.Lemmas.CrCcLeft
import Verif.Lemmas.PSpaceLink
import Verif.Lemmas.Ccsdt
import Verif.Spec.CrCc

/-! The moments of the CR-CC(2,3) correction. -/

set_option linter.unusedSimpArgs false

namespace Ccpy.CrCc
open Ccpy.Fock Ccpy.Tensor Ccpy.Engine Ccpy.HbarCcsd Ccpy.Ccsdt Ccpy.PSpace Ccpy.Rdm Ccpy.Ccsd
open Ccpy.EomCcsd (excitation)
open Finset (range)

variable {ι : Type*} [LinearOrder ι]

theorem zero_antisym : Triples.zero.Antisym := by
  constructor <;> intros <;> simp [Triples.zero]

theorem agree_sound {S : Orbitals ι} {Z : Fock.Integrals} (hZ : Z.Antisym) {T : Cluster} (hT : T.Antisym) {T₃ : Triples} (hT₃ : T₃.Antisym) {f : Ints → Ex} {xs : List Var}
    (h : agree f xs = true) (ρ : Env) :
    value S Z (store3 [T] [T₃]) (f hbar) (xs.map ρ) = value S Z (store3 [T] [T₃]) (f hbar2) (xs.map ρ) :=
  (same_sound (dim := dims S.n S.na S.nb) (I := Tensor.elements S.na S.nb (stF S Z) (stV Z) (store3 [T] [T₃])) (E := fun _ => false)
    (by intro n hn; cases hn) (antiSym_3 hZ (mem_one hT) (mem_one hT₃)) h).2.2.2.2 ρ

section
set_option maxRecDepth 100000

theorem low_a_oo : ((·.a.oo) hbar : Ex).rename low = (·.a.oo) hbar := rfl
theorem low_a_vv : ((·.a.vv) hbar : Ex).rename low = (·.a.vv) hbar := rfl
theorem low_b_oo : ((·.b.oo) hbar : Ex).rename low = (·.b.oo) hbar := rfl
theorem low_b_vv : ((·.b.vv) hbar : Ex).rename low = (·.b.vv) hbar := rfl
theorem low_aa_vooo : ((fun H => H.aa.vooo - (es% "me,aeij->amij" H.a.ov, amplitudes3.aa)) hbar : Ex).rename low = (fun H => H.aa.vooo - (es% "me,aeij->amij" H.a.ov, amplitudes3.aa)) hbar := rfl
theorem low_aa_vvov : ((·.aa.vvov) hbar : Ex).rename low = (·.aa.vvov) hbar := rfl
theorem low_aa_oooo : ((·.aa.oooo) hbar : Ex).rename low = (·.aa.oooo) hbar := rfl
theorem low_aa_voov : ((·.aa.voov) hbar : Ex).rename low = (·.aa.voov) hbar := rfl
theorem low_aa_vvvv : ((·.aa.vvvv) hbar : Ex).rename low = (·.aa.vvvv) hbar := rfl
theorem low_ab_vooo : ((fun H => H.ab.vooo - (es% "me,aeik->amik" H.b.ov, amplitudes3.ab)) hbar : Ex).rename low = (fun H => H.ab.vooo - (es% "me,aeik->amik" H.b.ov, amplitudes3.ab)) hbar := rfl
theorem low_ab_ovoo : ((fun H => H.ab.ovoo - (es% "me,ecjk->mcjk" H.a.ov, amplitudes3.ab)) hbar : Ex).rename low = (fun H => H.ab.ovoo - (es% "me,ecjk->mcjk" H.a.ov, amplitudes3.ab)) hbar := rfl
theorem low_ab_vvov : ((·.ab.vvov) hbar : Ex).rename low = (·.ab.vvov) hbar := rfl
theorem low_ab_vvvo : ((·.ab.vvvo) hbar : Ex).rename low = (·.ab.vvvo) hbar := rfl
theorem low_ab_oooo : ((·.ab.oooo) hbar : Ex).rename low = (·.ab.oooo) hbar := rfl
theorem low_ab_voov : ((·.ab.voov) hbar : Ex).rename low = (·.ab.voov) hbar := rfl
theorem low_ab_vovo : ((·.ab.vovo) hbar : Ex).rename low = (·.ab.vovo) hbar := rfl
theorem low_ab_ovov : ((·.ab.ovov) hbar : Ex).rename low = (·.ab.ovov) hbar := rfl
theorem low_ab_ovvo : ((·.ab.ovvo) hbar : Ex).rename low = (·.ab.ovvo) hbar := rfl
theorem low_ab_vvvv : ((·.ab.vvvv) hbar : Ex).rename low = (·.ab.vvvv) hbar := rfl
theorem low_bb_vooo : ((fun H => H.bb.vooo - (es% "me,aeij->amij" H.b.ov, amplitudes3.bb)) hbar : Ex).rename low = (fun H => H.bb.vooo - (es% "me,aeij->amij" H.b.ov, amplitudes3.bb)) hbar := rfl
theorem low_bb_vvov : ((·.bb.vvov) hbar : Ex).rename low = (·.bb.vvov) hbar := rfl
theorem low_bb_oooo : ((·.bb.oooo) hbar : Ex).rename low = (·.bb.oooo) hbar := rfl
theorem low_bb_voov : ((·.bb.voov) hbar : Ex).rename low = (·.bb.voov) hbar := rfl
theorem low_bb_vvvv : ((·.bb.vvvv) hbar : Ex).rename low = (·.bb.vvvv) hbar := rfl


variable {S : Orbitals ι} {Z : Fock.Integrals} (hZ : Z.Antisym) {T : Cluster} (hT : T.Antisym) {T₃ : Triples} (hT₃ : T₃.Antisym) (L : Cluster) (shift : ℚ)

theorem key_low {x : Ex} (hx : x.rename low = x) :
    (setup S Z shift).eval (Cluster.store [T, L]) x = (setup S Z shift).eval (store3 [T] [T₃]) x :=
  eval_low (fun n h₁ h₂ => by interval_cases n <;> rfl) hx

include hZ hT hT₃

theorem key_two {f : Ints → Ex} {v w : ℕ} (hvw : v ≠ w) (hx : (f hbar).rename low = f hbar) (h : agree f [v, w] = true) (p q : ℕ) :
    (setup S Z shift).eval (Cluster.store [T, L]) (f hbar) [p, q] = (setup S Z shift).eval (store3 [T] [T₃]) (f hbar2) [p, q] := by
  rw [key_low (T₃ := T₃) L shift hx]
  have := agree_sound (S := S) hZ hT hT₃ h fun u => if u = v then p else q
  simp only [List.map_cons, List.map_nil, if_true, hvw.symm, if_false] at this
  exact this

theorem key_four {f : Ints → Ex} {v w x y : ℕ} (hn : [v, w, x, y].Nodup) (hx : (f hbar).rename low = f hbar) (h : agree f [v, w, x, y] = true) (p q r s : ℕ) :
    (setup S Z shift).eval (Cluster.store [T, L]) (f hbar) [p, q, r, s] = (setup S Z shift).eval (store3 [T] [T₃]) (f hbar2) [p, q, r, s] := by
  rw [key_low (T₃ := T₃) L shift hx]
  simp only [List.nodup_cons, List.mem_cons, List.not_mem_nil, or_false, not_or, not_false_eq_true, true_and, List.nodup_nil, and_true] at hn
  obtain ⟨⟨h1, h2, h3⟩, ⟨h4, h5⟩, h6⟩ := hn
  have := agree_sound (S := S) hZ hT hT₃ h fun u => if u = v then p else if u = w then q else if u = x then r else s
  simp only [List.map_cons, List.map_nil, if_true, if_false, Ne.symm h1, Ne.symm h2, Ne.symm h3, Ne.symm h4, Ne.symm h5, Ne.symm h6] at this
  exact this

/-- The two programs for the transformed Hamiltonian give the same arrays. -/
theorem dressed_hbar : dressed (setup S Z shift) (Cluster.store [T, L]) amplitudes hbar
      = dressed (setup S Z shift) (store3 [T] [T₃]) amplitudes3.toAmps hbar2 := by
  unfold dressed
  rw [Dressed.mk.injEq]
  refine ⟨?_, ?_, ?_, ?_, ?_, ?_, ?_, ?_, ?_, ?_, ?_, ?_, ?_, ?_, ?_, ?_, ?_, ?_, ?_, ?_, ?_, ?_, ?_, ?_, ?_, ?_, ?_, ?_, ?_, ?_, ?_, ?_, ?_, ?_, rfl⟩
  · funext; exact congrFun (key_low L shift rfl) _
  · funext; exact congrFun (key_low L shift rfl) _
  · funext; exact congrFun (key_low L shift rfl) _
  · funext p q; exact key_two hZ hT hT₃ L shift (by decide) low_a_oo agree_a_oo p q
  · funext p q; exact key_two hZ hT hT₃ L shift (by decide) low_a_vv agree_a_vv p q
  · funext p q; exact key_two hZ hT hT₃ L shift (by decide) low_b_oo agree_b_oo p q
  · funext p q; exact key_two hZ hT hT₃ L shift (by decide) low_b_vv agree_b_vv p q
  · funext; exact congrFun (key_low L shift rfl) _
  · funext; exact congrFun (key_low L shift rfl) _
  · funext; exact congrFun (key_low L shift rfl) _
  · funext p q u v; exact key_four hZ hT hT₃ L shift (by decide) low_aa_vooo agree_aa_vooo p q u v
  · funext p q u v; exact key_four hZ hT hT₃ L shift (by decide) low_aa_vvov agree_aa_vvov p q u v
  · funext p q u v; exact key_four hZ hT hT₃ L shift (by decide) low_aa_oooo agree_aa_oooo p q u v
  · funext p q u v; exact key_four hZ hT hT₃ L shift (by decide) low_aa_voov agree_aa_voov p q u v
  · funext p q u v; exact key_four hZ hT hT₃ L shift (by decide) low_aa_vvvv agree_aa_vvvv p q u v
  · funext p q u v; exact key_four hZ hT hT₃ L shift (by decide) low_ab_vooo agree_ab_vooo p q u v
  · funext p q u v; exact key_four hZ hT hT₃ L shift (by decide) low_ab_ovoo agree_ab_ovoo p q u v
  · funext p q u v; exact key_four hZ hT hT₃ L shift (by decide) low_ab_vvov agree_ab_vvov p q u v
  · funext p q u v; exact key_four hZ hT hT₃ L shift (by decide) low_ab_vvvo agree_ab_vvvo p q u v
  · funext p q u v; exact key_four hZ hT hT₃ L shift (by decide) low_ab_oooo agree_ab_oooo p q u v
  · funext p q u v; exact key_four hZ hT hT₃ L shift (by decide) low_ab_voov agree_ab_voov p q u v
  · funext p q u v; exact key_four hZ hT hT₃ L shift (by decide) low_ab_vovo agree_ab_vovo p q u v
  · funext p q u v; exact key_four hZ hT hT₃ L shift (by decide) low_ab_ovov agree_ab_ovov p q u v
  · funext p q u v; exact key_four hZ hT hT₃ L shift (by decide) low_ab_ovvo agree_ab_ovvo p q u v
  · funext p q u v; exact key_four hZ hT hT₃ L shift (by decide) low_ab_vvvv agree_ab_vvvv p q u v
  · funext p q u v; exact key_four hZ hT hT₃ L shift (by decide) low_bb_vooo agree_bb_vooo p q u v
  · funext p q u v; exact key_four hZ hT hT₃ L shift (by decide) low_bb_vvov agree_bb_vvov p q u v
  · funext p q u v; exact key_four hZ hT hT₃ L shift (by decide) low_bb_oooo agree_bb_oooo p q u v
  · funext p q u v; exact key_four hZ hT hT₃ L shift (by decide) low_bb_voov agree_bb_voov p q u v
  · funext p q u v; exact key_four hZ hT hT₃ L shift (by decide) low_bb_vvvv agree_bb_vvvv p q u v
  · funext; exact congrFun (key_low L shift rfl) _
  · funext; exact congrFun (key_low L shift rfl) _
  · funext; exact congrFun (key_low L shift rfl) _
  · funext; exact congrFun (key_low L shift rfl) _

end

end Ccpy.CrCc
