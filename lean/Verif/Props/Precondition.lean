import Verif.Lemmas.Precondition
import Verif.Spec.Update
import Mathlib.Tactic.Ring
import Mathlib.Tactic.Linarith
import Mathlib.Algebra.Order.Ring.Rat
import Mathlib.Tactic.FinCases
import Mathlib.Algebra.BigOperators.Fin
import Mathlib.Algebra.Module.Basic
import Mathlib.Algebra.Ring.CharZero
import Mathlib.Data.Rat.Defs
import Mathlib.Algebra.Field.Rat

/-! # C57: the EOM preconditioners divide by energy minus excitation energy

`Preconditioned` is defined in `Verif/Spec/Precondition.lean`.  The kinds of the indices of each block are
those of the array declarations in the Fortran source. -/

set_option linter.unusedVariables false

namespace Ccpy.Precondition
open Ccpy.Fortran Ccpy.Spec

variable {R : Type*} [Field R]

/-- The diagonal of a matrix, by spin. -/
abbrev diag (HA HB : ℕ → ℕ → R) : Bool → ℕ → R := bySpin (fun i => HA i i) (fun i => HB i i)

section example_data
/-! Data for the examples. -/
def exo (i j : ℕ) : ℚ := if i = j then -i else 7
def exo' (i j : ℕ) : ℚ := if i = j then -i - 1 else 7
def exv (a b : ℕ) : ℚ := if a = b then a else 5
def exv' (a b : ℕ) : ℚ := if a = b then a + 1 else 5
def exr {n : ℕ} (k : Fin n → ℕ) : ℚ := ∑ l, ((l.1 + 2) * k l ^ 2 : ℕ)
end example_data

/-- `update_R` divides every block by `omega`, whatever `shift` is given minus the excitation energy. -/
theorem C57_update_R (r1a : (Fin 2 → ℕ) → R) (r1b : (Fin 2 → ℕ) → R) (r2a : (Fin 4 → ℕ) → R) (r2b : (Fin 4 → ℕ) → R) (r2c : (Fin 4 → ℕ) → R) (omega : R)
    (H1A_oo H1A_vv H1B_oo H1B_vv : ℕ → ℕ → R) (shift : R) (noa nua nob nub : ℕ) :
    Preconditioned ![.vir false, .occ false] (bySpin noa nob) (bySpin nua nub)
      (diag H1A_oo H1B_oo) (diag H1A_vv H1B_vv) omega r1a (update_R r1a r1b r2a r2b r2c omega H1A_oo H1A_vv H1B_oo H1B_vv shift noa nua nob nub).1 ∧
    Preconditioned ![.vir true, .occ true] (bySpin noa nob) (bySpin nua nub)
      (diag H1A_oo H1B_oo) (diag H1A_vv H1B_vv) omega r1b (update_R r1a r1b r2a r2b r2c omega H1A_oo H1A_vv H1B_oo H1B_vv shift noa nua nob nub).2.1 ∧
    Preconditioned ![.vir false, .vir false, .occ false, .occ false] (bySpin noa nob) (bySpin nua nub)
      (diag H1A_oo H1B_oo) (diag H1A_vv H1B_vv) omega r2a (update_R r1a r1b r2a r2b r2c omega H1A_oo H1A_vv H1B_oo H1B_vv shift noa nua nob nub).2.2.1 ∧
    Preconditioned ![.vir false, .vir true, .occ false, .occ true] (bySpin noa nob) (bySpin nua nub)
      (diag H1A_oo H1B_oo) (diag H1A_vv H1B_vv) omega r2b (update_R r1a r1b r2a r2b r2c omega H1A_oo H1A_vv H1B_oo H1B_vv shift noa nua nob nub).2.2.2.1 ∧
    Preconditioned ![.vir true, .vir true, .occ true, .occ true] (bySpin noa nob) (bySpin nua nub)
      (diag H1A_oo H1B_oo) (diag H1A_vv H1B_vv) omega r2c (update_R r1a r1b r2a r2b r2c omega H1A_oo H1A_vv H1B_oo H1B_vv shift noa nua nob nub).2.2.2.2 := by
  refine ⟨?_, ?_, ?_, ?_, ?_⟩
  · refine preconditioned_of (kind := ![.vir false, .occ false]) (no := bySpin noa nob) (nv := bySpin nua nub) (eo := diag H1A_oo H1B_oo) (ev := diag H1A_vv H1B_vv) (elem_do 1 (fun i => elem_do 0 (fun a => elem_divideAt (by simp [excitationEnergy, Orb.cost, diag, bySpin, Fin.sum_univ_succ]; try ring)) (by rintro _ _ rfl; rfl)) (by rintro _ _ ⟨_, _, _, rfl⟩; rfl)) ?_ ?_ r1a
    · rintro _ ⟨i, li, ui, a, la, ua, rfl⟩ q
      fin_cases q <;> [exact ⟨la, ua⟩; exact ⟨li, ui⟩]
    · intro k hk hx hd
      exact ⟨k 1, (hk 1).1, (hk 1).2, k 0, (hk 0).1, (hk 0).2, by funext q; fin_cases q <;> rfl⟩
  · refine preconditioned_of (kind := ![.vir true, .occ true]) (no := bySpin noa nob) (nv := bySpin nua nub) (eo := diag H1A_oo H1B_oo) (ev := diag H1A_vv H1B_vv) (elem_do 1 (fun i => elem_do 0 (fun a => elem_divideAt (by simp [excitationEnergy, Orb.cost, diag, bySpin, Fin.sum_univ_succ]; try ring)) (by rintro _ _ rfl; rfl)) (by rintro _ _ ⟨_, _, _, rfl⟩; rfl)) ?_ ?_ r1b
    · rintro _ ⟨i, li, ui, a, la, ua, rfl⟩ q
      fin_cases q <;> [exact ⟨la, ua⟩; exact ⟨li, ui⟩]
    · intro k hk hx hd
      exact ⟨k 1, (hk 1).1, (hk 1).2, k 0, (hk 0).1, (hk 0).2, by funext q; fin_cases q <;> rfl⟩
  · refine preconditioned_of (kind := ![.vir false, .vir false, .occ false, .occ false]) (no := bySpin noa nob) (nv := bySpin nua nub) (eo := diag H1A_oo H1B_oo) (ev := diag H1A_vv H1B_vv) (elem_do 3 (fun i => elem_do 2 (fun j => elem_do 1 (fun a => elem_do 0 (fun b => elem_divideAt (by simp [excitationEnergy, Orb.cost, diag, bySpin, Fin.sum_univ_succ]; try ring)) (by rintro _ _ rfl; rfl)) (by rintro _ _ ⟨_, _, _, rfl⟩; rfl)) (by rintro _ _ ⟨_, _, _, _, _, _, rfl⟩; rfl)) (by rintro _ _ ⟨_, _, _, _, _, _, _, _, _, rfl⟩; rfl)) ?_ ?_ r2a
    · rintro _ ⟨i, li, ui, j, lj, uj, a, la, ua, b, lb, ub, rfl⟩ q
      fin_cases q <;> [exact ⟨lb, ub⟩; exact ⟨la, ua⟩; exact ⟨lj, uj⟩; exact ⟨li, ui⟩]
    · intro k hk hx hd
      exact ⟨k 3, (hk 3).1, (hk 3).2, k 2, (hk 2).1, (hk 2).2, k 1, (hk 1).1, (hk 1).2, k 0, (hk 0).1, (hk 0).2, by funext q; fin_cases q <;> rfl⟩
  · refine preconditioned_of (kind := ![.vir false, .vir true, .occ false, .occ true]) (no := bySpin noa nob) (nv := bySpin nua nub) (eo := diag H1A_oo H1B_oo) (ev := diag H1A_vv H1B_vv) (elem_do 3 (fun j => elem_do 2 (fun i => elem_do 1 (fun b => elem_do 0 (fun a => elem_divideAt (by simp [excitationEnergy, Orb.cost, diag, bySpin, Fin.sum_univ_succ]; try ring)) (by rintro _ _ rfl; rfl)) (by rintro _ _ ⟨_, _, _, rfl⟩; rfl)) (by rintro _ _ ⟨_, _, _, _, _, _, rfl⟩; rfl)) (by rintro _ _ ⟨_, _, _, _, _, _, _, _, _, rfl⟩; rfl)) ?_ ?_ r2b
    · rintro _ ⟨j, lj, uj, i, li, ui, b, lb, ub, a, la, ua, rfl⟩ q
      fin_cases q <;> [exact ⟨la, ua⟩; exact ⟨lb, ub⟩; exact ⟨li, ui⟩; exact ⟨lj, uj⟩]
    · intro k hk hx hd
      exact ⟨k 3, (hk 3).1, (hk 3).2, k 2, (hk 2).1, (hk 2).2, k 1, (hk 1).1, (hk 1).2, k 0, (hk 0).1, (hk 0).2, by funext q; fin_cases q <;> rfl⟩
  · refine preconditioned_of (kind := ![.vir true, .vir true, .occ true, .occ true]) (no := bySpin noa nob) (nv := bySpin nua nub) (eo := diag H1A_oo H1B_oo) (ev := diag H1A_vv H1B_vv) (elem_do 3 (fun i => elem_do 2 (fun j => elem_do 1 (fun a => elem_do 0 (fun b => elem_divideAt (by simp [excitationEnergy, Orb.cost, diag, bySpin, Fin.sum_univ_succ]; try ring)) (by rintro _ _ rfl; rfl)) (by rintro _ _ ⟨_, _, _, rfl⟩; rfl)) (by rintro _ _ ⟨_, _, _, _, _, _, rfl⟩; rfl)) (by rintro _ _ ⟨_, _, _, _, _, _, _, _, _, rfl⟩; rfl)) ?_ ?_ r2c
    · rintro _ ⟨i, li, ui, j, lj, uj, a, la, ua, b, lb, ub, rfl⟩ q
      fin_cases q <;> [exact ⟨lb, ub⟩; exact ⟨la, ua⟩; exact ⟨lj, uj⟩; exact ⟨li, ui⟩]
    · intro k hk hx hd
      exact ⟨k 3, (hk 3).1, (hk 3).2, k 2, (hk 2).1, (hk 2).2, k 1, (hk 1).1, (hk 1).2, k 0, (hk 0).1, (hk 0).2, by funext q; fin_cases q <;> rfl⟩

example : InBlock ![.vir true, .vir true, .occ true, .occ true] (bySpin 4 3) (bySpin 5 4) ![1, 2, 1, 2] ∧ Exclusion ![.vir true, .vir true, .occ true, .occ true] ![1, 2, 1, 2] ∧
    (1 / 3) - excitationEnergy ![.vir true, .vir true, .occ true, .occ true] (diag exo exo') (diag exv exv') ![1, 2, 1, 2] ≠ 0 ∧
    (update_R exr exr exr exr exr (1 / 3) exo exv exo' exv' 1 4 5 3 4).2.2.2.2 ![1, 2, 1, 2] ≠ exr ![1, 2, 1, 2] := by
  unfold InBlock Exclusion
  decide +kernel

/-- `update_R_ccsdt` divides every block by `omega + shift` minus the excitation energy. -/
theorem C57_update_R_ccsdt (r1a : (Fin 2 → ℕ) → R) (r1b : (Fin 2 → ℕ) → R) (r2a : (Fin 4 → ℕ) → R) (r2b : (Fin 4 → ℕ) → R) (r2c : (Fin 4 → ℕ) → R) (r3a : (Fin 6 → ℕ) → R) (r3b : (Fin 6 → ℕ) → R) (r3c : (Fin 6 → ℕ) → R) (r3d : (Fin 6 → ℕ) → R) (omega : R)
    (H1A_oo H1A_vv H1B_oo H1B_vv : ℕ → ℕ → R) (shift : R) (noa nua nob nub : ℕ) :
    Preconditioned ![.vir false, .occ false] (bySpin noa nob) (bySpin nua nub)
      (diag H1A_oo H1B_oo) (diag H1A_vv H1B_vv) (omega + shift) r1a (update_R_ccsdt r1a r1b r2a r2b r2c r3a r3b r3c r3d omega H1A_oo H1A_vv H1B_oo H1B_vv shift noa nua nob nub).1 ∧
    Preconditioned ![.vir true, .occ true] (bySpin noa nob) (bySpin nua nub)
      (diag H1A_oo H1B_oo) (diag H1A_vv H1B_vv) (omega + shift) r1b (update_R_ccsdt r1a r1b r2a r2b r2c r3a r3b r3c r3d omega H1A_oo H1A_vv H1B_oo H1B_vv shift noa nua nob nub).2.1 ∧
    Preconditioned ![.vir false, .vir false, .occ false, .occ false] (bySpin noa nob) (bySpin nua nub)
      (diag H1A_oo H1B_oo) (diag H1A_vv H1B_vv) (omega + shift) r2a (update_R_ccsdt r1a r1b r2a r2b r2c r3a r3b r3c r3d omega H1A_oo H1A_vv H1B_oo H1B_vv shift noa nua nob nub).2.2.1 ∧
    Preconditioned ![.vir false, .vir true, .occ false, .occ true] (bySpin noa nob) (bySpin nua nub)
      (diag H1A_oo H1B_oo) (diag H1A_vv H1B_vv) (omega + shift) r2b (update_R_ccsdt r1a r1b r2a r2b r2c r3a r3b r3c r3d omega H1A_oo H1A_vv H1B_oo H1B_vv shift noa nua nob nub).2.2.2.1 ∧
    Preconditioned ![.vir true, .vir true, .occ true, .occ true] (bySpin noa nob) (bySpin nua nub)
      (diag H1A_oo H1B_oo) (diag H1A_vv H1B_vv) (omega + shift) r2c (update_R_ccsdt r1a r1b r2a r2b r2c r3a r3b r3c r3d omega H1A_oo H1A_vv H1B_oo H1B_vv shift noa nua nob nub).2.2.2.2.1 ∧
    Preconditioned ![.vir false, .vir false, .vir false, .occ false, .occ false, .occ false] (bySpin noa nob) (bySpin nua nub)
      (diag H1A_oo H1B_oo) (diag H1A_vv H1B_vv) (omega + shift) r3a (update_R_ccsdt r1a r1b r2a r2b r2c r3a r3b r3c r3d omega H1A_oo H1A_vv H1B_oo H1B_vv shift noa nua nob nub).2.2.2.2.2.1 ∧
    Preconditioned ![.vir false, .vir false, .vir true, .occ false, .occ false, .occ true] (bySpin noa nob) (bySpin nua nub)
      (diag H1A_oo H1B_oo) (diag H1A_vv H1B_vv) (omega + shift) r3b (update_R_ccsdt r1a r1b r2a r2b r2c r3a r3b r3c r3d omega H1A_oo H1A_vv H1B_oo H1B_vv shift noa nua nob nub).2.2.2.2.2.2.1 ∧
    Preconditioned ![.vir false, .vir true, .vir true, .occ false, .occ true, .occ true] (bySpin noa nob) (bySpin nua nub)
      (diag H1A_oo H1B_oo) (diag H1A_vv H1B_vv) (omega + shift) r3c (update_R_ccsdt r1a r1b r2a r2b r2c r3a r3b r3c r3d omega H1A_oo H1A_vv H1B_oo H1B_vv shift noa nua nob nub).2.2.2.2.2.2.2.1 ∧
    Preconditioned ![.vir true, .vir true, .vir true, .occ true, .occ true, .occ true] (bySpin noa nob) (bySpin nua nub)
      (diag H1A_oo H1B_oo) (diag H1A_vv H1B_vv) (omega + shift) r3d (update_R_ccsdt r1a r1b r2a r2b r2c r3a r3b r3c r3d omega H1A_oo H1A_vv H1B_oo H1B_vv shift noa nua nob nub).2.2.2.2.2.2.2.2 := by
  refine ⟨?_, ?_, ?_, ?_, ?_, ?_, ?_, ?_, ?_⟩
  · refine preconditioned_of (kind := ![.vir false, .occ false]) (no := bySpin noa nob) (nv := bySpin nua nub) (eo := diag H1A_oo H1B_oo) (ev := diag H1A_vv H1B_vv) (elem_do 1 (fun i => elem_do 0 (fun a => elem_divideAt (by simp [excitationEnergy, Orb.cost, diag, bySpin, Fin.sum_univ_succ]; try ring)) (by rintro _ _ rfl; rfl)) (by rintro _ _ ⟨_, _, _, rfl⟩; rfl)) ?_ ?_ r1a
    · rintro _ ⟨i, li, ui, a, la, ua, rfl⟩ q
      fin_cases q <;> [exact ⟨la, ua⟩; exact ⟨li, ui⟩]
    · intro k hk hx hd
      exact ⟨k 1, (hk 1).1, (hk 1).2, k 0, (hk 0).1, (hk 0).2, by funext q; fin_cases q <;> rfl⟩
  · refine preconditioned_of (kind := ![.vir true, .occ true]) (no := bySpin noa nob) (nv := bySpin nua nub) (eo := diag H1A_oo H1B_oo) (ev := diag H1A_vv H1B_vv) (elem_do 1 (fun i => elem_do 0 (fun a => elem_divideAt (by simp [excitationEnergy, Orb.cost, diag, bySpin, Fin.sum_univ_succ]; try ring)) (by rintro _ _ rfl; rfl)) (by rintro _ _ ⟨_, _, _, rfl⟩; rfl)) ?_ ?_ r1b
    · rintro _ ⟨i, li, ui, a, la, ua, rfl⟩ q
      fin_cases q <;> [exact ⟨la, ua⟩; exact ⟨li, ui⟩]
    · intro k hk hx hd
      exact ⟨k 1, (hk 1).1, (hk 1).2, k 0, (hk 0).1, (hk 0).2, by funext q; fin_cases q <;> rfl⟩
  · refine preconditioned_of (kind := ![.vir false, .vir false, .occ false, .occ false]) (no := bySpin noa nob) (nv := bySpin nua nub) (eo := diag H1A_oo H1B_oo) (ev := diag H1A_vv H1B_vv) (elem_do 3 (fun i => elem_do 2 (fun j => elem_do 1 (fun a => elem_do 0 (fun b => elem_divideAt (by simp [excitationEnergy, Orb.cost, diag, bySpin, Fin.sum_univ_succ]; try ring)) (by rintro _ _ rfl; rfl)) (by rintro _ _ ⟨_, _, _, rfl⟩; rfl)) (by rintro _ _ ⟨_, _, _, _, _, _, rfl⟩; rfl)) (by rintro _ _ ⟨_, _, _, _, _, _, _, _, _, rfl⟩; rfl)) ?_ ?_ r2a
    · rintro _ ⟨i, li, ui, j, lj, uj, a, la, ua, b, lb, ub, rfl⟩ q
      fin_cases q <;> [exact ⟨lb, ub⟩; exact ⟨la, ua⟩; exact ⟨lj, uj⟩; exact ⟨li, ui⟩]
    · intro k hk hx hd
      exact ⟨k 3, (hk 3).1, (hk 3).2, k 2, (hk 2).1, (hk 2).2, k 1, (hk 1).1, (hk 1).2, k 0, (hk 0).1, (hk 0).2, by funext q; fin_cases q <;> rfl⟩
  · refine preconditioned_of (kind := ![.vir false, .vir true, .occ false, .occ true]) (no := bySpin noa nob) (nv := bySpin nua nub) (eo := diag H1A_oo H1B_oo) (ev := diag H1A_vv H1B_vv) (elem_do 3 (fun j => elem_do 2 (fun i => elem_do 1 (fun b => elem_do 0 (fun a => elem_divideAt (by simp [excitationEnergy, Orb.cost, diag, bySpin, Fin.sum_univ_succ]; try ring)) (by rintro _ _ rfl; rfl)) (by rintro _ _ ⟨_, _, _, rfl⟩; rfl)) (by rintro _ _ ⟨_, _, _, _, _, _, rfl⟩; rfl)) (by rintro _ _ ⟨_, _, _, _, _, _, _, _, _, rfl⟩; rfl)) ?_ ?_ r2b
    · rintro _ ⟨j, lj, uj, i, li, ui, b, lb, ub, a, la, ua, rfl⟩ q
      fin_cases q <;> [exact ⟨la, ua⟩; exact ⟨lb, ub⟩; exact ⟨li, ui⟩; exact ⟨lj, uj⟩]
    · intro k hk hx hd
      exact ⟨k 3, (hk 3).1, (hk 3).2, k 2, (hk 2).1, (hk 2).2, k 1, (hk 1).1, (hk 1).2, k 0, (hk 0).1, (hk 0).2, by funext q; fin_cases q <;> rfl⟩
  · refine preconditioned_of (kind := ![.vir true, .vir true, .occ true, .occ true]) (no := bySpin noa nob) (nv := bySpin nua nub) (eo := diag H1A_oo H1B_oo) (ev := diag H1A_vv H1B_vv) (elem_do 3 (fun i => elem_do 2 (fun j => elem_do 1 (fun a => elem_do 0 (fun b => elem_divideAt (by simp [excitationEnergy, Orb.cost, diag, bySpin, Fin.sum_univ_succ]; try ring)) (by rintro _ _ rfl; rfl)) (by rintro _ _ ⟨_, _, _, rfl⟩; rfl)) (by rintro _ _ ⟨_, _, _, _, _, _, rfl⟩; rfl)) (by rintro _ _ ⟨_, _, _, _, _, _, _, _, _, rfl⟩; rfl)) ?_ ?_ r2c
    · rintro _ ⟨i, li, ui, j, lj, uj, a, la, ua, b, lb, ub, rfl⟩ q
      fin_cases q <;> [exact ⟨lb, ub⟩; exact ⟨la, ua⟩; exact ⟨lj, uj⟩; exact ⟨li, ui⟩]
    · intro k hk hx hd
      exact ⟨k 3, (hk 3).1, (hk 3).2, k 2, (hk 2).1, (hk 2).2, k 1, (hk 1).1, (hk 1).2, k 0, (hk 0).1, (hk 0).2, by funext q; fin_cases q <;> rfl⟩
  · refine preconditioned_of (kind := ![.vir false, .vir false, .vir false, .occ false, .occ false, .occ false]) (no := bySpin noa nob) (nv := bySpin nua nub) (eo := diag H1A_oo H1B_oo) (ev := diag H1A_vv H1B_vv) (elem_do 3 (fun i => elem_do 4 (fun j => elem_do 5 (fun k => elem_do 0 (fun a => elem_do 1 (fun b => elem_do 2 (fun c => elem_divideAt (by simp [excitationEnergy, Orb.cost, diag, bySpin, Fin.sum_univ_succ]; try ring)) (by rintro _ _ rfl; rfl)) (by rintro _ _ ⟨_, _, _, rfl⟩; rfl)) (by rintro _ _ ⟨_, _, _, _, _, _, rfl⟩; rfl)) (by rintro _ _ ⟨_, _, _, _, _, _, _, _, _, rfl⟩; rfl)) (by rintro _ _ ⟨_, _, _, _, _, _, _, _, _, _, _, _, rfl⟩; rfl)) (by rintro _ _ ⟨_, _, _, _, _, _, _, _, _, _, _, _, _, _, _, rfl⟩; rfl)) ?_ ?_ r3a
    · rintro _ ⟨i, li, ui, j, lj, uj, k, lk, uk, a, la, ua, b, lb, ub, c, lc, uc, rfl⟩ q
      fin_cases q <;> [exact ⟨la, ua⟩; exact ⟨lb, ub⟩; exact ⟨lc, uc⟩; exact ⟨li, ui⟩; exact ⟨lj, uj⟩; exact ⟨lk, uk⟩]
    · intro k hk hx hd
      exact ⟨k 3, (hk 3).1, (hk 3).2, k 4, (hk 4).1, (hk 4).2, k 5, (hk 5).1, (hk 5).2, k 0, (hk 0).1, (hk 0).2, k 1, (hk 1).1, (hk 1).2, k 2, (hk 2).1, (hk 2).2, by funext q; fin_cases q <;> rfl⟩
  · refine preconditioned_of (kind := ![.vir false, .vir false, .vir true, .occ false, .occ false, .occ true]) (no := bySpin noa nob) (nv := bySpin nua nub) (eo := diag H1A_oo H1B_oo) (ev := diag H1A_vv H1B_vv) (elem_do 3 (fun i => elem_do 4 (fun j => elem_do 5 (fun k => elem_do 0 (fun a => elem_do 1 (fun b => elem_do 2 (fun c => elem_divideAt (by simp [excitationEnergy, Orb.cost, diag, bySpin, Fin.sum_univ_succ]; try ring)) (by rintro _ _ rfl; rfl)) (by rintro _ _ ⟨_, _, _, rfl⟩; rfl)) (by rintro _ _ ⟨_, _, _, _, _, _, rfl⟩; rfl)) (by rintro _ _ ⟨_, _, _, _, _, _, _, _, _, rfl⟩; rfl)) (by rintro _ _ ⟨_, _, _, _, _, _, _, _, _, _, _, _, rfl⟩; rfl)) (by rintro _ _ ⟨_, _, _, _, _, _, _, _, _, _, _, _, _, _, _, rfl⟩; rfl)) ?_ ?_ r3b
    · rintro _ ⟨i, li, ui, j, lj, uj, k, lk, uk, a, la, ua, b, lb, ub, c, lc, uc, rfl⟩ q
      fin_cases q <;> [exact ⟨la, ua⟩; exact ⟨lb, ub⟩; exact ⟨lc, uc⟩; exact ⟨li, ui⟩; exact ⟨lj, uj⟩; exact ⟨lk, uk⟩]
    · intro k hk hx hd
      exact ⟨k 3, (hk 3).1, (hk 3).2, k 4, (hk 4).1, (hk 4).2, k 5, (hk 5).1, (hk 5).2, k 0, (hk 0).1, (hk 0).2, k 1, (hk 1).1, (hk 1).2, k 2, (hk 2).1, (hk 2).2, by funext q; fin_cases q <;> rfl⟩
  · refine preconditioned_of (kind := ![.vir false, .vir true, .vir true, .occ false, .occ true, .occ true]) (no := bySpin noa nob) (nv := bySpin nua nub) (eo := diag H1A_oo H1B_oo) (ev := diag H1A_vv H1B_vv) (elem_do 3 (fun i => elem_do 4 (fun j => elem_do 5 (fun k => elem_do 0 (fun a => elem_do 1 (fun b => elem_do 2 (fun c => elem_divideAt (by simp [excitationEnergy, Orb.cost, diag, bySpin, Fin.sum_univ_succ]; try ring)) (by rintro _ _ rfl; rfl)) (by rintro _ _ ⟨_, _, _, rfl⟩; rfl)) (by rintro _ _ ⟨_, _, _, _, _, _, rfl⟩; rfl)) (by rintro _ _ ⟨_, _, _, _, _, _, _, _, _, rfl⟩; rfl)) (by rintro _ _ ⟨_, _, _, _, _, _, _, _, _, _, _, _, rfl⟩; rfl)) (by rintro _ _ ⟨_, _, _, _, _, _, _, _, _, _, _, _, _, _, _, rfl⟩; rfl)) ?_ ?_ r3c
    · rintro _ ⟨i, li, ui, j, lj, uj, k, lk, uk, a, la, ua, b, lb, ub, c, lc, uc, rfl⟩ q
      fin_cases q <;> [exact ⟨la, ua⟩; exact ⟨lb, ub⟩; exact ⟨lc, uc⟩; exact ⟨li, ui⟩; exact ⟨lj, uj⟩; exact ⟨lk, uk⟩]
    · intro k hk hx hd
      exact ⟨k 3, (hk 3).1, (hk 3).2, k 4, (hk 4).1, (hk 4).2, k 5, (hk 5).1, (hk 5).2, k 0, (hk 0).1, (hk 0).2, k 1, (hk 1).1, (hk 1).2, k 2, (hk 2).1, (hk 2).2, by funext q; fin_cases q <;> rfl⟩
  · refine preconditioned_of (kind := ![.vir true, .vir true, .vir true, .occ true, .occ true, .occ true]) (no := bySpin noa nob) (nv := bySpin nua nub) (eo := diag H1A_oo H1B_oo) (ev := diag H1A_vv H1B_vv) (elem_do 3 (fun i => elem_do 4 (fun j => elem_do 5 (fun k => elem_do 0 (fun a => elem_do 1 (fun b => elem_do 2 (fun c => elem_divideAt (by simp [excitationEnergy, Orb.cost, diag, bySpin, Fin.sum_univ_succ]; try ring)) (by rintro _ _ rfl; rfl)) (by rintro _ _ ⟨_, _, _, rfl⟩; rfl)) (by rintro _ _ ⟨_, _, _, _, _, _, rfl⟩; rfl)) (by rintro _ _ ⟨_, _, _, _, _, _, _, _, _, rfl⟩; rfl)) (by rintro _ _ ⟨_, _, _, _, _, _, _, _, _, _, _, _, rfl⟩; rfl)) (by rintro _ _ ⟨_, _, _, _, _, _, _, _, _, _, _, _, _, _, _, rfl⟩; rfl)) ?_ ?_ r3d
    · rintro _ ⟨i, li, ui, j, lj, uj, k, lk, uk, a, la, ua, b, lb, ub, c, lc, uc, rfl⟩ q
      fin_cases q <;> [exact ⟨la, ua⟩; exact ⟨lb, ub⟩; exact ⟨lc, uc⟩; exact ⟨li, ui⟩; exact ⟨lj, uj⟩; exact ⟨lk, uk⟩]
    · intro k hk hx hd
      exact ⟨k 3, (hk 3).1, (hk 3).2, k 4, (hk 4).1, (hk 4).2, k 5, (hk 5).1, (hk 5).2, k 0, (hk 0).1, (hk 0).2, k 1, (hk 1).1, (hk 1).2, k 2, (hk 2).1, (hk 2).2, by funext q; fin_cases q <;> rfl⟩

example : InBlock ![.vir true, .vir true, .vir true, .occ true, .occ true, .occ true] (bySpin 4 3) (bySpin 5 4) ![1, 2, 3, 1, 2, 3] ∧ Exclusion ![.vir true, .vir true, .vir true, .occ true, .occ true, .occ true] ![1, 2, 3, 1, 2, 3] ∧
    (1 / 3 + 1) - excitationEnergy ![.vir true, .vir true, .vir true, .occ true, .occ true, .occ true] (diag exo exo') (diag exv exv') ![1, 2, 3, 1, 2, 3] ≠ 0 ∧
    (update_R_ccsdt exr exr exr exr exr exr exr exr exr (1 / 3) exo exv exo' exv' 1 4 5 3 4).2.2.2.2.2.2.2.2 ![1, 2, 3, 1, 2, 3] ≠ exr ![1, 2, 3, 1, 2, 3] := by
  unfold InBlock Exclusion
  decide +kernel

/-- `update_R_2h1p` divides every block by `omega`, whatever `shift` is given minus the excitation energy. -/
theorem C57_update_R_2h1p [DecidableEq R] (r1a : (Fin 1 → ℕ) → R) (r2a : (Fin 3 → ℕ) → R) (r2b : (Fin 3 → ℕ) → R) (omega : R)
    (H1A_oo H1A_vv H1B_oo H1B_vv : ℕ → ℕ → R) (shift : R) (noa nua nob nub : ℕ) :
    Preconditioned ![.occ false] (bySpin noa nob) (bySpin nua nub)
      (diag H1A_oo H1B_oo) (diag H1A_vv H1B_vv) omega r1a (update_R_2h1p r1a r2a r2b omega H1A_oo H1A_vv H1B_oo H1B_vv shift noa nua nob nub).1 ∧
    Preconditioned ![.occ false, .vir false, .occ false] (bySpin noa nob) (bySpin nua nub)
      (diag H1A_oo H1B_oo) (diag H1A_vv H1B_vv) omega r2a (update_R_2h1p r1a r2a r2b omega H1A_oo H1A_vv H1B_oo H1B_vv shift noa nua nob nub).2.1 ∧
    Preconditioned ![.occ false, .vir true, .occ true] (bySpin noa nob) (bySpin nua nub)
      (diag H1A_oo H1B_oo) (diag H1A_vv H1B_vv) omega r2b (update_R_2h1p r1a r2a r2b omega H1A_oo H1A_vv H1B_oo H1B_vv shift noa nua nob nub).2.2 := by
  refine ⟨?_, ?_, ?_⟩
  · refine preconditioned_of (kind := ![.occ false]) (no := bySpin noa nob) (nv := bySpin nua nub) (eo := diag H1A_oo H1B_oo) (ev := diag H1A_vv H1B_vv) (elem_do 0 (fun i => elem_skipIf (elem_divideAt (by simp [excitationEnergy, Orb.cost, diag, bySpin]; try ring))) (by rintro _ _ ⟨_, rfl⟩; rfl)) ?_ ?_ r1a
    · rintro _ ⟨i, li, ui, _, rfl⟩ q
      fin_cases q <;> [exact ⟨li, ui⟩]
    · intro k hk hx hd
      exact ⟨k 0, (hk 0).1, (hk 0).2, fun e => hd (by rw [← e]; simp [excitationEnergy, Orb.cost, diag, bySpin]), by funext q; fin_cases q; rfl⟩
  · refine preconditioned_of (kind := ![.occ false, .vir false, .occ false]) (no := bySpin noa nob) (nv := bySpin nua nub) (eo := diag H1A_oo H1B_oo) (ev := diag H1A_vv H1B_vv) (elem_do 2 (fun j => elem_do 1 (fun b => elem_do 0 (fun i => elem_skipIf (elem_divideAt (by simp [excitationEnergy, Orb.cost, diag, bySpin, Fin.sum_univ_succ]; try ring))) (by rintro _ _ ⟨_, rfl⟩; rfl)) (by rintro _ _ ⟨_, _, _, _, rfl⟩; rfl)) (by rintro _ _ ⟨_, _, _, _, _, _, _, rfl⟩; rfl)) ?_ ?_ r2a
    · rintro _ ⟨j, lj, uj, b, lb, ub, i, li, ui, _, rfl⟩ q
      fin_cases q <;> [exact ⟨li, ui⟩; exact ⟨lb, ub⟩; exact ⟨lj, uj⟩]
    · intro k hk hx hd
      exact ⟨k 2, (hk 2).1, (hk 2).2, k 1, (hk 1).1, (hk 1).2, k 0, (hk 0).1, (hk 0).2, hx 0 2 (by decide) rfl, by funext q; fin_cases q <;> rfl⟩
  · refine preconditioned_of (kind := ![.occ false, .vir true, .occ true]) (no := bySpin noa nob) (nv := bySpin nua nub) (eo := diag H1A_oo H1B_oo) (ev := diag H1A_vv H1B_vv) (elem_do 2 (fun j => elem_do 1 (fun b => elem_do 0 (fun i => elem_divideAt (by simp [excitationEnergy, Orb.cost, diag, bySpin, Fin.sum_univ_succ]; try ring)) (by rintro _ _ rfl; rfl)) (by rintro _ _ ⟨_, _, _, rfl⟩; rfl)) (by rintro _ _ ⟨_, _, _, _, _, _, rfl⟩; rfl)) ?_ ?_ r2b
    · rintro _ ⟨j, lj, uj, b, lb, ub, i, li, ui, rfl⟩ q
      fin_cases q <;> [exact ⟨li, ui⟩; exact ⟨lb, ub⟩; exact ⟨lj, uj⟩]
    · intro k hk hx hd
      exact ⟨k 2, (hk 2).1, (hk 2).2, k 1, (hk 1).1, (hk 1).2, k 0, (hk 0).1, (hk 0).2, by funext q; fin_cases q <;> rfl⟩

example : InBlock ![.occ false, .vir true, .occ true] (bySpin 4 3) (bySpin 5 4) ![1, 1, 1] ∧ Exclusion ![.occ false, .vir true, .occ true] ![1, 1, 1] ∧
    (1 / 3) - excitationEnergy ![.occ false, .vir true, .occ true] (diag exo exo') (diag exv exv') ![1, 1, 1] ≠ 0 ∧
    (update_R_2h1p exr exr exr (1 / 3) exo exv exo' exv' 1 4 5 3 4).2.2 ![1, 1, 1] ≠ exr ![1, 1, 1] := by
  unfold InBlock Exclusion
  decide +kernel

/-- `update_R_3h2p` divides every block by `omega`, whatever `shift` is given minus the excitation energy. -/
theorem C57_update_R_3h2p [DecidableEq R] (r1a : (Fin 1 → ℕ) → R) (r2a : (Fin 3 → ℕ) → R) (r2b : (Fin 3 → ℕ) → R) (r3a : (Fin 5 → ℕ) → R) (r3b : (Fin 5 → ℕ) → R) (r3c : (Fin 5 → ℕ) → R) (omega : R)
    (H1A_oo H1A_vv H1B_oo H1B_vv : ℕ → ℕ → R) (shift : R) (noa nua nob nub : ℕ) :
    Preconditioned ![.occ false] (bySpin noa nob) (bySpin nua nub)
      (diag H1A_oo H1B_oo) (diag H1A_vv H1B_vv) omega r1a (update_R_3h2p r1a r2a r2b r3a r3b r3c omega H1A_oo H1A_vv H1B_oo H1B_vv shift noa nua nob nub).1 ∧
    Preconditioned ![.occ false, .vir false, .occ false] (bySpin noa nob) (bySpin nua nub)
      (diag H1A_oo H1B_oo) (diag H1A_vv H1B_vv) omega r2a (update_R_3h2p r1a r2a r2b r3a r3b r3c omega H1A_oo H1A_vv H1B_oo H1B_vv shift noa nua nob nub).2.1 ∧
    Preconditioned ![.occ false, .vir true, .occ true] (bySpin noa nob) (bySpin nua nub)
      (diag H1A_oo H1B_oo) (diag H1A_vv H1B_vv) omega r2b (update_R_3h2p r1a r2a r2b r3a r3b r3c omega H1A_oo H1A_vv H1B_oo H1B_vv shift noa nua nob nub).2.2.1 ∧
    Preconditioned ![.occ false, .vir false, .vir false, .occ false, .occ false] (bySpin noa nob) (bySpin nua nub)
      (diag H1A_oo H1B_oo) (diag H1A_vv H1B_vv) omega r3a (update_R_3h2p r1a r2a r2b r3a r3b r3c omega H1A_oo H1A_vv H1B_oo H1B_vv shift noa nua nob nub).2.2.2.1 ∧
    Preconditioned ![.occ false, .vir false, .vir true, .occ false, .occ true] (bySpin noa nob) (bySpin nua nub)
      (diag H1A_oo H1B_oo) (diag H1A_vv H1B_vv) omega r3b (update_R_3h2p r1a r2a r2b r3a r3b r3c omega H1A_oo H1A_vv H1B_oo H1B_vv shift noa nua nob nub).2.2.2.2.1 ∧
    Preconditioned ![.occ false, .vir true, .vir true, .occ true, .occ true] (bySpin noa nob) (bySpin nua nub)
      (diag H1A_oo H1B_oo) (diag H1A_vv H1B_vv) omega r3c (update_R_3h2p r1a r2a r2b r3a r3b r3c omega H1A_oo H1A_vv H1B_oo H1B_vv shift noa nua nob nub).2.2.2.2.2 := by
  refine ⟨?_, ?_, ?_, ?_, ?_, ?_⟩
  · refine preconditioned_of (kind := ![.occ false]) (no := bySpin noa nob) (nv := bySpin nua nub) (eo := diag H1A_oo H1B_oo) (ev := diag H1A_vv H1B_vv) (elem_do 0 (fun i => elem_skipIf (elem_divideAt (by simp [excitationEnergy, Orb.cost, diag, bySpin]; try ring))) (by rintro _ _ ⟨_, rfl⟩; rfl)) ?_ ?_ r1a
    · rintro _ ⟨i, li, ui, _, rfl⟩ q
      fin_cases q <;> [exact ⟨li, ui⟩]
    · intro k hk hx hd
      exact ⟨k 0, (hk 0).1, (hk 0).2, fun e => hd (by rw [← e]; simp [excitationEnergy, Orb.cost, diag, bySpin]), by funext q; fin_cases q; rfl⟩
  · refine preconditioned_of (kind := ![.occ false, .vir false, .occ false]) (no := bySpin noa nob) (nv := bySpin nua nub) (eo := diag H1A_oo H1B_oo) (ev := diag H1A_vv H1B_vv) (elem_do 2 (fun j => elem_do 1 (fun b => elem_do 0 (fun i => elem_skipIf (elem_divideAt (by simp [excitationEnergy, Orb.cost, diag, bySpin, Fin.sum_univ_succ]; try ring))) (by rintro _ _ ⟨_, rfl⟩; rfl)) (by rintro _ _ ⟨_, _, _, _, rfl⟩; rfl)) (by rintro _ _ ⟨_, _, _, _, _, _, _, rfl⟩; rfl)) ?_ ?_ r2a
    · rintro _ ⟨j, lj, uj, b, lb, ub, i, li, ui, _, rfl⟩ q
      fin_cases q <;> [exact ⟨li, ui⟩; exact ⟨lb, ub⟩; exact ⟨lj, uj⟩]
    · intro k hk hx hd
      exact ⟨k 2, (hk 2).1, (hk 2).2, k 1, (hk 1).1, (hk 1).2, k 0, (hk 0).1, (hk 0).2, hx 0 2 (by decide) rfl, by funext q; fin_cases q <;> rfl⟩
  · refine preconditioned_of (kind := ![.occ false, .vir true, .occ true]) (no := bySpin noa nob) (nv := bySpin nua nub) (eo := diag H1A_oo H1B_oo) (ev := diag H1A_vv H1B_vv) (elem_do 2 (fun j => elem_do 1 (fun b => elem_do 0 (fun i => elem_divideAt (by simp [excitationEnergy, Orb.cost, diag, bySpin, Fin.sum_univ_succ]; try ring)) (by rintro _ _ rfl; rfl)) (by rintro _ _ ⟨_, _, _, rfl⟩; rfl)) (by rintro _ _ ⟨_, _, _, _, _, _, rfl⟩; rfl)) ?_ ?_ r2b
    · rintro _ ⟨j, lj, uj, b, lb, ub, i, li, ui, rfl⟩ q
      fin_cases q <;> [exact ⟨li, ui⟩; exact ⟨lb, ub⟩; exact ⟨lj, uj⟩]
    · intro k hk hx hd
      exact ⟨k 2, (hk 2).1, (hk 2).2, k 1, (hk 1).1, (hk 1).2, k 0, (hk 0).1, (hk 0).2, by funext q; fin_cases q <;> rfl⟩
  · refine preconditioned_of (kind := ![.occ false, .vir false, .vir false, .occ false, .occ false]) (no := bySpin noa nob) (nv := bySpin nua nub) (eo := diag H1A_oo H1B_oo) (ev := diag H1A_vv H1B_vv) (elem_do 3 (fun j => elem_do 4 (fun k => elem_do 0 (fun i => elem_do 1 (fun b => elem_do 2 (fun c => elem_skipIf (elem_skipIf (elem_divideAt (by simp [excitationEnergy, Orb.cost, diag, bySpin, Fin.sum_univ_succ]; try ring)))) (by rintro _ _ ⟨_, _, rfl⟩; rfl)) (by rintro _ _ ⟨_, _, _, _, _, rfl⟩; rfl)) (by rintro _ _ ⟨_, _, _, _, _, _, _, _, rfl⟩; rfl)) (by rintro _ _ ⟨_, _, _, _, _, _, _, _, _, _, _, rfl⟩; rfl)) (by rintro _ _ ⟨_, _, _, _, _, _, _, _, _, _, _, _, _, _, rfl⟩; rfl)) ?_ ?_ r3a
    · rintro _ ⟨j, lj, uj, k, lk, uk, i, li, ui, b, lb, ub, c, lc, uc, _, _, rfl⟩ q
      fin_cases q <;> [exact ⟨li, ui⟩; exact ⟨lb, ub⟩; exact ⟨lc, uc⟩; exact ⟨lj, uj⟩; exact ⟨lk, uk⟩]
    · intro k hk hx hd
      exact ⟨k 3, (hk 3).1, (hk 3).2, k 4, (hk 4).1, (hk 4).2, k 0, (hk 0).1, (hk 0).2, k 1, (hk 1).1, (hk 1).2, k 2, (hk 2).1, (hk 2).2, fun e => e.elim (hx 0 3 (by decide) rfl) fun e => e.elim (hx 0 4 (by decide) rfl) (hx 3 4 (by decide) rfl), hx 1 2 (by decide) rfl, by funext q; fin_cases q <;> rfl⟩
  · refine preconditioned_of (kind := ![.occ false, .vir false, .vir true, .occ false, .occ true]) (no := bySpin noa nob) (nv := bySpin nua nub) (eo := diag H1A_oo H1B_oo) (ev := diag H1A_vv H1B_vv) (elem_do 3 (fun j => elem_do 4 (fun k => elem_do 0 (fun i => elem_do 1 (fun b => elem_do 2 (fun c => elem_skipIf (elem_divideAt (by simp [excitationEnergy, Orb.cost, diag, bySpin, Fin.sum_univ_succ]; try ring))) (by rintro _ _ ⟨_, rfl⟩; rfl)) (by rintro _ _ ⟨_, _, _, _, rfl⟩; rfl)) (by rintro _ _ ⟨_, _, _, _, _, _, _, rfl⟩; rfl)) (by rintro _ _ ⟨_, _, _, _, _, _, _, _, _, _, rfl⟩; rfl)) (by rintro _ _ ⟨_, _, _, _, _, _, _, _, _, _, _, _, _, rfl⟩; rfl)) ?_ ?_ r3b
    · rintro _ ⟨j, lj, uj, k, lk, uk, i, li, ui, b, lb, ub, c, lc, uc, _, rfl⟩ q
      fin_cases q <;> [exact ⟨li, ui⟩; exact ⟨lb, ub⟩; exact ⟨lc, uc⟩; exact ⟨lj, uj⟩; exact ⟨lk, uk⟩]
    · intro k hk hx hd
      exact ⟨k 3, (hk 3).1, (hk 3).2, k 4, (hk 4).1, (hk 4).2, k 0, (hk 0).1, (hk 0).2, k 1, (hk 1).1, (hk 1).2, k 2, (hk 2).1, (hk 2).2, hx 0 3 (by decide) rfl, by funext q; fin_cases q <;> rfl⟩
  · refine preconditioned_of (kind := ![.occ false, .vir true, .vir true, .occ true, .occ true]) (no := bySpin noa nob) (nv := bySpin nua nub) (eo := diag H1A_oo H1B_oo) (ev := diag H1A_vv H1B_vv) (elem_do 3 (fun j => elem_do 4 (fun k => elem_do 0 (fun i => elem_do 1 (fun b => elem_do 2 (fun c => elem_skipIf (elem_skipIf (elem_divideAt (by simp [excitationEnergy, Orb.cost, diag, bySpin, Fin.sum_univ_succ]; try ring)))) (by rintro _ _ ⟨_, _, rfl⟩; rfl)) (by rintro _ _ ⟨_, _, _, _, _, rfl⟩; rfl)) (by rintro _ _ ⟨_, _, _, _, _, _, _, _, rfl⟩; rfl)) (by rintro _ _ ⟨_, _, _, _, _, _, _, _, _, _, _, rfl⟩; rfl)) (by rintro _ _ ⟨_, _, _, _, _, _, _, _, _, _, _, _, _, _, rfl⟩; rfl)) ?_ ?_ r3c
    · rintro _ ⟨j, lj, uj, k, lk, uk, i, li, ui, b, lb, ub, c, lc, uc, _, _, rfl⟩ q
      fin_cases q <;> [exact ⟨li, ui⟩; exact ⟨lb, ub⟩; exact ⟨lc, uc⟩; exact ⟨lj, uj⟩; exact ⟨lk, uk⟩]
    · intro k hk hx hd
      exact ⟨k 3, (hk 3).1, (hk 3).2, k 4, (hk 4).1, (hk 4).2, k 0, (hk 0).1, (hk 0).2, k 1, (hk 1).1, (hk 1).2, k 2, (hk 2).1, (hk 2).2, hx 3 4 (by decide) rfl, hx 1 2 (by decide) rfl, by funext q; fin_cases q <;> rfl⟩

example : InBlock ![.occ false, .vir true, .vir true, .occ true, .occ true] (bySpin 4 3) (bySpin 5 4) ![1, 1, 2, 1, 2] ∧ Exclusion ![.occ false, .vir true, .vir true, .occ true, .occ true] ![1, 1, 2, 1, 2] ∧
    (1 / 3) - excitationEnergy ![.occ false, .vir true, .vir true, .occ true, .occ true] (diag exo exo') (diag exv exv') ![1, 1, 2, 1, 2] ≠ 0 ∧
    (update_R_3h2p exr exr exr exr exr exr (1 / 3) exo exv exo' exv' 1 4 5 3 4).2.2.2.2.2 ![1, 1, 2, 1, 2] ≠ exr ![1, 1, 2, 1, 2] := by
  unfold InBlock Exclusion
  decide +kernel

/-- `update_R_2p1h` divides every block by `omega`, whatever `shift` is given minus the excitation energy. -/
theorem C57_update_R_2p1h [DecidableEq R] (r1a : (Fin 1 → ℕ) → R) (r2a : (Fin 3 → ℕ) → R) (r2b : (Fin 3 → ℕ) → R) (omega : R)
    (H1A_oo H1A_vv H1B_oo H1B_vv : ℕ → ℕ → R) (shift : R) (noa nua nob nub : ℕ) :
    Preconditioned ![.vir false] (bySpin noa nob) (bySpin nua nub)
      (diag H1A_oo H1B_oo) (diag H1A_vv H1B_vv) omega r1a (update_R_2p1h r1a r2a r2b omega H1A_oo H1A_vv H1B_oo H1B_vv shift noa nua nob nub).1 ∧
    Preconditioned ![.vir false, .vir false, .occ false] (bySpin noa nob) (bySpin nua nub)
      (diag H1A_oo H1B_oo) (diag H1A_vv H1B_vv) omega r2a (update_R_2p1h r1a r2a r2b omega H1A_oo H1A_vv H1B_oo H1B_vv shift noa nua nob nub).2.1 ∧
    Preconditioned ![.vir false, .vir true, .occ true] (bySpin noa nob) (bySpin nua nub)
      (diag H1A_oo H1B_oo) (diag H1A_vv H1B_vv) omega r2b (update_R_2p1h r1a r2a r2b omega H1A_oo H1A_vv H1B_oo H1B_vv shift noa nua nob nub).2.2 := by
  refine ⟨?_, ?_, ?_⟩
  · refine preconditioned_of (kind := ![.vir false]) (no := bySpin noa nob) (nv := bySpin nua nub) (eo := diag H1A_oo H1B_oo) (ev := diag H1A_vv H1B_vv) (elem_do 0 (fun a => elem_skipIf (elem_divideAt (by simp [excitationEnergy, Orb.cost, diag, bySpin]; try ring))) (by rintro _ _ ⟨_, rfl⟩; rfl)) ?_ ?_ r1a
    · rintro _ ⟨a, la, ua, _, rfl⟩ q
      fin_cases q <;> [exact ⟨la, ua⟩]
    · intro k hk hx hd
      exact ⟨k 0, (hk 0).1, (hk 0).2, fun e => hd (by rw [← e]; simp [excitationEnergy, Orb.cost, diag, bySpin]), by funext q; fin_cases q; rfl⟩
  · refine preconditioned_of (kind := ![.vir false, .vir false, .occ false]) (no := bySpin noa nob) (nv := bySpin nua nub) (eo := diag H1A_oo H1B_oo) (ev := diag H1A_vv H1B_vv) (elem_do 2 (fun j => elem_do 0 (fun a => elem_do 1 (fun b => elem_skipIf (elem_divideAt (by simp [excitationEnergy, Orb.cost, diag, bySpin, Fin.sum_univ_succ]; try ring))) (by rintro _ _ ⟨_, rfl⟩; rfl)) (by rintro _ _ ⟨_, _, _, _, rfl⟩; rfl)) (by rintro _ _ ⟨_, _, _, _, _, _, _, rfl⟩; rfl)) ?_ ?_ r2a
    · rintro _ ⟨j, lj, uj, a, la, ua, b, lb, ub, _, rfl⟩ q
      fin_cases q <;> [exact ⟨la, ua⟩; exact ⟨lb, ub⟩; exact ⟨lj, uj⟩]
    · intro k hk hx hd
      exact ⟨k 2, (hk 2).1, (hk 2).2, k 0, (hk 0).1, (hk 0).2, k 1, (hk 1).1, (hk 1).2, hx 0 1 (by decide) rfl, by funext q; fin_cases q <;> rfl⟩
  · refine preconditioned_of (kind := ![.vir false, .vir true, .occ true]) (no := bySpin noa nob) (nv := bySpin nua nub) (eo := diag H1A_oo H1B_oo) (ev := diag H1A_vv H1B_vv) (elem_do 2 (fun j => elem_do 0 (fun a => elem_do 1 (fun b => elem_divideAt (by simp [excitationEnergy, Orb.cost, diag, bySpin, Fin.sum_univ_succ]; try ring)) (by rintro _ _ rfl; rfl)) (by rintro _ _ ⟨_, _, _, rfl⟩; rfl)) (by rintro _ _ ⟨_, _, _, _, _, _, rfl⟩; rfl)) ?_ ?_ r2b
    · rintro _ ⟨j, lj, uj, a, la, ua, b, lb, ub, rfl⟩ q
      fin_cases q <;> [exact ⟨la, ua⟩; exact ⟨lb, ub⟩; exact ⟨lj, uj⟩]
    · intro k hk hx hd
      exact ⟨k 2, (hk 2).1, (hk 2).2, k 0, (hk 0).1, (hk 0).2, k 1, (hk 1).1, (hk 1).2, by funext q; fin_cases q <;> rfl⟩

example : InBlock ![.vir false, .vir true, .occ true] (bySpin 4 3) (bySpin 5 4) ![1, 1, 1] ∧ Exclusion ![.vir false, .vir true, .occ true] ![1, 1, 1] ∧
    (1 / 3) - excitationEnergy ![.vir false, .vir true, .occ true] (diag exo exo') (diag exv exv') ![1, 1, 1] ≠ 0 ∧
    (update_R_2p1h exr exr exr (1 / 3) exo exv exo' exv' 1 4 5 3 4).2.2 ![1, 1, 1] ≠ exr ![1, 1, 1] := by
  unfold InBlock Exclusion
  decide +kernel

/-- `update_R_3p2h` divides every block by `omega`, whatever `shift` is given minus the excitation energy. -/
theorem C57_update_R_3p2h [DecidableEq R] (r1a : (Fin 1 → ℕ) → R) (r2a : (Fin 3 → ℕ) → R) (r2b : (Fin 3 → ℕ) → R) (r3a : (Fin 5 → ℕ) → R) (r3b : (Fin 5 → ℕ) → R) (r3c : (Fin 5 → ℕ) → R) (omega : R)
    (H1A_oo H1A_vv H1B_oo H1B_vv : ℕ → ℕ → R) (shift : R) (noa nua nob nub : ℕ) :
    Preconditioned ![.vir false] (bySpin noa nob) (bySpin nua nub)
      (diag H1A_oo H1B_oo) (diag H1A_vv H1B_vv) omega r1a (update_R_3p2h r1a r2a r2b r3a r3b r3c omega H1A_oo H1A_vv H1B_oo H1B_vv shift noa nua nob nub).1 ∧
    Preconditioned ![.vir false, .vir false, .occ false] (bySpin noa nob) (bySpin nua nub)
      (diag H1A_oo H1B_oo) (diag H1A_vv H1B_vv) omega r2a (update_R_3p2h r1a r2a r2b r3a r3b r3c omega H1A_oo H1A_vv H1B_oo H1B_vv shift noa nua nob nub).2.1 ∧
    Preconditioned ![.vir false, .vir true, .occ true] (bySpin noa nob) (bySpin nua nub)
      (diag H1A_oo H1B_oo) (diag H1A_vv H1B_vv) omega r2b (update_R_3p2h r1a r2a r2b r3a r3b r3c omega H1A_oo H1A_vv H1B_oo H1B_vv shift noa nua nob nub).2.2.1 ∧
    Preconditioned ![.vir false, .vir false, .vir false, .occ false, .occ false] (bySpin noa nob) (bySpin nua nub)
      (diag H1A_oo H1B_oo) (diag H1A_vv H1B_vv) omega r3a (update_R_3p2h r1a r2a r2b r3a r3b r3c omega H1A_oo H1A_vv H1B_oo H1B_vv shift noa nua nob nub).2.2.2.1 ∧
    Preconditioned ![.vir false, .vir false, .vir true, .occ false, .occ true] (bySpin noa nob) (bySpin nua nub)
      (diag H1A_oo H1B_oo) (diag H1A_vv H1B_vv) omega r3b (update_R_3p2h r1a r2a r2b r3a r3b r3c omega H1A_oo H1A_vv H1B_oo H1B_vv shift noa nua nob nub).2.2.2.2.1 ∧
    Preconditioned ![.vir false, .vir true, .vir true, .occ true, .occ true] (bySpin noa nob) (bySpin nua nub)
      (diag H1A_oo H1B_oo) (diag H1A_vv H1B_vv) omega r3c (update_R_3p2h r1a r2a r2b r3a r3b r3c omega H1A_oo H1A_vv H1B_oo H1B_vv shift noa nua nob nub).2.2.2.2.2 := by
  refine ⟨?_, ?_, ?_, ?_, ?_, ?_⟩
  · refine preconditioned_of (kind := ![.vir false]) (no := bySpin noa nob) (nv := bySpin nua nub) (eo := diag H1A_oo H1B_oo) (ev := diag H1A_vv H1B_vv) (elem_do 0 (fun a => elem_skipIf (elem_divideAt (by simp [excitationEnergy, Orb.cost, diag, bySpin]; try ring))) (by rintro _ _ ⟨_, rfl⟩; rfl)) ?_ ?_ r1a
    · rintro _ ⟨a, la, ua, _, rfl⟩ q
      fin_cases q <;> [exact ⟨la, ua⟩]
    · intro k hk hx hd
      exact ⟨k 0, (hk 0).1, (hk 0).2, fun e => hd (by rw [← e]; simp [excitationEnergy, Orb.cost, diag, bySpin]), by funext q; fin_cases q; rfl⟩
  · refine preconditioned_of (kind := ![.vir false, .vir false, .occ false]) (no := bySpin noa nob) (nv := bySpin nua nub) (eo := diag H1A_oo H1B_oo) (ev := diag H1A_vv H1B_vv) (elem_do 2 (fun j => elem_do 0 (fun a => elem_do 1 (fun b => elem_skipIf (elem_divideAt (by simp [excitationEnergy, Orb.cost, diag, bySpin, Fin.sum_univ_succ]; try ring))) (by rintro _ _ ⟨_, rfl⟩; rfl)) (by rintro _ _ ⟨_, _, _, _, rfl⟩; rfl)) (by rintro _ _ ⟨_, _, _, _, _, _, _, rfl⟩; rfl)) ?_ ?_ r2a
    · rintro _ ⟨j, lj, uj, a, la, ua, b, lb, ub, _, rfl⟩ q
      fin_cases q <;> [exact ⟨la, ua⟩; exact ⟨lb, ub⟩; exact ⟨lj, uj⟩]
    · intro k hk hx hd
      exact ⟨k 2, (hk 2).1, (hk 2).2, k 0, (hk 0).1, (hk 0).2, k 1, (hk 1).1, (hk 1).2, hx 0 1 (by decide) rfl, by funext q; fin_cases q <;> rfl⟩
  · refine preconditioned_of (kind := ![.vir false, .vir true, .occ true]) (no := bySpin noa nob) (nv := bySpin nua nub) (eo := diag H1A_oo H1B_oo) (ev := diag H1A_vv H1B_vv) (elem_do 2 (fun j => elem_do 0 (fun a => elem_do 1 (fun b => elem_divideAt (by simp [excitationEnergy, Orb.cost, diag, bySpin, Fin.sum_univ_succ]; try ring)) (by rintro _ _ rfl; rfl)) (by rintro _ _ ⟨_, _, _, rfl⟩; rfl)) (by rintro _ _ ⟨_, _, _, _, _, _, rfl⟩; rfl)) ?_ ?_ r2b
    · rintro _ ⟨j, lj, uj, a, la, ua, b, lb, ub, rfl⟩ q
      fin_cases q <;> [exact ⟨la, ua⟩; exact ⟨lb, ub⟩; exact ⟨lj, uj⟩]
    · intro k hk hx hd
      exact ⟨k 2, (hk 2).1, (hk 2).2, k 0, (hk 0).1, (hk 0).2, k 1, (hk 1).1, (hk 1).2, by funext q; fin_cases q <;> rfl⟩
  · refine preconditioned_of (kind := ![.vir false, .vir false, .vir false, .occ false, .occ false]) (no := bySpin noa nob) (nv := bySpin nua nub) (eo := diag H1A_oo H1B_oo) (ev := diag H1A_vv H1B_vv) (elem_do 3 (fun j => elem_do 4 (fun k => elem_do 0 (fun a => elem_do 1 (fun b => elem_do 2 (fun c => elem_skipIf (elem_skipIf (elem_divideAt (by simp [excitationEnergy, Orb.cost, diag, bySpin, Fin.sum_univ_succ]; try ring)))) (by rintro _ _ ⟨_, _, rfl⟩; rfl)) (by rintro _ _ ⟨_, _, _, _, _, rfl⟩; rfl)) (by rintro _ _ ⟨_, _, _, _, _, _, _, _, rfl⟩; rfl)) (by rintro _ _ ⟨_, _, _, _, _, _, _, _, _, _, _, rfl⟩; rfl)) (by rintro _ _ ⟨_, _, _, _, _, _, _, _, _, _, _, _, _, _, rfl⟩; rfl)) ?_ ?_ r3a
    · rintro _ ⟨j, lj, uj, k, lk, uk, a, la, ua, b, lb, ub, c, lc, uc, _, _, rfl⟩ q
      fin_cases q <;> [exact ⟨la, ua⟩; exact ⟨lb, ub⟩; exact ⟨lc, uc⟩; exact ⟨lj, uj⟩; exact ⟨lk, uk⟩]
    · intro k hk hx hd
      exact ⟨k 3, (hk 3).1, (hk 3).2, k 4, (hk 4).1, (hk 4).2, k 0, (hk 0).1, (hk 0).2, k 1, (hk 1).1, (hk 1).2, k 2, (hk 2).1, (hk 2).2, hx 3 4 (by decide) rfl, fun e => e.elim (hx 0 1 (by decide) rfl) fun e => e.elim (hx 1 2 (by decide) rfl) (hx 0 2 (by decide) rfl), by funext q; fin_cases q <;> rfl⟩
  · refine preconditioned_of (kind := ![.vir false, .vir false, .vir true, .occ false, .occ true]) (no := bySpin noa nob) (nv := bySpin nua nub) (eo := diag H1A_oo H1B_oo) (ev := diag H1A_vv H1B_vv) (elem_do 3 (fun j => elem_do 4 (fun k => elem_do 0 (fun a => elem_do 1 (fun b => elem_do 2 (fun c => elem_skipIf (elem_divideAt (by simp [excitationEnergy, Orb.cost, diag, bySpin, Fin.sum_univ_succ]; try ring))) (by rintro _ _ ⟨_, rfl⟩; rfl)) (by rintro _ _ ⟨_, _, _, _, rfl⟩; rfl)) (by rintro _ _ ⟨_, _, _, _, _, _, _, rfl⟩; rfl)) (by rintro _ _ ⟨_, _, _, _, _, _, _, _, _, _, rfl⟩; rfl)) (by rintro _ _ ⟨_, _, _, _, _, _, _, _, _, _, _, _, _, rfl⟩; rfl)) ?_ ?_ r3b
    · rintro _ ⟨j, lj, uj, k, lk, uk, a, la, ua, b, lb, ub, c, lc, uc, _, rfl⟩ q
      fin_cases q <;> [exact ⟨la, ua⟩; exact ⟨lb, ub⟩; exact ⟨lc, uc⟩; exact ⟨lj, uj⟩; exact ⟨lk, uk⟩]
    · intro k hk hx hd
      exact ⟨k 3, (hk 3).1, (hk 3).2, k 4, (hk 4).1, (hk 4).2, k 0, (hk 0).1, (hk 0).2, k 1, (hk 1).1, (hk 1).2, k 2, (hk 2).1, (hk 2).2, hx 0 1 (by decide) rfl, by funext q; fin_cases q <;> rfl⟩
  · refine preconditioned_of (kind := ![.vir false, .vir true, .vir true, .occ true, .occ true]) (no := bySpin noa nob) (nv := bySpin nua nub) (eo := diag H1A_oo H1B_oo) (ev := diag H1A_vv H1B_vv) (elem_do 3 (fun j => elem_do 4 (fun k => elem_do 0 (fun a => elem_do 1 (fun b => elem_do 2 (fun c => elem_skipIf (elem_skipIf (elem_divideAt (by simp [excitationEnergy, Orb.cost, diag, bySpin, Fin.sum_univ_succ]; try ring)))) (by rintro _ _ ⟨_, _, rfl⟩; rfl)) (by rintro _ _ ⟨_, _, _, _, _, rfl⟩; rfl)) (by rintro _ _ ⟨_, _, _, _, _, _, _, _, rfl⟩; rfl)) (by rintro _ _ ⟨_, _, _, _, _, _, _, _, _, _, _, rfl⟩; rfl)) (by rintro _ _ ⟨_, _, _, _, _, _, _, _, _, _, _, _, _, _, rfl⟩; rfl)) ?_ ?_ r3c
    · rintro _ ⟨j, lj, uj, k, lk, uk, a, la, ua, b, lb, ub, c, lc, uc, _, _, rfl⟩ q
      fin_cases q <;> [exact ⟨la, ua⟩; exact ⟨lb, ub⟩; exact ⟨lc, uc⟩; exact ⟨lj, uj⟩; exact ⟨lk, uk⟩]
    · intro k hk hx hd
      exact ⟨k 3, (hk 3).1, (hk 3).2, k 4, (hk 4).1, (hk 4).2, k 0, (hk 0).1, (hk 0).2, k 1, (hk 1).1, (hk 1).2, k 2, (hk 2).1, (hk 2).2, hx 3 4 (by decide) rfl, hx 1 2 (by decide) rfl, by funext q; fin_cases q <;> rfl⟩

example : InBlock ![.vir false, .vir true, .vir true, .occ true, .occ true] (bySpin 4 3) (bySpin 5 4) ![1, 1, 2, 1, 2] ∧ Exclusion ![.vir false, .vir true, .vir true, .occ true, .occ true] ![1, 1, 2, 1, 2] ∧
    (1 / 3) - excitationEnergy ![.vir false, .vir true, .vir true, .occ true, .occ true] (diag exo exo') (diag exv exv') ![1, 1, 2, 1, 2] ≠ 0 ∧
    (update_R_3p2h exr exr exr exr exr exr (1 / 3) exo exv exo' exv' 1 4 5 3 4).2.2.2.2.2 ![1, 1, 2, 1, 2] ≠ exr ![1, 1, 2, 1, 2] := by
  unfold InBlock Exclusion
  decide +kernel

/-- `update_R_sfccsd` divides every block by `omega + shift` minus the excitation energy. -/
theorem C57_update_R_sfccsd (r1b : (Fin 2 → ℕ) → R) (r2b : (Fin 4 → ℕ) → R) (r2c : (Fin 4 → ℕ) → R) (omega : R)
    (H1A_oo H1A_vv H1B_oo H1B_vv : ℕ → ℕ → R) (shift : R) (noa nua nob nub : ℕ) :
    Preconditioned ![.vir true, .occ false] (bySpin noa nob) (bySpin nua nub)
      (diag H1A_oo H1B_oo) (diag H1A_vv H1B_vv) (omega + shift) r1b (update_R_sfccsd r1b r2b r2c omega H1A_oo H1A_vv H1B_oo H1B_vv shift noa nua nob nub).1 ∧
    Preconditioned ![.vir false, .vir true, .occ false, .occ false] (bySpin noa nob) (bySpin nua nub)
      (diag H1A_oo H1B_oo) (diag H1A_vv H1B_vv) (omega + shift) r2b (update_R_sfccsd r1b r2b r2c omega H1A_oo H1A_vv H1B_oo H1B_vv shift noa nua nob nub).2.1 ∧
    Preconditioned ![.vir true, .vir true, .occ true, .occ false] (bySpin noa nob) (bySpin nua nub)
      (diag H1A_oo H1B_oo) (diag H1A_vv H1B_vv) (omega + shift) r2c (update_R_sfccsd r1b r2b r2c omega H1A_oo H1A_vv H1B_oo H1B_vv shift noa nua nob nub).2.2 := by
  refine ⟨?_, ?_, ?_⟩
  · refine preconditioned_of (kind := ![.vir true, .occ false]) (no := bySpin noa nob) (nv := bySpin nua nub) (eo := diag H1A_oo H1B_oo) (ev := diag H1A_vv H1B_vv) (elem_do 1 (fun i => elem_do 0 (fun a => elem_divideAt (by simp [excitationEnergy, Orb.cost, diag, bySpin, Fin.sum_univ_succ]; try ring)) (by rintro _ _ rfl; rfl)) (by rintro _ _ ⟨_, _, _, rfl⟩; rfl)) ?_ ?_ r1b
    · rintro _ ⟨i, li, ui, a, la, ua, rfl⟩ q
      fin_cases q <;> [exact ⟨la, ua⟩; exact ⟨li, ui⟩]
    · intro k hk hx hd
      exact ⟨k 1, (hk 1).1, (hk 1).2, k 0, (hk 0).1, (hk 0).2, by funext q; fin_cases q <;> rfl⟩
  · refine preconditioned_of (kind := ![.vir false, .vir true, .occ false, .occ false]) (no := bySpin noa nob) (nv := bySpin nua nub) (eo := diag H1A_oo H1B_oo) (ev := diag H1A_vv H1B_vv) (elem_do 2 (fun i => elem_do 3 (fun j => elem_do 0 (fun a => elem_do 1 (fun b => elem_divideAt (by simp [excitationEnergy, Orb.cost, diag, bySpin, Fin.sum_univ_succ]; try ring)) (by rintro _ _ rfl; rfl)) (by rintro _ _ ⟨_, _, _, rfl⟩; rfl)) (by rintro _ _ ⟨_, _, _, _, _, _, rfl⟩; rfl)) (by rintro _ _ ⟨_, _, _, _, _, _, _, _, _, rfl⟩; rfl)) ?_ ?_ r2b
    · rintro _ ⟨i, li, ui, j, lj, uj, a, la, ua, b, lb, ub, rfl⟩ q
      fin_cases q <;> [exact ⟨la, ua⟩; exact ⟨lb, ub⟩; exact ⟨li, ui⟩; exact ⟨lj, uj⟩]
    · intro k hk hx hd
      exact ⟨k 2, (hk 2).1, (hk 2).2, k 3, (hk 3).1, (hk 3).2, k 0, (hk 0).1, (hk 0).2, k 1, (hk 1).1, (hk 1).2, by funext q; fin_cases q <;> rfl⟩
  · refine preconditioned_of (kind := ![.vir true, .vir true, .occ true, .occ false]) (no := bySpin noa nob) (nv := bySpin nua nub) (eo := diag H1A_oo H1B_oo) (ev := diag H1A_vv H1B_vv) (elem_do 2 (fun i => elem_do 3 (fun j => elem_do 0 (fun a => elem_do 1 (fun b => elem_divideAt (by simp [excitationEnergy, Orb.cost, diag, bySpin, Fin.sum_univ_succ]; try ring)) (by rintro _ _ rfl; rfl)) (by rintro _ _ ⟨_, _, _, rfl⟩; rfl)) (by rintro _ _ ⟨_, _, _, _, _, _, rfl⟩; rfl)) (by rintro _ _ ⟨_, _, _, _, _, _, _, _, _, rfl⟩; rfl)) ?_ ?_ r2c
    · rintro _ ⟨i, li, ui, j, lj, uj, a, la, ua, b, lb, ub, rfl⟩ q
      fin_cases q <;> [exact ⟨la, ua⟩; exact ⟨lb, ub⟩; exact ⟨li, ui⟩; exact ⟨lj, uj⟩]
    · intro k hk hx hd
      exact ⟨k 2, (hk 2).1, (hk 2).2, k 3, (hk 3).1, (hk 3).2, k 0, (hk 0).1, (hk 0).2, k 1, (hk 1).1, (hk 1).2, by funext q; fin_cases q <;> rfl⟩

example : InBlock ![.vir true, .vir true, .occ true, .occ false] (bySpin 4 3) (bySpin 5 4) ![1, 2, 1, 1] ∧ Exclusion ![.vir true, .vir true, .occ true, .occ false] ![1, 2, 1, 1] ∧
    (1 / 3 + 1) - excitationEnergy ![.vir true, .vir true, .occ true, .occ false] (diag exo exo') (diag exv exv') ![1, 2, 1, 1] ≠ 0 ∧
    (update_R_sfccsd exr exr exr (1 / 3) exo exv exo' exv' 1 4 5 3 4).2.2 ![1, 2, 1, 1] ≠ exr ![1, 2, 1, 1] := by
  unfold InBlock Exclusion
  decide +kernel

/-- `update_R_sfccsdt` divides every block by `omega + shift` minus the excitation energy. -/
theorem C57_update_R_sfccsdt (r1b : (Fin 2 → ℕ) → R) (r2b : (Fin 4 → ℕ) → R) (r2c : (Fin 4 → ℕ) → R) (r3b : (Fin 6 → ℕ) → R) (r3c : (Fin 6 → ℕ) → R) (r3d : (Fin 6 → ℕ) → R) (omega : R)
    (H1A_oo H1A_vv H1B_oo H1B_vv : ℕ → ℕ → R) (shift : R) (noa nua nob nub : ℕ) :
    Preconditioned ![.vir true, .occ false] (bySpin noa nob) (bySpin nua nub)
      (diag H1A_oo H1B_oo) (diag H1A_vv H1B_vv) (omega + shift) r1b (update_R_sfccsdt r1b r2b r2c r3b r3c r3d omega H1A_oo H1A_vv H1B_oo H1B_vv shift noa nua nob nub).1 ∧
    Preconditioned ![.vir false, .vir true, .occ false, .occ false] (bySpin noa nob) (bySpin nua nub)
      (diag H1A_oo H1B_oo) (diag H1A_vv H1B_vv) (omega + shift) r2b (update_R_sfccsdt r1b r2b r2c r3b r3c r3d omega H1A_oo H1A_vv H1B_oo H1B_vv shift noa nua nob nub).2.1 ∧
    Preconditioned ![.vir true, .vir true, .occ true, .occ false] (bySpin noa nob) (bySpin nua nub)
      (diag H1A_oo H1B_oo) (diag H1A_vv H1B_vv) (omega + shift) r2c (update_R_sfccsdt r1b r2b r2c r3b r3c r3d omega H1A_oo H1A_vv H1B_oo H1B_vv shift noa nua nob nub).2.2.1 ∧
    Preconditioned ![.vir false, .vir false, .vir true, .occ false, .occ false, .occ false] (bySpin noa nob) (bySpin nua nub)
      (diag H1A_oo H1B_oo) (diag H1A_vv H1B_vv) (omega + shift) r3b (update_R_sfccsdt r1b r2b r2c r3b r3c r3d omega H1A_oo H1A_vv H1B_oo H1B_vv shift noa nua nob nub).2.2.2.1 ∧
    Preconditioned ![.vir false, .vir true, .vir true, .occ false, .occ true, .occ false] (bySpin noa nob) (bySpin nua nub)
      (diag H1A_oo H1B_oo) (diag H1A_vv H1B_vv) (omega + shift) r3c (update_R_sfccsdt r1b r2b r2c r3b r3c r3d omega H1A_oo H1A_vv H1B_oo H1B_vv shift noa nua nob nub).2.2.2.2.1 ∧
    Preconditioned ![.vir true, .vir true, .vir true, .occ true, .occ true, .occ false] (bySpin noa nob) (bySpin nua nub)
      (diag H1A_oo H1B_oo) (diag H1A_vv H1B_vv) (omega + shift) r3d (update_R_sfccsdt r1b r2b r2c r3b r3c r3d omega H1A_oo H1A_vv H1B_oo H1B_vv shift noa nua nob nub).2.2.2.2.2 := by
  refine ⟨?_, ?_, ?_, ?_, ?_, ?_⟩
  · refine preconditioned_of (kind := ![.vir true, .occ false]) (no := bySpin noa nob) (nv := bySpin nua nub) (eo := diag H1A_oo H1B_oo) (ev := diag H1A_vv H1B_vv) (elem_do 1 (fun i => elem_do 0 (fun a => elem_divideAt (by simp [excitationEnergy, Orb.cost, diag, bySpin, Fin.sum_univ_succ]; try ring)) (by rintro _ _ rfl; rfl)) (by rintro _ _ ⟨_, _, _, rfl⟩; rfl)) ?_ ?_ r1b
    · rintro _ ⟨i, li, ui, a, la, ua, rfl⟩ q
      fin_cases q <;> [exact ⟨la, ua⟩; exact ⟨li, ui⟩]
    · intro k hk hx hd
      exact ⟨k 1, (hk 1).1, (hk 1).2, k 0, (hk 0).1, (hk 0).2, by funext q; fin_cases q <;> rfl⟩
  · refine preconditioned_of (kind := ![.vir false, .vir true, .occ false, .occ false]) (no := bySpin noa nob) (nv := bySpin nua nub) (eo := diag H1A_oo H1B_oo) (ev := diag H1A_vv H1B_vv) (elem_do 2 (fun i => elem_do 3 (fun j => elem_do 0 (fun a => elem_do 1 (fun b => elem_divideAt (by simp [excitationEnergy, Orb.cost, diag, bySpin, Fin.sum_univ_succ]; try ring)) (by rintro _ _ rfl; rfl)) (by rintro _ _ ⟨_, _, _, rfl⟩; rfl)) (by rintro _ _ ⟨_, _, _, _, _, _, rfl⟩; rfl)) (by rintro _ _ ⟨_, _, _, _, _, _, _, _, _, rfl⟩; rfl)) ?_ ?_ r2b
    · rintro _ ⟨i, li, ui, j, lj, uj, a, la, ua, b, lb, ub, rfl⟩ q
      fin_cases q <;> [exact ⟨la, ua⟩; exact ⟨lb, ub⟩; exact ⟨li, ui⟩; exact ⟨lj, uj⟩]
    · intro k hk hx hd
      exact ⟨k 2, (hk 2).1, (hk 2).2, k 3, (hk 3).1, (hk 3).2, k 0, (hk 0).1, (hk 0).2, k 1, (hk 1).1, (hk 1).2, by funext q; fin_cases q <;> rfl⟩
  · refine preconditioned_of (kind := ![.vir true, .vir true, .occ true, .occ false]) (no := bySpin noa nob) (nv := bySpin nua nub) (eo := diag H1A_oo H1B_oo) (ev := diag H1A_vv H1B_vv) (elem_do 2 (fun i => elem_do 3 (fun j => elem_do 0 (fun a => elem_do 1 (fun b => elem_divideAt (by simp [excitationEnergy, Orb.cost, diag, bySpin, Fin.sum_univ_succ]; try ring)) (by rintro _ _ rfl; rfl)) (by rintro _ _ ⟨_, _, _, rfl⟩; rfl)) (by rintro _ _ ⟨_, _, _, _, _, _, rfl⟩; rfl)) (by rintro _ _ ⟨_, _, _, _, _, _, _, _, _, rfl⟩; rfl)) ?_ ?_ r2c
    · rintro _ ⟨i, li, ui, j, lj, uj, a, la, ua, b, lb, ub, rfl⟩ q
      fin_cases q <;> [exact ⟨la, ua⟩; exact ⟨lb, ub⟩; exact ⟨li, ui⟩; exact ⟨lj, uj⟩]
    · intro k hk hx hd
      exact ⟨k 2, (hk 2).1, (hk 2).2, k 3, (hk 3).1, (hk 3).2, k 0, (hk 0).1, (hk 0).2, k 1, (hk 1).1, (hk 1).2, by funext q; fin_cases q <;> rfl⟩
  · refine preconditioned_of (kind := ![.vir false, .vir false, .vir true, .occ false, .occ false, .occ false]) (no := bySpin noa nob) (nv := bySpin nua nub) (eo := diag H1A_oo H1B_oo) (ev := diag H1A_vv H1B_vv) (elem_do 3 (fun i => elem_do 4 (fun j => elem_do 5 (fun k => elem_do 0 (fun a => elem_do 1 (fun b => elem_do 2 (fun c => elem_divideAt (by simp [excitationEnergy, Orb.cost, diag, bySpin, Fin.sum_univ_succ]; try ring)) (by rintro _ _ rfl; rfl)) (by rintro _ _ ⟨_, _, _, rfl⟩; rfl)) (by rintro _ _ ⟨_, _, _, _, _, _, rfl⟩; rfl)) (by rintro _ _ ⟨_, _, _, _, _, _, _, _, _, rfl⟩; rfl)) (by rintro _ _ ⟨_, _, _, _, _, _, _, _, _, _, _, _, rfl⟩; rfl)) (by rintro _ _ ⟨_, _, _, _, _, _, _, _, _, _, _, _, _, _, _, rfl⟩; rfl)) ?_ ?_ r3b
    · rintro _ ⟨i, li, ui, j, lj, uj, k, lk, uk, a, la, ua, b, lb, ub, c, lc, uc, rfl⟩ q
      fin_cases q <;> [exact ⟨la, ua⟩; exact ⟨lb, ub⟩; exact ⟨lc, uc⟩; exact ⟨li, ui⟩; exact ⟨lj, uj⟩; exact ⟨lk, uk⟩]
    · intro k hk hx hd
      exact ⟨k 3, (hk 3).1, (hk 3).2, k 4, (hk 4).1, (hk 4).2, k 5, (hk 5).1, (hk 5).2, k 0, (hk 0).1, (hk 0).2, k 1, (hk 1).1, (hk 1).2, k 2, (hk 2).1, (hk 2).2, by funext q; fin_cases q <;> rfl⟩
  · refine preconditioned_of (kind := ![.vir false, .vir true, .vir true, .occ false, .occ true, .occ false]) (no := bySpin noa nob) (nv := bySpin nua nub) (eo := diag H1A_oo H1B_oo) (ev := diag H1A_vv H1B_vv) (elem_do 3 (fun i => elem_do 4 (fun j => elem_do 5 (fun k => elem_do 0 (fun a => elem_do 1 (fun b => elem_do 2 (fun c => elem_divideAt (by simp [excitationEnergy, Orb.cost, diag, bySpin, Fin.sum_univ_succ]; try ring)) (by rintro _ _ rfl; rfl)) (by rintro _ _ ⟨_, _, _, rfl⟩; rfl)) (by rintro _ _ ⟨_, _, _, _, _, _, rfl⟩; rfl)) (by rintro _ _ ⟨_, _, _, _, _, _, _, _, _, rfl⟩; rfl)) (by rintro _ _ ⟨_, _, _, _, _, _, _, _, _, _, _, _, rfl⟩; rfl)) (by rintro _ _ ⟨_, _, _, _, _, _, _, _, _, _, _, _, _, _, _, rfl⟩; rfl)) ?_ ?_ r3c
    · rintro _ ⟨i, li, ui, j, lj, uj, k, lk, uk, a, la, ua, b, lb, ub, c, lc, uc, rfl⟩ q
      fin_cases q <;> [exact ⟨la, ua⟩; exact ⟨lb, ub⟩; exact ⟨lc, uc⟩; exact ⟨li, ui⟩; exact ⟨lj, uj⟩; exact ⟨lk, uk⟩]
    · intro k hk hx hd
      exact ⟨k 3, (hk 3).1, (hk 3).2, k 4, (hk 4).1, (hk 4).2, k 5, (hk 5).1, (hk 5).2, k 0, (hk 0).1, (hk 0).2, k 1, (hk 1).1, (hk 1).2, k 2, (hk 2).1, (hk 2).2, by funext q; fin_cases q <;> rfl⟩
  · refine preconditioned_of (kind := ![.vir true, .vir true, .vir true, .occ true, .occ true, .occ false]) (no := bySpin noa nob) (nv := bySpin nua nub) (eo := diag H1A_oo H1B_oo) (ev := diag H1A_vv H1B_vv) (elem_do 3 (fun i => elem_do 4 (fun j => elem_do 5 (fun k => elem_do 0 (fun a => elem_do 1 (fun b => elem_do 2 (fun c => elem_divideAt (by simp [excitationEnergy, Orb.cost, diag, bySpin, Fin.sum_univ_succ]; try ring)) (by rintro _ _ rfl; rfl)) (by rintro _ _ ⟨_, _, _, rfl⟩; rfl)) (by rintro _ _ ⟨_, _, _, _, _, _, rfl⟩; rfl)) (by rintro _ _ ⟨_, _, _, _, _, _, _, _, _, rfl⟩; rfl)) (by rintro _ _ ⟨_, _, _, _, _, _, _, _, _, _, _, _, rfl⟩; rfl)) (by rintro _ _ ⟨_, _, _, _, _, _, _, _, _, _, _, _, _, _, _, rfl⟩; rfl)) ?_ ?_ r3d
    · rintro _ ⟨i, li, ui, j, lj, uj, k, lk, uk, a, la, ua, b, lb, ub, c, lc, uc, rfl⟩ q
      fin_cases q <;> [exact ⟨la, ua⟩; exact ⟨lb, ub⟩; exact ⟨lc, uc⟩; exact ⟨li, ui⟩; exact ⟨lj, uj⟩; exact ⟨lk, uk⟩]
    · intro k hk hx hd
      exact ⟨k 3, (hk 3).1, (hk 3).2, k 4, (hk 4).1, (hk 4).2, k 5, (hk 5).1, (hk 5).2, k 0, (hk 0).1, (hk 0).2, k 1, (hk 1).1, (hk 1).2, k 2, (hk 2).1, (hk 2).2, by funext q; fin_cases q <;> rfl⟩

example : InBlock ![.vir true, .vir true, .vir true, .occ true, .occ true, .occ false] (bySpin 4 3) (bySpin 5 4) ![1, 2, 3, 1, 2, 1] ∧ Exclusion ![.vir true, .vir true, .vir true, .occ true, .occ true, .occ false] ![1, 2, 3, 1, 2, 1] ∧
    (1 / 3 + 1) - excitationEnergy ![.vir true, .vir true, .vir true, .occ true, .occ true, .occ false] (diag exo exo') (diag exv exv') ![1, 2, 3, 1, 2, 1] ≠ 0 ∧
    (update_R_sfccsdt exr exr exr exr exr exr (1 / 3) exo exv exo' exv' 1 4 5 3 4).2.2.2.2.2 ![1, 2, 3, 1, 2, 1] ≠ exr ![1, 2, 3, 1, 2, 1] := by
  unfold InBlock Exclusion
  decide +kernel

/-- `update_R_2p` divides every block by `omega`, whatever `shift` is given minus the excitation energy. -/
theorem C57_update_R_2p (r2b : (Fin 2 → ℕ) → R) (omega : R)
    (H1A_oo H1A_vv H1B_oo H1B_vv : ℕ → ℕ → R) (shift : R) (noa nua nob nub : ℕ) :
    Preconditioned ![.vir false, .vir true] (bySpin noa nob) (bySpin nua nub)
      (diag H1A_oo H1B_oo) (diag H1A_vv H1B_vv) omega r2b (update_R_2p r2b omega H1A_oo H1A_vv H1B_oo H1B_vv shift noa nua nob nub) := by
  · refine preconditioned_of (kind := ![.vir false, .vir true]) (no := bySpin noa nob) (nv := bySpin nua nub) (eo := diag H1A_oo H1B_oo) (ev := diag H1A_vv H1B_vv) (elem_do 0 (fun a => elem_do 1 (fun b => elem_divideAt (by simp [excitationEnergy, Orb.cost, diag, bySpin, Fin.sum_univ_succ]; try ring)) (by rintro _ _ rfl; rfl)) (by rintro _ _ ⟨_, _, _, rfl⟩; rfl)) ?_ ?_ r2b
    · rintro _ ⟨a, la, ua, b, lb, ub, rfl⟩ q
      fin_cases q <;> [exact ⟨la, ua⟩; exact ⟨lb, ub⟩]
    · intro k hk hx hd
      exact ⟨k 0, (hk 0).1, (hk 0).2, k 1, (hk 1).1, (hk 1).2, by funext q; fin_cases q <;> rfl⟩

example : InBlock ![.vir false, .vir true] (bySpin 4 3) (bySpin 5 4) ![1, 1] ∧ Exclusion ![.vir false, .vir true] ![1, 1] ∧
    (1 / 3) - excitationEnergy ![.vir false, .vir true] (diag exo exo') (diag exv exv') ![1, 1] ≠ 0 ∧
    (update_R_2p exr (1 / 3) exo exv exo' exv' 1 4 5 3 4) ![1, 1] ≠ exr ![1, 1] := by
  unfold InBlock Exclusion
  decide +kernel

/-- `update_R_3p1h` divides every block by `omega`, whatever `shift` is given minus the excitation energy. -/
theorem C57_update_R_3p1h (r2b : (Fin 2 → ℕ) → R) (r3b : (Fin 4 → ℕ) → R) (r3c : (Fin 4 → ℕ) → R) (omega : R)
    (H1A_oo H1A_vv H1B_oo H1B_vv : ℕ → ℕ → R) (shift : R) (noa nua nob nub : ℕ) :
    Preconditioned ![.vir false, .vir true] (bySpin noa nob) (bySpin nua nub)
      (diag H1A_oo H1B_oo) (diag H1A_vv H1B_vv) omega r2b (update_R_3p1h r2b r3b r3c omega H1A_oo H1A_vv H1B_oo H1B_vv shift noa nua nob nub).1 ∧
    Preconditioned ![.vir false, .vir true, .vir false, .occ false] (bySpin noa nob) (bySpin nua nub)
      (diag H1A_oo H1B_oo) (diag H1A_vv H1B_vv) omega r3b (update_R_3p1h r2b r3b r3c omega H1A_oo H1A_vv H1B_oo H1B_vv shift noa nua nob nub).2.1 ∧
    Preconditioned ![.vir false, .vir true, .vir true, .occ true] (bySpin noa nob) (bySpin nua nub)
      (diag H1A_oo H1B_oo) (diag H1A_vv H1B_vv) omega r3c (update_R_3p1h r2b r3b r3c omega H1A_oo H1A_vv H1B_oo H1B_vv shift noa nua nob nub).2.2 := by
  refine ⟨?_, ?_, ?_⟩
  · refine preconditioned_of (kind := ![.vir false, .vir true]) (no := bySpin noa nob) (nv := bySpin nua nub) (eo := diag H1A_oo H1B_oo) (ev := diag H1A_vv H1B_vv) (elem_do 0 (fun a => elem_do 1 (fun b => elem_divideAt (by simp [excitationEnergy, Orb.cost, diag, bySpin, Fin.sum_univ_succ]; try ring)) (by rintro _ _ rfl; rfl)) (by rintro _ _ ⟨_, _, _, rfl⟩; rfl)) ?_ ?_ r2b
    · rintro _ ⟨a, la, ua, b, lb, ub, rfl⟩ q
      fin_cases q <;> [exact ⟨la, ua⟩; exact ⟨lb, ub⟩]
    · intro k hk hx hd
      exact ⟨k 0, (hk 0).1, (hk 0).2, k 1, (hk 1).1, (hk 1).2, by funext q; fin_cases q <;> rfl⟩
  · refine preconditioned_of (kind := ![.vir false, .vir true, .vir false, .occ false]) (no := bySpin noa nob) (nv := bySpin nua nub) (eo := diag H1A_oo H1B_oo) (ev := diag H1A_vv H1B_vv) (elem_do 0 (fun a => elem_do 1 (fun b => elem_do 2 (fun c => elem_do 3 (fun k => elem_skipIf (elem_divideAt (by simp [excitationEnergy, Orb.cost, diag, bySpin, Fin.sum_univ_succ]; try ring))) (by rintro _ _ ⟨_, rfl⟩; rfl)) (by rintro _ _ ⟨_, _, _, _, rfl⟩; rfl)) (by rintro _ _ ⟨_, _, _, _, _, _, _, rfl⟩; rfl)) (by rintro _ _ ⟨_, _, _, _, _, _, _, _, _, _, rfl⟩; rfl)) ?_ ?_ r3b
    · rintro _ ⟨a, la, ua, b, lb, ub, c, lc, uc, k, lk, uk, _, rfl⟩ q
      fin_cases q <;> [exact ⟨la, ua⟩; exact ⟨lb, ub⟩; exact ⟨lc, uc⟩; exact ⟨lk, uk⟩]
    · intro k hk hx hd
      exact ⟨k 0, (hk 0).1, (hk 0).2, k 1, (hk 1).1, (hk 1).2, k 2, (hk 2).1, (hk 2).2, k 3, (hk 3).1, (hk 3).2, hx 0 2 (by decide) rfl, by funext q; fin_cases q <;> rfl⟩
  · refine preconditioned_of (kind := ![.vir false, .vir true, .vir true, .occ true]) (no := bySpin noa nob) (nv := bySpin nua nub) (eo := diag H1A_oo H1B_oo) (ev := diag H1A_vv H1B_vv) (elem_do 0 (fun a => elem_do 1 (fun b => elem_do 2 (fun c => elem_do 3 (fun k => elem_skipIf (elem_divideAt (by simp [excitationEnergy, Orb.cost, diag, bySpin, Fin.sum_univ_succ]; try ring))) (by rintro _ _ ⟨_, rfl⟩; rfl)) (by rintro _ _ ⟨_, _, _, _, rfl⟩; rfl)) (by rintro _ _ ⟨_, _, _, _, _, _, _, rfl⟩; rfl)) (by rintro _ _ ⟨_, _, _, _, _, _, _, _, _, _, rfl⟩; rfl)) ?_ ?_ r3c
    · rintro _ ⟨a, la, ua, b, lb, ub, c, lc, uc, k, lk, uk, _, rfl⟩ q
      fin_cases q <;> [exact ⟨la, ua⟩; exact ⟨lb, ub⟩; exact ⟨lc, uc⟩; exact ⟨lk, uk⟩]
    · intro k hk hx hd
      exact ⟨k 0, (hk 0).1, (hk 0).2, k 1, (hk 1).1, (hk 1).2, k 2, (hk 2).1, (hk 2).2, k 3, (hk 3).1, (hk 3).2, hx 1 2 (by decide) rfl, by funext q; fin_cases q <;> rfl⟩

example : InBlock ![.vir false, .vir true, .vir true, .occ true] (bySpin 4 3) (bySpin 5 4) ![1, 1, 2, 1] ∧ Exclusion ![.vir false, .vir true, .vir true, .occ true] ![1, 1, 2, 1] ∧
    (1 / 3) - excitationEnergy ![.vir false, .vir true, .vir true, .occ true] (diag exo exo') (diag exv exv') ![1, 1, 2, 1] ≠ 0 ∧
    (update_R_3p1h exr exr exr (1 / 3) exo exv exo' exv' 1 4 5 3 4).2.2 ![1, 1, 2, 1] ≠ exr ![1, 1, 2, 1] := by
  unfold InBlock Exclusion
  decide +kernel

/-- `update_R_4p2h` divides every block by `omega`, whatever `shift` is given minus the excitation energy. -/
theorem C57_update_R_4p2h (r2b : (Fin 2 → ℕ) → R) (r3b : (Fin 4 → ℕ) → R) (r3c : (Fin 4 → ℕ) → R) (r4b : (Fin 6 → ℕ) → R) (r4c : (Fin 6 → ℕ) → R) (r4d : (Fin 6 → ℕ) → R) (omega : R)
    (H1A_oo H1A_vv H1B_oo H1B_vv : ℕ → ℕ → R) (shift : R) (noa nua nob nub : ℕ) :
    Preconditioned ![.vir false, .vir true] (bySpin noa nob) (bySpin nua nub)
      (diag H1A_oo H1B_oo) (diag H1A_vv H1B_vv) omega r2b (update_R_4p2h r2b r3b r3c r4b r4c r4d omega H1A_oo H1A_vv H1B_oo H1B_vv shift noa nua nob nub).1 ∧
    Preconditioned ![.vir false, .vir true, .vir false, .occ false] (bySpin noa nob) (bySpin nua nub)
      (diag H1A_oo H1B_oo) (diag H1A_vv H1B_vv) omega r3b (update_R_4p2h r2b r3b r3c r4b r4c r4d omega H1A_oo H1A_vv H1B_oo H1B_vv shift noa nua nob nub).2.1 ∧
    Preconditioned ![.vir false, .vir true, .vir true, .occ true] (bySpin noa nob) (bySpin nua nub)
      (diag H1A_oo H1B_oo) (diag H1A_vv H1B_vv) omega r3c (update_R_4p2h r2b r3b r3c r4b r4c r4d omega H1A_oo H1A_vv H1B_oo H1B_vv shift noa nua nob nub).2.2.1 ∧
    Preconditioned ![.vir false, .vir true, .vir false, .vir false, .occ false, .occ false] (bySpin noa nob) (bySpin nua nub)
      (diag H1A_oo H1B_oo) (diag H1A_vv H1B_vv) omega r4b (update_R_4p2h r2b r3b r3c r4b r4c r4d omega H1A_oo H1A_vv H1B_oo H1B_vv shift noa nua nob nub).2.2.2.1 ∧
    Preconditioned ![.vir false, .vir true, .vir false, .vir true, .occ false, .occ true] (bySpin noa nob) (bySpin nua nub)
      (diag H1A_oo H1B_oo) (diag H1A_vv H1B_vv) omega r4c (update_R_4p2h r2b r3b r3c r4b r4c r4d omega H1A_oo H1A_vv H1B_oo H1B_vv shift noa nua nob nub).2.2.2.2.1 ∧
    Preconditioned ![.vir false, .vir true, .vir true, .vir true, .occ true, .occ true] (bySpin noa nob) (bySpin nua nub)
      (diag H1A_oo H1B_oo) (diag H1A_vv H1B_vv) omega r4d (update_R_4p2h r2b r3b r3c r4b r4c r4d omega H1A_oo H1A_vv H1B_oo H1B_vv shift noa nua nob nub).2.2.2.2.2 := by
  refine ⟨?_, ?_, ?_, ?_, ?_, ?_⟩
  · refine preconditioned_of (kind := ![.vir false, .vir true]) (no := bySpin noa nob) (nv := bySpin nua nub) (eo := diag H1A_oo H1B_oo) (ev := diag H1A_vv H1B_vv) (elem_do 0 (fun a => elem_do 1 (fun b => elem_divideAt (by simp [excitationEnergy, Orb.cost, diag, bySpin, Fin.sum_univ_succ]; try ring)) (by rintro _ _ rfl; rfl)) (by rintro _ _ ⟨_, _, _, rfl⟩; rfl)) ?_ ?_ r2b
    · rintro _ ⟨a, la, ua, b, lb, ub, rfl⟩ q
      fin_cases q <;> [exact ⟨la, ua⟩; exact ⟨lb, ub⟩]
    · intro k hk hx hd
      exact ⟨k 0, (hk 0).1, (hk 0).2, k 1, (hk 1).1, (hk 1).2, by funext q; fin_cases q <;> rfl⟩
  · refine preconditioned_of (kind := ![.vir false, .vir true, .vir false, .occ false]) (no := bySpin noa nob) (nv := bySpin nua nub) (eo := diag H1A_oo H1B_oo) (ev := diag H1A_vv H1B_vv) (elem_do 0 (fun a => elem_do 1 (fun b => elem_do 2 (fun c => elem_do 3 (fun k => elem_skipIf (elem_divideAt (by simp [excitationEnergy, Orb.cost, diag, bySpin, Fin.sum_univ_succ]; try ring))) (by rintro _ _ ⟨_, rfl⟩; rfl)) (by rintro _ _ ⟨_, _, _, _, rfl⟩; rfl)) (by rintro _ _ ⟨_, _, _, _, _, _, _, rfl⟩; rfl)) (by rintro _ _ ⟨_, _, _, _, _, _, _, _, _, _, rfl⟩; rfl)) ?_ ?_ r3b
    · rintro _ ⟨a, la, ua, b, lb, ub, c, lc, uc, k, lk, uk, _, rfl⟩ q
      fin_cases q <;> [exact ⟨la, ua⟩; exact ⟨lb, ub⟩; exact ⟨lc, uc⟩; exact ⟨lk, uk⟩]
    · intro k hk hx hd
      exact ⟨k 0, (hk 0).1, (hk 0).2, k 1, (hk 1).1, (hk 1).2, k 2, (hk 2).1, (hk 2).2, k 3, (hk 3).1, (hk 3).2, hx 0 2 (by decide) rfl, by funext q; fin_cases q <;> rfl⟩
  · refine preconditioned_of (kind := ![.vir false, .vir true, .vir true, .occ true]) (no := bySpin noa nob) (nv := bySpin nua nub) (eo := diag H1A_oo H1B_oo) (ev := diag H1A_vv H1B_vv) (elem_do 0 (fun a => elem_do 1 (fun b => elem_do 2 (fun c => elem_do 3 (fun k => elem_skipIf (elem_divideAt (by simp [excitationEnergy, Orb.cost, diag, bySpin, Fin.sum_univ_succ]; try ring))) (by rintro _ _ ⟨_, rfl⟩; rfl)) (by rintro _ _ ⟨_, _, _, _, rfl⟩; rfl)) (by rintro _ _ ⟨_, _, _, _, _, _, _, rfl⟩; rfl)) (by rintro _ _ ⟨_, _, _, _, _, _, _, _, _, _, rfl⟩; rfl)) ?_ ?_ r3c
    · rintro _ ⟨a, la, ua, b, lb, ub, c, lc, uc, k, lk, uk, _, rfl⟩ q
      fin_cases q <;> [exact ⟨la, ua⟩; exact ⟨lb, ub⟩; exact ⟨lc, uc⟩; exact ⟨lk, uk⟩]
    · intro k hk hx hd
      exact ⟨k 0, (hk 0).1, (hk 0).2, k 1, (hk 1).1, (hk 1).2, k 2, (hk 2).1, (hk 2).2, k 3, (hk 3).1, (hk 3).2, hx 1 2 (by decide) rfl, by funext q; fin_cases q <;> rfl⟩
  · refine preconditioned_of (kind := ![.vir false, .vir true, .vir false, .vir false, .occ false, .occ false]) (no := bySpin noa nob) (nv := bySpin nua nub) (eo := diag H1A_oo H1B_oo) (ev := diag H1A_vv H1B_vv) (elem_do 4 (fun k => elem_do 5 (fun l => elem_skipIf (elem_do 0 (fun a => elem_do 1 (fun b => elem_do 2 (fun c => elem_do 3 (fun d => elem_skipIf (elem_divideAt (by simp [excitationEnergy, Orb.cost, diag, bySpin, Fin.sum_univ_succ]; try ring))) (by rintro _ _ ⟨_, rfl⟩; rfl)) (by rintro _ _ ⟨_, _, _, _, rfl⟩; rfl)) (by rintro _ _ ⟨_, _, _, _, _, _, _, rfl⟩; rfl)) (by rintro _ _ ⟨_, _, _, _, _, _, _, _, _, _, rfl⟩; rfl))) (by rintro _ _ ⟨_, _, _, _, _, _, _, _, _, _, _, _, _, _, rfl⟩; rfl)) (by rintro _ _ ⟨_, _, _, _, _, _, _, _, _, _, _, _, _, _, _, _, _, rfl⟩; rfl)) ?_ ?_ r4b
    · rintro _ ⟨k, lk, uk, l, ll, ul, _, a, la, ua, b, lb, ub, c, lc, uc, d, ld, ud, _, rfl⟩ q
      fin_cases q <;> [exact ⟨la, ua⟩; exact ⟨lb, ub⟩; exact ⟨lc, uc⟩; exact ⟨ld, ud⟩; exact ⟨lk, uk⟩; exact ⟨ll, ul⟩]
    · intro k hk hx hd
      exact ⟨k 4, (hk 4).1, (hk 4).2, k 5, (hk 5).1, (hk 5).2, hx 4 5 (by decide) rfl, k 0, (hk 0).1, (hk 0).2, k 1, (hk 1).1, (hk 1).2, k 2, (hk 2).1, (hk 2).2, k 3, (hk 3).1, (hk 3).2, fun e => e.elim (hx 0 2 (by decide) rfl) fun e => e.elim (hx 0 3 (by decide) rfl) (hx 2 3 (by decide) rfl), by funext q; fin_cases q <;> rfl⟩
  · refine preconditioned_of (kind := ![.vir false, .vir true, .vir false, .vir true, .occ false, .occ true]) (no := bySpin noa nob) (nv := bySpin nua nub) (eo := diag H1A_oo H1B_oo) (ev := diag H1A_vv H1B_vv) (elem_do 0 (fun a => elem_do 1 (fun b => elem_do 2 (fun c => elem_do 3 (fun d => elem_do 4 (fun k => elem_do 5 (fun l => elem_skipIf (elem_divideAt (by simp [excitationEnergy, Orb.cost, diag, bySpin, Fin.sum_univ_succ]; try ring))) (by rintro _ _ ⟨_, rfl⟩; rfl)) (by rintro _ _ ⟨_, _, _, _, rfl⟩; rfl)) (by rintro _ _ ⟨_, _, _, _, _, _, _, rfl⟩; rfl)) (by rintro _ _ ⟨_, _, _, _, _, _, _, _, _, _, rfl⟩; rfl)) (by rintro _ _ ⟨_, _, _, _, _, _, _, _, _, _, _, _, _, rfl⟩; rfl)) (by rintro _ _ ⟨_, _, _, _, _, _, _, _, _, _, _, _, _, _, _, _, rfl⟩; rfl)) ?_ ?_ r4c
    · rintro _ ⟨a, la, ua, b, lb, ub, c, lc, uc, d, ld, ud, k, lk, uk, l, ll, ul, _, rfl⟩ q
      fin_cases q <;> [exact ⟨la, ua⟩; exact ⟨lb, ub⟩; exact ⟨lc, uc⟩; exact ⟨ld, ud⟩; exact ⟨lk, uk⟩; exact ⟨ll, ul⟩]
    · intro k hk hx hd
      exact ⟨k 0, (hk 0).1, (hk 0).2, k 1, (hk 1).1, (hk 1).2, k 2, (hk 2).1, (hk 2).2, k 3, (hk 3).1, (hk 3).2, k 4, (hk 4).1, (hk 4).2, k 5, (hk 5).1, (hk 5).2, fun e => e.elim (hx 0 2 (by decide) rfl) (hx 1 3 (by decide) rfl), by funext q; fin_cases q <;> rfl⟩
  · refine preconditioned_of (kind := ![.vir false, .vir true, .vir true, .vir true, .occ true, .occ true]) (no := bySpin noa nob) (nv := bySpin nua nub) (eo := diag H1A_oo H1B_oo) (ev := diag H1A_vv H1B_vv) (elem_do 4 (fun k => elem_do 5 (fun l => elem_skipIf (elem_do 0 (fun a => elem_do 1 (fun b => elem_do 2 (fun c => elem_do 3 (fun d => elem_skipIf (elem_divideAt (by simp [excitationEnergy, Orb.cost, diag, bySpin, Fin.sum_univ_succ]; try ring))) (by rintro _ _ ⟨_, rfl⟩; rfl)) (by rintro _ _ ⟨_, _, _, _, rfl⟩; rfl)) (by rintro _ _ ⟨_, _, _, _, _, _, _, rfl⟩; rfl)) (by rintro _ _ ⟨_, _, _, _, _, _, _, _, _, _, rfl⟩; rfl))) (by rintro _ _ ⟨_, _, _, _, _, _, _, _, _, _, _, _, _, _, rfl⟩; rfl)) (by rintro _ _ ⟨_, _, _, _, _, _, _, _, _, _, _, _, _, _, _, _, _, rfl⟩; rfl)) ?_ ?_ r4d
    · rintro _ ⟨k, lk, uk, l, ll, ul, _, a, la, ua, b, lb, ub, c, lc, uc, d, ld, ud, _, rfl⟩ q
      fin_cases q <;> [exact ⟨la, ua⟩; exact ⟨lb, ub⟩; exact ⟨lc, uc⟩; exact ⟨ld, ud⟩; exact ⟨lk, uk⟩; exact ⟨ll, ul⟩]
    · intro k hk hx hd
      exact ⟨k 4, (hk 4).1, (hk 4).2, k 5, (hk 5).1, (hk 5).2, hx 4 5 (by decide) rfl, k 0, (hk 0).1, (hk 0).2, k 1, (hk 1).1, (hk 1).2, k 2, (hk 2).1, (hk 2).2, k 3, (hk 3).1, (hk 3).2, fun e => e.elim (hx 1 2 (by decide) rfl) fun e => e.elim (hx 1 3 (by decide) rfl) (hx 2 3 (by decide) rfl), by funext q; fin_cases q <;> rfl⟩

example : InBlock ![.vir false, .vir true, .vir true, .vir true, .occ true, .occ true] (bySpin 4 3) (bySpin 5 4) ![1, 1, 2, 3, 1, 2] ∧ Exclusion ![.vir false, .vir true, .vir true, .vir true, .occ true, .occ true] ![1, 1, 2, 3, 1, 2] ∧
    (1 / 3) - excitationEnergy ![.vir false, .vir true, .vir true, .vir true, .occ true, .occ true] (diag exo exo') (diag exv exv') ![1, 1, 2, 3, 1, 2] ≠ 0 ∧
    (update_R_4p2h exr exr exr exr exr exr (1 / 3) exo exv exo' exv' 1 4 5 3 4).2.2.2.2.2 ![1, 1, 2, 3, 1, 2] ≠ exr ![1, 1, 2, 3, 1, 2] := by
  unfold InBlock Exclusion
  decide +kernel

/-- `update_R_3h1p` divides every block by `omega`, whatever `shift` is given minus the excitation energy. -/
theorem C57_update_R_3h1p (r2b : (Fin 2 → ℕ) → R) (r3b : (Fin 4 → ℕ) → R) (r3c : (Fin 4 → ℕ) → R) (omega : R)
    (H1A_oo H1A_vv H1B_oo H1B_vv : ℕ → ℕ → R) (shift : R) (noa nua nob nub : ℕ) :
    Preconditioned ![.occ false, .occ true] (bySpin noa nob) (bySpin nua nub)
      (diag H1A_oo H1B_oo) (diag H1A_vv H1B_vv) omega r2b (update_R_3h1p r2b r3b r3c omega H1A_oo H1A_vv H1B_oo H1B_vv shift noa nua nob nub).1 ∧
    Preconditioned ![.occ false, .occ true, .vir false, .occ false] (bySpin noa nob) (bySpin nua nub)
      (diag H1A_oo H1B_oo) (diag H1A_vv H1B_vv) omega r3b (update_R_3h1p r2b r3b r3c omega H1A_oo H1A_vv H1B_oo H1B_vv shift noa nua nob nub).2.1 ∧
    Preconditioned ![.occ false, .occ true, .vir true, .occ true] (bySpin noa nob) (bySpin nua nub)
      (diag H1A_oo H1B_oo) (diag H1A_vv H1B_vv) omega r3c (update_R_3h1p r2b r3b r3c omega H1A_oo H1A_vv H1B_oo H1B_vv shift noa nua nob nub).2.2 := by
  refine ⟨?_, ?_, ?_⟩
  · refine preconditioned_of (kind := ![.occ false, .occ true]) (no := bySpin noa nob) (nv := bySpin nua nub) (eo := diag H1A_oo H1B_oo) (ev := diag H1A_vv H1B_vv) (elem_do 0 (fun i => elem_do 1 (fun j => elem_divideAt (by simp [excitationEnergy, Orb.cost, diag, bySpin, Fin.sum_univ_succ]; try ring)) (by rintro _ _ rfl; rfl)) (by rintro _ _ ⟨_, _, _, rfl⟩; rfl)) ?_ ?_ r2b
    · rintro _ ⟨i, li, ui, j, lj, uj, rfl⟩ q
      fin_cases q <;> [exact ⟨li, ui⟩; exact ⟨lj, uj⟩]
    · intro k hk hx hd
      exact ⟨k 0, (hk 0).1, (hk 0).2, k 1, (hk 1).1, (hk 1).2, by funext q; fin_cases q <;> rfl⟩
  · refine preconditioned_of (kind := ![.occ false, .occ true, .vir false, .occ false]) (no := bySpin noa nob) (nv := bySpin nua nub) (eo := diag H1A_oo H1B_oo) (ev := diag H1A_vv H1B_vv) (elem_do 0 (fun i => elem_do 1 (fun j => elem_do 2 (fun c => elem_do 3 (fun k => elem_skipIf (elem_divideAt (by simp [excitationEnergy, Orb.cost, diag, bySpin, Fin.sum_univ_succ]; try ring))) (by rintro _ _ ⟨_, rfl⟩; rfl)) (by rintro _ _ ⟨_, _, _, _, rfl⟩; rfl)) (by rintro _ _ ⟨_, _, _, _, _, _, _, rfl⟩; rfl)) (by rintro _ _ ⟨_, _, _, _, _, _, _, _, _, _, rfl⟩; rfl)) ?_ ?_ r3b
    · rintro _ ⟨i, li, ui, j, lj, uj, c, lc, uc, k, lk, uk, _, rfl⟩ q
      fin_cases q <;> [exact ⟨li, ui⟩; exact ⟨lj, uj⟩; exact ⟨lc, uc⟩; exact ⟨lk, uk⟩]
    · intro k hk hx hd
      exact ⟨k 0, (hk 0).1, (hk 0).2, k 1, (hk 1).1, (hk 1).2, k 2, (hk 2).1, (hk 2).2, k 3, (hk 3).1, (hk 3).2, hx 0 3 (by decide) rfl, by funext q; fin_cases q <;> rfl⟩
  · refine preconditioned_of (kind := ![.occ false, .occ true, .vir true, .occ true]) (no := bySpin noa nob) (nv := bySpin nua nub) (eo := diag H1A_oo H1B_oo) (ev := diag H1A_vv H1B_vv) (elem_do 0 (fun i => elem_do 1 (fun j => elem_do 2 (fun c => elem_do 3 (fun k => elem_skipIf (elem_divideAt (by simp [excitationEnergy, Orb.cost, diag, bySpin, Fin.sum_univ_succ]; try ring))) (by rintro _ _ ⟨_, rfl⟩; rfl)) (by rintro _ _ ⟨_, _, _, _, rfl⟩; rfl)) (by rintro _ _ ⟨_, _, _, _, _, _, _, rfl⟩; rfl)) (by rintro _ _ ⟨_, _, _, _, _, _, _, _, _, _, rfl⟩; rfl)) ?_ ?_ r3c
    · rintro _ ⟨i, li, ui, j, lj, uj, c, lc, uc, k, lk, uk, _, rfl⟩ q
      fin_cases q <;> [exact ⟨li, ui⟩; exact ⟨lj, uj⟩; exact ⟨lc, uc⟩; exact ⟨lk, uk⟩]
    · intro k hk hx hd
      exact ⟨k 0, (hk 0).1, (hk 0).2, k 1, (hk 1).1, (hk 1).2, k 2, (hk 2).1, (hk 2).2, k 3, (hk 3).1, (hk 3).2, hx 1 3 (by decide) rfl, by funext q; fin_cases q <;> rfl⟩

example : InBlock ![.occ false, .occ true, .vir true, .occ true] (bySpin 4 3) (bySpin 5 4) ![1, 1, 1, 2] ∧ Exclusion ![.occ false, .occ true, .vir true, .occ true] ![1, 1, 1, 2] ∧
    (1 / 3) - excitationEnergy ![.occ false, .occ true, .vir true, .occ true] (diag exo exo') (diag exv exv') ![1, 1, 1, 2] ≠ 0 ∧
    (update_R_3h1p exr exr exr (1 / 3) exo exv exo' exv' 1 4 5 3 4).2.2 ![1, 1, 1, 2] ≠ exr ![1, 1, 1, 2] := by
  unfold InBlock Exclusion
  decide +kernel

/-- `update_R_4h2p` divides every block by `omega`, whatever `shift` is given minus the excitation energy. -/
theorem C57_update_R_4h2p (r2b : (Fin 2 → ℕ) → R) (r3b : (Fin 4 → ℕ) → R) (r3c : (Fin 4 → ℕ) → R) (r4b : (Fin 6 → ℕ) → R) (r4c : (Fin 6 → ℕ) → R) (r4d : (Fin 6 → ℕ) → R) (omega : R)
    (H1A_oo H1A_vv H1B_oo H1B_vv : ℕ → ℕ → R) (shift : R) (noa nua nob nub : ℕ) :
    Preconditioned ![.occ false, .occ true] (bySpin noa nob) (bySpin nua nub)
      (diag H1A_oo H1B_oo) (diag H1A_vv H1B_vv) omega r2b (update_R_4h2p r2b r3b r3c r4b r4c r4d omega H1A_oo H1A_vv H1B_oo H1B_vv shift noa nua nob nub).1 ∧
    Preconditioned ![.occ false, .occ true, .vir false, .occ false] (bySpin noa nob) (bySpin nua nub)
      (diag H1A_oo H1B_oo) (diag H1A_vv H1B_vv) omega r3b (update_R_4h2p r2b r3b r3c r4b r4c r4d omega H1A_oo H1A_vv H1B_oo H1B_vv shift noa nua nob nub).2.1 ∧
    Preconditioned ![.occ false, .occ true, .vir true, .occ true] (bySpin noa nob) (bySpin nua nub)
      (diag H1A_oo H1B_oo) (diag H1A_vv H1B_vv) omega r3c (update_R_4h2p r2b r3b r3c r4b r4c r4d omega H1A_oo H1A_vv H1B_oo H1B_vv shift noa nua nob nub).2.2.1 ∧
    Preconditioned ![.occ false, .occ true, .vir false, .vir false, .occ false, .occ false] (bySpin noa nob) (bySpin nua nub)
      (diag H1A_oo H1B_oo) (diag H1A_vv H1B_vv) omega r4b (update_R_4h2p r2b r3b r3c r4b r4c r4d omega H1A_oo H1A_vv H1B_oo H1B_vv shift noa nua nob nub).2.2.2.1 ∧
    Preconditioned ![.occ false, .occ true, .vir false, .vir true, .occ false, .occ true] (bySpin noa nob) (bySpin nua nub)
      (diag H1A_oo H1B_oo) (diag H1A_vv H1B_vv) omega r4c (update_R_4h2p r2b r3b r3c r4b r4c r4d omega H1A_oo H1A_vv H1B_oo H1B_vv shift noa nua nob nub).2.2.2.2.1 ∧
    Preconditioned ![.occ false, .occ true, .vir true, .vir true, .occ true, .occ true] (bySpin noa nob) (bySpin nua nub)
      (diag H1A_oo H1B_oo) (diag H1A_vv H1B_vv) omega r4d (update_R_4h2p r2b r3b r3c r4b r4c r4d omega H1A_oo H1A_vv H1B_oo H1B_vv shift noa nua nob nub).2.2.2.2.2 := by
  refine ⟨?_, ?_, ?_, ?_, ?_, ?_⟩
  · refine preconditioned_of (kind := ![.occ false, .occ true]) (no := bySpin noa nob) (nv := bySpin nua nub) (eo := diag H1A_oo H1B_oo) (ev := diag H1A_vv H1B_vv) (elem_do 0 (fun i => elem_do 1 (fun j => elem_divideAt (by simp [excitationEnergy, Orb.cost, diag, bySpin, Fin.sum_univ_succ]; try ring)) (by rintro _ _ rfl; rfl)) (by rintro _ _ ⟨_, _, _, rfl⟩; rfl)) ?_ ?_ r2b
    · rintro _ ⟨i, li, ui, j, lj, uj, rfl⟩ q
      fin_cases q <;> [exact ⟨li, ui⟩; exact ⟨lj, uj⟩]
    · intro k hk hx hd
      exact ⟨k 0, (hk 0).1, (hk 0).2, k 1, (hk 1).1, (hk 1).2, by funext q; fin_cases q <;> rfl⟩
  · refine preconditioned_of (kind := ![.occ false, .occ true, .vir false, .occ false]) (no := bySpin noa nob) (nv := bySpin nua nub) (eo := diag H1A_oo H1B_oo) (ev := diag H1A_vv H1B_vv) (elem_do 0 (fun i => elem_do 1 (fun j => elem_do 2 (fun c => elem_do 3 (fun k => elem_skipIf (elem_divideAt (by simp [excitationEnergy, Orb.cost, diag, bySpin, Fin.sum_univ_succ]; try ring))) (by rintro _ _ ⟨_, rfl⟩; rfl)) (by rintro _ _ ⟨_, _, _, _, rfl⟩; rfl)) (by rintro _ _ ⟨_, _, _, _, _, _, _, rfl⟩; rfl)) (by rintro _ _ ⟨_, _, _, _, _, _, _, _, _, _, rfl⟩; rfl)) ?_ ?_ r3b
    · rintro _ ⟨i, li, ui, j, lj, uj, c, lc, uc, k, lk, uk, _, rfl⟩ q
      fin_cases q <;> [exact ⟨li, ui⟩; exact ⟨lj, uj⟩; exact ⟨lc, uc⟩; exact ⟨lk, uk⟩]
    · intro k hk hx hd
      exact ⟨k 0, (hk 0).1, (hk 0).2, k 1, (hk 1).1, (hk 1).2, k 2, (hk 2).1, (hk 2).2, k 3, (hk 3).1, (hk 3).2, hx 0 3 (by decide) rfl, by funext q; fin_cases q <;> rfl⟩
  · refine preconditioned_of (kind := ![.occ false, .occ true, .vir true, .occ true]) (no := bySpin noa nob) (nv := bySpin nua nub) (eo := diag H1A_oo H1B_oo) (ev := diag H1A_vv H1B_vv) (elem_do 0 (fun i => elem_do 1 (fun j => elem_do 2 (fun c => elem_do 3 (fun k => elem_skipIf (elem_divideAt (by simp [excitationEnergy, Orb.cost, diag, bySpin, Fin.sum_univ_succ]; try ring))) (by rintro _ _ ⟨_, rfl⟩; rfl)) (by rintro _ _ ⟨_, _, _, _, rfl⟩; rfl)) (by rintro _ _ ⟨_, _, _, _, _, _, _, rfl⟩; rfl)) (by rintro _ _ ⟨_, _, _, _, _, _, _, _, _, _, rfl⟩; rfl)) ?_ ?_ r3c
    · rintro _ ⟨i, li, ui, j, lj, uj, c, lc, uc, k, lk, uk, _, rfl⟩ q
      fin_cases q <;> [exact ⟨li, ui⟩; exact ⟨lj, uj⟩; exact ⟨lc, uc⟩; exact ⟨lk, uk⟩]
    · intro k hk hx hd
      exact ⟨k 0, (hk 0).1, (hk 0).2, k 1, (hk 1).1, (hk 1).2, k 2, (hk 2).1, (hk 2).2, k 3, (hk 3).1, (hk 3).2, hx 1 3 (by decide) rfl, by funext q; fin_cases q <;> rfl⟩
  · refine preconditioned_of (kind := ![.occ false, .occ true, .vir false, .vir false, .occ false, .occ false]) (no := bySpin noa nob) (nv := bySpin nua nub) (eo := diag H1A_oo H1B_oo) (ev := diag H1A_vv H1B_vv) (elem_do 2 (fun c => elem_do 3 (fun d => elem_skipIf (elem_do 0 (fun i => elem_do 1 (fun j => elem_do 4 (fun k => elem_do 5 (fun l => elem_skipIf (elem_divideAt (by simp [excitationEnergy, Orb.cost, diag, bySpin, Fin.sum_univ_succ]; try ring))) (by rintro _ _ ⟨_, rfl⟩; rfl)) (by rintro _ _ ⟨_, _, _, _, rfl⟩; rfl)) (by rintro _ _ ⟨_, _, _, _, _, _, _, rfl⟩; rfl)) (by rintro _ _ ⟨_, _, _, _, _, _, _, _, _, _, rfl⟩; rfl))) (by rintro _ _ ⟨_, _, _, _, _, _, _, _, _, _, _, _, _, _, rfl⟩; rfl)) (by rintro _ _ ⟨_, _, _, _, _, _, _, _, _, _, _, _, _, _, _, _, _, rfl⟩; rfl)) ?_ ?_ r4b
    · rintro _ ⟨c, lc, uc, d, ld, ud, _, i, li, ui, j, lj, uj, k, lk, uk, l, ll, ul, _, rfl⟩ q
      fin_cases q <;> [exact ⟨li, ui⟩; exact ⟨lj, uj⟩; exact ⟨lc, uc⟩; exact ⟨ld, ud⟩; exact ⟨lk, uk⟩; exact ⟨ll, ul⟩]
    · intro k hk hx hd
      exact ⟨k 2, (hk 2).1, (hk 2).2, k 3, (hk 3).1, (hk 3).2, hx 2 3 (by decide) rfl, k 0, (hk 0).1, (hk 0).2, k 1, (hk 1).1, (hk 1).2, k 4, (hk 4).1, (hk 4).2, k 5, (hk 5).1, (hk 5).2, fun e => e.elim (hx 0 4 (by decide) rfl) fun e => e.elim (hx 0 5 (by decide) rfl) (hx 4 5 (by decide) rfl), by funext q; fin_cases q <;> rfl⟩
  · refine preconditioned_of (kind := ![.occ false, .occ true, .vir false, .vir true, .occ false, .occ true]) (no := bySpin noa nob) (nv := bySpin nua nub) (eo := diag H1A_oo H1B_oo) (ev := diag H1A_vv H1B_vv) (elem_do 0 (fun i => elem_do 1 (fun j => elem_do 2 (fun c => elem_do 3 (fun d => elem_do 4 (fun k => elem_do 5 (fun l => elem_skipIf (elem_divideAt (by simp [excitationEnergy, Orb.cost, diag, bySpin, Fin.sum_univ_succ]; try ring))) (by rintro _ _ ⟨_, rfl⟩; rfl)) (by rintro _ _ ⟨_, _, _, _, rfl⟩; rfl)) (by rintro _ _ ⟨_, _, _, _, _, _, _, rfl⟩; rfl)) (by rintro _ _ ⟨_, _, _, _, _, _, _, _, _, _, rfl⟩; rfl)) (by rintro _ _ ⟨_, _, _, _, _, _, _, _, _, _, _, _, _, rfl⟩; rfl)) (by rintro _ _ ⟨_, _, _, _, _, _, _, _, _, _, _, _, _, _, _, _, rfl⟩; rfl)) ?_ ?_ r4c
    · rintro _ ⟨i, li, ui, j, lj, uj, c, lc, uc, d, ld, ud, k, lk, uk, l, ll, ul, _, rfl⟩ q
      fin_cases q <;> [exact ⟨li, ui⟩; exact ⟨lj, uj⟩; exact ⟨lc, uc⟩; exact ⟨ld, ud⟩; exact ⟨lk, uk⟩; exact ⟨ll, ul⟩]
    · intro k hk hx hd
      exact ⟨k 0, (hk 0).1, (hk 0).2, k 1, (hk 1).1, (hk 1).2, k 2, (hk 2).1, (hk 2).2, k 3, (hk 3).1, (hk 3).2, k 4, (hk 4).1, (hk 4).2, k 5, (hk 5).1, (hk 5).2, fun e => e.elim (hx 0 4 (by decide) rfl) (hx 1 5 (by decide) rfl), by funext q; fin_cases q <;> rfl⟩
  · refine preconditioned_of (kind := ![.occ false, .occ true, .vir true, .vir true, .occ true, .occ true]) (no := bySpin noa nob) (nv := bySpin nua nub) (eo := diag H1A_oo H1B_oo) (ev := diag H1A_vv H1B_vv) (elem_do 2 (fun c => elem_do 3 (fun d => elem_skipIf (elem_do 0 (fun i => elem_do 1 (fun j => elem_do 4 (fun k => elem_do 5 (fun l => elem_skipIf (elem_divideAt (by simp [excitationEnergy, Orb.cost, diag, bySpin, Fin.sum_univ_succ]; try ring))) (by rintro _ _ ⟨_, rfl⟩; rfl)) (by rintro _ _ ⟨_, _, _, _, rfl⟩; rfl)) (by rintro _ _ ⟨_, _, _, _, _, _, _, rfl⟩; rfl)) (by rintro _ _ ⟨_, _, _, _, _, _, _, _, _, _, rfl⟩; rfl))) (by rintro _ _ ⟨_, _, _, _, _, _, _, _, _, _, _, _, _, _, rfl⟩; rfl)) (by rintro _ _ ⟨_, _, _, _, _, _, _, _, _, _, _, _, _, _, _, _, _, rfl⟩; rfl)) ?_ ?_ r4d
    · rintro _ ⟨c, lc, uc, d, ld, ud, _, i, li, ui, j, lj, uj, k, lk, uk, l, ll, ul, _, rfl⟩ q
      fin_cases q <;> [exact ⟨li, ui⟩; exact ⟨lj, uj⟩; exact ⟨lc, uc⟩; exact ⟨ld, ud⟩; exact ⟨lk, uk⟩; exact ⟨ll, ul⟩]
    · intro k hk hx hd
      exact ⟨k 2, (hk 2).1, (hk 2).2, k 3, (hk 3).1, (hk 3).2, hx 2 3 (by decide) rfl, k 0, (hk 0).1, (hk 0).2, k 1, (hk 1).1, (hk 1).2, k 4, (hk 4).1, (hk 4).2, k 5, (hk 5).1, (hk 5).2, fun e => e.elim (hx 1 4 (by decide) rfl) fun e => e.elim (hx 1 5 (by decide) rfl) (hx 4 5 (by decide) rfl), by funext q; fin_cases q <;> rfl⟩

example : InBlock ![.occ false, .occ true, .vir true, .vir true, .occ true, .occ true] (bySpin 4 3) (bySpin 5 4) ![1, 1, 1, 2, 2, 3] ∧ Exclusion ![.occ false, .occ true, .vir true, .vir true, .occ true, .occ true] ![1, 1, 1, 2, 2, 3] ∧
    (1 / 3) - excitationEnergy ![.occ false, .occ true, .vir true, .vir true, .occ true, .occ true] (diag exo exo') (diag exv exv') ![1, 1, 1, 2, 2, 3] ≠ 0 ∧
    (update_R_4h2p exr exr exr exr exr exr (1 / 3) exo exv exo' exv' 1 4 5 3 4).2.2.2.2.2 ![1, 1, 1, 2, 2, 3] ≠ exr ![1, 1, 1, 2, 2, 3] := by
  unfold InBlock Exclusion
  decide +kernel

/-- Division by the energy denominators keeps antisymmetry in indices of the same kind. -/
theorem C57_antisymmetric [CharZero R] {n : ℕ} {kind : Fin n → Orb} {no nv : Bool → ℕ} {eo ev : Bool → ℕ → R}
    {omega : R} {r r' : (Fin n → ℕ) → R} (h : Preconditioned kind no nv eo ev omega r r')
    (hden : ∀ k, InBlock kind no nv k → omega - excitationEnergy kind eo ev k ≠ 0)
    (hr : BlockAntisym kind r) : BlockAntisym kind r' := by
  intro g hg k
  have hE : excitationEnergy kind eo ev (k ∘ g) = excitationEnergy kind eo ev k := by
    unfold excitationEnergy
    rw [← Equiv.sum_comp g (fun l => (kind l).cost eo ev (k l))]
    exact Finset.sum_congr rfl fun l _ => by rw [hg l]; rfl
  have hI : InBlock kind no nv (k ∘ g) ↔ InBlock kind no nv k := by
    constructor
    · intro hk l
      have := hk (g.symm l)
      rw [← hg (g.symm l)] at this
      simpa using this
    · intro hk l
      have := hk (g l)
      rwa [hg l] at this
  have hz : ∀ k : Fin n → ℕ, ¬ Exclusion kind k → r k = 0 := by
    intro k hx
    unfold Exclusion at hx
    push Not at hx
    obtain ⟨l, l', hne, hkind, hk⟩ := hx
    have e := hr (Equiv.swap l l') (fun q => by
      rcases eq_or_ne q l with rfl | h1
      · rw [Equiv.swap_apply_left, hkind]
      · rcases eq_or_ne q l' with rfl | h2
        · rw [Equiv.swap_apply_right, hkind]
        · rw [Equiv.swap_apply_of_ne_of_ne h1 h2]) k
    have ek : k ∘ Equiv.swap l l' = k := by
      funext q
      rcases eq_or_ne q l with rfl | h1
      · simp [hk]
      · rcases eq_or_ne q l' with rfl | h2
        · simp [hk]
        · simp [Equiv.swap_apply_of_ne_of_ne h1 h2]
    rw [ek, Equiv.Perm.sign_swap hne] at e
    exact CharZero.eq_neg_self_iff.mp (by simpa using e)
  have hX : Exclusion kind (k ∘ g) ↔ Exclusion kind k := by
    constructor
    · intro hx l l' hne hk
      have := hx (g.symm l) (g.symm l') (fun e => hne (g.symm.injective e)) (by
        rw [← hg (g.symm l), ← hg (g.symm l')]; simpa using hk)
      simpa using this
    · intro hx l l' hne hk
      exact hx (g l) (g l') (fun e => hne (g.injective e)) (by rw [hg, hg, hk])
  by_cases hk : InBlock kind no nv k
  · by_cases hx : Exclusion kind k
    · have e1 := h.divided k hk hx (hden k hk)
      have e2 := h.divided (k ∘ g) (hI.mpr hk) (hX.mpr hx) (by rw [hE]; exact hden k hk)
      rw [hE, hr g hg k, ← e1, zsmul_eq_mul, mul_left_comm, ← zsmul_eq_mul] at e2
      exact mul_left_cancel₀ (hden k hk) e2
    · rw [h.repeated k hx (hz k hx), h.repeated (k ∘ g) (fun e => hx (hX.mp e)) (hz _ fun e => hx (hX.mp e)),
        smul_zero]
  · rw [h.outside k hk, h.outside _ fun e => hk (hI.mp e), hr g hg k]

theorem ex_antisym : BlockAntisym ![.vir false, .vir false, .occ false]
    (fun k => (((k 0 : ℚ) - k 1) * k 2 : ℚ)) := by
  intro g hg k
  have : g = 1 ∨ g = Equiv.swap 0 1 := by
    revert g
    decide
  rcases this with rfl | rfl
  · simp
  · simp [Equiv.swap_apply_of_ne_of_ne (show (2 : Fin 3) ≠ 0 by decide) (show (2 : Fin 3) ≠ 1 by decide)]
    ring

example : BlockAntisym ![.vir false, .vir false, .occ false]
    (update_R_2p1h exr (fun k => (((k 0 : ℚ) - k 1) * k 2 : ℚ)) exr (-1) exo exv exo' exv' 0 4 5 3 4).2.1 := by
  refine C57_antisymmetric (C57_update_R_2p1h exr (fun k => (((k 0 : ℚ) - k 1) * k 2 : ℚ)) exr (-1)
    exo exv exo' exv' 0 4 5 3 4).2.1 (fun k _ => ?_) ex_antisym
  have h0 : (0 : ℚ) ≤ k 0 := Nat.cast_nonneg _
  have h1 : (0 : ℚ) ≤ k 1 := Nat.cast_nonneg _
  have h2 : (0 : ℚ) ≤ k 2 := Nat.cast_nonneg _
  have : excitationEnergy ![.vir false, .vir false, .occ false] (diag exo exo') (diag exv exv') k =
      k 0 + k 1 + k 2 := by
    simp [excitationEnergy, Orb.cost, diag, bySpin, Fin.sum_univ_succ, exo, exv]
    ring
  rw [this]
  intro h
  linarith

end Ccpy.Precondition
