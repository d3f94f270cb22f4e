import Verif.Lemmas.Ccsd
import Verif.Model.CcEnergy

/-! The comparisons for the correlation energy. -/

namespace Ccpy.CcEnergy
open Ccpy.Fock Ccpy.Tensor Ccpy.Engine Ccpy.Ccsd

variable {ι : Type*} [LinearOrder ι]

/-- The energy of the reference determinant in terms of the stored arrays. -/
def refEnergy : Ex :=
  (es% "ii->" stored.a.oo) + (es% "ii->" stored.b.oo) - half (es% "ijij->" stored.aa.oooo) - (es% "ijij->" stored.ab.oooo)
    - half (es% "ijij->" stored.bb.oooo)

section
set_option maxRecDepth 100000
theorem check_ref : check (groups tableT) (fun _ => []) listH refEnergy [] (left []) = true := by decide +kernel
theorem check_ci : check (groups tableT) (fun _ => []) listH (refEnergy + ciEnergy amplitudes stored) []
    [⟨false, [], fun _ => []⟩, ⟨false, [], fun m => [listT m]⟩] = true := by decide +kernel
theorem check_energy : check (groups tableT) listT listH (refEnergy + ccEnergy amplitudes stored) [] (left []) = true := by
  decide +kernel
end

section
variable {S : Orbitals ι} (h : S.Proper) {Z : Fock.Integrals} (hZ : Z.Antisym) {T : Cluster} (hT : T.Antisym)
include h hZ hT

theorem value_ref : value S Z T.amp refEnergy [] = S.element S.ref (hamiltonian S Z) := by
  refine (check_left h (antiSym_T hZ hT (amp := T.amp) (fun _ _ _ => rfl)) (T := fun _ => []) (t := 0) (fun m ρ => rfl) IsNilpotent.zero
    (by decide) check_ref (ρ := fun _ => 0) (fun v hv => absurd hv (List.not_mem_nil))).trans ?_
  rw [neg_zero, IsNilpotent.exp_zero, one_mul, mul_one]
  rfl

theorem value_ci : value S Z T.amp (refEnergy + ciEnergy amplitudes stored) []
    = S.element S.ref (hamiltonian S Z * (1 + clusterOperator S T)) := by
  refine (check_sound h (antiSym_T hZ hT (amp := T.amp) (fun _ _ _ => rfl)) (T := fun _ => []) (t := 0) (fun m ρ => rfl) IsNilpotent.zero
    check_ci (ρ := fun _ => 0) (fun v hv => absurd hv (List.not_mem_nil)) (vs := [(1, 1), (1, clusterOperator S T)])
    (.cons ⟨fun _ _ => rfl, fun _ _ _ => rfl⟩ (.cons ⟨fun _ _ => rfl, fun ρ m _ => ?_⟩ .nil))).trans ?_
  · simp only [List.map_cons, List.map_nil, List.prod_cons, List.prod_nil, mul_one]
    exact evalS_listT S T (holds_amp T) m ρ
  · simp only [neg_zero, IsNilpotent.exp_zero, one_mul, mul_one, List.zipWith_cons_cons, List.zipWith_nil_left, List.sum_cons,
      List.sum_nil, add_zero, if_neg, Bool.false_eq_true, ite_false, mul_add, Orbitals.element]
    rw [← map_add]
    rfl

theorem value_energy : value S Z T.amp (refEnergy + ccEnergy amplitudes stored) [] = S.element S.ref (transformed S Z T) :=
  (value_left h hZ hT (amp := T.amp) (fun _ _ _ => rfl) (bra := []) (by decide) check_energy (ρ := fun _ => 0)
    (fun v hv => absurd hv (List.not_mem_nil)))
end
end Ccpy.CcEnergy
