import Verif.Lemmas.FlipBasic
import Verif.Lemmas.CrCcUnit

/-! Exchange of the names of the two spins in the CR-CC(2,3) corrections. -/

namespace Ccpy.Fock

variable {ι : Type*} [LinearOrder ι]

section
variable {S : Orbitals ι} {Z : Integrals} (hC : ClosedShell S Z) {T L : Cluster} (hs : T.Symmetric) (hl : L.Symmetric)

/-! ### The CR-CC(2,3) corrections -/

include hC hs hl in
theorem flip_term (τ : Operator ι) (D : ℚ) : crccTerm S.flip Z T L τ D = crccTerm S Z T L τ D := by
  unfold crccTerm
  rw [flip_element, flip_element, flip_transformed hC hs, flip_deexcitation hl, S.flip_ref]

include hC hs in
theorem flip_gap (τ : Operator ι) : gap S.flip Z T τ = gap S Z T τ := by
  unfold gap
  rw [flip_element, flip_element, flip_transformed hC hs, S.flip_ref]

theorem flip_excite (a b c i j k : ℕ) : S.flip.exciteAAB b c a j k i = S.exciteABB a b c i j k := by
  show cre (S.virB b) * cre (S.virB c) * cre (S.virA a) * ann (S.occA i) * ann (S.occB k) * ann (S.occB j)
    = cre (S.virA a) * cre (S.virB b) * cre (S.virB c) * ann (S.occB k) * ann (S.occB j) * ann (S.occA i)
  refine LinearMap.ext fun v => ?_
  simp only [Module.End.mul_apply]
  rw [cre_cre_apply (S.virB c) (S.virA a), map_neg, cre_cre_apply (S.virB b) (S.virA a), neg_neg,
    ann_ann_apply (S.occA i) (S.occB k), ann_ann_apply (S.occA i) (S.occB j)]
  simp only [map_neg, neg_neg]

/-- Energy differences that do not change when the names of the spins are exchanged. -/
structure Gaps.Flips (D' D : Gaps) : Prop where
  aaa : ∀ a b c i j k, D'.aaa a b c i j k = D.bbb a b c i j k
  aab : ∀ a b c i j k, D'.aab b c a j k i = D.abb a b c i j k

theorem flips_a (hC : ClosedShell S Z) : (gapsA S.flip Z).Flips (gapsA S Z) := by
  have e := flip_fock hC
  have e' := closed_fock hC
  constructor <;> intros <;> simp only [gapsA, e.1, e.2, e'] <;> simp only [Orbitals.flip] <;> ring

include hC hs in
theorem flips_d : (gapsD S.flip Z T).Flips (gapsD S Z T) := by
  constructor
  · intro a b c i j k; exact flip_gap hC hs _
  · intro a b c i j k
    show gap S.flip Z T _ = gap S Z T _
    rw [flip_gap hC hs, flip_excite]

include hC hs in
theorem flips_b : (gapsB S.flip Z T).Flips (gapsB S Z T) := by
  constructor
  · intro a b c i j k
    show ((S.quasiBBB a b c i j k).map (gap S.flip Z T)).sum = ((S.quasiBBB a b c i j k).map (gap S Z T)).sum
    rw [show gap S.flip Z T = gap S Z T from funext (flip_gap hC hs)]
  · intro a b c i j k
    show ([ann (S.occB j), ann (S.occB k), ann (S.occA i), cre (S.virB b), cre (S.virB c), cre (S.virA a)].map (gap S.flip Z T)).sum
      = ((S.quasiABB a b c i j k).map (gap S Z T)).sum
    rw [show gap S.flip Z T = gap S Z T from funext (flip_gap hC hs)]
    simp only [Orbitals.quasiABB, List.map_cons, List.map_nil, List.sum_cons, List.sum_nil]
    ring

include hC hs in
theorem flips_c : (gapsC S.flip Z T).Flips (gapsC S Z T) := by
  have d := flips_d hC hs
  have o₁ : ∀ a i j, threeAAo S.flip Z T a i j = threeBBo S Z T a i j := fun a i j => by
    unfold threeAAo threeBBo; rw [hC.same, hs.aa]; rfl
  have v₁ : ∀ a b i, threeAAv S.flip Z T a b i = threeBBv S Z T a b i := fun a b i => by
    unfold threeAAv threeBBv; rw [hC.same, hs.aa]; rfl
  have o₂ : ∀ a i j, threeABo S.flip Z T a i j = threeBAo S Z T a j i := fun a i j => by
    unfold threeABo threeBAo
    exact Finset.sum_congr rfl fun e _ => by rw [← hC.mixed, ← hs.ab]; rfl
  have v₂ : ∀ a b i, threeABv S.flip Z T a b i = threeBAv S Z T b a i := fun a b i => by
    unfold threeABv threeBAv
    exact Finset.sum_congr rfl fun e _ => by rw [← hC.mixed, ← hs.ab]; rfl
  have o₃ : ∀ a i j, threeBAo S.flip Z T a i j = threeABo S Z T a j i := fun a i j => by
    unfold threeABo threeBAo
    exact Finset.sum_congr rfl fun e _ => by rw [← hC.mixed, ← hs.ab]; rfl
  have v₃ : ∀ a b i, threeBAv S.flip Z T a b i = threeABv S Z T b a i := fun a b i => by
    unfold threeABv threeBAv
    exact Finset.sum_congr rfl fun e _ => by rw [← hC.mixed, ← hs.ab]; rfl
  constructor
  · intro a b c i j k
    have := d.aaa a b c i j k
    simp only [gapsD] at this
    simp only [gapsC, o₁, v₁, this]
  · intro a b c i j k
    have := d.aab a b c i j k
    simp only [gapsD] at this
    simp only [gapsC, o₁, v₁, o₂, v₂, o₃, v₃, this]
    ring

include hC hs hl in
theorem flip_aaa {D' D : Gaps} (h : D'.Flips D) : crccAAA S.flip Z T L D'.aaa = crccBBB S Z T L D.bbb := by
  unfold crccAAA crccBBB
  simp only [h.aaa, flip_term hC hs hl]
  rfl

include hC hs hl in
theorem flip_aab {D' D : Gaps} (h : D'.Flips D) : crccAAB S.flip Z T L D'.aab = crccABB S Z T L D.abb := by
  unfold crccAAB crccABB
  have e : ∀ a b c i j k, crccTerm S.flip Z T L (S.flip.exciteAAB b c a j k i) (D'.aab b c a j k i)
      = crccTerm S Z T L (S.exciteABB a b c i j k) (D.abb a b c i j k) := fun a b c i j k => by
    rw [flip_term hC hs hl, h.aab, flip_excite]
  simp only [← e]
  change ∑ j ∈ Finset.range S.nb, ∑ k ∈ Finset.Ico (j + 1) S.nb, ∑ i ∈ Finset.range S.na, ∑ b ∈ Finset.range S.ub,
    ∑ c ∈ Finset.Ico (b + 1) S.ub, ∑ a ∈ Finset.range S.ua, _ = _
  symm
  rw [Finset.sum_comm]
  refine Finset.sum_congr rfl fun j _ => ?_
  rw [Finset.sum_comm]
  refine Finset.sum_congr rfl fun k _ => Finset.sum_congr rfl fun i _ => ?_
  rw [Finset.sum_comm]
  refine Finset.sum_congr rfl fun b _ => ?_
  rw [Finset.sum_comm]
end

end Ccpy.Fock
