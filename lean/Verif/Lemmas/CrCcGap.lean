import Verif.Lemmas.CrCcDiagonal
import Verif.Lemmas.Wick

/-! Diagonal elements of the transformed Hamiltonian from the triples equations: `e^{-τ} X e^{τ}` for a single excitation `τ`. -/

set_option linter.unusedSimpArgs false

namespace Ccpy.CrCc
open Ccpy.Fock Ccpy.PSpace Ccpy.Engine Ccpy.Ccsdt
open Finset (range)

section
variable {M : Type*} [AddCommGroup M] [Module ℚ M]

theorem smul_same {n A : ℕ} (hA : A < n) (F : ℕ → M) (s : ℚ) : ∑ x ∈ range n, (same1 x A * s) • F x = s • F A := by
  rw [Finset.sum_eq_single_of_mem A (Finset.mem_range.2 hA) fun x _ hx => by rw [same_ne hx, zero_mul, zero_smul], same_self, one_mul]

theorem sum_alt2 {n A B : ℕ} (hA : A < n) (hB : B < n) {G : ℕ → ℕ → M} (h : ∀ x y, G y x = -G x y) :
    ∑ x ∈ range n, ∑ y ∈ range n, alternating2 x y A B • G x y = (2 : ℚ) • G A B := by
  have e : ∀ x, ∑ y ∈ range n, alternating2 x y A B • G x y = (same1 x A * 1) • G x B - (same1 x B * 1) • G x A := fun x => by
    rw [← smul_same hB (G x) (same1 x A * 1), ← smul_same hA (G x) (same1 x B * 1), ← Finset.sum_sub_distrib]
    refine Finset.sum_congr rfl fun y _ => ?_
    rw [← sub_smul]; congr 1; simp only [alternating2]; ring
  simp only [e, Finset.sum_sub_distrib]
  rw [smul_same hA, smul_same hB, h A B]
  module

theorem sum_alt3 {n A B C : ℕ} (hA : A < n) (hB : B < n) (hC : C < n) {G : ℕ → ℕ → ℕ → M} (h : ∀ x y z, G y x z = -G x y z) (h' : ∀ x y z, G x z y = -G x y z) :
    ∑ x ∈ range n, ∑ y ∈ range n, ∑ z ∈ range n, alternating3 x y z A B C • G x y z = (6 : ℚ) • G A B C := by
  have e : ∀ x, ∑ y ∈ range n, ∑ z ∈ range n, alternating3 x y z A B C • G x y z
      = (same1 x A * 2) • G x B C - (same1 x B * 2) • G x A C + (same1 x C * 2) • G x A B := fun x => by
    rw [mul_smul, mul_smul, mul_smul, ← sum_alt2 hB hC (h' x), ← sum_alt2 hA hC (h' x), ← sum_alt2 hA hB (h' x)]
    simp only [Finset.smul_sum, ← Finset.sum_sub_distrib, ← Finset.sum_add_distrib, smul_smul, ← sub_smul, ← add_smul]
    rfl
  simp only [e, Finset.sum_sub_distrib, Finset.sum_add_distrib]
  rw [smul_same hA, smul_same hB, smul_same hC, h A B C, h A C B, h' A B C]
  module

end

section
variable {ι : Type*} [LinearOrder ι]

/-- An excitation of three electrons. -/
noncomputable def three (a b c i j k : ι) : Operator ι := cre a * cre b * cre c * ann k * ann j * ann i

theorem three_apply (a b c i j k : ι) (v : Vec ι) : three a b c i j k v = cre a (cre b (cre c (ann k (ann j (ann i v))))) := rfl

theorem cre_self (a : ι) (v : Vec ι) : cre a (cre a v) = 0 := by
  have := cre_cre_apply a a v
  exact self_eq_neg.1 this

section
variable {a b c i j k : ι} {v : Vec ι} (hab : a ≠ b) (hac : a ≠ c) (hbc : b ≠ c) (hij : i ≠ j) (hik : i ≠ k) (hjk : j ≠ k)
  (hai : a ≠ i) (haj : a ≠ j) (hak : a ≠ k)

include hai haj hak in
theorem three_sq : three a b c i j k * three a b c i j k = 0 := by
  refine LinearMap.ext fun w => ?_
  change three a b c i j k (three a b c i j k w) = 0
  have hc : ∀ x, x ≠ a → ∀ w, ann x (cre a w) = -cre a (ann x w) := fun x hx w => by rw [ann_cre_apply, if_neg hx, zero_sub]
  simp only [three_apply]
  generalize cre b (cre c (ann k (ann j (ann i w)))) = u
  simp only [hc i hai.symm, hc j haj.symm, hc k hak.symm, map_neg, cre_cre_apply c a, cre_cre_apply b a, cre_self, neg_zero]

variable (va : ann a v = 0) (vb : ann b v = 0) (vc : ann c v = 0) (vi : cre i v = 0) (vj : cre j v = 0) (vk : cre k v = 0)
include hab hac hbc hij hik hjk va vb vc vi vj vk

theorem three_inner (w : Vec ι) : inner (three a b c i j k v) (three a b c i j k w) = inner v w := by
  have A : ∀ x y : ι, x ≠ y → ∀ w, ann x (cre y w) = -cre y (ann x w) := fun x y h w => by rw [ann_cre_apply, if_neg h, zero_sub]
  have B : ∀ (x : ι) w, ann x (cre x w) = w - cre x (ann x w) := fun x w => by rw [ann_cre_apply, if_pos rfl]
  have C : ∀ (x : ι) w, cre x (ann x w) = w - ann x (cre x w) := fun x w => by rw [B]; abel
  have D : ∀ x y : ι, x ≠ y → ∀ w, cre x (ann y w) = -ann y (cre x w) := fun x y h w => by rw [A y x h.symm, neg_neg]
  have za : ann a (ann k (ann j (ann i v))) = 0 := by
    rw [ann_ann_apply a k, ann_ann_apply a j, ann_ann_apply a i, va]; simp
  have zb : ann b (ann k (ann j (ann i v))) = 0 := by
    rw [ann_ann_apply b k, ann_ann_apply b j, ann_ann_apply b i, vb]; simp
  have zc : ann c (ann k (ann j (ann i v))) = 0 := by
    rw [ann_ann_apply c k, ann_ann_apply c j, ann_ann_apply c i, vc]; simp
  have e : cre i (cre j (cre k (ann c (ann b (ann a (three a b c i j k v)))))) = v := by
    rw [three_apply]
    have e₁ : ann c (ann b (ann a (cre a (cre b (cre c (ann k (ann j (ann i v)))))))) = ann k (ann j (ann i v)) := by
      generalize ann k (ann j (ann i v)) = u at za zb zc
      rw [B a, A a b hab, A a c hac, za, map_zero, neg_zero, map_zero, neg_zero, map_zero, sub_zero, B b, A b c hbc, zb, map_zero,
        neg_zero, map_zero, sub_zero, B c, zc, map_zero, sub_zero]
    rw [e₁, C k, D k j hjk.symm, D k i hik.symm, vk, map_zero, neg_zero, map_zero, neg_zero, map_zero, sub_zero, C j, D j i hij.symm, vj, map_zero,
      neg_zero, map_zero, sub_zero, C i, vi, map_zero, sub_zero]
  rw [three_apply a b c i j k w, ← inner_ann, ← inner_ann, ← inner_ann, ← inner_cre, ← inner_cre, ← inner_cre, e]

end

/-- `e^{-τ} X e^{τ}` -/
theorem element_exp {S : Orbitals ι} {τ : Operator ι} (hτ : τ * τ = 0) (hin : ∀ w, inner (τ S.ref) (τ w) = inner S.ref w) (X : Operator ι) :
    S.element (τ S.ref) (IsNilpotent.exp (-τ) * X * IsNilpotent.exp τ) - S.element (τ S.ref) (IsNilpotent.exp τ * X * IsNilpotent.exp (-τ))
      = 2 * (S.element (τ S.ref) (X * τ) - S.element S.ref X) := by
  have e : ∀ σ : Operator ι, σ * σ = 0 → IsNilpotent.exp σ = 1 + σ := fun σ h => by
    rw [IsNilpotent.exp_eq_sum (k := 2) (by rw [pow_two, h])]
    simp [Finset.sum_range_succ]
  rw [e τ hτ, e (-τ) (by rw [show -τ * -τ = τ * τ from LinearMap.ext fun v => by simp [Module.End.mul_apply], hτ])]
  have h₁ : S.element (τ S.ref) (τ * X) = S.element S.ref X := hin _
  have add : ∀ A B : Operator ι, S.element (τ S.ref) (A + B) = S.element (τ S.ref) A + S.element (τ S.ref) B := fun A B => by
    simp [Orbitals.element, inner_add_right]
  have sub : ∀ A B : Operator ι, S.element (τ S.ref) (A - B) = S.element (τ S.ref) A - S.element (τ S.ref) B := fun A B => by
    simp only [Orbitals.element, LinearMap.sub_apply]
    exact inner_sub_right _ _ _
  rw [← sub, show (1 + -τ) * X * (1 + τ) - (1 + τ) * X * (1 + -τ) = (X * τ + X * τ) - (τ * X + τ * X) from
    LinearMap.ext fun v => by
      simp only [Module.End.mul_apply, LinearMap.add_apply, LinearMap.sub_apply, LinearMap.neg_apply, Module.End.one_apply, map_add, map_neg]
      abel, sub, add, add, h₁]
  ring

end

end Ccpy.CrCc
