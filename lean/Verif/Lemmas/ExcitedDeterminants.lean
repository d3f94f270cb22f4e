import Verif.Lemmas.Wick
import Verif.Spec.CoupledCluster
import Verif.Spec.ExcitedDeterminants
import Mathlib.Tactic.Ring
import Mathlib.Tactic.LinearCombination

/-! Strings of creation and annihilation operators on determinants. -/

namespace Ccpy.Fock

variable {ι : Type*} [LinearOrder ι]

def sgnL : List ι → Finset ι → ℚ
  | [], _ => 1
  | x :: l, D => sgn x D * sgnL l (D.erase x)

theorem annL_smul (l : List ι) (c : ℚ) (v : Vec ι) : annL l (c • v) = c • annL l v := by
  induction l generalizing v with
  | nil => rfl
  | cons x l ih => simp only [annL, List.foldl_cons, map_smul] at ih ⊢; exact ih _

theorem creL_smul (l : List ι) (c : ℚ) (v : Vec ι) : creL l (c • v) = c • creL l v := by
  induction l with
  | nil => rfl
  | cons x l ih => simp only [creL, List.foldr_cons] at ih ⊢; rw [ih, map_smul]

theorem annL_det (l : List ι) (D : Finset ι) (h : ∀ x ∈ l, x ∈ D) (hn : l.Nodup) :
    annL l (det D) = sgnL l D • det (D \ l.toFinset) := by
  induction l generalizing D with
  | nil => simp [annL, sgnL]
  | cons x l ih =>
    rw [List.nodup_cons] at hn
    have hx : x ∈ D := h x (by simp)
    have hl : ∀ y ∈ l, y ∈ D.erase x := fun y hy => Finset.mem_erase.2 ⟨fun e => hn.1 (e ▸ hy), h y (by simp [hy])⟩
    have := ih (D.erase x) hl hn.2
    have hs : annL (x :: l) (det D) = annL l (ann x (det D)) := rfl
    rw [hs, ann_det, if_pos hx, annL_smul, this, smul_smul, sgnL]
    congr 2
    ext y
    simp only [Finset.mem_sdiff, Finset.mem_erase, List.mem_toFinset, List.mem_cons]
    tauto

theorem creL_annL (l : List ι) (D : Finset ι) (h : ∀ x ∈ l, x ∈ D) (hn : l.Nodup) : creL l (annL l (det D)) = det D := by
  induction l generalizing D with
  | nil => rfl
  | cons x l ih =>
    rw [List.nodup_cons] at hn
    have hx : x ∈ D := h x (by simp)
    have hl : ∀ y ∈ l, y ∈ D.erase x := fun y hy => Finset.mem_erase.2 ⟨fun e => hn.1 (e ▸ hy), h y (by simp [hy])⟩
    have hs : annL (x :: l) (det D) = annL l (ann x (det D)) := rfl
    have hc : ∀ v : Vec ι, creL (x :: l) v = cre x (creL l v) := fun _ => rfl
    rw [hs, hc, ann_det, if_pos hx, annL_smul, creL_smul, ih _ hl hn.2, map_smul, cre_det, if_neg (by simp), smul_smul,
      Finset.insert_erase hx, sgn_erase hx, if_neg (lt_irrefl _)]
    simp [sgn_mul_self]

theorem sgnL_mul_self (l : List ι) (D : Finset ι) : sgnL l D * sgnL l D = 1 := by
  induction l generalizing D with
  | nil => simp [sgnL]
  | cons x l ih =>
    rw [sgnL]
    linear_combination (sgnL l (D.erase x) * sgnL l (D.erase x)) * sgn_mul_self x D + ih (D.erase x)

/-- A determinant as an excitation of another one. -/
theorem excite_det {I J : Finset ι} {P Q : List ι} (hP : P.Nodup) (hQ : Q.Nodup) (hPI : ∀ x ∈ P, x ∈ I) (hQJ : ∀ x ∈ Q, x ∈ J)
    (hK : I \ P.toFinset = J \ Q.toFinset) : creL P (annL Q (det J)) = (sgnL P I * sgnL Q J) • det I := by
  have h1 := annL_det Q J hQJ hQ
  have h2 := annL_det P I hPI hP
  have h3 := creL_annL P I hPI hP
  rw [h2, creL_smul] at h3
  have h4 : creL P (det (I \ P.toFinset)) = sgnL P I • det I := by
    rw [← h3, smul_smul, sgnL_mul_self, one_smul]
  rw [h1, creL_smul, ← hK, h4, smul_smul, mul_comm]

/-- `(-1)^(k(k-1)/2)` -/
def tri : ℕ → ℚ
  | 0 => 1
  | k + 1 => (-1) ^ k * tri k

theorem tri_mul_self (k : ℕ) : tri k * tri k = 1 := by
  induction k with
  | zero => simp [tri]
  | succ k ih =>
    have : ((-1 : ℚ) ^ k) * (-1) ^ k = 1 := by rw [← mul_pow]; simp
    rw [tri]
    linear_combination (tri k * tri k) * this + ih

theorem sgnL_sorted (l : List ι) (D : Finset ι) (hs : l.Pairwise (· < ·)) (h : ∀ x ∈ l, x ∈ D) :
    sgnL l D = (l.map fun x => sgn x D).prod * tri l.length := by
  induction l generalizing D with
  | nil => simp [sgnL, tri]
  | cons x l ih =>
    rw [List.pairwise_cons] at hs
    have hx : x ∈ D := h x (by simp)
    have hl : ∀ y ∈ l, y ∈ D.erase x := fun y hy => Finset.mem_erase.2 ⟨(hs.1 y hy).ne', h y (by simp [hy])⟩
    rw [sgnL, ih (D.erase x) hs.2 hl]
    have key : (l.map fun y => sgn y (D.erase x)).prod = (-1) ^ l.length * (l.map fun y => sgn y D).prod := by
      have : ∀ m : List ι, (∀ y ∈ m, x < y) →
          (m.map fun y => sgn y (D.erase x)).prod = (-1) ^ m.length * (m.map fun y => sgn y D).prod := by
        intro m
        induction m with
        | nil => intro _; simp
        | cons y m ihm =>
          intro hm
          rw [List.map_cons, List.prod_cons, ihm (fun z hz => hm z (by simp [hz])), sgn_erase hx, if_pos (hm y (by simp)),
            List.map_cons, List.prod_cons, List.length_cons, pow_succ]
          ring
      exact this l hs.1
    rw [key, List.map_cons, List.prod_cons, List.length_cons, tri]
    ring

/-! Matrix elements of one- and two-electron operators. -/

section elements

variable {J : Finset ι}

/-- One if the spin orbital is occupied in `J`. -/
def occ (J : Finset ι) (x : ι) : ℚ := if x ∈ J then 1 else 0

theorem element_one (x r : ι) : inner (det J) (cre x (ann r (det J))) = delta x r * occ J r := by
  rw [← inner_ann, inner_comm, ann_det, ann_det]
  unfold delta occ
  split_ifs with h1 h2 h3 h4 h5
  all_goals simp only [inner_zero_left, inner_zero_right, inner_smul_left, inner_smul_right, inner_det_det]
  all_goals try simp only [mul_zero, mul_one, zero_mul]
  · subst h3; simp [sgn_mul_self]
  · rw [if_neg]
    · simp
    · intro h
      apply h3
      by_contra hne
      have : x ∈ J.erase r := Finset.mem_erase.2 ⟨hne, h2⟩
      rw [h] at this
      simp at this
  · subst h4; exact absurd h1 h2

theorem delta_comm (x y : ι) : delta x y = delta y x := by unfold delta; simp only [eq_comm]

theorem cre_ann_apply (x y : ι) (v : Vec ι) : cre x (ann y v) = delta x y • v - ann y (cre x v) := by
  rw [ann_cre_apply y x]
  unfold delta
  by_cases h : x = y
  · simp [h]
  · simp [h, Ne.symm h]

theorem ann_cre_delta (x y : ι) (v : Vec ι) : ann x (cre y v) = delta x y • v - cre y (ann x v) := by
  rw [ann_cre_apply x y]
  unfold delta
  by_cases h : x = y <;> simp [h]

theorem element_two (x y s r : ι) : inner (det J) (cre x (cre y (ann s (ann r (det J))))) =
    occ J x * (delta x r * (delta y s * occ J s) - delta x s * (delta y r * occ J r)) := by
  by_cases hx : x ∈ J
  · rw [cre_cre_apply, cre_ann_apply x s, cre_ann_apply x r, cre_det, if_pos hx, map_zero, sub_zero, map_sub, map_smul, map_smul,
      map_smul, inner_neg_right, inner_sub_right, inner_smul_right, inner_smul_right, element_one, element_one]
    unfold occ
    rw [if_pos hx]
    ring
  · rw [← inner_ann, ann_det, if_neg hx, inner_zero_left]
    simp [occ, hx]

variable {p q i j : ι}

theorem ann_two (hp : p ∉ J) (x y s r : ι) : ann p (cre x (cre y (ann s (ann r (det J))))) =
    delta p x • cre y (ann s (ann r (det J))) - delta p y • cre x (ann s (ann r (det J))) := by
  rw [ann_cre_delta, ann_cre_delta, ann_ann_apply p s, ann_ann_apply p r, ann_det (x := p), if_neg hp]
  simp

theorem single_one (hp : p ∉ J) (hi : i ∈ J) (x r : ι) :
    inner (cre p (ann i (det J))) (cre x (ann r (det J))) = delta p x * delta i r := by
  rw [inner_cre, inner_ann, ann_cre_delta, ann_ann_apply, ann_det (x := p), if_neg hp]
  simp only [map_zero, neg_zero, sub_zero, map_smul, inner_smul_right]
  rw [element_one]
  unfold delta occ
  by_cases h : i = r
  · subst h; simp [hi]
  · simp [h]

theorem single_two (hp : p ∉ J) (hi : i ∈ J) (x y s r : ι) :
    inner (cre p (ann i (det J))) (cre x (cre y (ann s (ann r (det J))))) =
      delta p x * (delta i r * (delta y s * occ J s) - delta i s * (delta y r * occ J r))
      - delta p y * (delta i r * (delta x s * occ J s) - delta i s * (delta x r * occ J r)) := by
  rw [inner_cre, inner_ann, ann_two hp, map_sub, map_smul, map_smul, inner_sub_right, inner_smul_right, inner_smul_right,
    element_two, element_two]
  simp [occ, hi]

theorem double_one (hp : p ∉ J) (hq : q ∉ J) (x r : ι) :
    inner (cre p (cre q (ann j (ann i (det J))))) (cre x (ann r (det J))) = 0 := by
  rw [inner_cre, inner_cre, ann_cre_delta, ann_ann_apply p r, ann_det (x := p), if_neg hp]
  simp only [map_zero, neg_zero, sub_zero, map_smul, inner_smul_right]
  rw [ann_ann_apply q r, ann_det (x := q), if_neg hq]
  simp [inner_zero_right]

theorem double_two (hp : p ∉ J) (hq : q ∉ J) (hi : i ∈ J) (hj : j ∈ J) (x y s r : ι) :
    inner (cre p (cre q (ann j (ann i (det J))))) (cre x (cre y (ann s (ann r (det J))))) =
      (delta p x * delta q y - delta p y * delta q x) * (delta i r * delta j s - delta i s * delta j r) := by
  have h0 : ∀ z, ann q (cre z (ann s (ann r (det J)))) = delta q z • ann s (ann r (det J)) := by
    intro z
    rw [ann_cre_delta, ann_ann_apply q s, ann_ann_apply q r, ann_det (x := q), if_neg hq]
    simp
  rw [inner_cre, inner_cre, ann_two hp, map_sub, map_smul, map_smul, h0, h0, inner_ann, inner_ann]
  simp only [map_sub, map_smul, inner_sub_right, inner_smul_right]
  rw [element_two]
  have hd : ∀ {a b : ι}, a ∈ J → delta a b * occ J b = delta a b := by
    intro a b ha
    unfold delta occ
    by_cases h : a = b
    · subst h; simp [ha]
    · simp [h]
  rw [hd hj, hd hj, show occ J i = 1 from if_pos hi]
  ring

/-- The part of a vector at determinants with more than `k` spin orbitals outside `J` is zero. -/
def Within (J : Finset ι) (k : ℕ) (v : Vec ι) : Prop := ∀ D, v D ≠ 0 → (D \ J).card ≤ k

theorem Within.add {k : ℕ} {v w : Vec ι} (hv : Within J k v) (hw : Within J k w) : Within J k (v + w) := by
  intro D hD
  by_cases h : v D = 0
  · exact hw D (fun e => hD (by rw [Finsupp.add_apply, h, e, add_zero]))
  · exact hv D h

theorem Within.smul {k : ℕ} {v : Vec ι} (hv : Within J k v) (c : ℚ) : Within J k (c • v) := by
  intro D hD
  exact hv D (fun e => hD (by rw [Finsupp.smul_apply, e, smul_zero]))

theorem Within.zero (k : ℕ) : Within J k (0 : Vec ι) := fun _ h => absurd rfl h

theorem Within.sum {k : ℕ} {κ : Type*} (s : Finset κ) {v : κ → Vec ι} (h : ∀ x ∈ s, Within J k (v x)) :
    Within J k (∑ x ∈ s, v x) := by
  classical
  induction s using Finset.induction_on with
  | empty => simpa using Within.zero k
  | insert a s ha ih =>
    rw [Finset.sum_insert ha]
    exact (h a (by simp)).add (ih fun x hx => h x (by simp [hx]))

theorem Within.mono {k l : ℕ} (hkl : k ≤ l) {v : Vec ι} (h : Within J k v) : Within J l v := fun D hD => (h D hD).trans hkl

theorem Within.det : Within J 0 (Fock.det J) := by
  intro D hD
  unfold Fock.det at hD
  rw [Finsupp.single_apply] at hD
  split at hD
  · rename_i h; simp [h]
  · exact absurd rfl hD

theorem Within.ann {k : ℕ} {v : Vec ι} (h : Within J k v) (x : ι) : Within J k (Fock.ann x v) := by
  intro D hD
  rw [← inner_det_left, ← inner_cre, cre_det] at hD
  split at hD
  · exact absurd (inner_zero_left _) hD
  · rw [inner_smul_left, inner_det_left] at hD
    exact (Finset.card_le_card (Finset.sdiff_subset_sdiff (Finset.subset_insert _ _) (le_refl _))).trans
      (h _ (right_ne_zero_of_mul hD))

theorem Within.cre {k : ℕ} {v : Vec ι} (h : Within J k v) (x : ι) : Within J (k + 1) (Fock.cre x v) := by
  intro D hD
  rw [← inner_det_left, ← inner_ann, ann_det] at hD
  split at hD
  · rename_i hx
    rw [inner_smul_left, inner_det_left] at hD
    have h1 := h _ (right_ne_zero_of_mul hD)
    have h2 : D \ J ⊆ insert x (D.erase x \ J) := by
      intro y hy
      rw [Finset.mem_sdiff] at hy
      rw [Finset.mem_insert, Finset.mem_sdiff, Finset.mem_erase]
      by_cases hyx : y = x
      · exact Or.inl hyx
      · exact Or.inr ⟨⟨hyx, hy.1⟩, hy.2⟩
    exact (Finset.card_le_card h2).trans ((Finset.card_insert_le _ _).trans (by omega))
  · exact absurd (inner_zero_left _) hD

end elements

/-! The Hamiltonian. -/

theorem inner_hamiltonian (S : Orbitals ι) (Z : Integrals) (D v : Vec ι) : inner D (hamiltonian S Z v) =
    ∑ p ∈ Finset.range S.n, ∑ q ∈ Finset.range S.n, Z.zA p q * inner D (cre (S.up p) (ann (S.up q) v))
    + ∑ p ∈ Finset.range S.n, ∑ q ∈ Finset.range S.n, Z.zB p q * inner D (cre (S.down p) (ann (S.down q) v))
    + (1 / 4 : ℚ) * ∑ p ∈ Finset.range S.n, ∑ q ∈ Finset.range S.n, ∑ r ∈ Finset.range S.n, ∑ s ∈ Finset.range S.n,
        Z.vAA p q r s * inner D (cre (S.up p) (cre (S.up q) (ann (S.up s) (ann (S.up r) v))))
    + ∑ p ∈ Finset.range S.n, ∑ q ∈ Finset.range S.n, ∑ r ∈ Finset.range S.n, ∑ s ∈ Finset.range S.n,
        Z.vAB p q r s * inner D (cre (S.up p) (cre (S.down q) (ann (S.down s) (ann (S.up r) v))))
    + (1 / 4 : ℚ) * ∑ p ∈ Finset.range S.n, ∑ q ∈ Finset.range S.n, ∑ r ∈ Finset.range S.n, ∑ s ∈ Finset.range S.n,
        Z.vBB p q r s * inner D (cre (S.down p) (cre (S.down q) (ann (S.down s) (ann (S.down r) v)))) := by
  unfold hamiltonian
  simp only [LinearMap.add_apply, LinearMap.smul_apply, LinearMap.sum_apply, Module.End.mul_apply, inner_add_right,
    inner_smul_right, inner_sum_right]

theorem within_hamiltonian (S : Orbitals ι) (Z : Integrals) (J : Finset ι) : Within J 2 (hamiltonian S Z (det J)) := by
  unfold hamiltonian
  simp only [LinearMap.add_apply, LinearMap.smul_apply, LinearMap.sum_apply, Module.End.mul_apply]
  have h1 : ∀ x y : ι, Within J 2 (cre x (ann y (det J))) := fun x y => ((Within.det.ann y).cre x).mono (by omega)
  have h2 : ∀ x y z w : ι, Within J 2 (cre x (cre y (ann z (ann w (det J))))) := fun x y z w =>
    (((Within.det.ann w).ann z).cre y).cre x
  refine .add (.add (.add (.add ?_ ?_) (.smul ?_ _)) ?_) (.smul ?_ _)
  · exact .sum _ fun _ _ => .sum _ fun _ _ => .smul (h1 _ _) _
  · exact .sum _ fun _ _ => .sum _ fun _ _ => .smul (h1 _ _) _
  all_goals exact .sum _ fun _ _ => .sum _ fun _ _ => .sum _ fun _ _ => .sum _ fun _ _ => .smul (h2 _ _ _ _) _

/-- Determinants that differ in more than two spin orbitals. -/
theorem far_hamiltonian (S : Orbitals ι) (Z : Integrals) {I J : Finset ι} (h : 2 < (I \ J).card) :
    inner (det I) (hamiltonian S Z (det J)) = 0 := by
  rw [inner_det_left]
  by_contra hne
  exact absurd (within_hamiltonian S Z J I hne) (by omega)

section rules

variable {S : Orbitals ι} (hS : S.Proper) {Z : Integrals} {J : Finset ι}

include hS in
theorem deltas (a b : ℕ) : delta (S.up a) (S.up b) = (if a = b then 1 else 0) ∧
    delta (S.down a) (S.down b) = (if a = b then 1 else 0) ∧ delta (S.up a) (S.down b) = 0 ∧ delta (S.down a) (S.up b) = 0 := by
  unfold delta
  simp [hS.up_inj.eq_iff, hS.down_inj.eq_iff, hS.ne a b, Ne.symm (hS.ne b a)]

/-- The energy of a determinant. -/
def energyOf (S : Orbitals ι) (Z : Integrals) (J : Finset ι) : ℚ :=
  ∑ k ∈ Finset.range S.n, Z.zA k k * occ J (S.up k) + ∑ k ∈ Finset.range S.n, Z.zB k k * occ J (S.down k)
  + (1 / 2) * ∑ k ∈ Finset.range S.n, ∑ l ∈ Finset.range S.n, Z.vAA k l k l * (occ J (S.up k) * occ J (S.up l))
  + ∑ k ∈ Finset.range S.n, ∑ l ∈ Finset.range S.n, Z.vAB k l k l * (occ J (S.up k) * occ J (S.down l))
  + (1 / 2) * ∑ k ∈ Finset.range S.n, ∑ l ∈ Finset.range S.n, Z.vBB k l k l * (occ J (S.down k) * occ J (S.down l))

include hS in
theorem rule_zero (hAA : Antisymmetric Z.vAA) (hBB : Antisymmetric Z.vBB) :
    inner (det J) (hamiltonian S Z (det J)) = energyOf S Z J := by
  rw [inner_hamiltonian]
  simp only [element_one, element_two, (deltas hS _ _).1, (deltas hS _ _).2.1, (deltas hS _ _).2.2.1, (deltas hS _ _).2.2.2]
  have e : ∀ (v : ℕ → ℕ → ℕ → ℕ → ℚ) (f : ℕ → ℚ), Antisymmetric v →
      ∑ p ∈ Finset.range S.n, ∑ q ∈ Finset.range S.n, ∑ r ∈ Finset.range S.n, ∑ s ∈ Finset.range S.n, v p q r s *
        (f p * ((if p = r then 1 else 0) * ((if q = s then 1 else 0) * f s) - (if p = s then 1 else 0) * ((if q = r then 1 else 0) * f r)))
      = 2 * ∑ p ∈ Finset.range S.n, ∑ q ∈ Finset.range S.n, v p q p q * (f p * f q) := by
    intro v f hv
    rw [Finset.mul_sum]
    refine Finset.sum_congr rfl fun p hp => ?_
    rw [Finset.mul_sum]
    refine Finset.sum_congr rfl fun q hq => ?_
    rw [Finset.mem_range] at hp hq
    simp only [mul_sub, Finset.sum_sub_distrib, ite_mul, mul_ite, one_mul, zero_mul, mul_zero, Finset.sum_ite_irrel, Finset.sum_const_zero,
      Finset.sum_ite_eq, Finset.mem_range, hp, hq, if_true]
    rw [(hv p q p q).2]
    ring
  have e2 : ∑ p ∈ Finset.range S.n, ∑ q ∈ Finset.range S.n, ∑ r ∈ Finset.range S.n, ∑ s ∈ Finset.range S.n, Z.vAB p q r s *
        (occ J (S.up p) * ((if p = r then 1 else 0) * ((if q = s then 1 else 0) * occ J (S.down s)) - 0 * (0 * occ J (S.up r))))
      = ∑ p ∈ Finset.range S.n, ∑ q ∈ Finset.range S.n, Z.vAB p q p q * (occ J (S.up p) * occ J (S.down q)) := by
    refine Finset.sum_congr rfl fun p hp => Finset.sum_congr rfl fun q hq => ?_
    rw [Finset.mem_range] at hp hq
    simp only [mul_sub, Finset.sum_sub_distrib, ite_mul, mul_ite, one_mul, zero_mul, mul_zero, Finset.sum_ite_irrel, Finset.sum_const_zero,
      Finset.sum_ite_eq, Finset.mem_range, hp, hq, if_true, sub_zero]
  have e3 : ∀ (z : ℕ → ℕ → ℚ) (f : ℕ → ℚ), ∑ p ∈ Finset.range S.n, ∑ q ∈ Finset.range S.n, z p q * ((if p = q then 1 else 0) * f q)
      = ∑ p ∈ Finset.range S.n, z p p * f p := by
    intro z f
    refine Finset.sum_congr rfl fun p hp => ?_
    rw [Finset.mem_range] at hp
    simp only [ite_mul, mul_ite, one_mul, zero_mul, mul_zero, Finset.sum_ite_eq, Finset.mem_range, hp, if_true]
  rw [e _ _ hAA, e _ _ hBB, e2, e3, e3]
  unfold energyOf
  ring

theorem pick (n : ℕ) {p : ℕ} (hp : p < n) (f : ℕ → ℚ) : ∑ x ∈ Finset.range n, (if p = x then 1 else 0) * f x = f p := by
  simp [Finset.sum_ite_eq, hp]

/-- Sums over all orbitals of an antisymmetric array with the elements for a single excitation. -/
theorem sum_single (n : ℕ) {p i : ℕ} (hp : p < n) (hi : i < n) (v : ℕ → ℕ → ℕ → ℕ → ℚ) (hv : Antisymmetric v) (f : ℕ → ℚ) :
    ∑ x ∈ Finset.range n, ∑ y ∈ Finset.range n, ∑ r ∈ Finset.range n, ∑ s ∈ Finset.range n, v x y r s *
      ((if p = x then 1 else 0) * ((if i = r then 1 else 0) * ((if y = s then 1 else 0) * f s) - (if i = s then 1 else 0) * ((if y = r then 1 else 0) * f r))
       - (if p = y then 1 else 0) * ((if i = r then 1 else 0) * ((if x = s then 1 else 0) * f s) - (if i = s then 1 else 0) * ((if x = r then 1 else 0) * f r)))
    = 4 * ∑ k ∈ Finset.range n, v p k i k * f k := by
  have inner : ∀ x y, x < n → y < n → ∀ z, z < n → ∑ r ∈ Finset.range n, ∑ s ∈ Finset.range n, v x y r s *
      ((if i = r then 1 else 0) * ((if z = s then 1 else 0) * f s) - (if i = s then 1 else 0) * ((if z = r then 1 else 0) * f r))
      = 2 * (v x y i z * f z) := by
    intro x y hx hy z hz
    simp only [mul_sub, Finset.sum_sub_distrib, ite_mul, mul_ite, one_mul, zero_mul, mul_zero, Finset.sum_ite_irrel, Finset.sum_const_zero,
      Finset.sum_ite_eq, Finset.mem_range, hi, hz, if_true]
    rw [(hv x y i z).2]
    ring
  have step : ∀ x ∈ Finset.range n, ∀ y ∈ Finset.range n, ∑ r ∈ Finset.range n, ∑ s ∈ Finset.range n, v x y r s *
      ((if p = x then 1 else 0) * ((if i = r then 1 else 0) * ((if y = s then 1 else 0) * f s) - (if i = s then 1 else 0) * ((if y = r then 1 else 0) * f r))
       - (if p = y then 1 else 0) * ((if i = r then 1 else 0) * ((if x = s then 1 else 0) * f s) - (if i = s then 1 else 0) * ((if x = r then 1 else 0) * f r)))
      = (if p = x then 1 else 0) * (2 * (v x y i y * f y)) + (if p = y then 1 else 0) * (2 * (v y x i x * f x)) := by
    intro x hx y hy
    rw [Finset.mem_range] at hx hy
    have h1 := inner x y hx hy y hy
    have h2 := inner x y hx hy x hx
    have h3 : v y x i x = - v x y i x := (hv x y i x).1
    rw [h3, show (2 : ℚ) * (-v x y i x * f x) = -(2 * (v x y i x * f x)) by ring, ← h1, ← h2, mul_neg, ← sub_eq_add_neg, Finset.mul_sum,
      Finset.mul_sum, ← Finset.sum_sub_distrib]
    refine Finset.sum_congr rfl fun r _ => ?_
    rw [Finset.mul_sum, Finset.mul_sum, ← Finset.sum_sub_distrib]
    refine Finset.sum_congr rfl fun s _ => ?_
    ring
  rw [Finset.sum_congr rfl fun x hx => Finset.sum_congr rfl fun y hy => step x hx y hy]
  simp only [Finset.sum_add_distrib, ← Finset.mul_sum]
  rw [pick n hp]
  have : ∀ x, ∑ y ∈ Finset.range n, (if p = y then (1 : ℚ) else 0) * (2 * (v y x i x * f x)) = 2 * (v p x i x * f x) :=
    fun x => pick n hp fun y => 2 * (v y x i x * f x)
  simp only [this, ← Finset.mul_sum]
  ring

include hS in
theorem rule_singleA (hAA : Antisymmetric Z.vAA) {p i : ℕ} (hp : p < S.n) (hi : i < S.n) (hpJ : S.up p ∉ J) (hiJ : S.up i ∈ J) :
    inner (cre (S.up p) (ann (S.up i) (det J))) (hamiltonian S Z (det J)) =
      Z.zA p i + ∑ k ∈ Finset.range S.n, Z.vAA p k i k * occ J (S.up k) + ∑ k ∈ Finset.range S.n, Z.vAB p k i k * occ J (S.down k) := by
  rw [inner_hamiltonian]
  simp only [single_one hpJ hiJ, single_two hpJ hiJ, (deltas hS _ _).1, (deltas hS _ _).2.1, (deltas hS _ _).2.2.1,
    (deltas hS _ _).2.2.2]
  rw [sum_single S.n hp hi _ hAA fun k => occ J (S.up k)]
  have e2 : ∑ x ∈ Finset.range S.n, ∑ y ∈ Finset.range S.n, ∑ r ∈ Finset.range S.n, ∑ s ∈ Finset.range S.n, Z.vAB x y r s *
        ((if p = x then 1 else 0) * ((if i = r then 1 else 0) * ((if y = s then 1 else 0) * occ J (S.down s)) - 0 * (0 * occ J (S.up r)))
         - 0 * ((if i = r then 1 else 0) * (0 * occ J (S.down s)) - 0 * ((if x = r then 1 else 0) * occ J (S.up r))))
      = ∑ k ∈ Finset.range S.n, Z.vAB p k i k * occ J (S.down k) := by
    rw [← pick S.n hp fun x => ∑ k ∈ Finset.range S.n, Z.vAB x k i k * occ J (S.down k)]
    refine Finset.sum_congr rfl fun x _ => ?_
    rw [Finset.mul_sum]
    refine Finset.sum_congr rfl fun y hy => ?_
    rw [Finset.mem_range] at hy
    simp only [zero_mul, mul_zero, sub_zero, ite_mul, mul_ite, one_mul, Finset.sum_ite_irrel, Finset.sum_const_zero,
      Finset.sum_ite_eq, Finset.mem_range, hi, hy, if_true]
  have e3 : ∑ x ∈ Finset.range S.n, ∑ r ∈ Finset.range S.n, Z.zA x r * ((if p = x then 1 else 0) * (if i = r then 1 else 0)) = Z.zA p i := by
    simp [Finset.sum_ite_irrel, hp, hi]
  rw [e2, e3]
  simp only [zero_mul, mul_zero, sub_zero, Finset.sum_const_zero]
  ring

include hS in
theorem rule_singleB (hBB : Antisymmetric Z.vBB) {p i : ℕ} (hp : p < S.n) (hi : i < S.n) (hpJ : S.down p ∉ J) (hiJ : S.down i ∈ J) :
    inner (cre (S.down p) (ann (S.down i) (det J))) (hamiltonian S Z (det J)) =
      Z.zB p i + ∑ k ∈ Finset.range S.n, Z.vBB p k i k * occ J (S.down k) + ∑ k ∈ Finset.range S.n, Z.vAB k p k i * occ J (S.up k) := by
  rw [inner_hamiltonian]
  simp only [single_one hpJ hiJ, single_two hpJ hiJ, (deltas hS _ _).1, (deltas hS _ _).2.1, (deltas hS _ _).2.2.1,
    (deltas hS _ _).2.2.2]
  rw [sum_single S.n hp hi _ hBB fun k => occ J (S.down k)]
  have e2 : ∑ x ∈ Finset.range S.n, ∑ y ∈ Finset.range S.n, ∑ r ∈ Finset.range S.n, ∑ s ∈ Finset.range S.n, Z.vAB x y r s *
        (0 * (0 * ((if y = s then 1 else 0) * occ J (S.down s)) - (if i = s then 1 else 0) * (0 * occ J (S.up r)))
         - (if p = y then 1 else 0) * (0 * (0 * occ J (S.down s)) - (if i = s then 1 else 0) * ((if x = r then 1 else 0) * occ J (S.up r))))
      = ∑ k ∈ Finset.range S.n, Z.vAB k p k i * occ J (S.up k) := by
    simp only [zero_mul, zero_sub, mul_zero, mul_neg, neg_neg, ite_mul, mul_ite, one_mul, Finset.sum_ite_irrel,
      Finset.sum_const_zero, Finset.sum_ite_eq, Finset.mem_range, hp, hi, if_true]
    refine Finset.sum_congr rfl fun x hx => ?_
    rw [if_pos (Finset.mem_range.1 hx)]
  have e3 : ∑ x ∈ Finset.range S.n, ∑ r ∈ Finset.range S.n, Z.zB x r * ((if p = x then 1 else 0) * (if i = r then 1 else 0)) = Z.zB p i := by
    simp [Finset.sum_ite_irrel, hp, hi]
  rw [e2, e3]
  simp only [zero_mul, mul_zero, sub_zero, Finset.sum_const_zero]
  ring

theorem sum_double (n : ℕ) {p q i j : ℕ} (hp : p < n) (hq : q < n) (hi : i < n) (hj : j < n) (v : ℕ → ℕ → ℕ → ℕ → ℚ)
    (hv : Antisymmetric v) :
    ∑ x ∈ Finset.range n, ∑ y ∈ Finset.range n, ∑ r ∈ Finset.range n, ∑ s ∈ Finset.range n, v x y r s *
      (((if p = x then 1 else 0) * (if q = y then 1 else 0) - (if p = y then 1 else 0) * (if q = x then 1 else 0)) *
       ((if i = r then 1 else 0) * (if j = s then 1 else 0) - (if i = s then 1 else 0) * (if j = r then 1 else 0)))
    = 4 * v p q i j := by
  have inner : ∀ x y, ∀ c : ℚ, ∑ r ∈ Finset.range n, ∑ s ∈ Finset.range n, v x y r s *
      (c * ((if i = r then 1 else 0) * (if j = s then 1 else 0) - (if i = s then 1 else 0) * (if j = r then 1 else 0)))
      = 2 * (v x y i j * c) := by
    intro x y c
    simp only [mul_sub, Finset.sum_sub_distrib, ite_mul, mul_ite, one_mul, mul_one, zero_mul, mul_zero, Finset.sum_ite_irrel,
      Finset.sum_const_zero, Finset.sum_ite_eq, Finset.mem_range, hi, hj, if_true]
    rw [(hv x y i j).2]
    ring
  simp only [inner]
  simp only [← Finset.mul_sum]
  simp only [mul_sub, Finset.sum_sub_distrib, ite_mul, mul_ite, one_mul, mul_one, zero_mul, mul_zero, Finset.sum_ite_irrel,
      Finset.sum_const_zero, Finset.sum_ite_eq, Finset.mem_range, hp, hq, if_true]
  rw [(hv p q i j).1]
  ring

include hS in
theorem rule_doubleAA (hAA : Antisymmetric Z.vAA) {p q i j : ℕ} (hp : p < S.n) (hq : q < S.n) (hi : i < S.n) (hj : j < S.n)
    (hpJ : S.up p ∉ J) (hqJ : S.up q ∉ J) (hiJ : S.up i ∈ J) (hjJ : S.up j ∈ J) :
    inner (cre (S.up p) (cre (S.up q) (ann (S.up j) (ann (S.up i) (det J))))) (hamiltonian S Z (det J)) = Z.vAA p q i j := by
  rw [inner_hamiltonian]
  simp only [double_one hpJ hqJ, double_two hpJ hqJ hiJ hjJ, (deltas hS _ _).1, (deltas hS _ _).2.1, (deltas hS _ _).2.2.1,
    (deltas hS _ _).2.2.2]
  rw [sum_double S.n hp hq hi hj _ hAA]
  simp only [zero_mul, mul_zero, sub_zero, Finset.sum_const_zero]
  ring

include hS in
theorem rule_doubleBB (hBB : Antisymmetric Z.vBB) {p q i j : ℕ} (hp : p < S.n) (hq : q < S.n) (hi : i < S.n) (hj : j < S.n)
    (hpJ : S.down p ∉ J) (hqJ : S.down q ∉ J) (hiJ : S.down i ∈ J) (hjJ : S.down j ∈ J) :
    inner (cre (S.down p) (cre (S.down q) (ann (S.down j) (ann (S.down i) (det J))))) (hamiltonian S Z (det J)) = Z.vBB p q i j := by
  rw [inner_hamiltonian]
  simp only [double_one hpJ hqJ, double_two hpJ hqJ hiJ hjJ, (deltas hS _ _).1, (deltas hS _ _).2.1, (deltas hS _ _).2.2.1,
    (deltas hS _ _).2.2.2]
  rw [sum_double S.n hp hq hi hj _ hBB]
  simp only [zero_mul, mul_zero, sub_zero, Finset.sum_const_zero]
  ring

include hS in
theorem rule_doubleAB {p q i j : ℕ} (hp : p < S.n) (hq : q < S.n) (hi : i < S.n) (hj : j < S.n)
    (hpJ : S.up p ∉ J) (hqJ : S.down q ∉ J) (hiJ : S.up i ∈ J) (hjJ : S.down j ∈ J) :
    inner (cre (S.up p) (cre (S.down q) (ann (S.down j) (ann (S.up i) (det J))))) (hamiltonian S Z (det J)) = Z.vAB p q i j := by
  rw [inner_hamiltonian]
  simp only [double_one hpJ hqJ, double_two hpJ hqJ hiJ hjJ, (deltas hS _ _).1, (deltas hS _ _).2.1, (deltas hS _ _).2.2.1,
    (deltas hS _ _).2.2.2]
  simp only [zero_mul, mul_zero, sub_zero, Finset.sum_const_zero, ite_mul, mul_ite, one_mul, mul_one, Finset.sum_ite_irrel,
      Finset.sum_ite_eq, Finset.mem_range, hp, hq, hi, hj, if_true, ite_self, zero_add, add_zero]

end rules

end Ccpy.Fock
