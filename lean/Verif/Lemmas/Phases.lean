import Verif.Lemmas.Permutations
import Verif.Model.ExternalCorrection
import Verif.Spec.Fock
import Mathlib.Algebra.Ring.Parity
import Mathlib.Algebra.BigOperators.Group.List.Basic
import Mathlib.Tactic.Push
import Mathlib.Data.Nat.Choose.Basic

namespace Ccpy.Phases
open Ccpy.Spec Ccpy.Permutations Ccpy.Determinants Ccpy.ExternalCorrection

/-- pairs (a from l1, b from l2) with b < a -/
def cross (l1 l2 : List ℕ) : ℕ := (l1.map (fun a => l2.countP (fun b => b < a))).sum

theorem inversions_append (l1 l2 : List ℕ) :
    inversions (l1 ++ l2) = inversions l1 + inversions l2 + cross l1 l2 := by
  induction l1 with
  | nil => simp [inversions, cross]
  | cons a l ih =>
    simp only [List.cons_append, inversions, List.countP_append, ih, cross, List.map_cons,
      List.sum_cons]
    ring

theorem inversions_sorted (l : List ℕ) (h : l.Pairwise (· < ·)) : inversions l = 0 := by
  induction l with
  | nil => rfl
  | cons a l ih =>
    obtain ⟨h1, h2⟩ := List.pairwise_cons.mp h
    simp only [inversions, ih h2, Nat.add_zero, List.countP_eq_zero]
    intro b hb
    have := h1 b hb
    simp; omega

theorem cross_append_left (l1 l2 l3 : List ℕ) : cross (l1 ++ l2) l3 = cross l1 l3 + cross l2 l3 := by
  simp [cross]

theorem cross_append_right (l1 l2 l3 : List ℕ) : cross l1 (l2 ++ l3) = cross l1 l2 + cross l1 l3 := by
  induction l1 with
  | nil => simp [cross]
  | cons a l ih =>
    simp only [cross, List.map_cons, List.sum_cons, List.countP_append] at *
    omega

theorem cross_perm (l1 l1' l2 l2' : List ℕ) (h1 : l1.Perm l1') (h2 : l2.Perm l2') :
    cross l1 l2 = cross l1' l2' := by
  unfold cross
  have : (fun a => l2.countP (fun b => b < a)) = (fun a => l2'.countP (fun b => b < a)) := by
    funext a; exact h2.countP_eq _
  rw [this]
  exact (h1.map _).sum_eq

theorem cross_all (l1 l2 : List ℕ) (h : ∀ a ∈ l1, ∀ b ∈ l2, b < a) :
    cross l1 l2 = l1.length * l2.length := by
  induction l1 with
  | nil => simp [cross]
  | cons a l ih =>
    have h1 := ih (fun x hx => h x (List.mem_cons_of_mem _ hx))
    have h2 : l2.countP (fun b => b < a) = l2.length := by
      rw [List.countP_eq_length]
      intro b hb
      simpa using h a (by simp) b hb
    simp only [cross, List.map_cons, List.sum_cons, List.length_cons] at *
    rw [h1, h2]; ring

/-- ascending pairs -/
def ascents : List ℕ → ℕ
  | [] => 0
  | x :: xs => xs.countP (fun y => x < y) + ascents xs

theorem ascents_add_inversions (l : List ℕ) (h : l.Nodup) :
    ascents l + inversions l = l.length.choose 2 := by
  induction l with
  | nil => rfl
  | cons a l ih =>
    obtain ⟨h1, h2⟩ := List.nodup_cons.mp h
    have h3 : l.countP (fun y => a < y) + l.countP (fun y => y < a) = l.length := by
      rw [List.length_eq_countP_add_countP (p := fun y => decide (a < y))]
      congr 1
      apply List.countP_congr
      intro b hb
      have : a ≠ b := fun e => h1 (e ▸ hb)
      simp; omega
    have h4 := ih h2
    simp only [ascents, inversions, List.length_cons]
    have h5 : (l.length + 1).choose 2 = l.length + l.length.choose 2 := by
      rw [Nat.choose_succ_succ' l.length 1, Nat.choose_one_right]
    omega

theorem inversions_reverse (l : List ℕ) : inversions l.reverse = ascents l := by
  induction l with
  | nil => rfl
  | cons a l ih =>
    rw [List.reverse_cons, inversions_append, ih]
    simp only [inversions, List.countP_nil, Nat.add_zero, ascents]
    have : cross l.reverse [a] = l.countP (fun y => a < y) := by
      rw [cross_perm l.reverse l [a] [a] (List.reverse_perm l) (List.Perm.refl _)]
      clear ih
      induction l with
      | nil => rfl
      | cons b l ih =>
        rw [List.countP_cons]
        simp only [cross, List.map_cons, List.sum_cons] at *
        rw [ih]
        by_cases h : a < b <;> simp [h, Nat.add_comm]
    omega

theorem argsort_length (l : List ℕ) : (argsort l).length = l.length := by
  simp [argsort]

theorem argsort_perm (l : List ℕ) : (argsort l).Perm (List.range l.length) :=
  List.perm_insertionSort _ _

/-- the parity of the sorting permutation of a duplicate-free list is the sign of the list -/
theorem parity_argsort (l : List ℕ) (h : l.Nodup) :
    calculatePermutationParity (argsort l) = signOf l := by
  have hp : (argsort l).Perm (List.range (argsort l).length) := by
    rw [argsort_length]; exact argsort_perm l
  obtain ⟨σ0, hσ0⟩ := exists_perm_of_list _ hp
  rw [calculatePermutationParity_eq_sign _ σ0 hσ0]
  -- transport to Fin l.length
  obtain ⟨n, hn⟩ : ∃ n, n = l.length := ⟨_, rfl⟩
  have hlen : (argsort l).length = n := by rw [argsort_length, hn]
  have key : ∀ (σ : Equiv.Perm (Fin n)),
      (∀ i : Fin n, (argsort l)[i.val]'(by omega) = (σ i).val) → (Equiv.Perm.sign σ : ℤ) = signOf l := by
    intro σ hσ
    have hmono : ∀ i j : Fin n, i < j → l[(σ i).val]'(by omega) < l[(σ j).val]'(by omega) := by
      intro i j hij
      have hs : (argsort l).Pairwise (fun i j => l.getD i 0 ≤ l.getD j 0) := by
        have : Std.Total (fun i j : ℕ => l.getD i 0 ≤ l.getD j 0) := ⟨fun a b => le_total _ _⟩
        have : IsTrans ℕ (fun i j : ℕ => l.getD i 0 ≤ l.getD j 0) := ⟨fun a b c => le_trans⟩
        exact List.pairwise_insertionSort _ _
      have h1 := List.pairwise_iff_getElem.mp hs i.val j.val (by omega) (by omega) hij
      rw [hσ i, hσ j] at h1
      have e1 : l.getD (σ i).val 0 = l[(σ i).val]'(by omega) := by
        rw [List.getD_eq_getElem?_getD, List.getElem?_eq_getElem (by omega)]; rfl
      have e2 : l.getD (σ j).val 0 = l[(σ j).val]'(by omega) := by
        rw [List.getD_eq_getElem?_getD, List.getElem?_eq_getElem (by omega)]; rfl
      rw [e1, e2] at h1
      refine lt_of_le_of_ne h1 ?_
      intro e
      have := (List.Nodup.getElem_inj_iff h).mp e
      have := σ.injective (Fin.ext this)
      exact hij.ne this
    subst hn
    let f : Fin l.length → Fin l.length → ℤ := fun i j =>
      if l[i.val] < l[j.val] then 1 else if l[j.val] < l[i.val] then -1 else 0
    have hf : ∀ i j, f i j = - f j i := by
      intro i j
      simp only [f]
      split
      · rw [if_neg (by omega)]; simp
      · split <;> simp
    have h1 := σ.prod_Ioi_comp_eq_sign_mul_prod hf
    have h2 : ∏ i, ∏ j ∈ Finset.Ioi i, f (σ i) (σ j) = 1 := by
      apply Finset.prod_eq_one
      intro i _
      apply Finset.prod_eq_one
      intro j hj
      have := hmono i j (by simpa using hj)
      simp only [f, this, if_true]
    have h3 : ∏ i, ∏ j ∈ Finset.Ioi i, f i j = signOf l := by
      rw [signOf_eq_prod l h]
      apply Finset.prod_congr rfl
      intro i _
      apply Finset.prod_congr rfl
      intro j hj
      have hne : l[i.val] ≠ l[j.val] := by
        intro e
        have := (List.Nodup.getElem_inj_iff h).mp e
        have hij : i < j := by simpa using hj
        exact hij.ne (Fin.ext this)
      simp only [f, List.get_eq_getElem]
      split
      · rfl
      · rw [if_pos (by omega)]
    rw [h2, h3] at h1
    have h4 : (Equiv.Perm.sign σ : ℤ) * (Equiv.Perm.sign σ : ℤ) = 1 := by
      rw [← Units.val_mul, Int.units_mul_self]; rfl
    simp only [Int.cast_id] at h1
    linear_combination (Equiv.Perm.sign σ : ℤ) * h1 + (signOf l) * h4
  subst hlen
  exact key σ0 hσ0

/-! ### Fock-space phases -/

theorem below_erase (D : Finset ℕ) (o p : ℕ) (ho : o ∈ D) :
    below D p = below (D.erase o) p + (if o < p then 1 else 0) := by
  unfold below
  rw [Finset.filter_erase]
  split
  · rename_i h
    rw [Finset.card_erase_of_mem (by simp [ho, h])]
    have : 0 < (D.filter (· < p)).card := Finset.card_pos.mpr ⟨o, by simp [ho, h]⟩
    omega
  · rename_i h
    rw [Finset.erase_eq_of_notMem (by simp [h])]; rfl

theorem below_insert (D : Finset ℕ) (o p : ℕ) (ho : o ∉ D) :
    below (insert o D) p = below D p + (if o < p then 1 else 0) := by
  have := below_erase (insert o D) o p (by simp)
  rwa [Finset.erase_insert ho] at this

theorem sum_below_erase (D : Finset ℕ) (o : ℕ) (ho : o ∈ D) (os : List ℕ) :
    (os.map (below D)).sum = (os.map (below (D.erase o))).sum + os.countP (fun p => o < p) := by
  induction os with
  | nil => rfl
  | cons p os ih =>
    simp only [List.map_cons, List.sum_cons, ih, List.countP_cons, below_erase D o p ho, decide_eq_true_eq]
    omega

theorem sum_below_insert (D : Finset ℕ) (o : ℕ) (ho : o ∉ D) (os : List ℕ) :
    (os.map (below (insert o D))).sum = (os.map (below D)).sum + os.countP (fun p => o < p) := by
  have := sum_below_erase (insert o D) o (by simp) os
  rwa [Finset.erase_insert ho] at this

theorem neg_one_pow_add_two_mul (a b : ℕ) : (-1:ℤ) ^ (a + 2 * b) = (-1) ^ a := by
  rw [pow_add, pow_mul]; simp

theorem annihilate_list (os : List ℕ) (s : ℤ) (D : Finset ℕ) (hn : os.Nodup)
    (hs : ∀ o ∈ os, o ∈ D) :
    os.foldlM annihilate (s, D) =
      some (s * (-1) ^ ((os.map (below D)).sum + ascents os), D \ os.toFinset) := by
  induction os generalizing s D with
  | nil => simp [ascents]
  | cons o os ih =>
    obtain ⟨h1, h2⟩ := List.nodup_cons.mp hn
    have ho : o ∈ D := hs o (by simp)
    rw [List.foldlM_cons]
    simp only [annihilate, ho, if_true, Option.bind_eq_bind, Option.bind_some]
    rw [ih _ _ h2 (fun p hp => Finset.mem_erase.mpr
      ⟨fun (e : p = o) => h1 (e ▸ hp), hs p (List.mem_cons_of_mem _ hp)⟩)]
    congr 2
    · simp only [List.map_cons, List.sum_cons, ascents]
      rw [sum_below_erase D o ho os, mul_assoc, ← pow_add]
      congr 1
      rw [← neg_one_pow_add_two_mul _ (os.countP (fun p => o < p))]
      congr 1; ring
    · ext x
      simp only [Finset.mem_sdiff, Finset.mem_erase, List.mem_toFinset, List.toFinset_cons, Finset.mem_insert]
      tauto

theorem create_list (us : List ℕ) (s : ℤ) (D : Finset ℕ) (hn : us.Nodup)
    (hs : ∀ u ∈ us, u ∉ D) :
    us.reverse.foldlM create (s, D) =
      some (s * (-1) ^ ((us.map (below D)).sum + inversions us), D ∪ us.toFinset) := by
  induction us generalizing s D with
  | nil => simp [inversions]
  | cons u us ih =>
    obtain ⟨h1, h2⟩ := List.nodup_cons.mp hn
    rw [List.reverse_cons, List.foldlM_append, ih s D h2 (fun p hp => hs p (List.mem_cons_of_mem _ hp))]
    have hu : u ∉ D ∪ us.toFinset := by
      simp only [Finset.mem_union, List.mem_toFinset, not_or]
      exact ⟨hs u (by simp), h1⟩
    simp only [Option.bind_eq_bind, Option.bind_some, List.foldlM_cons, List.foldlM_nil, create, hu, if_false]
    congr 2
    · rw [mul_assoc, ← pow_add]
      congr 2
      simp only [List.map_cons, List.sum_cons, inversions]
      have : below (D ∪ us.toFinset) u = below D u + us.countP (fun y => y < u) := by
        have hd : ∀ v ∈ us, v ∉ D := fun v hv => hs v (List.mem_cons_of_mem _ hv)
        clear ih hn h1 hu hs
        induction us with
        | nil => simp
        | cons v us ih2 =>
          obtain ⟨h3, h4⟩ := List.nodup_cons.mp h2
          have h5 := ih2 h4 (fun w hw => hd w (List.mem_cons_of_mem _ hw))
          rw [List.toFinset_cons, Finset.union_insert, below_insert _ _ _ (by
            simp only [Finset.mem_union, List.mem_toFinset, not_or]
            exact ⟨hd v (by simp), h3⟩), h5, List.countP_cons]
          simp only [decide_eq_true_eq]; omega
      rw [this]; ring
    · rw [List.toFinset_cons, Finset.union_insert]

end Ccpy.Phases
