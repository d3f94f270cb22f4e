import Verif.Model.Permutations
import Verif.Spec.Inversions
import Mathlib.GroupTheory.Perm.Fin
import Mathlib.GroupTheory.Perm.Sign
import Mathlib.Algebra.BigOperators.Fin
import Mathlib.Data.List.NodupEquivFin
import Mathlib.Tactic.Ring
import Mathlib.Tactic.LinearCombination

namespace Ccpy.Permutations
open Ccpy.Spec

theorem foldl_min {α : Type*} (f : α → ℕ) (L : List α) (b : α) :
    (let r := L.foldl (fun best j => if f j < f best then j else best) b
     (r = b ∨ r ∈ L) ∧ f r ≤ f b ∧ ∀ j ∈ L, f r ≤ f j) := by
  induction L generalizing b with
  | nil => simp
  | cons a L ih =>
    simp only [List.foldl_cons]
    have := ih (if f a < f b then a else b)
    simp only at this
    obtain ⟨h1, h2, h3⟩ := this
    refine ⟨?_, ?_, ?_⟩
    · rcases h1 with h | h
      · by_cases hc : f a < f b
        · rw [if_pos hc] at h ⊢; right; rw [h]; simp
        · rw [if_neg hc] at h ⊢; left; exact h
      · right; exact List.mem_cons_of_mem _ h
    · refine h2.trans ?_
      split <;> omega
    · intro j hj
      rcases List.mem_cons.mp hj with rfl | hj
      · refine h2.trans ?_
        split <;> omega
      · exact h3 j hj

theorem minIdx_spec {n : ℕ} (f : Fin n → ℕ) (i : Fin n) :
    i ≤ minIdx f i ∧ ∀ j, i ≤ j → f (minIdx f i) ≤ f j := by
  have := foldl_min f ((List.finRange n).filter (fun j => i ≤ j)) i
  simp only at this
  obtain ⟨h1, h2, h3⟩ := this
  constructor
  · rcases h1 with h | h
    · exact le_of_eq h.symm
    · simpa [minIdx] using (List.mem_filter.mp h).2
  · intro j hj
    apply h3
    simp [hj]

/-- one step keeps "permutation, identity below i" and tracks the sign -/
theorem step_inv {n : ℕ} (σ : Equiv.Perm (Fin n)) (p : ℤ) (i : Fin n)
    (hfix : ∀ j < i, σ j = j) :
    ∃ τ : Equiv.Perm (Fin n), parityStep (p, fun j => (σ j).val) i = (p * Equiv.Perm.sign σ * Equiv.Perm.sign τ, fun j => (τ j).val)
      ∧ ∀ j ≤ i, τ j = j := by
  unfold parityStep
  have hmin := minIdx_spec (fun j => (σ j).val) i
  set m := minIdx (fun j => (σ j).val) i with hm
  obtain ⟨him, hle⟩ := hmin
  -- value at m is i
  have hval : σ m = i := by
    have h1 : i ≤ σ.symm i := by
      by_contra h
      push Not at h
      have := hfix _ h
      rw [Equiv.apply_symm_apply] at this
      rw [← this] at h
      exact lt_irrefl _ h
    have h2 : σ m ≤ i := by
      have := hle _ h1
      simpa using this
    have h3 : i ≤ σ m := by
      by_contra h
      push Not at h
      have := hfix _ h
      have h' := σ.injective this
      rw [h'] at h
      exact absurd him (not_le.mpr h)
    exact le_antisymm h2 h3
  by_cases hc : σ i = i
  · refine ⟨σ, ?_, ?_⟩
    · simp only [hc, ne_eq, not_true_eq_false, if_false]
      have : (Equiv.Perm.sign σ : ℤ) * (Equiv.Perm.sign σ : ℤ) = 1 := by
        rw [← Units.val_mul, Int.units_mul_self]; rfl
      rw [mul_assoc, this, mul_one]
    · intro j hj
      rcases hj.lt_or_eq with h | h
      · exact hfix j h
      · rw [h]; exact hc
  · refine ⟨σ * Equiv.swap i m, ?_, ?_⟩
    · have hne : (σ i).val ≠ i.val := fun h => hc (Fin.ext h)
      simp only [hne, ne_eq, not_false_iff, if_true]
      have him' : i ≠ m := by
        rintro h
        rw [← h] at hval
        exact hc hval
      have : (Equiv.Perm.sign σ : ℤ) * (Equiv.Perm.sign σ : ℤ) = 1 := by
        rw [← Units.val_mul, Int.units_mul_self]; rfl
      rw [Equiv.Perm.sign_mul, Equiv.Perm.sign_swap him']
      refine Prod.ext ?_ ?_
      · simp only [Units.val_mul, Units.val_neg, Units.val_one]
        linear_combination p * this
      · funext j; simp
    · intro j hj
      rcases hj.lt_or_eq with h | h
      · have hjm : j ≠ m := fun e => by
          rw [e] at h; exact absurd him (not_le.mpr h)
        simp [Equiv.swap_apply_of_ne_of_ne h.ne hjm, hfix j h]
      · subst h; simp [hval]

theorem loop_inv {n : ℕ} (σ : Equiv.Perm (Fin n)) (k : ℕ) (hk : k ≤ n) :
    ∃ τ : Equiv.Perm (Fin n),
      ((List.finRange n).take k).foldl parityStep (1, fun j => (σ j).val) =
        ((Equiv.Perm.sign σ : ℤ) * Equiv.Perm.sign τ, fun j => (τ j).val) ∧
      ∀ j : Fin n, j.val < k → τ j = j := by
  induction k with
  | zero =>
    refine ⟨σ, ?_, by simp⟩
    have : (Equiv.Perm.sign σ : ℤ) * (Equiv.Perm.sign σ : ℤ) = 1 := by
      rw [← Units.val_mul, Int.units_mul_self]; rfl
    simp [this]
  | succ k ih =>
    obtain ⟨τ, h1, h2⟩ := ih (by omega)
    have hk' : k < (List.finRange n).length := by simpa using hk
    have : (List.finRange n).take (k+1) = (List.finRange n).take k ++ [⟨k, by omega⟩] := by
      rw [List.take_succ_eq_append_getElem hk']
      simp
    rw [this, List.foldl_append, h1]
    obtain ⟨τ', h3, h4⟩ := step_inv τ ((Equiv.Perm.sign σ : ℤ) * Equiv.Perm.sign τ) ⟨k, by omega⟩
      (fun j hj => h2 j hj)
    refine ⟨τ', ?_, fun j hj => h4 j (by rw [Fin.le_def]; simp; omega)⟩
    simp only [List.foldl_cons, List.foldl_nil, h3]
    have : (Equiv.Perm.sign τ : ℤ) * (Equiv.Perm.sign τ : ℤ) = 1 := by
      rw [← Units.val_mul, Int.units_mul_self]; rfl
    refine Prod.ext ?_ rfl
    simp only
    linear_combination (Equiv.Perm.sign σ : ℤ) * (Equiv.Perm.sign τ' : ℤ) * this

theorem perm_eq_one_of_fix_init {n : ℕ} (τ : Equiv.Perm (Fin n))
    (h : ∀ j : Fin n, j.val < n - 1 → τ j = j) : τ = 1 := by
  ext j
  by_cases hj : j.val < n - 1
  · rw [h j hj]; rfl
  · by_contra hne
    have h1 : (τ j).val < n - 1 := by
      have := (τ j).isLt
      have hne' : (τ j).val ≠ j.val := hne
      omega
    have h2 := h _ h1
    have := τ.injective h2
    rw [this] at h1
    exact hj h1

theorem parityLoop_perm {n : ℕ} (σ : Equiv.Perm (Fin n)) :
    parityLoop (fun j => (σ j).val) = ((Equiv.Perm.sign σ : ℤ), fun j => j.val) := by
  unfold parityLoop
  rw [List.dropLast_eq_take, List.length_finRange]
  obtain ⟨τ, h1, h2⟩ := loop_inv σ (n - 1) (by omega)
  have := perm_eq_one_of_fix_init τ h2
  subst this
  rw [h1]
  simp

/-- pair-product form of the sign of a list -/
theorem signOf_eq_prod (l : List ℕ) (hl : l.Nodup) :
    signOf l = ∏ i : Fin l.length, ∏ j ∈ Finset.Ioi i, (if l.get i < l.get j then (1:ℤ) else -1) := by
  induction l with
  | nil => simp [signOf, inversions]
  | cons a l ih =>
    have hl' := (List.nodup_cons.mp hl)
    have e1 : signOf (a :: l) = (-1) ^ (l.countP (fun y => y < a)) * signOf l := by
      simp [signOf, inversions, pow_add]
    rw [e1, ih hl'.2]
    simp only [List.length_cons]
    rw [Fin.prod_univ_succ]
    congr 1
    · rw [Fin.Ioi_zero_eq_map, Finset.prod_map]
      simp only [Fin.coe_succEmb, List.get_eq_getElem,
        List.getElem_cons_succ, Fin.val_succ, Fin.val_zero, List.getElem_cons_zero]
      have : ∀ l : List ℕ, a ∉ l → (-1:ℤ) ^ (l.countP (fun y => y < a)) =
          ∏ j : Fin l.length, (if a < l[j] then (1:ℤ) else -1) := by
        intro l hal
        induction l with
        | nil => simp
        | cons b l ih2 =>
          rw [List.countP_cons]
          simp only [List.length_cons]
          rw [Fin.prod_univ_succ]
          have hb : a ≠ b := fun h => hal (by simp [h])
          have hal' : a ∉ l := fun h => hal (by simp [h])
          have ih2 := ih2 hal'
          simp only [Fin.getElem_fin, Fin.val_succ, List.getElem_cons_succ, Fin.val_zero,
            List.getElem_cons_zero] at *
          rw [pow_add, ih2, mul_comm]
          congr 1
          by_cases h : b < a
          · simp [h, not_lt.mpr h.le]
          · have : a < b := by omega
            simp [h, this]
      exact this l hl'.1
    · apply Finset.prod_congr rfl
      intro i _
      rw [Fin.Ioi_succ, Finset.prod_map]
      simp
      rfl

theorem signOf_perm_fn {n : ℕ} (σ : Equiv.Perm (Fin n)) (l : List ℕ) (hlen : l.length = n)
    (h : ∀ i : Fin n, l[i.val]'(by omega) = (σ i).val) :
    signOf l = Equiv.Perm.sign σ := by
  subst hlen
  have hnd : l.Nodup := by
    rw [List.nodup_iff_injective_get]
    intro i j hij
    have hi := h i
    have hj := h j
    simp only [List.get_eq_getElem] at hij
    rw [hi, hj] at hij
    exact σ.injective (Fin.ext hij)
  rw [signOf_eq_prod l hnd, Equiv.Perm.sign_eq_prod_prod_Ioi]
  push_cast
  apply Finset.prod_congr rfl
  intro i _
  apply Finset.prod_congr rfl
  intro j _
  have hi := h i
  have hj := h j
  simp only [List.get_eq_getElem, hi, hj, Fin.val_fin_lt]
  split <;> simp

/-- A list that rearranges `0..n-1` is the value table of a permutation. -/
theorem exists_perm_of_list (l : List ℕ) (hl : l.Perm (List.range l.length)) :
    ∃ σ : Equiv.Perm (Fin l.length), ∀ i : Fin l.length, l[i.val] = (σ i).val := by
  have hnd : l.Nodup := hl.nodup_iff.mpr List.nodup_range
  have hlt : ∀ i : Fin l.length, l[i.val] < l.length := by
    intro i
    have : l[i.val] ∈ List.range l.length := hl.mem_iff.mp (List.getElem_mem _)
    simpa using this
  let f : Fin l.length → Fin l.length := fun i => ⟨l[i.val], hlt i⟩
  have hinj : Function.Injective f := by
    intro i j hij
    have : l[i.val] = l[j.val] := by simpa [f] using hij
    exact Fin.ext ((List.Nodup.getElem_inj_iff hnd).mp this)
  refine ⟨Equiv.ofBijective f (Finite.injective_iff_bijective.mp hinj), fun i => rfl⟩

theorem calculatePermutationParity_eq_sign (l : List ℕ) (σ : Equiv.Perm (Fin l.length))
    (h : ∀ i : Fin l.length, l[i.val] = (σ i).val) :
    calculatePermutationParity l = Equiv.Perm.sign σ := by
  unfold calculatePermutationParity
  have : l.get = fun i => (σ i).val := by
    funext i; simpa using h i
  rw [this, parityLoop_perm]

/-! ### lineup -/

/-- the merge loop finds exactly the positions of the shared entries -/
theorem mergeCommon_eq (l1 l2 : List ℕ) (i j : ℕ)
    (h1 : l1.Pairwise (· < ·)) (h2 : l2.Pairwise (· < ·)) :
    mergeCommon l1 l2 i j =
      (((l1.zipIdx i).filter (fun x => decide (x.1 ∈ l2))).map Prod.snd,
       ((l2.zipIdx j).filter (fun x => decide (x.1 ∈ l1))).map Prod.snd) ∧
      l1.filter (fun x => decide (x ∈ l2)) = l2.filter (fun x => decide (x ∈ l1)) := by
  fun_induction mergeCommon l1 l2 i j with
  | case1 l2 i j => simp
  | case2 a as i j => simp
  | case3 as b bs i j r ih =>
    obtain ⟨ha, has⟩ := List.pairwise_cons.mp h1
    obtain ⟨hb, hbs⟩ := List.pairwise_cons.mp h2
    obtain ⟨ih1, ih2⟩ := ih has hbs
    have e1 : (as.zipIdx (i+1)).filter (fun x => decide (x.1 ∈ b :: bs)) =
        (as.zipIdx (i+1)).filter (fun x => decide (x.1 ∈ bs)) := by
      apply List.filter_congr
      intro x hx
      have hx1 : x.1 ∈ as := List.fst_mem_of_mem_zipIdx hx
      have := ha x.1 hx1
      simp only [List.mem_cons, decide_eq_decide]
      constructor
      · rintro (h | h)
        · omega
        · exact h
      · exact Or.inr
    have e2 : (bs.zipIdx (j+1)).filter (fun x => decide (x.1 ∈ b :: as)) =
        (bs.zipIdx (j+1)).filter (fun x => decide (x.1 ∈ as)) := by
      apply List.filter_congr
      intro x hx
      have hx1 : x.1 ∈ bs := List.fst_mem_of_mem_zipIdx hx
      have := hb x.1 hx1
      simp only [List.mem_cons, decide_eq_decide]
      constructor
      · rintro (h | h)
        · omega
        · exact h
      · exact Or.inr
    have e3 : as.filter (fun x => decide (x ∈ b :: bs)) = as.filter (fun x => decide (x ∈ bs)) := by
      apply List.filter_congr
      intro x hx
      have := ha x hx
      simp only [List.mem_cons, decide_eq_decide]
      constructor
      · rintro (h | h)
        · omega
        · exact h
      · exact Or.inr
    have e4 : bs.filter (fun x => decide (x ∈ b :: as)) = bs.filter (fun x => decide (x ∈ as)) := by
      apply List.filter_congr
      intro x hx
      have := hb x hx
      simp only [List.mem_cons, decide_eq_decide]
      constructor
      · rintro (h | h)
        · omega
        · exact h
      · exact Or.inr
    refine ⟨?_, ?_⟩
    · rw [List.zipIdx_cons, List.zipIdx_cons,
        List.filter_cons_of_pos (by simp), List.filter_cons_of_pos (by simp), e1, e2]
      simp only [List.map_cons, r, ih1]
    · rw [List.filter_cons_of_pos (by simp), List.filter_cons_of_pos (by simp), e3, e4, ih2]
  | case4 a as b bs i j hne hlt ih =>
    obtain ⟨ha, has⟩ := List.pairwise_cons.mp h1
    obtain ⟨hb, hbs⟩ := List.pairwise_cons.mp h2
    obtain ⟨ih1, ih2⟩ := ih has h2
    have hanot : a ∉ b :: bs := by
      intro h
      rcases List.mem_cons.mp h with h | h
      · exact hne h
      · have := hb a h; omega
    have e2 : ∀ k, ((b :: bs).zipIdx k).filter (fun x => decide (x.1 ∈ a :: as)) =
        ((b :: bs).zipIdx k).filter (fun x => decide (x.1 ∈ as)) := by
      intro k
      apply List.filter_congr
      intro x hx
      have hx1 : x.1 ∈ b :: bs := List.fst_mem_of_mem_zipIdx hx
      simp only [List.mem_cons, decide_eq_decide]
      constructor
      · rintro (h | h)
        · exact absurd (h ▸ hx1) hanot
        · exact h
      · exact Or.inr
    have e4 : (b :: bs).filter (fun x => decide (x ∈ a :: as)) =
        (b :: bs).filter (fun x => decide (x ∈ as)) := by
      apply List.filter_congr
      intro x hx1
      simp only [List.mem_cons, decide_eq_decide]
      constructor
      · rintro (h | h)
        · exact absurd (h ▸ hx1) hanot
        · exact h
      · exact Or.inr
    refine ⟨?_, ?_⟩
    · rw [List.zipIdx_cons, List.filter_cons_of_neg (by simpa using hanot), e2, ih1]
    · rw [List.filter_cons_of_neg (by simpa using hanot), e4, ih2]
  | case5 a as b bs i j hne hlt ih =>
    obtain ⟨ha, has⟩ := List.pairwise_cons.mp h1
    obtain ⟨hb, hbs⟩ := List.pairwise_cons.mp h2
    obtain ⟨ih1, ih2⟩ := ih h1 hbs
    have hbnot : b ∉ a :: as := by
      intro h
      rcases List.mem_cons.mp h with h | h
      · exact hne h.symm
      · have := ha b h; omega
    have e2 : ∀ k, ((a :: as).zipIdx k).filter (fun x => decide (x.1 ∈ b :: bs)) =
        ((a :: as).zipIdx k).filter (fun x => decide (x.1 ∈ bs)) := by
      intro k
      apply List.filter_congr
      intro x hx
      have hx1 : x.1 ∈ a :: as := List.fst_mem_of_mem_zipIdx hx
      simp only [List.mem_cons, decide_eq_decide]
      constructor
      · rintro (h | h)
        · exact absurd (h ▸ hx1) hbnot
        · exact h
      · exact Or.inr
    have e4 : (a :: as).filter (fun x => decide (x ∈ b :: bs)) =
        (a :: as).filter (fun x => decide (x ∈ bs)) := by
      apply List.filter_congr
      intro x hx1
      simp only [List.mem_cons, decide_eq_decide]
      constructor
      · rintro (h | h)
        · exact absurd (h ▸ hx1) hbnot
        · exact h
      · exact Or.inr
    refine ⟨?_, ?_⟩
    · rw [List.zipIdx_cons (as := bs), List.filter_cons_of_neg (l := bs.zipIdx (j+1)) (by simpa using hbnot), e2, ih1]
    · rw [List.filter_cons_of_neg (l := bs) (by simpa using hbnot), e4, ih2]

theorem idxDifferent_eq (s : List ℕ) (P : ℕ → Bool) :
    idxDifferent s.length ((s.zipIdx.filter (fun x => P x.1)).map Prod.snd) =
      (s.zipIdx.filter (fun x => !P x.1)).map Prod.snd := by
  unfold idxDifferent
  have hr : List.range s.length = s.zipIdx.map Prod.snd := by
    rw [List.zipIdx_map_snd, List.range_eq_range']
  rw [hr, List.filter_map]
  congr 1
  apply List.filter_congr
  rintro ⟨x, k⟩ hx
  have hx' := List.mem_zipIdx hx
  simp only [Function.comp, List.mem_map, List.mem_filter, Prod.exists, exists_eq_right]
  obtain ⟨_, hk, hxe⟩ := hx'
  cases hP : P x
  · simp only [Bool.not_false, decide_eq_true_eq]
    rintro hy
    obtain ⟨⟨y, k'⟩, hyy, rfl⟩ := List.mem_map.mp hy
    obtain ⟨hy, hPy⟩ := List.mem_filter.mp hyy
    obtain ⟨_, _, hye⟩ := List.mem_zipIdx hy
    simp only at hPy
    rw [hye, ← hxe, hP] at hPy
    exact absurd hPy (by simp)
  · simp only [Bool.not_true, decide_eq_false_iff_not, not_not]
    exact List.mem_map.mpr ⟨(x, k), List.mem_filter.mpr ⟨hx, hP⟩, rfl⟩

theorem gather_zipIdx (s : List ℕ) (Z : List (ℕ × ℕ)) (hZ : ∀ z ∈ Z, z ∈ s.zipIdx) :
    gather s (Z.map Prod.snd) = some (Z.map Prod.fst) := by
  unfold gather
  induction Z with
  | nil => simp
  | cons z Z ih =>
    have h1 := ih (fun w hw => hZ w (List.mem_cons_of_mem _ hw))
    have h2 := List.mk_mem_zipIdx_iff_getElem?.mp (hZ z (by simp))
    rw [List.map_cons, List.mapM_cons, h2, h1]
    simp

theorem inversions_pairs (Z : List (ℕ × ℕ))
    (h : ∀ z ∈ Z, ∀ w ∈ Z, (z.2 < w.2 ↔ z.1 < w.1)) :
    inversions (Z.map Prod.snd) = inversions (Z.map Prod.fst) := by
  induction Z with
  | nil => rfl
  | cons z Z ih =>
    have h1 := ih (fun a ha b hb => h a (List.mem_cons_of_mem _ ha) b (List.mem_cons_of_mem _ hb))
    simp only [List.map_cons, inversions, h1, List.countP_map]
    congr 1
    apply List.countP_congr
    intro w hw
    simpa using h w (List.mem_cons_of_mem _ hw) z (by simp)

theorem zipIdx_order (s : List ℕ) (hs : s.Pairwise (· < ·)) (z w : ℕ × ℕ)
    (hz : z ∈ s.zipIdx) (hw : w ∈ s.zipIdx) : z.2 < w.2 ↔ z.1 < w.1 := by
  have hm : ∀ (i j : ℕ) (hi : i < s.length) (hj : j < s.length), i < j → s[i] < s[j] :=
    fun i j hi hj hij => List.pairwise_iff_getElem.mp hs i j hi hj hij
  obtain ⟨_, hk, hxe⟩ := List.mem_zipIdx (x := z.1) (i := z.2) hz
  obtain ⟨_, hk', hxe'⟩ := List.mem_zipIdx (x := w.1) (i := w.2) hw
  simp only [Nat.sub_zero, Nat.zero_add] at *
  constructor
  · intro h
    rw [hxe, hxe']; exact hm _ _ _ _ h
  · intro h
    by_contra hn
    rcases (not_lt.mp hn).lt_or_eq with h' | h'
    · have := hm _ _ hk' hk h'
      omega
    · have : z.1 = w.1 := by rw [hxe, hxe']; congr 1; exact h'.symm
      omega

theorem filter_zipIdx_fst (s : List ℕ) (P : ℕ → Bool) (k : ℕ) :
    ((s.zipIdx k).filter (fun x => P x.1)).map Prod.fst = s.filter P := by
  have : (s.zipIdx k).map Prod.fst = s := by simp
  conv_rhs => rw [← this]
  rw [List.filter_map]; rfl

/-- The index list built for one side of the lineup. -/
theorem lineup_side (s : List ℕ) (hs : s.Pairwise (· < ·)) (P : ℕ → Bool) :
    let I := (s.zipIdx.filter (fun x => P x.1)).map Prod.snd
    let p := I ++ idxDifferent s.length I
    gather s p = some (s.filter P ++ s.filter (fun x => !P x)) ∧
    calculatePermutationParity p = signOf (s.filter P ++ s.filter (fun x => !P x)) := by
  intro I p
  have hI : idxDifferent s.length I = (s.zipIdx.filter (fun x => !P x.1)).map Prod.snd :=
    idxDifferent_eq s P
  let Z := s.zipIdx.filter (fun x => P x.1) ++ s.zipIdx.filter (fun x => !P x.1)
  have hp : p = Z.map Prod.snd := by
    simp only [p, hI, I, Z, List.map_append]
  have hZ : ∀ z ∈ Z, z ∈ s.zipIdx := by
    intro z hz
    rcases List.mem_append.mp hz with h | h
    · exact (List.mem_filter.mp h).1
    · exact (List.mem_filter.mp h).1
  have hfst : Z.map Prod.fst = s.filter P ++ s.filter (fun x => !P x) := by
    simp only [Z, List.map_append]
    rw [filter_zipIdx_fst, filter_zipIdx_fst s (fun x => !P x)]
  have hperm : Z.Perm s.zipIdx := List.filter_append_perm (fun x => P x.1) s.zipIdx
  refine ⟨by rw [hp, gather_zipIdx s Z hZ, hfst], ?_⟩
  have hpp : p.Perm (List.range p.length) := by
    have h1 : p.Perm (List.range s.length) := by
      rw [hp]
      have := hperm.map Prod.snd
      rwa [List.zipIdx_map_snd, ← List.range_eq_range'] at this
    have h2 := h1.length_eq
    rw [List.length_range] at h2
    rw [h2]; exact h1
  obtain ⟨σ, hσ⟩ := exists_perm_of_list p hpp
  rw [calculatePermutationParity_eq_sign p σ hσ, ← signOf_perm_fn σ p rfl hσ, ← hfst]
  unfold signOf
  rw [hp, inversions_pairs]
  intro z hz w hw
  exact zipIdx_order s hs z w (hZ z hz) (hZ w hw)

theorem insertionSort_strict (l : List ℕ) (h : l.Nodup) :
    (l.insertionSort (· ≤ ·)).Pairwise (· < ·) := by
  have h1 := List.pairwise_insertionSort (· ≤ ·) l
  have h2 : (l.insertionSort (· ≤ ·)).Nodup := (List.perm_insertionSort (· ≤ ·) l).nodup_iff.mpr h
  exact (h1.and h2).imp (fun h => lt_of_le_of_ne h.1 h.2)

end Ccpy.Permutations
