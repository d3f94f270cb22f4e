import Verif.Model.GuessMatrix
import Mathlib.Algebra.BigOperators.Intervals
import Mathlib.Algebra.BigOperators.Ring.Finset
import Mathlib.Data.Rat.Defs
import Mathlib.Tactic.Linarith

/-! The loops of the guess matrices. -/

namespace Ccpy.GuessMatrix
open Ccpy.SpinMatrix
open Finset (range)

theorem loop_succ {σ : Type} (lo n : ℕ) (body : ℕ → σ → σ) (s : σ) : loop lo (n + 1) body s = body (lo + n) (loop lo n body s) := by
  unfold loop
  rw [List.range'_1_concat, List.foldl_append]
  rfl

/-- A loop whose steps add. -/
theorem loop_add {body : ℕ → Matrix → Matrix} {g : ℕ → Matrix} (h : ∀ k M p q, body k M p q = M p q + g k p q) (n : ℕ) (M : Matrix)
    (p q : ℕ) : loop 0 n body M p q = M p q + ∑ k ∈ range n, g k p q := by
  induction n with
  | zero => simp [loop]
  | succ n ih => rw [loop_succ, Nat.zero_add, h, ih, Finset.sum_range_succ, add_assoc]

theorem inc_apply (I J : ℕ) (x : ℚ) (M : Matrix) (p q : ℕ) : inc I J x M p q = M p q + if p = I ∧ q = J then x else 0 := by
  unfold inc
  split_ifs <;> simp

theorem inc_some (I : ℕ) (jdet : ℕ) (x : ℚ) (M : Matrix) (p q : ℕ) :
    (if jdet = 0 then M else inc I (jdet - 1) x M) p q = M p q + if p = I then if jdet ≠ 0 ∧ q = jdet - 1 then x else 0 else 0 := by
  by_cases h₁ : jdet = 0
  · simp [h₁]
  · rw [if_neg h₁, inc_apply]
    by_cases h₂ : p = I <;> by_cases h₃ : q = jdet - 1 <;> simp [h₁, h₂, h₃]

/-- Different excitations have different numbers. -/
def Numbering (idx : ℕ → ℕ → ℕ) (no nu : ℕ) : Prop :=
  ∀ a i b j, a < nu → i < no → b < nu → j < no → idx a i ≠ 0 → idx a i = idx b j → a = b ∧ i = j

theorem sum_one {n k : ℕ} {f : ℕ → ℚ} (hk : k < n) (h : ∀ l, l < n → l ≠ k → f l = 0) : ∑ l ∈ range n, f l = f k :=
  Finset.sum_eq_single k (fun l hl => h l (Finset.mem_range.1 hl)) fun h => absurd (Finset.mem_range.2 hk) h

theorem sum_two {n m k l : ℕ} {f : ℕ → ℕ → ℚ} (hk : k < n) (hl : l < m)
    (h : ∀ k' l', k' < n → l' < m → (k' ≠ k ∨ l' ≠ l) → f k' l' = 0) : ∑ k ∈ range n, ∑ l ∈ range m, f k l = f k l := by
  rw [sum_one hk fun k' h' hne => Finset.sum_eq_zero fun l' hl' => h k' l' h' (Finset.mem_range.1 hl') (.inl hne),
    sum_one hl fun l' h' hne => h k l' hk h' (.inr hne)]

theorem sum_if (c : Prop) [Decidable c] (n : ℕ) (f : ℕ → ℚ) : ∑ k ∈ range n, (if c then f k else 0) = if c then ∑ k ∈ range n, f k else 0 := by
  split_ifs
  · rfl
  · exact Finset.sum_const_zero

theorem loop_some (I n : ℕ) (jdet : ℕ → ℕ) (x : ℕ → ℚ) (M : Matrix) (p q : ℕ) :
    loop 0 n (fun m M => if jdet m = 0 then M else inc I (jdet m - 1) (x m) M) M p q
      = M p q + if p = I then ∑ m ∈ range n, if jdet m ≠ 0 ∧ q = jdet m - 1 then x m else 0 else 0 := by
  rw [loop_add (g := fun m p q => if p = I then if jdet m ≠ 0 ∧ q = jdet m - 1 then x m else 0 else 0) (fun m M p q => inc_some _ _ _ M p q) n,
    sum_if]

theorem loop_some₂ (I n n' : ℕ) (jdet : ℕ → ℕ → ℕ) (x : ℕ → ℕ → ℚ) (M : Matrix) (p q : ℕ) :
    loop 0 n (fun e => loop 0 n' fun m M => if jdet e m = 0 then M else inc I (jdet e m - 1) (x e m) M) M p q
      = M p q + if p = I then ∑ e ∈ range n, ∑ m ∈ range n', if jdet e m ≠ 0 ∧ q = jdet e m - 1 then x e m else 0 else 0 := by
  rw [loop_add (g := fun e p q => if p = I then ∑ m ∈ range n', if jdet e m ≠ 0 ∧ q = jdet e m - 1 then x e m else 0 else 0)
    (fun e M p q => loop_some I n' (jdet e) (x e) M p q) n, sum_if]

section
variable {oo vv : ℕ → ℕ → ℚ} {v : ℕ → ℕ → ℕ → ℕ → ℚ} {idx idx' : ℕ → ℕ → ℕ} {no nu no' nu' : ℕ}

theorem like_sum (p q : ℕ) : like oo vv v idx no nu p q = ∑ a ∈ range nu, ∑ i ∈ range no, if idx a i = 0 then 0 else
    if p = idx a i - 1 then (∑ m ∈ range no, if idx a m ≠ 0 ∧ q = idx a m - 1 then -oo m i else 0)
      + (∑ e ∈ range nu, if idx e i ≠ 0 ∧ q = idx e i - 1 then vv a e else 0)
      + ∑ e ∈ range nu, ∑ m ∈ range no, if idx e m ≠ 0 ∧ q = idx e m - 1 then v a m i e else 0 else 0 := by
  unfold like
  refine (loop_add (fun a M p q => loop_add (g := fun i p q => if idx a i = 0 then 0 else
    if p = idx a i - 1 then (∑ m ∈ range no, if idx a m ≠ 0 ∧ q = idx a m - 1 then -oo m i else 0)
      + (∑ e ∈ range nu, if idx e i ≠ 0 ∧ q = idx e i - 1 then vv a e else 0)
      + ∑ e ∈ range nu, ∑ m ∈ range no, if idx e m ≠ 0 ∧ q = idx e m - 1 then v a m i e else 0 else 0) (fun i M p q => ?_) no M p q)
    nu _ p q).trans (zero_add _)
  by_cases h : idx a i = 0
  · simp only [if_pos h, add_zero]
  · simp only [if_neg h]
    rw [loop_some₂ (idx a i - 1) nu no idx (fun e m => v a m i e), loop_some (idx a i - 1) nu (fun e => idx e i) (vv a),
      loop_some (idx a i - 1) no (idx a) fun m => -oo m i]
    split_ifs
    · simp only [add_assoc]
    · simp only [add_zero]

theorem unlike_sum (p q : ℕ) : unlike v idx idx' no nu no' nu' p q = ∑ a ∈ range nu, ∑ i ∈ range no, if idx a i = 0 then 0 else
    if p = idx a i - 1 then ∑ e ∈ range nu', ∑ m ∈ range no', if idx' e m ≠ 0 ∧ q = idx' e m - 1 then v a m i e else 0 else 0 := by
  unfold unlike
  refine (loop_add (fun a M p q => loop_add (g := fun i p q => if idx a i = 0 then 0 else
    if p = idx a i - 1 then ∑ e ∈ range nu', ∑ m ∈ range no', if idx' e m ≠ 0 ∧ q = idx' e m - 1 then v a m i e else 0 else 0)
    (fun i M p q => ?_) no M p q) nu _ p q).trans (zero_add _)
  by_cases h : idx a i = 0
  · simp only [if_pos h, add_zero]
  · simp only [if_neg h]
    rw [loop_some₂ (idx a i - 1) nu' no' idx' (fun e m => v a m i e)]

variable (N : Numbering idx no nu) (N' : Numbering idx' no' nu')

theorem Numbering.ne (N : Numbering idx no nu) {a i b j : ℕ} (ha : a < nu) (hi : i < no) (hb : b < nu) (hj : j < no) (h : idx a i ≠ 0)
    (h' : idx b j ≠ 0) (e : idx a i - 1 = idx b j - 1) : a = b ∧ i = j := N a i b j ha hi hb hj h (by omega)

include N in
theorem like_apply {a i b j : ℕ} (ha : a < nu) (hi : i < no) (hb : b < nu) (hj : j < no) (h : idx a i ≠ 0) (h' : idx b j ≠ 0) :
    like oo vv v idx no nu (idx a i - 1) (idx b j - 1)
      = (if a = b then -oo j i else 0) + (if i = j then vv a b else 0) + v a j i b := by
  rw [like_sum, sum_two ha hi, if_neg h, if_pos rfl]
  · congr 1
    · congr 1
      · by_cases e : a = b
        · subst e
          rw [if_pos rfl, sum_one hj, if_pos ⟨h', rfl⟩]
          exact fun m hm hne => if_neg fun c => hne (N.ne ha hm ha hj c.1 h' c.2.symm).2
        · rw [if_neg e]
          refine Finset.sum_eq_zero fun m hm => if_neg fun c => e (N.ne ha (Finset.mem_range.1 hm) hb hj c.1 h' c.2.symm).1
      · by_cases e : i = j
        · subst e
          rw [if_pos rfl, sum_one hb, if_pos ⟨h', rfl⟩]
          exact fun m hm hne => if_neg fun c => hne (N.ne hm hi hb hi c.1 h' c.2.symm).1
        · rw [if_neg e]
          refine Finset.sum_eq_zero fun m hm => if_neg fun c => e (N.ne (Finset.mem_range.1 hm) hi hb hj c.1 h' c.2.symm).2
    · rw [sum_two hb hj, if_pos ⟨h', rfl⟩]
      refine fun e m he hm hne => if_neg fun c => ?_
      have := N.ne he hm hb hj c.1 h' c.2.symm
      exact hne.elim (· this.1) (· this.2)
  · intro a' i' ha' hi' hne
    by_cases h₀ : idx a' i' = 0
    · rw [if_pos h₀]
    · rw [if_neg h₀, if_neg]
      intro c
      have := N.ne ha' hi' ha hi h₀ h c.symm
      exact hne.elim (· this.1) (· this.2)

include N N' in
theorem unlike_apply {a i b j : ℕ} (ha : a < nu) (hi : i < no) (hb : b < nu') (hj : j < no') (h : idx a i ≠ 0) (h' : idx' b j ≠ 0) :
    unlike v idx idx' no nu no' nu' (idx a i - 1) (idx' b j - 1) = v a j i b := by
  rw [unlike_sum, sum_two ha hi, if_neg h, if_pos rfl, sum_two hb hj, if_pos ⟨h', rfl⟩]
  · refine fun e m he hm hne => if_neg fun c => ?_
    have := N'.ne he hm hb hj c.1 h' c.2.symm
    exact hne.elim (· this.1) (· this.2)
  · intro a' i' ha' hi' hne
    by_cases h₀ : idx a' i' = 0
    · rw [if_pos h₀]
    · rw [if_neg h₀, if_neg]
      intro c
      have := N.ne ha' hi' ha hi h₀ h c.symm
      exact hne.elim (· this.1) (· this.2)

/-- Rows and columns without a number are empty. -/
theorem like_row {p : ℕ} (q : ℕ) (h : ∀ a i, a < nu → i < no → idx a i ≠ 0 → p ≠ idx a i - 1) : like oo vv v idx no nu p q = 0 := by
  rw [like_sum]
  refine Finset.sum_eq_zero fun a ha => Finset.sum_eq_zero fun i hi => ?_
  split_ifs with h₁ h₂
  · rfl
  · exact absurd h₂ (h a i (Finset.mem_range.1 ha) (Finset.mem_range.1 hi) h₁)
  · rfl

theorem like_column (p : ℕ) {q : ℕ} (h : ∀ a i, a < nu → i < no → idx a i ≠ 0 → q ≠ idx a i - 1) : like oo vv v idx no nu p q = 0 := by
  rw [like_sum]
  refine Finset.sum_eq_zero fun a ha => Finset.sum_eq_zero fun i hi => ?_
  have ha := Finset.mem_range.1 ha
  have hi := Finset.mem_range.1 hi
  split_ifs with h₁ h₂
  · rfl
  · rw [Finset.sum_eq_zero, Finset.sum_eq_zero, Finset.sum_eq_zero, add_zero, add_zero]
    · exact fun e he => Finset.sum_eq_zero fun m hm => if_neg fun c => h e m (Finset.mem_range.1 he) (Finset.mem_range.1 hm) c.1 c.2
    · exact fun e he => if_neg fun c => h e i (Finset.mem_range.1 he) hi c.1 c.2
    · exact fun m hm => if_neg fun c => h a m ha (Finset.mem_range.1 hm) c.1 c.2
  · rfl

theorem unlike_row {p : ℕ} (q : ℕ) (h : ∀ a i, a < nu → i < no → idx a i ≠ 0 → p ≠ idx a i - 1) :
    unlike v idx idx' no nu no' nu' p q = 0 := by
  rw [unlike_sum]
  refine Finset.sum_eq_zero fun a ha => Finset.sum_eq_zero fun i hi => ?_
  split_ifs with h₁ h₂
  · rfl
  · exact absurd h₂ (h a i (Finset.mem_range.1 ha) (Finset.mem_range.1 hi) h₁)
  · rfl

theorem unlike_column (p : ℕ) {q : ℕ} (h : ∀ a i, a < nu' → i < no' → idx' a i ≠ 0 → q ≠ idx' a i - 1) :
    unlike v idx idx' no nu no' nu' p q = 0 := by
  rw [unlike_sum]
  refine Finset.sum_eq_zero fun a ha => Finset.sum_eq_zero fun i hi => ?_
  split_ifs with h₁ h₂
  · rfl
  · exact Finset.sum_eq_zero fun e he => Finset.sum_eq_zero fun m hm => if_neg fun c =>
      h e m (Finset.mem_range.1 he) (Finset.mem_range.1 hm) c.1 c.2
  · rfl

end

/-! ### Numbers of pairs -/

theorem pair_bound {a i nu no : ℕ} (ha : a < nu) (hi : i < no) : a * no + i < no * nu := by
  have : (a + 1) * no ≤ nu * no := Nat.mul_le_mul_right _ ha
  rw [Nat.mul_comm no nu]
  have e : (a + 1) * no = a * no + no := Nat.succ_mul a no
  omega

theorem pair_inj {a i b j no : ℕ} (hi : i < no) (hj : j < no) (h : a * no + i = b * no + j) : a = b ∧ i = j := by
  have d := congrArg (· / no) h
  have m := congrArg (· % no) h
  have pos : 0 < no := by omega
  simp only [Nat.add_comm (_ * no), Nat.add_mul_div_right _ _ pos, Nat.add_mul_mod_self_right, Nat.div_eq_of_lt hi, Nat.div_eq_of_lt hj,
    Nat.mod_eq_of_lt hi, Nat.mod_eq_of_lt hj, Nat.zero_add] at d m
  exact ⟨d, m⟩

theorem numbering_A (s : Counts) (sym1 : ℕ → ℕ → Bool) : Numbering (idxA s sym1) s.noa s.nua := by
  intro a i b j ha hi hb hj h e
  unfold idxA at h e
  by_cases h₁ : sym1 (a + s.noa) i = true
  · by_cases h₂ : sym1 (b + s.noa) j = true
    · rw [if_pos h₁, if_pos h₂] at e
      exact pair_inj hi hj (by omega)
    · rw [if_pos h₁, if_neg h₂] at e
      omega
  · exact absurd (if_neg h₁) h

theorem numbering_B (s : Counts) (sym1 : ℕ → ℕ → Bool) : Numbering (idxB s sym1) s.nob s.nub := by
  intro a i b j ha hi hb hj h e
  unfold idxB at h e
  by_cases h₁ : sym1 (a + s.nob) i = true
  · by_cases h₂ : sym1 (b + s.nob) j = true
    · rw [if_pos h₁, if_pos h₂] at e
      exact pair_inj hi hj (by omega)
    · rw [if_pos h₁, if_neg h₂] at e
      omega
  · exact absurd (if_neg h₁) h

/-! ### Loops that assign -/

/-- `M'` is `M` with the elements at the places `P` replaced by those of `g`. -/
def Wrote (g : Matrix) (P : ℕ → ℕ → Prop) (M M' : Matrix) : Prop := ∀ p q, (P p q → M' p q = g p q) ∧ (¬ P p q → M' p q = M p q)

theorem wrote_loop {g : Matrix} {P : ℕ → ℕ → ℕ → Prop} {body : ℕ → Matrix → Matrix} (lo n : ℕ)
    (h : ∀ k, lo ≤ k → k < lo + n → ∀ M, Wrote g (P k) M (body k M)) (M : Matrix) :
    Wrote g (fun p q => ∃ k, lo ≤ k ∧ k < lo + n ∧ P k p q) M (loop lo n body M) := by
  induction n with
  | zero => exact fun p q => ⟨fun ⟨k, h₁, h₂, _⟩ => absurd h₂ (by omega), fun _ => rfl⟩
  | succ n ih =>
    have ih := ih fun k h₁ h₂ => h k h₁ (by omega)
    rw [loop_succ]
    intro p q
    have step := h (lo + n) (by omega) (by omega) (loop lo n body M) p q
    constructor
    · rintro ⟨k, h₁, h₂, hk⟩
      by_cases c : P (lo + n) p q
      · exact step.1 c
      · rw [step.2 c]
        refine (ih p q).1 ⟨k, h₁, ?_, hk⟩
        rcases Nat.lt_or_ge k (lo + n) with h | h
        · exact h
        · obtain rfl : k = lo + n := by omega
          exact absurd hk c
    · intro c
      rw [step.2 fun hk => c ⟨_, by omega, by omega, hk⟩]
      exact (ih p q).2 fun ⟨k, h₁, h₂, hk⟩ => c ⟨k, h₁, by omega, hk⟩

theorem wrote_put {g : Matrix} {I J : ℕ} {x : ℚ} (h : x = g I J) (M : Matrix) : Wrote g (fun p q => p = I ∧ q = J) M (put I J x M) := by
  intro p q
  unfold put
  constructor
  · rintro ⟨rfl, rfl⟩
    rw [if_pos ⟨rfl, rfl⟩, h]
  · exact fun c => if_neg c

theorem build1p_apply {s : Counts} {H : Blocks} {a b : ℕ} (ha : a < s.nua) (hb : b < s.nua) : build1p s H a b = H.a_vv a b := by
  refine (wrote_loop (g := H.a_vv) 0 s.nua (fun a _ _ M => wrote_loop 0 s.nua (fun b _ _ M => wrote_put rfl M) M) _ a b).1
    ⟨a, Nat.zero_le _, by omega, b, Nat.zero_le _, by omega, rfl, rfl⟩

theorem build1h_apply {s : Counts} {H : Blocks} {i j : ℕ} (hi : i < s.noa) (hj : j < s.noa) : build1h s H i j = -H.a_oo j i := by
  refine (wrote_loop (g := fun i j => -H.a_oo j i) 0 s.noa (fun a _ _ M => wrote_loop 0 s.noa (fun b _ _ M => wrote_put rfl M) M) _ i j).1
    ⟨i, Nat.zero_le _, by omega, j, Nat.zero_le _, by omega, rfl, rfl⟩

section
variable {lo lo' n n' : ℕ} {sym1 : ℕ → ℕ → Bool} {x : ℕ → ℕ → ℕ → ℕ → ℚ}

/-- The orbitals with a given running number. -/
theorem decode {a b : ℕ} (ha : lo ≤ a) (hb : lo' ≤ b) (hb' : b < lo' + n') :
    lo + ((a - lo) * n' + (b - lo')) / n' = a ∧ lo' + ((a - lo) * n' + (b - lo')) % n' = b := by
  have h : b - lo' < n' := by omega
  rw [Nat.add_comm ((a - lo) * n'), Nat.add_mul_div_right _ _ (by omega), Nat.add_mul_mod_self_right, Nat.div_eq_of_lt h,
    Nat.mod_eq_of_lt h]
  omega

theorem idxPair_pred {a b : ℕ} (h : sym1 a b = true) : idxPair lo lo' n' sym1 a b - 1 = (a - lo) * n' + (b - lo') := by
  unfold idxPair
  rw [if_pos h, Nat.add_sub_cancel]

theorem idxPair_ne {a b : ℕ} : idxPair lo lo' n' sym1 a b ≠ 0 ↔ sym1 a b = true := by
  unfold idxPair
  split_ifs with h
  · exact ⟨fun _ => h, fun _ => Nat.succ_ne_zero _⟩
  · exact ⟨fun c => absurd rfl c, fun c => absurd c h⟩

theorem buildPairs_wrote : Wrote
    (fun p q => x (lo + p / n') (lo' + p % n') (lo + q / n') (lo' + q % n'))
    (fun p q => ∃ a, lo ≤ a ∧ a < lo + n ∧ ∃ b, lo' ≤ b ∧ b < lo' + n' ∧ sym1 a b = true ∧ ∃ c, lo ≤ c ∧ c < lo + n ∧ ∃ d, lo' ≤ d ∧ d < lo' + n'
      ∧ sym1 c d = true ∧ p = (a - lo) * n' + (b - lo') ∧ q = (c - lo) * n' + (d - lo'))
    (fun _ _ => 0) (buildPairs lo lo' n n' (idxPair lo lo' n' sym1) x) := by
  refine wrote_loop lo n (fun a ha _ M => wrote_loop (P := fun b p q => sym1 a b = true ∧ ∃ c, lo ≤ c ∧ c < lo + n ∧ ∃ d, lo' ≤ d ∧ d < lo' + n'
      ∧ sym1 c d = true ∧ p = (a - lo) * n' + (b - lo') ∧ q = (c - lo) * n' + (d - lo')) lo' n' (fun b hb hb' M => ?_) M) _
  by_cases h : sym1 a b = true
  · have h₀ := (idxPair_ne (lo := lo) (lo' := lo') (n' := n')).2 h
    simp only [if_neg h₀, h, true_and]
    refine wrote_loop lo n (fun c hc _ M => wrote_loop (P := fun d p q => sym1 c d = true ∧ p = (a - lo) * n' + (b - lo')
      ∧ q = (c - lo) * n' + (d - lo')) lo' n' (fun d hd hd' M => ?_) M) M
    by_cases h' : sym1 c d = true
    · simp only [if_pos (idxPair_ne.2 h'), idxPair_pred h, idxPair_pred h', h', true_and]
      refine wrote_put ?_ M
      obtain ⟨e₁, e₂⟩ := decode (n' := n') ha hb hb'
      obtain ⟨e₃, e₄⟩ := decode (n' := n') hc hd hd'
      rw [e₁, e₂, e₃, e₄]
    · rw [if_neg fun c => h' (idxPair_ne.1 c)]
      exact fun p q => ⟨fun c => absurd c.1 h', fun _ => rfl⟩
  · have h₀ : idxPair lo lo' n' sym1 a b = 0 := by unfold idxPair; rw [if_neg h]
    simp only [if_pos h₀]
    exact fun p q => ⟨fun c => absurd c.1 h, fun _ => rfl⟩

theorem buildPairs_apply {a b c d : ℕ} (ha : lo ≤ a) (ha' : a < lo + n) (hb : lo' ≤ b) (hb' : b < lo' + n') (hc : lo ≤ c)
    (hc' : c < lo + n) (hd : lo' ≤ d) (hd' : d < lo' + n') (h : sym1 a b = true) (h' : sym1 c d = true) :
    buildPairs lo lo' n n' (idxPair lo lo' n' sym1) x ((a - lo) * n' + (b - lo')) ((c - lo) * n' + (d - lo')) = x a b c d := by
  rw [(buildPairs_wrote _ _).1 ⟨a, ha, ha', b, hb, hb', h, c, hc, hc', d, hd, hd', h', rfl, rfl⟩]
  obtain ⟨e₁, e₂⟩ := decode (n' := n') ha hb hb'
  obtain ⟨e₃, e₄⟩ := decode (n' := n') hc hd hd'
  simp only [e₁, e₂, e₃, e₄]

/-- Pairs of another symmetry have empty rows and columns. -/
theorem buildPairs_other {a b c d : ℕ} (ha : lo ≤ a) (hb : lo' ≤ b) (hb' : b < lo' + n') (hc : lo ≤ c) (hd : lo' ≤ d) (hd' : d < lo' + n')
    (h : ¬ (sym1 a b = true ∧ sym1 c d = true)) :
    buildPairs lo lo' n n' (idxPair lo lo' n' sym1) x ((a - lo) * n' + (b - lo')) ((c - lo) * n' + (d - lo')) = 0 := by
  refine (buildPairs_wrote _ _).2 ?_
  rintro ⟨a₁, ha₁, -, b₁, hb₁, hb₁', h₁, c₁, hc₁, -, d₁, hd₁, hd₁', h₂, e₁, e₂⟩
  obtain ⟨x₁, x₂⟩ := pair_inj (by omega) (by omega) e₁
  obtain ⟨x₃, x₄⟩ := pair_inj (by omega) (by omega) e₂
  obtain rfl : a₁ = a := by omega
  obtain rfl : b₁ = b := by omega
  obtain rfl : c₁ = c := by omega
  obtain rfl : d₁ = d := by omega
  exact h ⟨h₁, h₂⟩

end

/-! ### Loops with counters -/

/-- A loop that counts: the counter after `k` rounds is known. -/
theorem loop_count {τ : Type} {body : ℕ → ℕ × τ → ℕ × τ} {f : ℕ → ℕ → τ → τ} {m : ℕ} (h : ∀ k c M, body k (c, M) = (c + m, f k c M)) (n c : ℕ)
    (M : τ) : loop 0 n body (c, M) = (c + n * m, loop 0 n (fun k M => f k (c + k * m) M) M) := by
  induction n with
  | zero => simp [loop]
  | succ n ih =>
    rw [loop_succ, loop_succ, ih, Nat.zero_add, h]
    congr 1
    rw [Nat.succ_mul]
    omega

theorem buildSfcis_eq (s : Counts) (H : Blocks) : buildSfcis s H = loop 0 s.nub (fun a => loop 0 s.noa fun i =>
    loop 0 s.nub fun b => loop 0 s.noa fun j =>
      put (0 + a * (s.noa * 1) + i * 1) (0 + b * (s.noa * 1) + j * 1) (H.b_vv a b * eqn i j - H.a_oo j i * eqn a b - H.ab_ovov j a i b)) fun _ _ => 0 := by
  unfold buildSfcis
  have inner : ∀ a i I M, loop 0 s.nub (fun b => loop 0 s.noa fun j (st' : ℕ × Matrix) =>
      (st'.1 + 1, put I st'.1 (H.b_vv a b * eqn i j - H.a_oo j i * eqn a b - H.ab_ovov j a i b) st'.2)) (0, M)
      = (0 + s.nub * (s.noa * 1), loop 0 s.nub (fun b => loop 0 s.noa fun j =>
        put I (0 + b * (s.noa * 1) + j * 1) (H.b_vv a b * eqn i j - H.a_oo j i * eqn a b - H.ab_ovov j a i b)) M) := by
    intro a i I M
    exact loop_count (f := fun b c => loop 0 s.noa fun j =>
        put I (c + j * 1) (H.b_vv a b * eqn i j - H.a_oo j i * eqn a b - H.ab_ovov j a i b))
      (fun b c M => loop_count (f := fun j c => put I c (H.b_vv a b * eqn i j - H.a_oo j i * eqn a b - H.ab_ovov j a i b)) (fun j c M => rfl) s.noa c M)
      s.nub 0 M
  simp only [inner]
  rw [loop_count (f := fun a c => loop 0 s.noa fun i => loop 0 s.nub fun b => loop 0 s.noa fun j =>
        put (c + i * 1) (0 + b * (s.noa * 1) + j * 1) (H.b_vv a b * eqn i j - H.a_oo j i * eqn a b - H.ab_ovov j a i b))
      (fun a c M => loop_count (f := fun i c => loop 0 s.nub fun b => loop 0 s.noa fun j =>
        put c (0 + b * (s.noa * 1) + j * 1) (H.b_vv a b * eqn i j - H.a_oo j i * eqn a b - H.ab_ovov j a i b)) (fun i c M => rfl) s.noa c M) s.nub 0 _]

theorem buildSfcis_apply {s : Counts} {H : Blocks} {a i b j : ℕ} (ha : a < s.nub) (hi : i < s.noa) (hb : b < s.nub) (hj : j < s.noa) :
    buildSfcis s H (a * s.noa + i) (b * s.noa + j) = H.b_vv a b * eqn i j - H.a_oo j i * eqn a b - H.ab_ovov j a i b := by
  rw [buildSfcis_eq]
  let x := fun a i b j => H.b_vv a b * eqn i j - H.a_oo j i * eqn a b - H.ab_ovov j a i b
  let g : Matrix := fun p q => x (p / s.noa) (p % s.noa) (q / s.noa) (q % s.noa)
  have code : ∀ {a i}, i < s.noa → (0 + a * (s.noa * 1) + i * 1) / s.noa = a ∧ (0 + a * (s.noa * 1) + i * 1) % s.noa = i := by
    intro a i hi
    have e : 0 + a * (s.noa * 1) + i * 1 = i + a * s.noa := by rw [Nat.mul_one, Nat.mul_one]; omega
    rw [e, Nat.add_mul_div_right _ _ (by omega), Nat.add_mul_mod_self_right, Nat.div_eq_of_lt hi, Nat.mod_eq_of_lt hi]
    exact ⟨Nat.zero_add _, rfl⟩
  refine ((wrote_loop (g := g) 0 s.nub (fun a _ _ M => wrote_loop 0 s.noa (fun i _ hi M => wrote_loop 0 s.nub (fun b _ _ M =>
    wrote_loop 0 s.noa (fun j _ hj M => wrote_put ?_ M) M) M) M) _ (a * s.noa + i) (b * s.noa + j)).1
    ⟨a, Nat.zero_le _, by omega, i, Nat.zero_le _, by omega, b, Nat.zero_le _, by omega, j, Nat.zero_le _, by omega, ?_, ?_⟩).trans ?_
  · obtain ⟨e₁, e₂⟩ := code (a := a) (i := i) (by omega)
    obtain ⟨e₃, e₄⟩ := code (a := b) (i := j) (by omega)
    simp only [g, e₁, e₂, e₃, e₄, x]
  · rw [Nat.mul_one, Nat.mul_one]; omega
  · rw [Nat.mul_one, Nat.mul_one]; omega
  · have c₁ := code (a := a) hi
    have c₂ := code (a := b) hj
    rw [show 0 + a * (s.noa * 1) + i * 1 = a * s.noa + i by rw [Nat.mul_one, Nat.mul_one]; omega] at c₁
    rw [show 0 + b * (s.noa * 1) + j * 1 = b * s.noa + j by rw [Nat.mul_one, Nat.mul_one]; omega] at c₂
    simp only [g, c₁.1, c₁.2, c₂.1, c₂.2, x]

/-! ### Scatter -/

theorem loop_congr {σ : Type} {lo n : ℕ} {body body' : ℕ → σ → σ} (h : ∀ k, k < lo + n → body k = body' k) (s : σ) :
    loop lo n body s = loop lo n body' s := by
  induction n with
  | zero => rfl
  | succ n ih => rw [loop_succ, loop_succ, ih fun k hk => h k (by omega), h (lo + n) (by omega)]

theorem scatterLoop_congr {n n' : ℕ} {V : ℕ → ℚ} {p p' : ℕ → ℕ → Bool} (h : ∀ a b, a < n → b < n' → p a b = p' a b) :
    scatterLoop n n' p V = scatterLoop n n' p' V := by
  unfold scatterLoop
  refine loop_congr (fun a ha => funext fun st => loop_congr (fun b hb => ?_) st) _
  funext st
  rw [h a b (by omega) (by omega)]


section
variable {n' lo hi lo' hi' : ℕ} {V : ℕ → ℚ} {active : ℕ → ℕ → Bool}

theorem scatter_row {a : ℕ} {pa : Prop} [Decidable pa] (h : ∀ b, active a b = true ↔ pa ∧ lo' ≤ b ∧ b < hi') (m c c2 : ℕ) (out : ℕ → ℚ) :
    loop 0 m (fun b (st : ℕ × ℕ × (ℕ → ℚ)) =>
      if active a b then (st.1 + 1, st.2.1 + 1, fun p => if p = st.1 then V st.2.1 else st.2.2 p) else (st.1 + 1, st.2.1, st.2.2)) (c, c2, out)
    = (c + m, c2 + (if pa then min m hi' - lo' else 0),
      fun p => if pa ∧ c + lo' ≤ p ∧ p < c + min m hi' then V (c2 + (p - c - lo')) else out p) := by
  induction m with
  | zero =>
    simp only [loop, List.range', List.foldl_nil, Nat.add_zero, Nat.zero_min, Nat.zero_sub, ite_self]
    congr 2
    funext p
    rw [if_neg]
    omega
  | succ m ih =>
    rw [loop_succ, ih, Nat.zero_add]
    by_cases hb : active a m = true
    · obtain ⟨h₁, h₂, h₃⟩ := (h m).1 hb
      have e₁ : min m hi' = m := by omega
      have e₂ : min (m + 1) hi' = m + 1 := by omega
      simp only [hb, if_true, h₁, true_and, e₁, e₂]
      refine Prod.ext (by simp only; omega) (Prod.ext (by simp only; omega) ?_)
      funext p
      simp only
      split_ifs with c₁ c₂ c₂ c₃ c₃ <;> first | rfl | omega | (congr 1; omega)
    · have h₁ := fun x => hb ((h m).2 x)
      simp only [hb, if_false, Bool.false_eq_true]
      refine Prod.ext (by simp only; omega) (Prod.ext ?_ ?_)
      · simp only
        split_ifs with c₁
        · have : ¬ (lo' ≤ m ∧ m < hi') := fun x => h₁ ⟨c₁, x⟩
          omega
        · rfl
      · funext p
        simp only
        by_cases c₁ : pa
        · have : ¬ (lo' ≤ m ∧ m < hi') := fun x => h₁ ⟨c₁, x⟩
          simp only [c₁, true_and]
          split_ifs <;> first | rfl | omega
        · simp only [c₁, false_and]

theorem scatter_loop (h : ∀ a b, active a b = true ↔ (lo ≤ a ∧ a < hi) ∧ lo' ≤ b ∧ b < hi') (hn : hi' ≤ n') (m : ℕ) :
    (scatterLoop m n' active V).1 = m * n' ∧ (scatterLoop m n' active V).2.1 = (min m hi - lo) * (hi' - lo') ∧
    ∀ a b, b < n' → (scatterLoop m n' active V).2.2 (a * n' + b)
      = if a < m ∧ (lo ≤ a ∧ a < hi) ∧ lo' ≤ b ∧ b < hi' then V ((a - lo) * (hi' - lo') + (b - lo')) else 0 := by
  have e : ∀ m, scatterLoop m n' active V = loop 0 m (fun a => loop 0 n' fun b (st : ℕ × ℕ × (ℕ → ℚ)) =>
      if active a b then (st.1 + 1, st.2.1 + 1, fun p => if p = st.1 then V st.2.1 else st.2.2 p) else (st.1 + 1, st.2.1, st.2.2)) (0, 0, fun _ => 0) :=
    fun m => rfl
  induction m with
  | zero =>
    refine ⟨by simp [e, loop], by simp [e, loop], fun a b _ => ?_⟩
    rw [if_neg (by omega)]
    rfl
  | succ m ih =>
    have e₁ := (e (m + 1)).trans (loop_succ 0 m _ _)
    rw [Nat.zero_add, ← e m] at e₁
    have step := e₁.trans (scatter_row (V := V) (h m) n' (scatterLoop m n' active V).1 (scatterLoop m n' active V).2.1 (scatterLoop m n' active V).2.2)
    obtain ⟨i₁, i₂, i₃⟩ := ih
    rw [step, i₁, i₂]
    have w : min n' hi' = hi' := by omega
    simp only [w]
    refine ⟨(Nat.succ_mul m n').symm, ?_, fun a b hb => ?_⟩
    · split_ifs with c
      · rw [show min m hi = m by omega, show min (m + 1) hi = m + 1 by omega, show m + 1 - lo = (m - lo) + 1 by omega, Nat.succ_mul]
      · rw [show min (m + 1) hi - lo = min m hi - lo by omega, Nat.add_zero]
    · rw [i₃ a b hb]
      rcases Nat.lt_trichotomy a m with c | rfl | c
      · have : (a + 1) * n' ≤ m * n' := Nat.mul_le_mul_right _ c
        rw [Nat.succ_mul] at this
        rw [if_neg (by omega)]
        simp only [show a < m + 1 by omega, c]
      · by_cases c : (lo ≤ a ∧ a < hi) ∧ lo' ≤ b ∧ b < hi'
        · rw [if_pos ⟨c.1, by omega, by omega⟩, if_pos ⟨by omega, c⟩]
          congr 1
          rw [show min a hi = a by omega]
          omega
        · rw [if_neg (by omega), if_neg (by omega), if_neg (by omega)]
      · have : (m + 1) * n' ≤ a * n' := Nat.mul_le_mul_right _ c
        rw [Nat.succ_mul] at this
        rw [if_neg (by omega), if_neg (by omega), if_neg (by omega)]

end

end Ccpy.GuessMatrix
