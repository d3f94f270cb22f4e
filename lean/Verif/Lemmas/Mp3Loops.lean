import Verif.Model.Mp3
import Verif.Lemmas.CrCcSums
import Verif.Lemmas.UniqueSums
import Mathlib.Tactic.Linarith

/-! The loops of `mp3`. -/

namespace Ccpy.Mp3
open Ccpy.PSpace Ccpy.Fortran
open Ccpy.CrCc (doLoop_shift)
open Finset (range Ico)

/-! ### The arrays of first order -/

/-- `t'` has the entries `W` where `C` holds and those of `t` elsewhere. -/
def Wrote (W : Arr4) (C : ℕ → ℕ → ℕ → ℕ → Prop) (t t' : Arr4) : Prop :=
  ∀ p q r s, (C p q r s → t' p q r s = W p q r s) ∧ (¬ C p q r s → t' p q r s = t p q r s)

theorem wrote_list {W : Arr4} {C : ℕ → ℕ → ℕ → ℕ → ℕ → Prop} {body : ℕ → Arr4 → Arr4} (l : List ℕ)
    (h : ∀ i ∈ l, ∀ t, Wrote W (C i) t (body i t)) (t : Arr4) :
    Wrote W (fun p q r s => ∃ i ∈ l, C i p q r s) t (l.foldl (fun t i => body i t) t) := by
  induction l generalizing t with
  | nil => exact fun p q r s => ⟨fun ⟨i, hi, _⟩ => absurd hi List.not_mem_nil, fun _ => rfl⟩
  | cons i l ih =>
    intro p q r s
    have e := ih (fun k hk => h k (List.mem_cons_of_mem _ hk)) (body i t) p q r s
    have e' := h i List.mem_cons_self t p q r s
    rw [List.foldl_cons]
    by_cases c : ∃ k ∈ l, C k p q r s
    · exact ⟨fun _ => e.1 c, fun n => absurd (c.imp fun k hk => ⟨List.mem_cons_of_mem _ hk.1, hk.2⟩) n⟩
    · rw [e.2 c]
      by_cases c' : C i p q r s
      · exact ⟨fun _ => e'.1 c', fun n => absurd ⟨i, List.mem_cons_self, c'⟩ n⟩
      · refine ⟨fun ⟨k, hk, ck⟩ => ?_, fun _ => e'.2 c'⟩
        rcases List.mem_cons.1 hk with rfl | hk
        · exact absurd ck c'
        · exact absurd ⟨k, hk, ck⟩ c

theorem wrote_loop {W : Arr4} {C : ℕ → ℕ → ℕ → ℕ → ℕ → Prop} {lo hi : ℕ} {body : ℕ → Arr4 → Arr4}
    (h : ∀ i, lo ≤ i → ∀ t, Wrote W (C i) t (body i t)) (t : Arr4) :
    Wrote W (fun p q r s => ∃ i, (lo ≤ i ∧ i ≤ hi) ∧ C i p q r s) t (doLoop lo hi body t) := by
  have e := wrote_list (List.range' lo (hi + 1 - lo)) (fun i hi => h i (List.mem_range'_1.1 hi).1) t
  have m : ∀ i, i ∈ List.range' lo (hi + 1 - lo) ↔ lo ≤ i ∧ i ≤ hi := fun i => by rw [List.mem_range'_1]; omega
  simp only [m] at e
  exact e

theorem store_same (t : Arr4) (a b i j : ℕ) (x : ℚ) : store t a b i j x a b i j = x := if_pos ⟨rfl, rfl, rfl, rfl⟩

/-- Entries of an antisymmetric array divided by the energy differences. -/
def quotient (foo fvv : Arr2) (vvoo : Arr4) : Arr4 :=
  fun p q r s => vvoo p q r s / (foo r r + foo s s - fvv p p - fvv q q)

theorem firstLike_eq {foo fvv : Arr2} {vvoo : Arr4} (h₁ : ∀ p q r s, vvoo q p r s = -vvoo p q r s)
    (h₂ : ∀ p q r s, vvoo p q s r = -vvoo p q r s) {no nu p q r s : ℕ} (hp : p < nu) (hq : q < nu) (hr : r < no) (hs : s < no) :
    firstLike foo fvv vvoo no nu (fun _ _ _ _ => 0) (p + 1) (q + 1) (r + 1) (s + 1) = quotient foo fvv vvoo (p + 1) (q + 1) (r + 1) (s + 1) := by
  have q₁ : ∀ p q r s, quotient foo fvv vvoo q p r s = -quotient foo fvv vvoo p q r s := fun p q r s => by
    simp only [quotient]; rw [h₁, sub_right_comm, neg_div]
  have q₂ : ∀ p q r s, quotient foo fvv vvoo p q s r = -quotient foo fvv vvoo p q r s := fun p q r s => by
    simp only [quotient]; rw [h₂, add_comm (foo s s), neg_div]
  have step : ∀ a b i j, a + 1 ≤ b → i + 1 ≤ j → ∀ t : Arr4, Wrote (quotient foo fvv vvoo)
      (fun p q r s => (p = a ∧ q = b ∨ p = b ∧ q = a) ∧ (r = i ∧ s = j ∨ r = j ∧ s = i)) t
      (let denom := foo i i + foo j j - fvv a a - fvv b b
       let t := store t a b i j (vvoo a b i j / denom)
       let t := store t b a i j (-t a b i j)
       let t := store t a b j i (-t a b i j)
       store t b a j i (t a b i j)) := by
    intro a b i j hb hj t p q r s
    have ab : a ≠ b := by omega
    have ij : i ≠ j := by omega
    have e₁ : vvoo a b i j / (foo i i + foo j j - fvv a a - fvv b b) = quotient foo fvv vvoo a b i j := rfl
    simp only [e₁, store]
    constructor
    · rintro ⟨⟨rfl, rfl⟩ | ⟨rfl, rfl⟩, ⟨rfl, rfl⟩ | ⟨rfl, rfl⟩⟩
      · simp [ab, ij]
      · simp [ab, ij, ij.symm, q₂ p q s r]
      · simp [ab, ab.symm, ij, q₁ q p r s]
      · simp [ab, ab.symm, ij, ij.symm, q₁ q p r s, q₂ q p s r]
    · intro n
      rw [if_neg, if_neg, if_neg, if_neg] <;> rintro ⟨rfl, rfl, rfl, rfl⟩ <;> exact n (by simp)
  have w := wrote_loop (lo := 1) (hi := nu) (fun a _ => wrote_loop (lo := a + 1) (hi := nu)
    (fun b hb => wrote_loop (lo := 1) (hi := no) (fun i _ => wrote_loop (lo := i + 1) (hi := no)
    (fun j hj t => step a b i j hb hj t)))) (fun _ _ _ _ => 0) (p + 1) (q + 1) (r + 1) (s + 1)
  by_cases hpq : p = q
  · subst hpq
    have z : quotient foo fvv vvoo (p + 1) (p + 1) (r + 1) (s + 1) = 0 := by
      have := q₁ (p + 1) (p + 1) (r + 1) (s + 1); linarith
    rw [z] at w ⊢
    exact (Classical.em _).elim w.1 w.2
  · by_cases hrs : r = s
    · subst hrs
      have z : quotient foo fvv vvoo (p + 1) (q + 1) (r + 1) (r + 1) = 0 := by
        have := q₂ (p + 1) (q + 1) (r + 1) (r + 1); linarith
      rw [z] at w ⊢
      exact (Classical.em _).elim w.1 w.2
    · exact w.1 ⟨min p q + 1, by omega, max p q + 1, by omega, min r s + 1, by omega, max r s + 1, by omega, by omega, by omega⟩

theorem firstMixed_eq (x : Args) (d : Dims) {p q r s : ℕ} (hp : p < d.ua) (hq : q < d.ub) (hr : r < d.oa) (hs : s < d.ob) :
    firstMixed x d (fun _ _ _ _ => 0) (p + 1) (q + 1) (r + 1) (s + 1) = x.vB_vvoo (p + 1) (q + 1) (r + 1) (s + 1)
      / (x.fA_oo (r + 1) (r + 1) + x.fB_oo (s + 1) (s + 1) - x.fA_vv (p + 1) (p + 1) - x.fB_vv (q + 1) (q + 1)) := by
  have step : ∀ a b i j, ∀ t : Arr4, Wrote (fun a b i j => x.vB_vvoo a b i j / (x.fA_oo i i + x.fB_oo j j - x.fA_vv a a - x.fB_vv b b))
      (fun p q r s => p = a ∧ q = b ∧ r = i ∧ s = j) t
      (let denom := x.fA_oo i i + x.fB_oo j j - x.fA_vv a a - x.fB_vv b b
       store t a b i j (x.vB_vvoo a b i j / denom)) := by
    intro a b i j t p q r s
    simp only [store]
    constructor
    · rintro ⟨rfl, rfl, rfl, rfl⟩
      rw [if_pos ⟨rfl, rfl, rfl, rfl⟩]
    · exact fun n => if_neg n
  have w := wrote_loop (lo := 1) (hi := d.ua) (fun a _ => wrote_loop (lo := 1) (hi := d.ub)
    (fun b _ => wrote_loop (lo := 1) (hi := d.oa) (fun i _ => wrote_loop (lo := 1) (hi := d.ob)
    (fun j _ t => step a b i j t)))) (fun _ _ _ _ => 0) (p + 1) (q + 1) (r + 1) (s + 1)
  exact w.1 ⟨p + 1, by omega, q + 1, by omega, r + 1, by omega, s + 1, by omega, rfl, rfl, rfl, rfl⟩

/-! ### Sums -/

theorem half_pairs {n : ℕ} {F : ℕ → ℕ → ℚ} (h : ∀ a b, F b a = F a b) (h0 : ∀ a, F a a = 0) :
    1 / 2 * ∑ a ∈ range n, ∑ b ∈ range n, F a b = ∑ a ∈ range n, ∑ b ∈ Ico (a + 1) n, F a b := by
  rw [Spec.sum_pairs h h0, Spec.sum_uniquePairs]
  have e : ∑ a ∈ range n, ∑ b ∈ Ico (a + 1) n, F a b = ∑ f ∈ range n, ∑ e ∈ range f, F e f := by
    refine Finset.sum_comm' fun a b => ?_
    simp only [Finset.mem_range, Finset.mem_Ico]
    omega
  rw [e]
  ring

theorem loop_sum {n : ℕ} {body : ℕ → ℚ → ℚ} {f : ℕ → ℚ} (h : ∀ i s, body (i + 1) s = s + f i) (s : ℚ) :
    doLoop 1 n body s = s + ∑ i ∈ range n, f i := by
  rw [doLoop_shift (lo := 0) (fun i s _ => h i s), Finset.range_eq_Ico]

theorem loop_two {n k : ℕ} {body : ℕ → ℕ → ℚ → ℚ} {f : ℕ → ℕ → ℚ} (h : ∀ i j s, body (i + 1) (j + 1) s = s + f i j) (s : ℚ) :
    doLoop 1 n (fun i => doLoop 1 k (body i)) s = s + ∑ i ∈ range n, ∑ j ∈ range k, f i j :=
  loop_sum (fun i s => loop_sum (h i) s) s

theorem loop_pair {n : ℕ} {body : ℕ → ℕ → ℚ → ℚ} {f : ℕ → ℕ → ℚ} (h : ∀ i j s, body (i + 1) (j + 1) s = s + f i j) (s : ℚ) :
    doLoop 1 n (fun i => doLoop (i + 1) n (body i)) s = s + ∑ i ∈ range n, ∑ j ∈ Ico (i + 1) n, f i j :=
  loop_sum (fun i s => doLoop_shift (fun j s _ => h i j s) s) s

end Ccpy.Mp3
