import Verif.Lemmas.Combinatorics

/-! C45: combinatorics.f90. -/

namespace Ccpy.Combinatorics
open Spec

/-- C45. `binom_i` is the binomial coefficient. -/
theorem C45_binom (m n : ℕ) (h : n ≤ m) : binomI m n = (m.choose n : ℕ) := by
  unfold binomI
  by_cases h1 : (n : ℤ) < (m : ℤ) - n
  · simp only [h1, if_true]
    rcases Nat.eq_zero_or_pos n with rfl | hn
    · simp [doRange]
    · rw [if_neg (by omega)]
      have hs : (m : ℤ) - n = ((m - n : ℕ) : ℤ) := by omega
      rw [hs, binom_fold (m - n) n hn, show m - n + n = m by omega]
  · simp only [h1, if_false]
    have hs : (m : ℤ) - n = ((m - n : ℕ) : ℤ) := by omega
    rw [hs]
    rcases Nat.eq_zero_or_pos (m - n) with hn | hn
    · have : m = n := by omega
      simp [this, doRange]
    · rw [if_neg (by omega), binom_fold n (m - n) hn, show n + (m - n) = m by omega,
        Nat.choose_symm h]

/-- C45. Choosing more items than there are is not answered with 0. -/
theorem C45_binom_too_many_fails : ¬ ∀ m n : ℕ, m < n → binomI m n = 0 := by
  intro h
  have := h 2 5 (by omega)
  revert this
  decide +kernel

example : binomI 10 4 = 210 ∧ binomI 7 7 = 1 ∧ binomI 5 0 = 1 ∧ binomI 2 5 = 6 := by decide +kernel

/-- C45. `factorial`. -/
theorem C45_factorial (n : ℕ) : factorial n = (n.factorial : ℕ) := factorial_eq n

example : factorial 6 = 720 ∧ factorial 0 = 1 := by decide +kernel

/-- C45. One call of `next_combination` on a combination: either it reports `done`, leaves the
array alone, and there is no later combination; or it moves to the combination that follows
immediately in lexicographic order. -/
theorem C45_next_combination {n r : ℕ} {c : ℕ → ℕ} (hc : IsCombination n r c) (hr : 0 < r) :
    (∃ d, nextCombination n r c = some (d, true) ∧ d = c ∧
      ∀ e, IsCombination n r e → ¬ LexBefore r c e) ∨
    (∃ d, nextCombination n r c = some (d, false) ∧ IsCombination n r d ∧ LexBefore r c d ∧
      (∀ k, r ≤ k → d k = c k) ∧
      ∀ e, IsCombination n r e → LexBefore r c e → Same r e d ∨ LexBefore r d e) :=
  next_spec hc hr

/-- Calling `next_combination` `m` times, as long as it does not report `done`. -/
def steps (n r : ℕ) (c : ℕ → ℕ) : ℕ → Option (ℕ → ℕ)
  | 0 => some c
  | m + 1 => match steps n r c m with
    | some d => match nextCombination n r d with
      | some (d', false) => some d'
      | _ => none
    | none => none

/-- C45. Starting from `1, 2, ..., r` every combination is reached before `done` is reported. -/
theorem C45_all_combinations {n r : ℕ} (hr : 0 < r) (hrn : r ≤ n) {e : ℕ → ℕ}
    (he : IsCombination n r e) : ∃ m d, steps n r (fun k => k + 1) m = some d ∧ Same r d e := by
  have key : ∀ fuel m d, steps n r (fun k => k + 1) m = some d → IsCombination n r d →
      (Same r d e ∨ LexBefore r d e) → value n r e - value n r d ≤ fuel →
      ∃ m d, steps n r (fun k => k + 1) m = some d ∧ Same r d e := by
    intro fuel
    induction fuel with
    | zero =>
      intro m d hs hd hle hf
      rcases hle with hle | hle
      · exact ⟨m, d, hs, hle⟩
      · have := value_strict (fun k hk => (hd.1 k hk).2) hle
        omega
    | succ fuel ih =>
      intro m d hs hd hle hf
      rcases hle with hle | hle
      · exact ⟨m, d, hs, hle⟩
      · rcases next_spec hd hr with ⟨d', -, -, hno⟩ | ⟨d', hn, hd', hlt, -, hnext⟩
        · exact absurd hle (hno e he)
        · have hv := value_strict (fun k hk => (hd.1 k hk).2) hlt
          refine ih (m + 1) d' (by simp [steps, hs, hn]) hd' ?_ (by omega)
          rcases hnext e he hle with h | h
          · exact Or.inl fun k hk => (h k hk).symm
          · exact Or.inr h
  exact key _ 0 (fun k => k + 1) rfl (first_comb hrn) (first_least he) (le_refl _)

/-- C45. The calls end: `done` is reported after fewer than `(n+1)^r` calls, and no combination is
visited twice. -/
theorem C45_combinations_end {n r : ℕ} (hr : 0 < r) (hrn : r ≤ n) :
    (∀ m, (n + 1) ^ r ≤ m → steps n r (fun k => k + 1) m = none) ∧
    (∀ m m' d d', m < m' → steps n r (fun k => k + 1) m = some d →
      steps n r (fun k => k + 1) m' = some d' → LexBefore r d d') := by
  have hfirst : IsCombination n r (fun k => k + 1) := first_comb hrn
  have hcomb : ∀ m d, steps n r (fun k => k + 1) m = some d →
      IsCombination n r d ∧ m ≤ value n r d := by
    intro m
    induction m with
    | zero => intro d h; cases h; exact ⟨hfirst, Nat.zero_le _⟩
    | succ m ih =>
      intro d h
      simp only [steps] at h
      split at h
      · rename_i d0 hd0
        obtain ⟨h1, h2⟩ := ih d0 hd0
        rcases next_spec h1 hr with ⟨d', hn, -⟩ | ⟨d', hn, hd', hlt, -⟩
        · simp [hn] at h
        · simp [hn] at h
          subst h
          have := value_strict (fun k hk => (h1.1 k hk).2) hlt
          exact ⟨hd', by omega⟩
      · cases h
  have hstep : ∀ m d d', steps n r (fun k => k + 1) m = some d →
      steps n r (fun k => k + 1) (m + 1) = some d' → LexBefore r d d' := by
    intro m d d' h h'
    simp only [steps, h] at h'
    rcases next_spec (hcomb m d h).1 hr with ⟨d0, hn, -⟩ | ⟨d0, hn, -, hlt, -⟩
    · simp [hn] at h'
    · simp [hn] at h'
      subst h'
      exact hlt
  have htrans : ∀ a b c : ℕ → ℕ, LexBefore r a b → LexBefore r b c → LexBefore r a c := by
    rintro a b c ⟨p, hp, h1, h2⟩ ⟨q, hq, h3, h4⟩
    rcases lt_trichotomy p q with h | rfl | h
    · exact ⟨p, hp, fun k hk => (h1 k hk).trans (h3 k (by omega)), by rw [← h3 p h]; exact h2⟩
    · exact ⟨p, hp, fun k hk => (h1 k hk).trans (h3 k hk), lt_trans h2 h4⟩
    · exact ⟨q, hq, fun k hk => (h1 k (by omega)).trans (h3 k hk), by rw [h1 q h]; exact h4⟩
  constructor
  · intro m hm
    by_contra hne
    obtain ⟨d, hd⟩ := Option.ne_none_iff_exists'.mp hne
    obtain ⟨h1, h2⟩ := hcomb m d hd
    have := value_lt (n := n) (r := r) fun k hk => (h1.1 k hk).2
    omega
  · intro m m' d d' hlt
    induction m' generalizing d' with
    | zero => omega
    | succ m' ih =>
      intro h h'
      rcases Nat.lt_succ_iff_lt_or_eq.mp hlt with hl | rfl
      · have hne : steps n r (fun k => k + 1) m' ≠ none := by
          intro hn; simp [steps, hn] at h'
        obtain ⟨d0, hd0⟩ := Option.ne_none_iff_exists'.mp hne
        exact htrans _ _ _ (ih d0 hl h hd0) (hstep m' d0 d' hd0 h')
      · exact hstep m d d' h h'

/-- C45. With `r = 0` the routine writes outside its array. -/
theorem C45_zero_items_error (n : ℕ) (c : ℕ → ℕ) : nextCombination n 0 c = none := rfl

/-- Combinations of 2 out of 4. -/
example : IsCombination 4 2 (fun k => k + 1) ∧
    (List.range 7).map (fun m => (steps 4 2 (fun k => k + 1) m).map fun d => [d 0, d 1])
      = [some [1, 2], some [1, 3], some [1, 4], some [2, 3], some [2, 4], some [3, 4], none] := by
  exact ⟨first_comb (by omega), by decide +kernel⟩

end Ccpy.Combinatorics
