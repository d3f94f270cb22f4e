import Verif.Model.PivotedCholesky
import Mathlib.Algebra.BigOperators.Intervals
import Mathlib.Algebra.Order.BigOperators.Group.Finset
import Mathlib.Algebra.BigOperators.Ring.Finset
import Mathlib.Tactic.Ring
import Mathlib.Tactic.FieldSimp
import Mathlib.Tactic.Linarith
import Mathlib.Tactic.LinearCombination
import Mathlib.Logic.Equiv.Basic

namespace Ccpy.PivotedCholesky
open Finset

/-- What is left of `A` after the first `m` rows of `R`: `A - Rᵀ R`. -/
def residual (A R : ℕ → ℕ → ℝ) (m p q : ℕ) : ℝ := A p q - ∑ k ∈ range m, R k p * R k q

theorem argmax_le (f : ℕ → ℝ) (n : ℕ) : argmax f n ≤ n := by
  induction n with
  | zero => exact le_rfl
  | succ n ih => simp only [argmax]; split_ifs <;> omega

theorem argmax_max (f : ℕ → ℝ) (n k : ℕ) (hk : k ≤ n) : f k ≤ f (argmax f n) := by
  induction n with
  | zero => rw [Nat.le_zero.mp hk]; exact le_rfl
  | succ n ih =>
    simp only [argmax]
    rcases Nat.lt_or_ge k (n + 1) with h | h
    · have := ih (by omega)
      split_ifs with h'
      · exact this.trans h'.le
      · exact this
    · rw [show k = n + 1 by omega]
      split_ifs with h'
      · exact le_rfl
      · exact not_lt.mp h'

theorem exchange_eq (piv : ℕ → ℕ) (m i : ℕ) : exchange piv m i = piv ∘ Equiv.swap m i := by
  funext k
  unfold exchange
  rw [Function.comp_apply]
  by_cases hi : k = i
  · subst hi
    rw [Function.update_self, Equiv.swap_apply_right]
  · rw [Function.update_of_ne hi]
    by_cases hm : k = m
    · subst hm
      rw [Function.update_self, Equiv.swap_apply_left]
    · rw [Function.update_of_ne hm, Equiv.swap_apply_of_ne_of_ne hm hi]

/-- The loop over the remaining columns writes each of them once. -/
theorem fold_spec (piv : ℕ → ℕ) (g : ℕ → ℝ) (p0 : ℕ) (l : List ℕ) :
    ∀ (row d : ℕ → ℝ), (∀ i ∈ l, piv i ≠ p0) → (l.Pairwise fun i j => piv i ≠ piv j) →
      let x := l.foldl (fun acc i =>
        let r := g i / acc.1 p0
        ((Function.update acc.1 (piv i) r, Function.update acc.2 (piv i) (acc.2 (piv i) - r ^ 2)) :
          (ℕ → ℝ) × (ℕ → ℝ))) (row, d)
      (∀ q, (∀ i ∈ l, piv i ≠ q) → x.1 q = row q ∧ x.2 q = d q) ∧
      (∀ i ∈ l, x.1 (piv i) = g i / row p0 ∧ x.2 (piv i) = d (piv i) - (g i / row p0) ^ 2) := by
  induction l with
  | nil => intro row d _ _; simp
  | cons j l ih =>
    intro row d h0 hp
    have hj : piv j ≠ p0 := h0 j List.mem_cons_self
    have := ih (Function.update row (piv j) (g j / row p0))
      (Function.update d (piv j) (d (piv j) - (g j / row p0) ^ 2))
      (fun i hi => h0 i (List.mem_cons_of_mem _ hi)) hp.of_cons
    simp only [List.foldl_cons] at this ⊢
    rw [Function.update_of_ne hj.symm] at this
    obtain ⟨h1, h2⟩ := this
    refine ⟨fun q hq => ?_, fun i hi => ?_⟩
    · obtain ⟨e1, e2⟩ := h1 q fun i hi => hq i (List.mem_cons_of_mem _ hi)
      have hjq := (hq j List.mem_cons_self).symm
      rw [e1, e2, Function.update_of_ne hjq, Function.update_of_ne hjq]
      exact ⟨rfl, rfl⟩
    · rcases List.mem_cons.mp hi with rfl | hi
      · have hne : ∀ k ∈ l, piv k ≠ piv i := fun k hk => (List.rel_of_pairwise_cons hp hk).symm
        obtain ⟨e1, e2⟩ := h1 (piv i) hne
        rw [e1, e2, Function.update_self, Function.update_self]
        exact ⟨rfl, rfl⟩
      · obtain ⟨e1, e2⟩ := h2 i hi
        rw [e1, e2, Function.update_of_ne (List.rel_of_pairwise_cons hp hi).symm]
        exact ⟨rfl, rfl⟩

/-- State after `m` steps. -/
structure Inv (A : ℕ → ℕ → ℝ) (N m : ℕ) (s : State) : Prop where
  le : m ≤ N
  maps : ∀ i < N, s.piv i < N
  inj : ∀ i < N, ∀ j < N, s.piv i = s.piv j → i = j
  surj : ∀ q < N, ∃ i < N, s.piv i = q
  pivots : ∀ l < m, ∀ q < N, residual A s.R m (s.piv l) q = 0
  unwritten : ∀ k, m ≤ k → ∀ q, s.R k q = 0
  diag : ∀ i, m ≤ i → i < N → s.d (s.piv i) = residual A s.R m (s.piv i) (s.piv i)
  err : 0 < m → s.err = ∑ j ∈ Ico m N, s.d (s.piv j)

theorem inv_start (A : ℕ → ℕ → ℝ) (N : ℕ) : Inv A N 0 (start A N) where
  le := Nat.zero_le _
  maps := fun i h => h
  inj := fun i _ j _ h => h
  surj := fun q h => ⟨q, h, rfl⟩
  pivots := fun l h => absurd h (Nat.not_lt_zero _)
  unwritten := fun _ _ _ => rfl
  diag := fun i _ _ => by simp [start, residual]
  err := fun h => absurd h (Nat.lt_irrefl _)

theorem residual_comm {A R : ℕ → ℕ → ℝ} {N : ℕ} (hA : ∀ p < N, ∀ q < N, A p q = A q p) {m p q : ℕ}
    (hp : p < N) (hq : q < N) : residual A R m p q = residual A R m q p := by
  unfold residual
  rw [hA p hp q hq]
  congr 1
  exact sum_congr rfl fun k _ => mul_comm _ _

theorem residual_congr {A R R' : ℕ → ℕ → ℝ} {m : ℕ} (h : ∀ k < m, R k = R' k) (p q : ℕ) :
    residual A R m p q = residual A R' m p q := by
  unfold residual
  congr 1
  exact sum_congr rfl fun k hk => by rw [h k (mem_range.mp hk)]

theorem residual_succ (A R : ℕ → ℕ → ℝ) (m p q : ℕ) :
    residual A R (m + 1) p q = residual A R m p q - R m p * R m q := by
  unfold residual
  rw [sum_range_succ]
  ring

/-- One step: the invariant, and the outer product that is removed. -/
theorem inv_step {A : ℕ → ℕ → ℝ} {N m : ℕ} (hA : ∀ p < N, ∀ q < N, A p q = A q p) {s s' : State}
    (h : Inv A N m s) (hs : step A N m s = some s') :
    Inv A N (m + 1) s' ∧ (∀ l < m, s'.piv l = s.piv l) ∧ (∀ k < m, s'.R k = s.R k) ∧
      (∀ q < N, s'.R m (s'.piv m) * s'.R m q = residual A s.R m (s'.piv m) q) ∧
      (0 < residual A s.R m (s'.piv m) (s'.piv m) ∨ m + 1 = N) ∧ s'.piv m < N := by
  unfold step at hs
  split_ifs at hs with h1
  simp only at hs
  have hlt : m < N := by omega
  set i0 := m + argmax (fun k => s.d (s.piv (m + k))) (N - m - 1) with hi0
  have hi0N : i0 < N := by
    have := argmax_le (fun k => s.d (s.piv (m + k))) (N - m - 1)
    omega
  have hi0m : m ≤ i0 := by omega
  set π := exchange s.piv m i0 with hπ
  have hsw : ∀ k < N, (Equiv.swap m i0) k < N := by
    intro k hk
    rcases Equiv.swap_apply_eq_iff.mp (rfl : Equiv.swap m i0 k = _) with _
    by_cases e1 : k = m
    · rw [e1, Equiv.swap_apply_left]; exact hi0N
    · by_cases e2 : k = i0
      · rw [e2, Equiv.swap_apply_right]; exact hlt
      · rw [Equiv.swap_apply_of_ne_of_ne e1 e2]; exact hk
  have hπapp : ∀ k, π k = s.piv (Equiv.swap m i0 k) := fun k => by rw [hπ, exchange_eq]; rfl
  have hmaps : ∀ k < N, π k < N := fun k hk => by rw [hπapp]; exact h.maps _ (hsw k hk)
  have hinj : ∀ i < N, ∀ j < N, π i = π j → i = j := by
    intro i hi j hj e
    rw [hπapp, hπapp] at e
    exact (Equiv.swap m i0).injective (h.inj _ (hsw i hi) _ (hsw j hj) e)
  have hsurj : ∀ q < N, ∃ i < N, π i = q := by
    intro q hq
    obtain ⟨i, hi, rfl⟩ := h.surj q hq
    exact ⟨Equiv.swap m i0 i, hsw i hi, by rw [hπapp, Equiv.swap_apply_self]⟩
  have hold : ∀ l < m, π l = s.piv l := fun l hl => by
    rw [hπapp, Equiv.swap_apply_of_ne_of_ne (by omega) (by omega)]
  have hswm : ∀ k, m ≤ k → m ≤ Equiv.swap m i0 k := by
    intro k hk
    by_cases e1 : k = m
    · rw [e1, Equiv.swap_apply_left]; exact hi0m
    · by_cases e2 : k = i0
      · rw [e2, Equiv.swap_apply_right]
      · rw [Equiv.swap_apply_of_ne_of_ne e1 e2]; exact hk
  have hdiag : ∀ k, m ≤ k → k < N → s.d (π k) = residual A s.R m (π k) (π k) := fun k hk hkN => by
    rw [hπapp]; exact h.diag _ (hswm k hk) (hsw k hkN)
  set c := s.d (π m) with hc
  have h2 : ¬(c < 0 ∨ c = 0 ∧ m + 1 < N) := by
    intro hh
    rw [if_pos hh] at hs
    simp at hs
  rw [if_neg h2, Option.some.injEq] at hs
  have hc0 : 0 ≤ c := by
    by_contra hneg
    exact h2 (Or.inl (not_le.mp hneg))
  have hcpos : 0 < c ∨ m + 1 = N := by
    rcases hc0.lt_or_eq with hp | hz
    · exact Or.inl hp
    · exact Or.inr (by
        by_contra hne
        exact h2 (Or.inr ⟨hz.symm, by omega⟩))
  have hcres : c = residual A s.R m (π m) (π m) := hdiag m le_rfl hlt
  -- the row
  have hfold := fold_spec π (fun i => residual A s.R m (π m) (π i)) (π m)
    (List.range' (m + 1) (N - (m + 1))) (Function.update (s.R m) (π m) (Real.sqrt c)) s.d
    (by
      intro i hi
      rw [List.mem_range'_1] at hi
      intro e
      have := hinj i (by omega) m hlt e
      omega)
    (by
      rw [List.pairwise_iff_getElem]
      intro a b ha hb hab
      simp only [List.length_range'] at ha hb
      simp only [List.getElem_range', one_mul]
      intro e
      have := hinj _ (by omega) _ (by omega) e
      omega)
  simp only [Function.update_self] at hfold
  have hrow : rowLoop A N m π s.R (Function.update (s.R m) (π m) (Real.sqrt c)) s.d =
      (List.range' (m + 1) (N - (m + 1))).foldl (fun acc i =>
        ((Function.update acc.1 (π i) (residual A s.R m (π m) (π i) / acc.1 (π m)),
          Function.update acc.2 (π i) (acc.2 (π i) - (residual A s.R m (π m) (π i) / acc.1 (π m)) ^ 2)) :
          (ℕ → ℝ) × (ℕ → ℝ))) (Function.update (s.R m) (π m) (Real.sqrt c), s.d) := rfl
  rw [← hrow] at hfold
  set x := rowLoop A N m π s.R (Function.update (s.R m) (π m) (Real.sqrt c)) s.d with hx
  obtain ⟨hout, hin⟩ := hfold
  have hmem : ∀ i, i ∈ List.range' (m + 1) (N - (m + 1)) ↔ m + 1 ≤ i ∧ i < N := by
    intro i
    rw [List.mem_range'_1]
    omega
  have hrm : x.1 (π m) = Real.sqrt c := by
    have := (hout (π m) fun i hi e => by
      have := hinj i ((hmem i).mp hi).2 m hlt e
      have := ((hmem i).mp hi).1
      omega).1
    rw [this, Function.update_self]
  have hrold : ∀ l < m, x.1 (π l) = 0 := by
    intro l hl
    have hne : ∀ i ∈ List.range' (m + 1) (N - (m + 1)), π i ≠ π l := fun i hi e => by
      have := hinj i ((hmem i).mp hi).2 l (by omega) e
      have := ((hmem i).mp hi).1
      omega
    rw [(hout (π l) hne).1, Function.update_of_ne, h.unwritten m le_rfl]
    intro e
    have := hinj l (by omega) m hlt e
    omega
  have hprod : ∀ q < N, x.1 (π m) * x.1 q = residual A s.R m (π m) q := by
    intro q hq
    obtain ⟨j, hj, rfl⟩ := hsurj q hq
    rcases Nat.lt_trichotomy j m with hjm | rfl | hjm
    · rw [hrold j hjm, mul_zero, residual_comm hA (hmaps m hlt) (hmaps j hj), hold j hjm,
        h.pivots j hjm _ (hmaps m hlt)]
    · rw [hrm, Real.mul_self_sqrt hc0, hcres]
    · have hcp : 0 < c := hcpos.resolve_right (by omega)
      have hne : Real.sqrt c ≠ 0 := (Real.sqrt_pos.mpr hcp).ne'
      rw [(hin j ((hmem j).mpr ⟨hjm, hj⟩)).1, hrm]
      field_simp
  subst hs
  have hRm : ∀ k < m, Function.update s.R m x.1 k = s.R k := fun k hk =>
    Function.update_of_ne (by omega) _ _
  have hres : ∀ p q, residual A (Function.update s.R m x.1) (m + 1) p q =
      residual A s.R m p q - x.1 p * x.1 q := by
    intro p q
    rw [residual_succ, residual_congr hRm, Function.update_self]
  refine ⟨⟨by omega, hmaps, hinj, hsurj, ?_, ?_, ?_, fun _ => rfl⟩, hold, hRm, ?_, ?_, hmaps m hlt⟩
  · intro l hl q hq
    show residual A (Function.update s.R m x.1) (m + 1) (π l) q = 0
    rw [hres]
    rcases Nat.lt_or_ge l m with hlm | hlm
    · rw [hrold l hlm, hold l hlm, h.pivots l hlm q hq]
      ring
    · rw [show l = m by omega, hprod q hq, sub_self]
  · intro k hk q
    show Function.update s.R m x.1 k q = 0
    rw [Function.update_of_ne (by omega)]
    exact h.unwritten k (by omega) q
  · intro i hi hiN
    show x.2 (π i) = residual A (Function.update s.R m x.1) (m + 1) (π i) (π i)
    obtain ⟨e1, e2⟩ := hin i ((hmem i).mpr ⟨hi, hiN⟩)
    rw [hres, e2, e1, hdiag i (by omega) hiN]
    ring
  · intro q hq
    show Function.update s.R m x.1 m (π m) * Function.update s.R m x.1 m q = _
    rw [Function.update_self]
    exact hprod q hq
  · rcases hcpos with hp | he
    · exact Or.inl (by rw [← hcres]; exact hp)
    · exact Or.inr he

/-- A step fails only for an exhausted matrix or a largest remaining diagonal element that is not positive. -/
theorem step_isSome {A : ℕ → ℕ → ℝ} {N m : ℕ} {s : State} (hm : m < N) (j : ℕ) (hj : m ≤ j) (hjN : j < N)
    (hpos : 0 < s.d (s.piv j)) : ∃ s', step A N m s = some s' := by
  unfold step
  rw [if_neg (by omega)]
  have hmax := argmax_max (fun k => s.d (s.piv (m + k))) (N - m - 1) (j - m) (by omega)
  rw [show m + (j - m) = j by omega] at hmax
  have hpiv : exchange s.piv m (m + argmax (fun k => s.d (s.piv (m + k))) (N - m - 1)) m =
      s.piv (m + argmax (fun k => s.d (s.piv (m + k))) (N - m - 1)) := by
    rw [exchange_eq, Function.comp_apply, Equiv.swap_apply_left]
  simp only [hpiv]
  rw [if_neg]
  · exact ⟨_, rfl⟩
  · push Not
    have := hpos.trans_le hmax
    exact ⟨this.le, fun h => absurd h this.ne'⟩

/-- Positive semidefinite on the first `N` indices. -/
def PSD (N : ℕ) (S : ℕ → ℕ → ℝ) : Prop :=
  ∀ x : ℕ → ℝ, 0 ≤ ∑ p ∈ range N, ∑ q ∈ range N, x p * S p q * x q

theorem psd_step {N p0 : ℕ} {S : ℕ → ℕ → ℝ} (hp0 : p0 < N) (hS : PSD N S) (hsym : ∀ p < N, ∀ q < N, S p q = S q p)
    (hc : 0 < S p0 p0) {r : ℕ → ℝ} (hr : ∀ q < N, r p0 * r q = S p0 q) :
    PSD N fun p q => S p q - r p * r q := by
  intro x
  have hr0 : r p0 ≠ 0 := by
    intro h
    have := hr p0 hp0
    rw [h, zero_mul] at this
    exact hc.ne this
  set w := ∑ q ∈ range N, r q * x q with hw
  have key := hS fun p => x p - if p = p0 then w / r p0 else 0
  have expand : ∑ p ∈ range N, ∑ q ∈ range N,
      (x p - if p = p0 then w / r p0 else 0) * S p q * (x q - if q = p0 then w / r p0 else 0) =
      (∑ p ∈ range N, ∑ q ∈ range N, x p * S p q * x q) - 2 * (w / r p0) * (∑ q ∈ range N, S p0 q * x q) +
        (w / r p0) ^ 2 * S p0 p0 := by
    have e1 : ∀ p, ∀ q, (x p - if p = p0 then w / r p0 else 0) * S p q * (x q - if q = p0 then w / r p0 else 0) =
        x p * S p q * x q - (if p = p0 then w / r p0 * (S p q * x q) else 0) -
          (if q = p0 then w / r p0 * (S p q * x p) else 0) +
          (if p = p0 then if q = p0 then (w / r p0) ^ 2 * S p q else 0 else 0) := by
      intro p q
      split_ifs <;> ring
    simp only [e1, sum_add_distrib, sum_sub_distrib]
    have e2 : ∑ p ∈ range N, ∑ q ∈ range N, (if p = p0 then w / r p0 * (S p q * x q) else 0) =
        w / r p0 * ∑ q ∈ range N, S p0 q * x q := by
      rw [sum_eq_single p0]
      · simp only [if_true, ← mul_sum]
      · intro p _ hp; simp [hp]
      · intro h; exact absurd (mem_range.mpr hp0) h
    have e3 : ∑ p ∈ range N, ∑ q ∈ range N, (if q = p0 then w / r p0 * (S p q * x p) else 0) =
        w / r p0 * ∑ q ∈ range N, S p0 q * x q := by
      rw [mul_sum]
      refine sum_congr rfl fun p hp => ?_
      rw [sum_eq_single p0]
      · rw [if_pos rfl, hsym p (mem_range.mp hp) p0 hp0]
      · intro q _ hq; simp [hq]
      · intro h; exact absurd (mem_range.mpr hp0) h
    have e4 : ∑ p ∈ range N, ∑ q ∈ range N, (if p = p0 then if q = p0 then (w / r p0) ^ 2 * S p q else 0 else 0) =
        (w / r p0) ^ 2 * S p0 p0 := by
      rw [sum_eq_single p0]
      · rw [sum_eq_single p0]
        · simp
        · intro q _ hq; simp [hq]
        · intro h; exact absurd (mem_range.mpr hp0) h
      · intro p _ hp; simp [hp]
      · intro h; exact absurd (mem_range.mpr hp0) h
    rw [e2, e3, e4]
    ring
  rw [expand] at key
  have hlin : ∑ q ∈ range N, S p0 q * x q = r p0 * w := by
    rw [hw, mul_sum]
    exact sum_congr rfl fun q hq => by rw [← hr q (mem_range.mp hq)]; ring
  have hquad : ∑ p ∈ range N, ∑ q ∈ range N, x p * (S p q - r p * r q) * x q =
      (∑ p ∈ range N, ∑ q ∈ range N, x p * S p q * x q) - w * w := by
    have : w * w = ∑ p ∈ range N, ∑ q ∈ range N, (r p * x p) * (r q * x q) := by
      rw [hw, sum_mul_sum]
    rw [this, ← sum_sub_distrib]
    refine sum_congr rfl fun p _ => ?_
    rw [← sum_sub_distrib]
    exact sum_congr rfl fun q _ => by ring
  rw [hquad]
  rw [hlin, ← hr p0 hp0] at key
  have : (w / r p0) ^ 2 * (r p0 * r p0) = w * w := by field_simp
  have h2 : 2 * (w / r p0) * (r p0 * w) = 2 * (w * w) := by field_simp
  rw [this, h2] at key
  linarith

theorem psd_diag {N : ℕ} {S : ℕ → ℕ → ℝ} (hS : PSD N S) {p : ℕ} (hp : p < N) : 0 ≤ S p p := by
  have := hS fun k => if k = p then 1 else 0
  rw [sum_eq_single p] at this
  · rw [sum_eq_single p] at this
    · simpa using this
    · intro q _ hq; simp [hq]
    · intro h; exact absurd (mem_range.mpr hp) h
  · intro q _ hq; simp [hq]
  · intro h; exact absurd (mem_range.mpr hp) h

/-- Off-diagonal elements of a positive semidefinite matrix are bounded by the diagonal ones. -/
theorem psd_offdiag {N : ℕ} {S : ℕ → ℕ → ℝ} (hS : PSD N S) (hsym : ∀ p < N, ∀ q < N, S p q = S q p) {p q : ℕ}
    (hp : p < N) (hq : q < N) (hne : p ≠ q) : 2 * |S p q| ≤ S p p + S q q := by
  have aux : ∀ e : ℝ, e * e = 1 → 0 ≤ S p p + 2 * e * S p q + S q q := by
    intro e he
    have := hS fun k => if k = p then 1 else if k = q then e else 0
    have inner : ∀ a, ∑ b ∈ range N, (if a = p then 1 else if a = q then e else 0) * S a b *
        (if b = p then 1 else if b = q then e else 0) =
        (if a = p then 1 else if a = q then e else 0) * (S a p + e * S a q) := by
      intro a
      rw [← sum_subset (s₁ := {p, q})]
      · rw [sum_pair hne, if_pos rfl, if_neg hne.symm, if_pos rfl]
        ring
      · intro b hb
        simp only [mem_insert, mem_singleton] at hb
        rcases hb with rfl | rfl <;> simpa
      · intro b _ hb
        simp only [mem_insert, mem_singleton, not_or] at hb
        simp [hb.1, hb.2]
    simp only [inner] at this
    rw [← sum_subset (s₁ := {p, q})] at this
    · rw [sum_pair hne, if_pos rfl, if_neg hne.symm, if_pos rfl, hsym q hq p hp] at this
      linear_combination this + S q q * he
    · intro b hb
      simp only [mem_insert, mem_singleton] at hb
      rcases hb with rfl | rfl <;> simpa
    · intro b _ hb
      simp only [mem_insert, mem_singleton, not_or] at hb
      simp [hb.1, hb.2]
  have h1 := aux 1 (by ring)
  have h2 := aux (-1) (by ring)
  rcases abs_cases (S p q) with ⟨h, _⟩ | ⟨h, _⟩ <;> rw [h] <;> linarith

end Ccpy.PivotedCholesky
