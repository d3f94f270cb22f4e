import Verif.Lemmas.KernelCalls3

/-! An iteration in several stages, each of which computes new amplitudes from the new amplitudes of the earlier stages and the
old amplitudes of the others. -/

namespace Ccpy.Tensor

/-- The names of the arrays of the `k`-th stage: old amplitudes, new amplitudes, increments. -/
def oldName (k : ℕ) : ℕ := if k ≤ 5 then 5 + k else 100 + k
def newName (k : ℕ) : ℕ := if k ≤ 5 then 10 + k else 104 + k
def incName (k : ℕ) : ℕ := if k ≤ 5 then 15 + k else 108 + k

/-- The new amplitudes of the first `k` stages are identified with the old ones. -/
def backName (k n : ℕ) : ℕ :=
  if 11 ≤ n ∧ n ≤ 15 ∧ n ≤ 10 + k then n - 5 else if 110 ≤ n ∧ n ≤ 113 ∧ n ≤ 104 + k then n - 4 else n

/-- The names that the stages write to. -/
def Reserved (n : ℕ) : Prop := 11 ≤ n ∧ n ≤ 20 ∨ 110 ≤ n ∧ n ≤ 117

def put (m : Memory) (k : ℕ) (r : (List ℕ → ℚ) × (List ℕ → ℚ)) : Memory :=
  Function.update (Function.update m (newName k) r.1) (incName k) r.2

/-- The stages from `k` on. -/
def stages (m : Memory) : List (Memory → (List ℕ → ℚ) × (List ℕ → ℚ)) → ℕ → Memory
  | [], _ => m
  | F :: Fs, k => stages (put m k (F m)) Fs (k + 1)

theorem names {k : ℕ} (h₁ : 1 ≤ k) (h₂ : k ≤ 9) : newName k ≠ incName k ∧ Reserved (newName k) ∧ Reserved (incName k)
    ∧ ¬ Reserved (oldName k) ∧ backName k (newName k) = oldName k := by
  unfold newName incName oldName backName Reserved
  split_ifs <;> omega

theorem put_new (m : Memory) {k : ℕ} (h₁ : 1 ≤ k) (h₂ : k ≤ 9) (r) : put m k r (newName k) = r.1 := by
  unfold put
  rw [Function.update_of_ne (names h₁ h₂).1, Function.update_self]

theorem put_other (m : Memory) (k : ℕ) (r) {n : ℕ} (h₁ : n ≠ newName k) (h₂ : n ≠ incName k) : put m k r n = m n := by
  unfold put
  rw [Function.update_of_ne h₂, Function.update_of_ne h₁]

theorem put_old (m : Memory) {k : ℕ} (h₁ : 1 ≤ k) (h₂ : k ≤ 9) (r) {n : ℕ} (h : ¬ Reserved n) : put m k r n = m n :=
  put_other m k r (fun e => h (e ▸ (names h₁ h₂).2.1)) fun e => h (e ▸ (names h₁ h₂).2.2.1)

/-- Later stages keep the results. -/
theorem stages_keep : ∀ (Fs : List (Memory → (List ℕ → ℚ) × (List ℕ → ℚ))) (m : Memory) {k j : ℕ}, 1 ≤ j → j < k →
    k + Fs.length ≤ 10 → stages m Fs k (newName j) = m (newName j) ∧ stages m Fs k (incName j) = m (incName j)
  | [], m, k, j, _, _, _ => ⟨rfl, rfl⟩
  | F :: Fs, m, k, j, h₁, h₂, h₃ => by
    rw [List.length_cons] at h₃
    have hn : newName j ≠ newName k ∧ newName j ≠ incName k ∧ incName j ≠ newName k ∧ incName j ≠ incName k := by
      unfold newName incName
      split_ifs <;> omega
    obtain ⟨e₁, e₂⟩ := stages_keep Fs (put m k (F m)) (k := k + 1) (j := j) h₁ (by omega) (by omega)
    exact ⟨e₁.trans (put_other m k _ hn.1 hn.2.1), e₂.trans (put_other m k _ hn.2.2.1 hn.2.2.2)⟩

/-- All stages are at rest exactly when all conditions hold. -/
theorem stages_fixed {m₀ : Memory} {Q : ℕ → Prop} : ∀ (Fs : List (Memory → (List ℕ → ℚ) × (List ℕ → ℚ))) (m : Memory) {k : ℕ},
    1 ≤ k → k + Fs.length ≤ 10 → (∀ n, ¬ Reserved n → m n = m₀ n) → (∀ n, m n = m (backName (k - 1) n)) →
    (∀ (j : ℕ) (hj : j < Fs.length) (m' : Memory), (∀ n, ¬ Reserved n → m' n = m₀ n) →
      (∀ n, m' n = m' (backName (k - 1 + j) n)) → ((Fs[j] m').1 = m₀ (oldName (k + j)) ↔ Q (k + j))) →
    ((∀ j < Fs.length, stages m Fs k (newName (k + j)) = m₀ (oldName (k + j))) ↔ ∀ j < Fs.length, Q (k + j))
  | [], m, k, _, _, _, _, _ => by simp
  | F :: Fs, m, k, h₁, h₂, hm, hs, hF => by
    rw [List.length_cons] at h₂
    have n := names h₁ (by omega : k ≤ 9)
    have hold : ∀ n, ¬ Reserved n → put m k (F m) n = m₀ n := fun n hn => (put_old m h₁ (by omega) _ hn).trans (hm n hn)
    have h0 : (F m).1 = m₀ (oldName k) ↔ Q k := hF 0 (by simp) m hm hs
    have hnew : stages m (F :: Fs) k (newName k) = (F m).1 :=
      (stages_keep Fs (put m k (F m)) (k := k + 1) (j := k) h₁ (by omega) (by omega)).1.trans (put_new m h₁ (by omega) _)
    have hsame : (F m).1 = m₀ (oldName k) → ∀ n, put m k (F m) n = put m k (F m) (backName k n) := by
      intro g n'
      by_cases e : n' = newName k
      · rw [e, n.2.2.2.2, put_new m h₁ (by omega), g, hold _ n.2.2.2.1]
      by_cases e' : n' = incName k
      · have : backName k n' = n' := by
          rw [e']; unfold incName backName; split_ifs <;> omega
        rw [this]
      · have b : backName k n' = backName (k - 1) n' := by
          unfold newName at e
          unfold backName
          split_ifs at e ⊢ <;> omega
        have b₁ : backName (k - 1) n' ≠ newName k ∧ backName (k - 1) n' ≠ incName k := by
          unfold newName at e
          unfold incName at e'
          unfold backName newName incName
          split_ifs at e e' ⊢ <;> omega
        rw [b, put_other m k _ e e', put_other m k _ b₁.1 b₁.2]
        exact hs n'
    have ih : (F m).1 = m₀ (oldName k) → _ := fun g => stages_fixed (Q := Q) Fs (put m k (F m)) (k := k + 1) (by omega)
      (by omega) hold (by simpa using hsame g) fun j hj m' hm' hs' => by
        have := hF (j + 1) (by simpa using hj) m' hm' (by
          rw [show k - 1 + (j + 1) = k + 1 - 1 + j by omega]; exact hs')
        rw [show k + 1 + j = k + (j + 1) by omega]
        exact this
    constructor
    · intro g j hj
      have g0 : (F m).1 = m₀ (oldName k) := hnew.symm.trans (g 0 (by simp))
      rcases j with _ | j
      · exact h0.1 g0
      · have := (ih g0).1 (fun i hi => by
          have := g (i + 1) (by simpa using hi)
          rw [show k + (i + 1) = k + 1 + i by omega] at this
          exact this) j (by simpa using hj)
        rwa [show k + (j + 1) = k + 1 + j by omega]
    · intro g j hj
      have g0 : (F m).1 = m₀ (oldName k) := h0.2 (g 0 (by simp))
      rcases j with _ | j
      · exact hnew.trans g0
      · have := (ih g0).2 (fun i hi => by
          have := g (i + 1) (by simpa using hi)
          rwa [show k + (i + 1) = k + 1 + i by omega] at this) j (by simpa using hj)
        rw [show k + (j + 1) = k + 1 + j by omega]
        exact this

/-- Evaluation after `k` stages. -/
theorem eval_backName (s : Setup) {m : Memory} {k : ℕ} (hk : ∀ n, m n = m (backName k n)) (x : Ex) :
    s.eval m x = s.eval m (x.rename (backName k)) := by
  refine s.eval_rename m (fun n h => by unfold backName; split_ifs <;> omega) (fun n h => ?_) x
  refine ⟨by unfold backName; split_ifs <;> omega, (hk n).symm⟩

end Ccpy.Tensor
