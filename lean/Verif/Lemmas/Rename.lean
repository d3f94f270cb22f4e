import Verif.Model.KernelCalls
import Verif.Spec.StoredArrays
import Mathlib.Tactic.Ring

/-! Renaming of stored arrays, and transposition. -/

namespace Ccpy.Tensor

mutual
/-- Rename the stored arrays. -/
def Ex.rename (σ : ℕ → ℕ) : Ex → Ex
  | .arr n sp => .arr (σ n) sp
  | .es out b => .es out (b.rename σ)
  | .add x y => .add (x.rename σ) (y.rename σ)
  | .smul s n d x => .smul s n d (x.rename σ)
def Body.rename (σ : ℕ → ℕ) : Body → Body
  | .nil => .nil
  | .cons l x r => .cons l (x.rename σ) (r.rename σ)
end

mutual
theorem Ex.axes_rename (σ : ℕ → ℕ) : ∀ x : Ex, (x.rename σ).axes = x.axes
  | .arr n sp => rfl
  | .es out b => by simp only [Ex.rename, Ex.axes, Body.letters_rename σ b]
  | .add x y => by simp only [Ex.rename, Ex.axes, Ex.axes_rename σ x]
  | .smul s n d x => by simp only [Ex.rename, Ex.axes, Ex.axes_rename σ x]
theorem Body.letters_rename (σ : ℕ → ℕ) : ∀ b : Body, (b.rename σ).letters = b.letters
  | .nil => rfl
  | .cons l x r => by simp only [Body.rename, Body.letters, Ex.axes_rename σ x, Body.letters_rename σ r]
end

mutual
theorem Ex.denote_rename (dim : ℕ → ℕ) (I : ℕ → List (ℕ × ℕ) → ℚ) (σ : ℕ → ℕ) :
    ∀ (x : Ex) (idx : List ℕ), (x.rename σ).denote dim I idx = x.denote dim (fun n => I (σ n)) idx
  | .arr n sp, idx => rfl
  | .es out b, idx => by
    simp only [Ex.rename, Ex.denote, Body.letters_rename σ b]
    congr 1
    funext ε
    exact Body.denote_rename dim I σ b ε
  | .add x y, idx => by simp only [Ex.rename, Ex.denote, Ex.denote_rename dim I σ x, Ex.denote_rename dim I σ y]
  | .smul s n d x, idx => by simp only [Ex.rename, Ex.denote, Ex.denote_rename dim I σ x]
theorem Body.denote_rename (dim : ℕ → ℕ) (I : ℕ → List (ℕ × ℕ) → ℚ) (σ : ℕ → ℕ) :
    ∀ (b : Body) (ε : ℕ → ℕ), (b.rename σ).denote dim I ε = b.denote dim (fun n => I (σ n)) ε
  | .nil, _ => rfl
  | .cons l x r, ε => by simp only [Body.rename, Body.denote, Ex.denote_rename dim I σ x, Body.denote_rename dim I σ r]
end

theorem summed_nil {l : List (ℕ × ℕ)} {out : List ℕ} (h : ∀ e ∈ l, e.1 ∈ out) : summed l out = [] := by
  induction l with
  | nil => rfl
  | cons e l ih =>
    obtain ⟨c, s⟩ := e
    have hc := h (c, s) (List.mem_cons_self ..)
    rw [summed, if_pos (by simpa using hc)]
    exact ih fun e he => h e (List.mem_cons_of_mem _ he)

/-- A transposition of four axes. -/
theorem denote_transpose4 (dim : ℕ → ℕ) (I : ℕ → List (ℕ × ℕ) → ℚ) (x : Ex) {p q r s : ℕ}
    (h : ∀ k < 4, k ∈ [p, q, r, s]) (idx : List ℕ) : (transpose [p, q, r, s] x).denote dim I idx
      = x.denote dim I ((List.range 4).map (look ([p, q, r, s].zip idx))) := by
  have hl : (Body.cons (List.range 4) x .nil).letters = (List.range 4).zip x.axes ++ [] := rfl
  have e : (transpose [p, q, r, s] x).denote dim I idx
    = sumLetters dim (summed (Body.cons (List.range 4) x .nil).letters [p, q, r, s]) ((Body.cons (List.range 4) x .nil).denote dim I)
      (look ([p, q, r, s].zip idx)) := by simp only [transpose, Ex.denote]; rfl
  rw [e, hl, List.append_nil, summed_nil]
  · simp only [sumLetters, Body.denote, mul_one]
  · intro e he
    exact h _ (List.mem_range.1 (List.of_mem_zip (show (e.1, e.2) ∈ _ from he)).1)

/-- Renaming arrays of equal content. -/
theorem Setup.eval_rename (s : Setup) (m : Memory) {σ : ℕ → ℕ} (h₀ : ∀ n < 6, σ n = n) (h : ∀ n, 6 ≤ n → 6 ≤ σ n ∧ m (σ n) = m n)
    (x : Ex) : s.eval m x = s.eval m (x.rename σ) := by
  funext idx
  have : (fun n => elements s.na s.nb s.f s.v m (σ n)) = elements s.na s.nb s.f s.v m := by
    funext n
    by_cases hn : n < 6
    · rw [h₀ n hn]
    · obtain ⟨k, rfl⟩ : ∃ k, n = k + 6 := ⟨n - 6, by omega⟩
      obtain ⟨h₁, h₂⟩ := h (k + 6) (by omega)
      obtain ⟨k', hk⟩ : ∃ k', σ (k + 6) = k' + 6 := ⟨σ (k + 6) - 6, by omega⟩
      rw [hk] at h₂ ⊢
      funext l
      show m (k' + 6) _ = m (k + 6) _
      rw [h₂]
  unfold Setup.eval
  rw [Ex.denote_rename, this]

end Ccpy.Tensor
