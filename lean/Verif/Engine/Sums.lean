import Verif.Engine.Basic
import Mathlib.Algebra.BigOperators.Group.Finset.Sigma
import Mathlib.Algebra.BigOperators.Intervals
import Mathlib.Algebra.BigOperators.Group.List.Basic
import Mathlib.Algebra.Field.Rat
import Mathlib.Algebra.BigOperators.Ring.Finset
import Mathlib.Algebra.Module.BigOperators
import Mathlib.Tactic.Ring

/-! Sums over lists of variables. -/

namespace Ccpy.Engine

open Finset

/-- An assignment of orbital positions to variables. -/
abbrev Env := ℕ → ℕ

variable {M : Type*} [AddCommMonoid M]

/-- `Σ_s g`: every variable of the list runs over its space. -/
def sumV (dim : ℕ → ℕ) : List Var → (Env → M) → Env → M
  | [], g, ρ => g ρ
  | v :: s, g, ρ => ∑ k ∈ range (dim (v % 4)), sumV dim s g (Function.update ρ v k)

/-- The assignments met in the sum over `s` starting from `ρ`. -/
def Reach (dim : ℕ → ℕ) (s : List Var) (ρ ρ' : Env) : Prop :=
  (∀ x, x ∉ s → ρ' x = ρ x) ∧ ∀ x ∈ s, ρ' x < dim (x % 4)

variable {dim : ℕ → ℕ}

theorem sumV_congr {g g' : Env → M} {s : List Var} : ∀ {ρ : Env},
    (∀ ρ', Reach dim s ρ ρ' → g ρ' = g' ρ') → sumV dim s g ρ = sumV dim s g' ρ := by
  induction s with
  | nil => intro ρ h; exact h ρ ⟨fun _ _ => rfl, fun _ h => absurd h (List.not_mem_nil)⟩
  | cons v s ih =>
    intro ρ h
    refine Finset.sum_congr rfl fun k hk => ih fun ρ' hr => h ρ' ⟨fun x hx => ?_, fun x hx => ?_⟩
    · rw [List.mem_cons, not_or] at hx
      rw [hr.1 x hx.2, Function.update_of_ne hx.1]
    · by_cases hs : x ∈ s
      · exact hr.2 x hs
      · have : x = v := by simpa [hs] using hx
        subst this
        rw [hr.1 x hs, Function.update_self]
        exact Finset.mem_range.1 hk

theorem sumV_append (s t : List Var) (g : Env → M) : ∀ ρ,
    sumV dim (s ++ t) g ρ = sumV dim s (sumV dim t g) ρ := by
  induction s with
  | nil => intro ρ; rfl
  | cons v s ih => intro ρ; exact Finset.sum_congr rfl fun k _ => ih _

theorem sumV_hom {N : Type*} [AddCommMonoid N] (φ : M →+ N) (s : List Var) (g : Env → M) : ∀ ρ,
    φ (sumV dim s g ρ) = sumV dim s (fun ρ => φ (g ρ)) ρ := by
  induction s with
  | nil => intro ρ; rfl
  | cons v s ih => intro ρ; simp only [sumV, map_sum, ih]

theorem sumV_finset {κ : Type*} (A : Finset κ) (s : List Var) (g : κ → Env → M) : ∀ ρ,
    sumV dim s (fun ρ => ∑ k ∈ A, g k ρ) ρ = ∑ k ∈ A, sumV dim s (g k) ρ := by
  induction s with
  | nil => intro ρ; rfl
  | cons v s ih => intro ρ; simp only [sumV, ih]; exact Finset.sum_comm

theorem sumV_zero (s : List Var) : ∀ ρ, sumV dim s (fun _ => (0 : M)) ρ = 0 := by
  induction s with
  | nil => intro ρ; rfl
  | cons v s ih => intro ρ; simp only [sumV, ih, Finset.sum_const_zero]

theorem sumV_add (s : List Var) (g g' : Env → M) : ∀ ρ,
    sumV dim s (fun ρ => g ρ + g' ρ) ρ = sumV dim s g ρ + sumV dim s g' ρ := by
  induction s with
  | nil => intro ρ; rfl
  | cons v s ih => intro ρ; simp only [sumV, ih, Finset.sum_add_distrib]

theorem sumV_list {κ : Type*} (l : List κ) (s : List Var) (g : κ → Env → M) (ρ : Env) :
    sumV dim s (fun ρ => (l.map fun k => g k ρ).sum) ρ = (l.map fun k => sumV dim s (g k) ρ).sum := by
  induction l with
  | nil => simpa using sumV_zero s ρ
  | cons x l ih => simp only [List.map_cons, List.sum_cons]; rw [sumV_add, ih]

theorem sumV_update {v : Var} {s : List Var} (hv : v ∉ s) (g : Env → M) (k : ℕ) : ∀ ρ : Env,
    sumV dim s g (Function.update ρ v k) = sumV dim s (fun ρ' => g (Function.update ρ' v k)) ρ := by
  induction s with
  | nil => intro ρ; rfl
  | cons x s ih =>
    intro ρ
    rw [List.mem_cons, not_or] at hv
    refine Finset.sum_congr rfl fun m _ => ?_
    rw [Function.update_comm hv.1, ih hv.2]

theorem sumV_perm {s t : List Var} (h : s.Perm t) (g : Env → M) : s.Nodup → ∀ ρ, sumV dim s g ρ = sumV dim t g ρ := by
  induction h with
  | nil => intro _ ρ; rfl
  | cons x _ ih => intro hn ρ; exact Finset.sum_congr rfl fun k _ => ih (List.nodup_cons.1 hn).2 _
  | swap x y l =>
    intro hn ρ
    have hxy : y ≠ x := fun e => by simp [e] at hn
    simp only [sumV]
    rw [Finset.sum_comm]
    refine Finset.sum_congr rfl fun k _ => Finset.sum_congr rfl fun m _ => ?_
    rw [Function.update_comm hxy]
  | trans h₁ _ ih₁ ih₂ => intro hn ρ; rw [ih₁ hn, ih₂ (h₁.nodup_iff.1 hn)]

/-- Only the variables that occur matter. -/
theorem sumV_irrel {s : List Var} {g : Env → M} {P : Var → Prop}
    (hg : ∀ ρ₁ ρ₂ : Env, (∀ x, P x → ρ₁ x = ρ₂ x) → g ρ₁ = g ρ₂) : ∀ {ρ₁ ρ₂ : Env},
    (∀ x, P x → x ∉ s → ρ₁ x = ρ₂ x) → sumV dim s g ρ₁ = sumV dim s g ρ₂ := by
  induction s with
  | nil => intro ρ₁ ρ₂ h; exact hg _ _ fun x hx => h x hx (List.not_mem_nil)
  | cons v s ih =>
    intro ρ₁ ρ₂ h
    refine Finset.sum_congr rfl fun k _ => ih fun x hx hs => ?_
    by_cases e : x = v
    · subst e; simp
    · rw [Function.update_of_ne e, Function.update_of_ne e]
      exact h x hx (by simp [e, hs])

/-- Removing `δ(v, w)` from a sum that contains `v`. -/
theorem sumV_delta {v w : Var} (hvw : v ≠ w) {s₁ s₂ : List Var} (h₁ : v ∉ s₁) (h₂ : v ∉ s₂) (hm : v % 4 = w % 4)
    (g : Env → M) : ∀ {ρ : Env}, (w ∈ s₁ ++ s₂ ∨ ρ w < dim (w % 4)) →
    sumV dim (s₁ ++ v :: s₂) (fun ρ => if ρ v = ρ w then g ρ else 0) ρ
      = sumV dim (s₁ ++ s₂) (fun ρ => g (Function.update ρ v (ρ w))) ρ := by
  induction s₁ with
  | cons x s₁ ih =>
    intro ρ hw
    rw [List.mem_cons, not_or] at h₁
    refine Finset.sum_congr rfl fun k hk => ih h₁.2 ?_
    rcases hw with hw | hw
    · rcases List.mem_cons.1 hw with hw | hw
      · right; subst hw; simpa using hk
      · exact Or.inl hw
    · by_cases e : w = x
      · right; subst e; simpa using hk
      · right; rwa [Function.update_of_ne e]
  | nil =>
    intro ρ hw
    simp only [List.nil_append, sumV] at hw ⊢
    simp only [sumV_update h₂]
    rw [← sumV_finset]
    refine sumV_congr fun ρ' hr => ?_
    have hlt : ρ' w < dim (v % 4) := by
      rw [hm]
      by_cases hs : w ∈ s₂
      · exact hr.2 w hs
      · rw [hr.1 w hs]; exact hw.resolve_left hs
    rw [Finset.sum_eq_single (ρ' w)]
    · simp [Function.update_of_ne hvw.symm]
    · intro k _ hk
      rw [Function.update_self, Function.update_of_ne hvw.symm, if_neg hk]
    · intro h; exact absurd (Finset.mem_range.2 hlt) h

/-- Renaming a summed variable. -/
theorem sumV_rename {v w : Var} {s₁ s₂ : List Var} (h₁ : v ∉ s₁) (h₂ : v ∉ s₂) (hw₂ : w ∉ s₂) (hm : v % 4 = w % 4)
    {g : Env → M} (hg : ∀ (ρ : Env) k, g (Function.update ρ w k) = g ρ) : ∀ {ρ : Env},
    sumV dim (s₁ ++ v :: s₂) g ρ = sumV dim (s₁ ++ w :: s₂) (fun ρ => g (Function.update ρ v (ρ w))) ρ := by
  induction s₁ with
  | cons x s₁ ih =>
    intro ρ
    rw [List.mem_cons, not_or] at h₁
    exact Finset.sum_congr rfl fun k hk => ih h₁.2
  | nil =>
    intro ρ
    simp only [List.nil_append, sumV]
    rw [hm]
    refine Finset.sum_congr rfl fun k _ => ?_
    rw [sumV_update h₂, sumV_update hw₂]
    refine sumV_congr fun ρ' _ => ?_
    rw [Function.update_self]
    by_cases e : v = w
    · subst e; rw [Function.update_idem]
    · rw [Function.update_comm (Ne.symm e), hg]

end Ccpy.Engine
