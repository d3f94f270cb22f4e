import Verif.Lemmas.PSpaceSums

/-! Linear functions of the triple excitations, evaluated on lists. -/

namespace Ccpy.PSpace
open Ccpy.Fock
open Finset (range)

abbrev Tens := ℕ → ℕ → ℕ → ℕ → ℕ → ℕ → ℚ

structure IsLinear (F : Tens → ℚ) : Prop where
  zero : F (fun _ _ _ _ _ _ => 0) = 0
  add : ∀ (t u : Tens) (s : ℚ), F (fun a b c i j k => t a b c i j k + u a b c i j k * s) = F t + F u * s

theorem IsLinear.over {F : Tens → ℚ} (h : IsLinear F) (u : List ℕ → Tens) : ∀ src : List (List ℕ × ℚ),
    F (fun a b c i j k => over src fun q => u q a b c i j k) = PSpace.over src fun q => F (u q)
  | [] => by simpa [PSpace.over] using h.zero
  | x :: src => by
    have := h.add (fun a b c i j k => PSpace.over src fun q => u q a b c i j k) (u x.1) x.2
    rw [h.over u src] at this
    simp only [PSpace.over, List.map_cons, List.sum_cons] at this ⊢
    rw [add_comm, ← this]
    congr 1
    funext a b c i j k
    rw [add_comm]

/-- The triple excitation of one row with the amplitude 1. -/
def unit3 (q : List ℕ) : Tens := fun a b c i j k =>
  alternating3 (a + 1) (b + 1) (c + 1) (column q 1) (column q 2) (column q 3)
    * alternating3 (i + 1) (j + 1) (k + 1) (column q 4) (column q 5) (column q 6)
def unit21 (q : List ℕ) : Tens := fun a b c i j k =>
  alternating2 (a + 1) (b + 1) (column q 1) (column q 2) * same1 (c + 1) (column q 3)
    * (alternating2 (i + 1) (j + 1) (column q 4) (column q 5) * same1 (k + 1) (column q 6))
def unit12 (q : List ℕ) : Tens := fun a b c i j k =>
  same1 (a + 1) (column q 1) * alternating2 (b + 1) (c + 1) (column q 2) (column q 3)
    * (same1 (i + 1) (column q 4) * alternating2 (j + 1) (k + 1) (column q 5) (column q 6))

theorem ofThree_eq (t : TripleList) : t.ofThree = fun a b c i j k => over t fun q => unit3 q a b c i j k := rfl
theorem ofTwoOne_eq (t : TripleList) : t.ofTwoOne = fun a b c i j k => over t fun q => unit21 q a b c i j k := rfl
theorem ofOneTwo_eq (t : TripleList) : t.ofOneTwo = fun a b c i j k => over t fun q => unit12 q a b c i j k := rfl

theorem unit3_row (A B C L M N : ℕ) : unit3 [A + 1, B + 1, C + 1, L + 1, M + 1, N + 1]
    = fun a b c i j k => alternating3 a b c A B C * alternating3 i j k L M N := by
  funext a b c i j k
  simp [unit3, column, alternating3, alternating2, delta_succ]
theorem unit21_row (A B C L M N : ℕ) : unit21 [A + 1, B + 1, C + 1, L + 1, M + 1, N + 1]
    = fun a b c i j k => alternating2 a b A B * same1 c C * (alternating2 i j L M * same1 k N) := by
  funext a b c i j k
  simp [unit21, column, alternating2, delta_succ]
theorem unit12_row (A B C L M N : ℕ) : unit12 [A + 1, B + 1, C + 1, L + 1, M + 1, N + 1]
    = fun a b c i j k => same1 a A * alternating2 b c B C * (same1 i L * alternating2 j k M N) := by
  funext a b c i j k
  simp [unit12, column, alternating2, delta_succ]

/-- A list whose rows are allowed, or have the amplitude zero. -/
def Fits (src : List (List ℕ × ℚ)) (P : List ℕ → Prop) : Prop := ∀ x ∈ src, P x.1 ∨ x.2 = 0

theorem over_eq {src : List (List ℕ × ℚ)} {P : List ℕ → Prop} (hs : Fits src P) {f g : List ℕ → ℚ} (h : ∀ q, P q → f q = g q) :
    over src f = over src g := by
  unfold over
  congr 1
  refine List.map_congr_left fun x hx => ?_
  rcases hs x hx with h' | h'
  · rw [h _ h']
  · simp [h']

theorem over_three {src : List (List ℕ × ℚ)} {ua na : ℕ} (hs : Fits src (ListedAAA ua na)) {F : Tens → ℚ} (hF : IsLinear F)
    {f : List ℕ → ℚ} (h : ∀ A B C L M N : ℕ, A < B → B < C → C < ua → L < M → M < N → N < na →
      f [A + 1, B + 1, C + 1, L + 1, M + 1, N + 1] = F (fun a b c i j k => alternating3 a b c A B C * alternating3 i j k L M N)) :
    over src f = F (TripleList.ofThree src) := by
  rw [ofThree_eq, hF.over]
  refine over_eq hs ?_
  rintro q ⟨A, B, C, L, M, N, rfl, h₁, h₂, h₃, h₄, h₅, h₆⟩
  rw [h A B C L M N h₁ h₂ h₃ h₄ h₅ h₆, unit3_row]

theorem over_twoOne {src : List (List ℕ × ℚ)} {ua ub na nb : ℕ} (hs : Fits src (ListedAAB ua ub na nb)) {F : Tens → ℚ} (hF : IsLinear F)
    {f : List ℕ → ℚ} (h : ∀ A B C L M N : ℕ, A < B → B < ua → C < ub → L < M → M < na → N < nb →
      f [A + 1, B + 1, C + 1, L + 1, M + 1, N + 1]
        = F (fun a b c i j k => alternating2 a b A B * same1 c C * (alternating2 i j L M * same1 k N))) :
    over src f = F (TripleList.ofTwoOne src) := by
  rw [ofTwoOne_eq, hF.over]
  refine over_eq hs ?_
  rintro q ⟨A, B, C, L, M, N, rfl, h₁, h₂, h₃, h₄, h₅, h₆⟩
  rw [h A B C L M N h₁ h₂ h₃ h₄ h₅ h₆, unit21_row]

theorem over_oneTwo {src : List (List ℕ × ℚ)} {ua ub na nb : ℕ} (hs : Fits src (ListedABB ua ub na nb)) {F : Tens → ℚ} (hF : IsLinear F)
    {f : List ℕ → ℚ} (h : ∀ A B C L M N : ℕ, A < ua → B < C → C < ub → L < na → M < N → N < nb →
      f [A + 1, B + 1, C + 1, L + 1, M + 1, N + 1]
        = F (fun a b c i j k => same1 a A * alternating2 b c B C * (same1 i L * alternating2 j k M N))) :
    over src f = F (TripleList.ofOneTwo src) := by
  rw [ofOneTwo_eq, hF.over]
  refine over_eq hs ?_
  rintro q ⟨A, B, C, L, M, N, rfl, h₁, h₂, h₃, h₄, h₅, h₆⟩
  rw [h A B C L M N h₁ h₂ h₃ h₄ h₅ h₆, unit12_row]

/-- Proves linearity after unfolding. -/
macro "linear" "[" ids:ident,* "]" : tactic => `(tactic|
  (refine ⟨by simp [$[$ids:ident],*, pick3, pick2], fun t u s => ?_⟩
   simp only [$[$ids:ident],*, pick3, pick2, mul_add, ← mul_assoc, Finset.sum_add_distrib, ← Finset.sum_mul]
   try ring))

end Ccpy.PSpace
