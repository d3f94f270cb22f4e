import Verif.Spec.Update

/-! Specification: one step towards a left eigenvector `X = omega L`. -/

namespace Ccpy.Spec

/-- `L'` results from `L` by one shifted step with the left residual vector `X` and energy `omega`;
`X'` is the recorded change.  The diagonal is the (negative) energy difference of the excitation. -/
structure LeftStep {m n : ℕ} {R : Type*} [Ring R] (sp : Fin m → Bool) (sh : Fin n → Bool)
    (nv no : Bool → ℕ) (eo ev : Bool → ℕ → R) (omega shift : R)
    (X L L' X' : (Fin m → ℕ) × (Fin n → ℕ) → R) : Prop where
  step : ∀ k, InRange sp sh nv no k →
    (-energyDifference sp sh eo ev k - omega + shift) * (L' k - L k) = omega * L k - X k
  change : ∀ k, InRange sp sh nv no k → X' k = L' k - L k
  outside : ∀ k, ¬ InRange sp sh nv no k → L' k = L k ∧ X' k = X k
  antisym : AntisymUnder (SpinExchange sp sh) L'
  antisymX : AntisymUnder (SpinExchange sp sh) X'

end Ccpy.Spec
