import Mathlib.Analysis.Real.Sqrt

/-! Model of ccpy/extrapolation/goodson_extrapolation.py.

Simplifications: floating-point numbers are reals; the arguments are python floats, whose division by
zero raises (for numpy scalars see `Ccpy.Adaptive.ccqRaises`). -/

namespace Ccpy.Goodson

/-- The exceptions. -/
inductive Err where
  | zeroDivision
  | mathDomain
  deriving DecidableEq, Repr

/-- Division of python floats. -/
noncomputable def pyDiv (x y : ℝ) : Except Err ℝ := if y = 0 then .error .zeroDivision else .ok (x / y)

/-- `math.sqrt`. -/
noncomputable def pySqrt (x : ℝ) : Except Err ℝ := if x < 0 then .error .mathDomain else .ok (Real.sqrt x)

/-- `quadratic_pade_approximant`, ccpy/extrapolation/goodson_extrapolation.py:17-23. -/
noncomputable def quadraticPade (d1 d2 d3 : ℝ) : Except Err ℝ := do
  let a ← pyDiv (1 / 2 * d2 ^ 2) d3
  let b ← pyDiv (4 * d3) d2
  let r ← pySqrt (1 - b)
  return d1 + a * (1 - r)

/-- `rational_pade_approximant`, ccpy/extrapolation/goodson_extrapolation.py:25-30. -/
noncomputable def rationalPade (d1 d2 d3 : ℝ) : Except Err ℝ := do
  let a ← pyDiv d2 d1
  let b ← pyDiv d3 d2
  let c ← pyDiv d3 d2
  pyDiv (d1 * (1 + a - b)) (1 - c)

/-- `continued_fraction_approximant`, ccpy/extrapolation/goodson_extrapolation.py:32-37. -/
noncomputable def continuedFraction (d1 d2 d3 : ℝ) : Except Err ℝ := do
  let a ← pyDiv d2 d1
  let b ← pyDiv d3 d2
  let c ← pyDiv a (1 - b)
  pyDiv d1 (1 - c)

/-- `goodson_extrapolation`, ccpy/extrapolation/goodson_extrapolation.py:3-15. -/
noncomputable def goodson (eRef eCcsd eCcsdt : ℝ) (approximant : String) : Except Err ℝ :=
  let d1 := eRef
  let d2 := eCcsd - eRef
  let d3 := eCcsdt - eCcsd
  if approximant = "ccq" then quadraticPade d1 d2 d3
  else if approximant = "ccr" then rationalPade d1 d2 d3
  else if approximant = "cccf" then continuedFraction d1 d2 d3
  else .ok 0

end Ccpy.Goodson
