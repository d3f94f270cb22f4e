import Mathlib.Tactic.TypeStar

/-! Fortran counted loops. -/

namespace Ccpy.Fortran

/-- The loop `do i = lo,hi` with unit stride over a body that transforms the state. -/
def doLoop {S : Type*} (lo hi : Nat) (body : Nat → S → S) (s : S) : S :=
  (List.range' lo (hi + 1 - lo)).foldl (fun s i => body i s) s

end Ccpy.Fortran
