import Mathlib.Algebra.Group.Int.Defs

/-! Specification: characters of the irreps of the abelian point groups on generators. -/

namespace Ccpy.Spec

/-- Characters on the generators listed: C2: C2; Ci: i; Cs: σh; C2v: C2(z), σv(xz);
C2h: C2(z), i; D2: C2(z), C2(y); D2h: C2(z), C2(y), i. -/
def characters : List (String × List (String × List ℤ)) :=
  [("C1", [("A", [])]),
   ("C2", [("A", [1]), ("B", [-1])]),
   ("CI", [("AG", [1]), ("AU", [-1])]),
   ("CS", [("A'", [1]), ("A\"", [-1])]),
   ("C2V", [("A1", [1, 1]), ("A2", [1, -1]), ("B1", [-1, 1]), ("B2", [-1, -1])]),
   ("C2H", [("AG", [1, 1]), ("BG", [-1, 1]), ("AU", [1, -1]), ("BU", [-1, -1])]),
   ("D2", [("A", [1, 1]), ("B1", [1, -1]), ("B2", [-1, 1]), ("B3", [-1, -1])]),
   ("D2H", [("AG", [1, 1, 1]), ("B1G", [1, -1, 1]), ("B2G", [-1, 1, 1]), ("B3G", [-1, -1, 1]),
     ("AU", [1, 1, -1]), ("B1U", [1, -1, -1]), ("B2U", [-1, 1, -1]), ("B3U", [-1, -1, -1])])]

/-- Characters of a direct product. -/
def charMul (x y : List ℤ) : List ℤ := List.zipWith (· * ·) x y

end Ccpy.Spec
