import Verif.Engine.Equations

/-! Matrix elements of excited determinants as expectation values. -/

namespace Ccpy.Engine
open Ccpy.Fock Ccpy.Tensor

variable {ι : Type*} [LinearOrder ι] {S : Orbitals ι}

/-- The environment that gives the variables the listed values. -/
def env (ext idx : List ℕ) : Env := look (ext.zip idx)

theorem expect_mul (A B : Operator ι) : expect S (A * B) = inner S.ref (A (B S.ref)) := rfl

theorem evalO_two (ρ : Env) (b c : Bool) (v w : ℕ) :
    evalO (opX S) ρ [(b, v), (c, w)] = opX S b (val ρ v) * opX S c (val ρ w) := by
  simp [evalO]

theorem evalO_four (ρ : Env) (b c d e : Bool) (v w x y : ℕ) : evalO (opX S) ρ [(b, v), (c, w), (d, x), (e, y)]
    = opX S b (val ρ v) * (opX S c (val ρ w) * (opX S d (val ρ x) * opX S e (val ρ y))) := by
  simp [evalO]

theorem element_single (x y : ℕ × ℕ) (A : Operator ι) :
    expect S (opX S true y * opX S false x * A) = S.element (cre (orb S x) (ann (orb S y) S.ref)) A := by
  show inner S.ref (cre (orb S y) (ann (orb S x) (A S.ref))) = inner _ _
  rw [← inner_ann, ← inner_cre]

theorem element_double (x y z w : ℕ × ℕ) (A : Operator ι) :
    expect S (opX S true z * (opX S true w * (opX S false y * opX S false x)) * A)
      = S.element (cre (orb S x) (cre (orb S y) (ann (orb S w) (ann (orb S z) S.ref)))) A := by
  show inner S.ref (cre (orb S z) (cre (orb S w) (ann (orb S y) (ann (orb S x) (A S.ref))))) = inner _ _
  rw [← inner_ann, ← inner_ann, ← inner_cre, ← inner_cre]

end Ccpy.Engine
