import Mathlib.Algebra.BigOperators.Group.Finset.Basic
import Mathlib.Algebra.Field.Rat

/-! The tensor expressions of `/repo/ccpy`: stored arrays, `np.einsum` in its explicit form, sums, differences and
multiples.  The many-body equations of the package (`/repo/ccpy/cc`, `/repo/ccpy/hbar`, …) are written in this language
line by line; `Ex.denote` says what an expression computes.

Arrays live on four index spaces: 0 occupied, 1 unoccupied orbitals with spin up, 2 occupied, 3 unoccupied orbitals with
spin down.  `Ex.ok` is the condition under which `numpy` evaluates an expression without an error, whatever the lengths
of the four spaces are: every operand has as many axes as labels, a label stands for one space only, and only arrays of
the same shape are added.

Simplifications: numbers are rational instead of floating point, and `optimize=True` (the order in which `numpy` contracts
the operands) does not exist here. -/

namespace Ccpy.Tensor

mutual
/-- A tensor expression. -/
inductive Ex where
  /-- a stored array: its name and the spaces of its axes -/
  | arr (name : ℕ) (axes : List ℕ)
  /-- `np.einsum("…->out", …)`; labels are character codes -/
  | es (out : List ℕ) (body : Body)
  /-- `x + y` -/
  | add (x y : Ex)
  /-- `c * x` for the number `c = ± n / d` -/
  | smul (neg : Bool) (n d : ℕ) (x : Ex)
/-- The operands of an `einsum` with their labels. -/
inductive Body where
  | nil
  | cons (labels : List ℕ) (x : Ex) (rest : Body)
end

instance : Add Ex := ⟨Ex.add⟩
instance : Neg Ex := ⟨Ex.smul true 1 1⟩
instance : Sub Ex := ⟨fun x y => .add x (.smul true 1 1 y)⟩

/-- `0.5 * x`, `0.25 * x`, `0.125 * x` -/
def half (x : Ex) : Ex := .smul false 1 2 x
def quarter (x : Ex) : Ex := .smul false 1 4 x
def eighth (x : Ex) : Ex := .smul false 1 8 x

/-- The number a label stands for. -/
def look (m : List (ℕ × ℕ)) (c : ℕ) : ℕ := (m.lookup c).getD 0

mutual
/-- The spaces of the axes. -/
def Ex.axes : Ex → List ℕ
  | .arr _ sp => sp
  | .es out b => out.map (look b.letters)
  | .add x _ => x.axes
  | .smul _ _ _ x => x.axes
/-- The labels of the operands of an `einsum`, with the spaces of their axes. -/
def Body.letters : Body → List (ℕ × ℕ)
  | .nil => []
  | .cons l x r => l.zip x.axes ++ r.letters
end

/-- The labels that are summed over, once each. -/
def summed : List (ℕ × ℕ) → List ℕ → List (ℕ × ℕ)
  | [], _ => []
  | (c, s) :: rest, seen => if seen.contains c then summed rest seen else (c, s) :: summed rest (c :: seen)

mutual
/-- No error: see the head of this file. -/
def Ex.ok : Ex → Bool
  | .arr _ sp => sp.all fun s => decide (s < 4)
  | .es out b => b.ok && b.letters.all (fun e => b.letters.lookup e.1 == some e.2)
      && out.all (fun c => (b.letters.map Prod.fst).contains c)
  | .add x y => x.ok && y.ok && x.axes == y.axes
  | .smul _ _ _ x => x.ok
def Body.ok : Body → Bool
  | .nil => true
  | .cons l x r => x.ok && l.length == x.axes.length && r.ok
end

/-- Sum over all values of the labels; `dim` are the lengths of the four spaces. -/
def sumLetters (dim : ℕ → ℕ) : List (ℕ × ℕ) → ((ℕ → ℕ) → ℚ) → (ℕ → ℕ) → ℚ
  | [], g, ε => g ε
  | (c, s) :: r, g, ε => ∑ k ∈ Finset.range (dim s), sumLetters dim r g (Function.update ε c k)

mutual
/-- The element of the array an expression computes, at the given indices.  `I` has the elements of the stored arrays: it
takes the name and the indices together with their spaces. -/
def Ex.denote (dim : ℕ → ℕ) (I : ℕ → List (ℕ × ℕ) → ℚ) : Ex → List ℕ → ℚ
  | .arr n sp, idx => I n (sp.zip idx)
  | .es out b, idx => sumLetters dim (summed b.letters out) (b.denote dim I) (look (out.zip idx))
  | .add x y, idx => x.denote dim I idx + y.denote dim I idx
  | .smul neg n d x, idx => (if neg then -1 else 1) * (n / d) * x.denote dim I idx
/-- The product of the operands, for given values of the labels. -/
def Body.denote (dim : ℕ → ℕ) (I : ℕ → List (ℕ × ℕ) → ℚ) : Body → (ℕ → ℕ) → ℚ
  | .nil, _ => 1
  | .cons l x r, ε => x.denote dim I (l.map ε) * r.denote dim I ε
end

open Lean in
/-- `es% "mnef,fn->me" x, y` is `np.einsum("mnef,fn->me", x, y)`. -/
macro "es% " s:str xs:term:max,+ : term => do
  let str := s.getString
  let parts := str.splitOn "->"
  let ins := (parts.headD "").splitOn ","
  let out := (parts.getD 1 "").toList
  let codes (cs : List Char) : MacroM (TSyntax `term) := do
    let elems := cs.toArray.map fun c => Syntax.mkNumLit (toString c.toNat)
    `([$elems,*])
  let args := xs.getElems.toList
  if args.length ≠ ins.length then Macro.throwError "einsum: number of operands"
  let mut body ← `(Body.nil)
  for (l, x) in (ins.zip args).reverse do
    body ← `(Body.cons $(← codes l.toList) $x $body)
  `(Ex.es $(← codes out) $body)

end Ccpy.Tensor
