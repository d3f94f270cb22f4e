import Verif.Model.TensorProgram

/-! Specification: when `numpy` evaluates a tensor expression of a closed shell without an error.  As many orbitals of each spin
are occupied, so occupied orbitals of both spins are axes of the same length, and so are unoccupied ones. -/

namespace Ccpy.Tensor

/-- Spaces 0 and 2 (occupied) have one length, spaces 1 and 3 (unoccupied) have one length. -/
def sameLength (s t : ℕ) : Bool := s % 2 == t % 2

mutual
/-- Every operand has as many axes as labels, a label stands for axes of one length only, only arrays of one shape are added. -/
def Ex.okClosed : Ex → Bool
  | .arr _ sp => sp.all fun s => decide (s < 4)
  | .es out b => b.okClosed
      && b.letters.all (fun e => match b.letters.lookup e.1 with | some s => sameLength s e.2 | none => false)
      && out.all (fun c => (b.letters.map Prod.fst).contains c)
  | .add x y => x.okClosed && y.okClosed && x.axes.length == y.axes.length && (x.axes.zip y.axes).all (fun e => sameLength e.1 e.2)
  | .smul _ _ _ x => x.okClosed
def Body.okClosed : Body → Bool
  | .nil => true
  | .cons l x r => x.okClosed && l.length == x.axes.length && r.okClosed
end

end Ccpy.Tensor
