import Verif.Model.SpinMatrix

/-! Model of the `S²` matrix of the active-space CISD guess, `ccpy/eom_guess/s2matrix.py:147-379`. -/

namespace Ccpy.SpinMatrix

/-- Numbers of active orbitals, s2matrix.py:150-153. -/
structure Active where
  nactoA : ℕ
  nactoB : ℕ
  nactuA : ℕ
  nactuB : ℕ

/-- s2matrix.py:150-153 -/
def active (s : Counts) (multiplicity nacto nactu : ℕ) : Active where
  nactoA := min (nacto + (multiplicity - 1)) s.noa
  nactoB := min nacto s.nob
  nactuA := min nactu s.nua
  nactuB := min (nactu + (multiplicity - 1)) s.nub

/-- Four nested loops; the second and fourth may depend on the first and third. -/
def quads (as : List ℕ) (bs : ℕ → List ℕ) (is : List ℕ) (js : ℕ → List ℕ) : List (ℕ × ℕ × ℕ × ℕ) :=
  as.flatMap fun A => (bs A).flatMap fun B => is.flatMap fun I => (js I).map fun J => (A, B, I, J)

/-- `range(lo, hi)` -/
abbrev upto (lo hi : ℕ) : List ℕ := List.range' lo (hi - lo)

/-- Loops over double excitations, s2matrix.py:247-250, 291-294, 340-343. -/
def quadsAA (s : Counts) (t : Active) :=
  quads (span s.noa t.nactuA) (fun A => upto (A + 1) (s.noa + t.nactuA)) (span (s.noa - t.nactoA) t.nactoA)
    (fun I => upto (I + 1) s.noa)
def quadsAB (s : Counts) (t : Active) :=
  quads (span s.noa t.nactuA) (fun _ => span s.nob t.nactuB) (span (s.noa - t.nactoA) t.nactoA)
    (fun _ => span (s.nob - t.nactoB) t.nactoB)
def quadsBB (s : Counts) (t : Active) :=
  quads (span s.nob t.nactuB) (fun A => upto (A + 1) (s.nob + t.nactuB)) (span (s.nob - t.nactoB) t.nactoB)
    (fun I => upto (I + 1) s.nob)

/-- Entries, s2matrix.py:182, 194, 207. -/
def entryAA (s : Counts) (p q : ℕ × ℕ) : ℚ :=
  (getSz2 s 0 + 1 * chiBeta s p.2) * eqn p.2 q.2 * eqn p.1 q.1
def entryAB (p q : ℕ × ℕ) : ℚ := -1 * eqn p.2 q.2 * eqn p.1 q.1
def entryBB (s : Counts) (p q : ℕ × ℕ) : ℚ :=
  (getSz2 s 0 + 1 * piAlpha s p.1) * eqn p.2 q.2 * eqn p.1 q.1

/-- s2matrix.py:222 -/
def entryA_AB : ℕ × ℕ → ℕ × ℕ × ℕ × ℕ → ℚ
  | (a, i), (B, C, J, K) => 0 + eqn a B * eqn i K * eqn J C
/-- s2matrix.py:239 -/
def entryB_AB : ℕ × ℕ → ℕ × ℕ × ℕ × ℕ → ℚ
  | (a, i), (B, C, J, K) => 0 - eqn a B * eqn i K * eqn J C
/-- s2matrix.py:257-262 -/
def entryAA_AA (s : Counts) : ℕ × ℕ × ℕ × ℕ → ℕ × ℕ × ℕ × ℕ → ℚ
  | (A, B, I, J), (C, D, K, L) =>
    0 + chiBeta s I * eqn I K * eqn A C * eqn J L * eqn B D
      - chiBeta s J * eqn J K * eqn A C * eqn I L * eqn B D
      - chiBeta s I * eqn I L * eqn A C * eqn J K * eqn B D
      + chiBeta s J * eqn J L * eqn A C * eqn I K * eqn B D
      + getSz2 s 0 * eqn I K * eqn A C * eqn J L * eqn B D
/-- s2matrix.py:279-282 -/
def entryAA_AB : ℕ × ℕ × ℕ × ℕ → ℕ × ℕ × ℕ × ℕ → ℚ
  | (A, B, I, J), (C, D, K, L) =>
    0 - eqn I K * eqn A C * eqn L J * eqn B D
      + eqn J K * eqn A C * eqn L I * eqn B D
      + eqn I K * eqn B C * eqn L J * eqn A D
      - eqn J K * eqn B C * eqn L I * eqn A D
/-- s2matrix.py:301-311 -/
def entryAB_AB (s : Counts) : ℕ × ℕ × ℕ × ℕ → ℕ × ℕ × ℕ × ℕ → ℚ
  | (A, B, I, J), (C, D, K, L) =>
    0 - eqn A C * eqn B D * eqn L I * eqn K J
      - eqn I K * eqn J L * eqn A D * eqn B C
      + eqn J L * eqn A C * eqn K D * eqn B I
      + eqn J L * eqn I K * eqn A C * eqn B D * piAlpha s B
      + eqn A C * eqn I K * eqn J L * eqn B D * chiBeta s I
      + getSz2 s 0 * eqn I K * eqn J L * eqn A C * eqn B D
/-- s2matrix.py:328-331 -/
def entryAB_BB : ℕ × ℕ × ℕ × ℕ → ℕ × ℕ × ℕ × ℕ → ℚ
  | (A, B, I, J), (C, D, K, L) =>
    0 - eqn J L * eqn B D * eqn K I * eqn A C
      + eqn J K * eqn B D * eqn L I * eqn A C
      + eqn J L * eqn B C * eqn K I * eqn A D
      - eqn J K * eqn B C * eqn L I * eqn A D
/-- s2matrix.py:350-355 -/
def entryBB_BB (s : Counts) : ℕ × ℕ × ℕ × ℕ → ℕ × ℕ × ℕ × ℕ → ℚ
  | (A, B, I, J), (C, D, K, L) =>
    0 + piAlpha s A * eqn I K * eqn A C * eqn J L * eqn B D
      - piAlpha s B * eqn I K * eqn B C * eqn J L * eqn A D
      - piAlpha s A * eqn I K * eqn A D * eqn J L * eqn B C
      + piAlpha s B * eqn I K * eqn B D * eqn J L * eqn A C
      + getSz2 s 0 * eqn I K * eqn A C * eqn J L * eqn B D

/-- A matrix filled by the loops of its rows and columns. -/
def block {α β : Type} (P : List α) (Q : List β) (f : α → β → ℚ) : List (List ℚ) :=
  P.map fun p => Q.map fun q => f p q

/-- `build_s2matrix_cisd`, s2matrix.py:147-379.  The transposes (`.T`) are written as blocks with rows and columns
exchanged. -/
def buildCisd (s : Counts) (t : Active) : List (List ℚ) :=
  let a := pairsA s
  let b := pairsB s
  let aa := quadsAA s t
  let ab := quadsAB s t
  let bb := quadsBB s t
  beside (beside (beside (beside (block a a (entryAA s)) (block a b entryAB)) (block a aa fun _ _ => 0))
    (block a ab entryA_AB)) (block a bb fun _ _ => 0) ++
  beside (beside (beside (beside (block b a fun q p => entryAB p q) (block b b (entryBB s))) (block b aa fun _ _ => 0))
    (block b ab entryB_AB)) (block b bb fun _ _ => 0) ++
  beside (beside (beside (beside (block aa a fun _ _ => 0) (block aa b fun _ _ => 0)) (block aa aa (entryAA_AA s)))
    (block aa ab entryAA_AB)) (block aa bb fun _ _ => 0) ++
  beside (beside (beside (beside (block ab a fun q p => entryA_AB p q) (block ab b fun q p => entryB_AB p q))
    (block ab aa fun q p => entryAA_AB p q)) (block ab ab (entryAB_AB s))) (block ab bb entryAB_BB) ++
  beside (beside (beside (beside (block bb a fun _ _ => 0) (block bb b fun _ _ => 0)) (block bb aa fun _ _ => 0))
    (block bb ab fun q p => entryAB_BB p q)) (block bb bb (entryBB_BB s))

end Ccpy.SpinMatrix
