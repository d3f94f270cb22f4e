import Verif.Model.Writes
import Mathlib.Algebra.Ring.Defs
import Mathlib.Data.Fintype.Defs
import Mathlib.Data.Fintype.Pi

/-! Model of the expansion of P-space amplitude vectors into full tensors,
`/repo/ccpy/utilities/utilities.py:6-225`.

A tensor is the function from its index tuples to its entries; the array shape is kept apart and
used to resolve indices the way numpy does.  Amplitude tensors of the ionisation operators are
stored by the code as `R[i,b,c,j,k]`; the model groups the same five indices as particles `(b,c)`
and holes `(i,j,k)`. -/

namespace Ccpy.Unravel
open Ccpy.Writes

variable {R : Type*}

/-- The exceptions a subscript or a tuple unpacking can raise. -/
inductive Err where
  | valueError
  | indexError
  deriving DecidableEq, Repr

/-- numpy index resolution on an axis of length `n`: `0 ≤ z < n` is itself, `-n ≤ z < 0` counts from
the end, anything else raises `IndexError`. -/
def resolve (n : ℕ) (z : ℤ) : Option ℕ :=
  if 0 ≤ z ∧ z < n then some z.toNat
  else if z < 0 ∧ -(n : ℤ) ≤ z then some (z + n).toNat
  else none

/-- Resolution of the indices of one group of axes. -/
def resolveTuple {m : ℕ} (dims : Fin m → ℕ) (z : Fin m → ℤ) : Option (Fin m → ℕ) :=
  if ∀ i, (resolve (dims i) (z i)).isSome then some (fun i => (resolve (dims i) (z i)).getD 0)
  else none

/-- The shape of a tensor with `m` particle and `n` hole axes. -/
structure Shape (m n : ℕ) where
  particles : Fin m → ℕ
  holes : Fin n → ℕ

/-- `T[key] = x` with raw Python indices. -/
def assign {m n : ℕ} (s : Shape m n) (T : (Fin m → ℕ) × (Fin n → ℕ) → R)
    (w : ((Fin m → ℤ) × (Fin n → ℤ)) × R) : Except Err ((Fin m → ℕ) × (Fin n → ℕ) → R) :=
  match resolveTuple s.particles w.1.1, resolveTuple s.holes w.1.2 with
  | some p, some h => .ok (fun k => if k = (p, h) then w.2 else T k)
  | _, _ => .error .indexError

/-- A block of assignments executed in order. -/
def assignAll {m n : ℕ} (s : Shape m n) :
    List (((Fin m → ℤ) × (Fin n → ℤ)) × R) → ((Fin m → ℕ) × (Fin n → ℕ) → R) →
      Except Err ((Fin m → ℕ) × (Fin n → ℕ) → R)
  | [], T => .ok T
  | w :: ws, T =>
    match assign s T w with
    | .ok T' => assignAll s ws T'
    | .error e => .error e

/-- `for idet in range(n3)`: unpack the row with every entry lowered by one, read `T.xyz[idet]`,
perform the assignments.  `block` is `none` when the row does not unpack. -/
def unravelLoop {m n : ℕ} (s : Shape m n)
    (block : List ℤ → Option (R → List (((Fin m → ℤ) × (Fin n → ℤ)) × R))) :
    List (List ℕ) → List R → ((Fin m → ℕ) × (Fin n → ℕ) → R) →
      Except Err ((Fin m → ℕ) × (Fin n → ℕ) → R)
  | [], _, T => .ok T
  | row :: rows, vals, T =>
    match block (row.map fun x => (x : ℤ) - 1) with
    | none => .error .valueError
    | some ws =>
      match vals with
      | [] => .error .indexError
      | x :: vals =>
        match assignAll s (ws x) T with
        | .ok T' => unravelLoop s block rows vals T'
        | .error e => .error e

section blocks
variable [Neg R]


/-- `aaa` block of `unravel_triples_amplitudes`, `/repo/ccpy/utilities/utilities.py:43-80`. -/
def blockAaa : List ℤ → Option (R → List (((Fin 3 → ℤ) × (Fin 3 → ℤ)) × R))
  | [a, b, c, i, j, k] => some fun x =>
    [((![a, b, c], ![i, j, k]), x),
     ((![a, b, c], ![i, k, j]), -x),
     ((![a, b, c], ![j, i, k]), -x),
     ((![a, b, c], ![j, k, i]), x),
     ((![a, b, c], ![k, i, j]), x),
     ((![a, b, c], ![k, j, i]), -x),
     ((![a, c, b], ![i, j, k]), -x),
     ((![a, c, b], ![i, k, j]), x),
     ((![a, c, b], ![j, i, k]), x),
     ((![a, c, b], ![j, k, i]), -x),
     ((![a, c, b], ![k, i, j]), -x),
     ((![a, c, b], ![k, j, i]), x),
     ((![b, c, a], ![i, j, k]), x),
     ((![b, c, a], ![i, k, j]), -x),
     ((![b, c, a], ![j, i, k]), -x),
     ((![b, c, a], ![j, k, i]), x),
     ((![b, c, a], ![k, i, j]), x),
     ((![b, c, a], ![k, j, i]), -x),
     ((![b, a, c], ![i, j, k]), -x),
     ((![b, a, c], ![i, k, j]), x),
     ((![b, a, c], ![j, i, k]), x),
     ((![b, a, c], ![j, k, i]), -x),
     ((![b, a, c], ![k, i, j]), -x),
     ((![b, a, c], ![k, j, i]), x),
     ((![c, a, b], ![i, j, k]), x),
     ((![c, a, b], ![i, k, j]), -x),
     ((![c, a, b], ![j, i, k]), -x),
     ((![c, a, b], ![j, k, i]), x),
     ((![c, a, b], ![k, i, j]), x),
     ((![c, a, b], ![k, j, i]), -x),
     ((![c, b, a], ![i, j, k]), -x),
     ((![c, b, a], ![i, k, j]), x),
     ((![c, b, a], ![j, i, k]), x),
     ((![c, b, a], ![j, k, i]), -x),
     ((![c, b, a], ![k, i, j]), -x),
     ((![c, b, a], ![k, j, i]), x)]
  | _ => none

/-- `aab` block of `unravel_triples_amplitudes`, `/repo/ccpy/utilities/utilities.py:84-88`. -/
def blockAab : List ℤ → Option (R → List (((Fin 3 → ℤ) × (Fin 3 → ℤ)) × R))
  | [a, b, c, i, j, k] => some fun x =>
    [((![a, b, c], ![i, j, k]), x),
     ((![b, a, c], ![i, j, k]), -x),
     ((![a, b, c], ![j, i, k]), -x),
     ((![b, a, c], ![j, i, k]), x)]
  | _ => none

/-- `abb` block of `unravel_triples_amplitudes`, `/repo/ccpy/utilities/utilities.py:92-96`. -/
def blockAbb : List ℤ → Option (R → List (((Fin 3 → ℤ) × (Fin 3 → ℤ)) × R))
  | [a, b, c, i, j, k] => some fun x =>
    [((![a, b, c], ![i, j, k]), x),
     ((![a, c, b], ![i, j, k]), -x),
     ((![a, b, c], ![i, k, j]), -x),
     ((![a, c, b], ![i, k, j]), x)]
  | _ => none

/-- `bbb` block of `unravel_triples_amplitudes`, `/repo/ccpy/utilities/utilities.py:100-136`. -/
def blockBbb : List ℤ → Option (R → List (((Fin 3 → ℤ) × (Fin 3 → ℤ)) × R))
  | [a, b, c, i, j, k] => some fun x =>
    [((![a, b, c], ![i, j, k]), x),
     ((![a, b, c], ![i, k, j]), -x),
     ((![a, b, c], ![j, i, k]), -x),
     ((![a, b, c], ![j, k, i]), x),
     ((![a, b, c], ![k, i, j]), x),
     ((![a, b, c], ![k, j, i]), -x),
     ((![a, c, b], ![i, j, k]), -x),
     ((![a, c, b], ![i, k, j]), x),
     ((![a, c, b], ![j, i, k]), x),
     ((![a, c, b], ![j, k, i]), -x),
     ((![a, c, b], ![k, i, j]), -x),
     ((![a, c, b], ![k, j, i]), x),
     ((![b, c, a], ![i, j, k]), x),
     ((![b, c, a], ![i, k, j]), -x),
     ((![b, c, a], ![j, i, k]), -x),
     ((![b, c, a], ![j, k, i]), x),
     ((![b, c, a], ![k, i, j]), x),
     ((![b, c, a], ![k, j, i]), -x),
     ((![b, a, c], ![i, j, k]), -x),
     ((![b, a, c], ![i, k, j]), x),
     ((![b, a, c], ![j, i, k]), x),
     ((![b, a, c], ![j, k, i]), -x),
     ((![b, a, c], ![k, i, j]), -x),
     ((![b, a, c], ![k, j, i]), x),
     ((![c, a, b], ![i, j, k]), x),
     ((![c, a, b], ![i, k, j]), -x),
     ((![c, a, b], ![j, i, k]), -x),
     ((![c, a, b], ![j, k, i]), x),
     ((![c, a, b], ![k, i, j]), x),
     ((![c, a, b], ![k, j, i]), -x),
     ((![c, b, a], ![i, j, k]), -x),
     ((![c, b, a], ![i, k, j]), x),
     ((![c, b, a], ![j, i, k]), x),
     ((![c, b, a], ![j, k, i]), -x),
     ((![c, b, a], ![k, i, j]), -x),
     ((![c, b, a], ![k, j, i]), x)]
  | _ => none

/-- `aaa` block of `unravel_3p2h_amplitudes`, `/repo/ccpy/utilities/utilities.py:154-166`. -/
def blockEaAaa : List ℤ → Option (R → List (((Fin 3 → ℤ) × (Fin 2 → ℤ)) × R))
  | [a, b, c, j, k] => some fun x =>
    [((![a, b, c], ![j, k]), x),
     ((![a, c, b], ![j, k]), -x),
     ((![b, c, a], ![j, k]), x),
     ((![b, a, c], ![j, k]), -x),
     ((![c, a, b], ![j, k]), x),
     ((![c, b, a], ![j, k]), -x),
     ((![a, b, c], ![k, j]), -x),
     ((![a, c, b], ![k, j]), x),
     ((![b, c, a], ![k, j]), -x),
     ((![b, a, c], ![k, j]), x),
     ((![c, a, b], ![k, j]), -x),
     ((![c, b, a], ![k, j]), x)]
  | _ => none

/-- `aab` block of `unravel_3p2h_amplitudes`, `/repo/ccpy/utilities/utilities.py:170-172`. -/
def blockEaAab : List ℤ → Option (R → List (((Fin 3 → ℤ) × (Fin 2 → ℤ)) × R))
  | [a, b, c, j, k] => some fun x =>
    [((![a, b, c], ![j, k]), x),
     ((![b, a, c], ![j, k]), -x)]
  | _ => none

/-- `abb` block of `unravel_3p2h_amplitudes`, `/repo/ccpy/utilities/utilities.py:176-180`. -/
def blockEaAbb : List ℤ → Option (R → List (((Fin 3 → ℤ) × (Fin 2 → ℤ)) × R))
  | [a, b, c, j, k] => some fun x =>
    [((![a, b, c], ![j, k]), x),
     ((![a, c, b], ![j, k]), -x),
     ((![a, b, c], ![k, j]), -x),
     ((![a, c, b], ![k, j]), x)]
  | _ => none

/-- `aaa` block of `unravel_3h2p_amplitudes`, `/repo/ccpy/utilities/utilities.py:198-210`. -/
def blockIpAaa : List ℤ → Option (R → List (((Fin 2 → ℤ) × (Fin 3 → ℤ)) × R))
  | [b, c, i, j, k] => some fun x =>
    [((![b, c], ![i, j, k]), x),
     ((![b, c], ![i, k, j]), -x),
     ((![b, c], ![j, k, i]), x),
     ((![b, c], ![j, i, k]), -x),
     ((![b, c], ![k, i, j]), x),
     ((![b, c], ![k, j, i]), -x),
     ((![c, b], ![i, j, k]), -x),
     ((![c, b], ![i, k, j]), x),
     ((![c, b], ![j, k, i]), -x),
     ((![c, b], ![j, i, k]), x),
     ((![c, b], ![k, i, j]), -x),
     ((![c, b], ![k, j, i]), x)]
  | _ => none

/-- `aab` block of `unravel_3h2p_amplitudes`, `/repo/ccpy/utilities/utilities.py:214-216`. -/
def blockIpAab : List ℤ → Option (R → List (((Fin 2 → ℤ) × (Fin 3 → ℤ)) × R))
  | [b, c, i, j, k] => some fun x =>
    [((![b, c], ![i, j, k]), x),
     ((![b, c], ![j, i, k]), -x)]
  | _ => none

/-- `abb` block of `unravel_3h2p_amplitudes`, `/repo/ccpy/utilities/utilities.py:220-224`. -/
def blockIpAbb : List ℤ → Option (R → List (((Fin 2 → ℤ) × (Fin 3 → ℤ)) × R))
  | [b, c, i, j, k] => some fun x =>
    [((![b, c], ![i, j, k]), x),
     ((![b, c], ![j, i, k]), -x),
     ((![c, b], ![i, j, k]), -x),
     ((![c, b], ![j, i, k]), x)]
  | _ => none

end blocks

/-- Orbital-space sizes of the system. -/
structure Sizes where
  noa : ℕ
  nua : ℕ
  nob : ℕ
  nub : ℕ

/-- Shapes of the triples tensors of `ClusterOperator(system, order=3)`. -/
def shapeAaa (z : Sizes) : Shape 3 3 := ⟨![z.nua, z.nua, z.nua], ![z.noa, z.noa, z.noa]⟩
/-- See `shapeAaa`. -/
def shapeAab (z : Sizes) : Shape 3 3 := ⟨![z.nua, z.nua, z.nub], ![z.noa, z.noa, z.nob]⟩
/-- See `shapeAaa`. -/
def shapeAbb (z : Sizes) : Shape 3 3 := ⟨![z.nua, z.nub, z.nub], ![z.noa, z.nob, z.nob]⟩
/-- See `shapeAaa`. -/
def shapeBbb (z : Sizes) : Shape 3 3 := ⟨![z.nub, z.nub, z.nub], ![z.nob, z.nob, z.nob]⟩
/-- Shapes of the 3p2h tensors of `FockOperator(system, 3, 2)`. -/
def shapeEaAaa (z : Sizes) : Shape 3 2 := ⟨![z.nua, z.nua, z.nua], ![z.noa, z.noa]⟩
/-- See `shapeEaAaa`. -/
def shapeEaAab (z : Sizes) : Shape 3 2 := ⟨![z.nua, z.nua, z.nub], ![z.noa, z.nob]⟩
/-- See `shapeEaAaa`. -/
def shapeEaAbb (z : Sizes) : Shape 3 2 := ⟨![z.nua, z.nub, z.nub], ![z.nob, z.nob]⟩
/-- Shapes of the 3h2p tensors of `FockOperator(system, 2, 3)`. -/
def shapeIpAaa (z : Sizes) : Shape 2 3 := ⟨![z.nua, z.nua], ![z.noa, z.noa, z.noa]⟩
/-- See `shapeIpAaa`. -/
def shapeIpAab (z : Sizes) : Shape 2 3 := ⟨![z.nua, z.nub], ![z.noa, z.noa, z.nob]⟩
/-- See `shapeIpAaa`. -/
def shapeIpAbb (z : Sizes) : Shape 2 3 := ⟨![z.nub, z.nub], ![z.noa, z.nob, z.nob]⟩

/-- `if do_t3[case]: …`, starting from the zero tensor of the new operator. -/
def unravelCase [Zero R] {m n : ℕ} (s : Shape m n)
    (block : List ℤ → Option (R → List (((Fin m → ℤ) × (Fin n → ℤ)) × R)))
    (doIt : Bool) (rows : List (List ℕ)) (vals : List R) :
    Except Err ((Fin m → ℕ) × (Fin n → ℕ) → R) :=
  if doIt then unravelLoop s block rows vals (fun _ => 0) else .ok (fun _ => 0)

/-- An operator whose three-body part is stored as vectors over lists of excitations; `low` stands
for the one- and two-body arrays. -/
structure POp (A R : Type*) where
  low : A
  aaa : List R
  aab : List R
  abb : List R
  bbb : List R

/-- The lists of excitations by spin case. -/
structure Lists where
  aaa : List (List ℕ)
  aab : List (List ℕ)
  abb : List (List ℕ)
  bbb : List (List ℕ)

/-- The flags `do_t3`. -/
structure Flags where
  aaa : Bool
  aab : Bool
  abb : Bool
  bbb : Bool

/-- The expanded operator. -/
structure FullOp (A R : Type*) where
  low : A
  aaa : Key3 → R
  aab : Key3 → R
  abb : Key3 → R
  bbb : Key3 → R

/-- `unravel_triples_amplitudes(T, t3_excitations, system, do_t3)`,
`/repo/ccpy/utilities/utilities.py:26-137`. -/
def unravelTriples {A R : Type} [Zero R] [Neg R] (z : Sizes) (T : POp A R) (e : Lists) (d : Flags) :
    Except Err (FullOp A R) := do
  let aaa ← unravelCase (shapeAaa z) blockAaa d.aaa e.aaa T.aaa
  let aab ← unravelCase (shapeAab z) blockAab d.aab e.aab T.aab
  let abb ← unravelCase (shapeAbb z) blockAbb d.abb e.abb T.abb
  let bbb ← unravelCase (shapeBbb z) blockBbb d.bbb e.bbb T.bbb
  return ⟨T.low, aaa, aab, abb, bbb⟩

/-- `np.array_equal(rows[0,:], [1,…,1])` decides that a spin case is empty; `rows[0,:]` raises on a
list without rows.  `/repo/ccpy/utilities/utilities.py:12-20`. -/
def caseFlag (width : ℕ) : List (List ℕ) → Except Err Bool
  | [] => .error .indexError
  | row :: _ => .ok (!(decide (row = List.replicate width 1)))

/-- `convert_t3_from_pspace(driver, t3_excitations)`, `/repo/ccpy/utilities/utilities.py:6-24`. -/
def convertT3 {A R : Type} [Zero R] [Neg R] (z : Sizes) (T : POp A R) (e : Lists) :
    Except Err (FullOp A R) := do
  let aaa ← caseFlag 6 e.aaa
  let aab ← caseFlag 6 e.aab
  let abb ← caseFlag 6 e.abb
  let bbb ← caseFlag 6 e.bbb
  unravelTriples z T e ⟨aaa, aab, abb, bbb⟩

/-- The expanded 3p2h part, `unravel_3p2h_amplitudes`, `/repo/ccpy/utilities/utilities.py:139-181`
(the one- and two-body arrays are passed through; `bbb` of the arguments is not used). -/
def unravel3p2h {A R : Type} [Zero R] [Neg R] (z : Sizes) (T : POp A R) (e : Lists) (d : Flags) :
    Except Err (A × ((Fin 3 → ℕ) × (Fin 2 → ℕ) → R) × ((Fin 3 → ℕ) × (Fin 2 → ℕ) → R) ×
      ((Fin 3 → ℕ) × (Fin 2 → ℕ) → R)) := do
  let aaa ← unravelCase (shapeEaAaa z) blockEaAaa d.aaa e.aaa T.aaa
  let aab ← unravelCase (shapeEaAab z) blockEaAab d.aab e.aab T.aab
  let abb ← unravelCase (shapeEaAbb z) blockEaAbb d.abb e.abb T.abb
  return (T.low, aaa, aab, abb)

/-- The expanded 3h2p part, `unravel_3h2p_amplitudes`, `/repo/ccpy/utilities/utilities.py:183-225`. -/
def unravel3h2p {A R : Type} [Zero R] [Neg R] (z : Sizes) (T : POp A R) (e : Lists) (d : Flags) :
    Except Err (A × ((Fin 2 → ℕ) × (Fin 3 → ℕ) → R) × ((Fin 2 → ℕ) × (Fin 3 → ℕ) → R) ×
      ((Fin 2 → ℕ) × (Fin 3 → ℕ) → R)) := do
  let aaa ← unravelCase (shapeIpAaa z) blockIpAaa d.aaa e.aaa T.aaa
  let aab ← unravelCase (shapeIpAab z) blockIpAab d.aab e.aab T.aab
  let abb ← unravelCase (shapeIpAbb z) blockIpAbb d.abb e.abb T.abb
  return (T.low, aaa, aab, abb)

end Ccpy.Unravel
