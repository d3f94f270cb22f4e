import Mathlib.Data.List.Basic
import Mathlib.Logic.Function.Basic
import Mathlib.Algebra.BigOperators.Group.List.Defs
import Mathlib.Algebra.Group.Nat.Defs

/-! Model of `/repo/ccpy/models/operators.py`.

An array is its shape and its entries in C order; `.flatten()` and `np.reshape` (both C order,
whatever the memory order) are then the identity on the entries.  Attribute names are lists of
characters.  `none` stands for a python exception (`IndexError`, `ValueError`, `AttributeError`). -/

namespace Ccpy.Operators

abbrev Name := List Char

/-- A numpy array: shape and entries in C order. -/
structure Arr (α : Type*) where
  dims : List ℕ
  data : List α
  deriving DecidableEq, Repr

variable {α : Type*}

/-- `np.zeros(dims)`. -/
def zeros [Zero α] (dims : List ℕ) : Arr α := ⟨dims, List.replicate dims.prod 0⟩

/-- `np.reshape(flat, dims)`; `ValueError` when the sizes differ. -/
def reshape (flat : List α) (dims : List ℕ) : Option (Arr α) :=
  if flat.length = dims.prod then some ⟨dims, flat⟩ else none

/-- `getattr` table of an object. -/
abbrev Attrs (V : Type*) := Name → Option V

/-- The common loop of all `unflatten` methods,
`/repo/ccpy/models/operators.py:85-90, 158-180, 281-294, 345-358`:
names longer than `order` are skipped without advancing, every other name takes the next
`size v dims` numbers.  Slices past the end are shorter, as in python. -/
def unflattenLoop {V : Type*} (size : V → List ℕ → ℕ) (put : V → List ℕ → List α → Option V)
    (order : ℕ) (flat : List α) : List (List ℕ × Name) → ℕ → Attrs V → Option (Attrs V)
  | [], _, m => some m
  | (d, n) :: es, prev, m =>
    if n.length > order then unflattenLoop size put order flat es prev m
    else
      (m n).bind fun v =>
        (put v d ((flat.drop prev).take (size v d))).bind fun v' =>
          unflattenLoop size put order flat es (prev + size v d) (Function.update m n (some v'))

/-- `np.hstack([getattr(self, key).flatten() for key in names])`; `np.hstack([])` raises. -/
def hstackAttrs {V : Type*} (flat : V → Option (List α)) (names : List Name) (m : Attrs V) :
    Option (List α) :=
  if names = [] then none
  else (names.mapM (fun n => (m n).bind flat)).map List.flatten

/-! ### ActiveOperator -/

/-- Orbital space sizes used by the operators: occupied and unoccupied, and the four active-space
blocks `o`, `O`, `V`, `v` per spin (`/repo/ccpy/models/operators.py:27-36`). -/
structure Sizes where
  noa : ℕ
  nob : ℕ
  nua : ℕ
  nub : ℕ
  oA : ℕ
  OA : ℕ
  VA : ℕ
  vA : ℕ
  oB : ℕ
  OB : ℕ
  VB : ℕ
  vB : ℕ

/-- `dims_alpha[x]`, `/repo/ccpy/models/operators.py:27-31`. -/
def Sizes.alpha (s : Sizes) (c : Char) : ℕ :=
  if c = 'o' then s.oA else if c = 'O' then s.OA else if c = 'V' then s.VA else s.vA

/-- `dims_beta[x]`, `/repo/ccpy/models/operators.py:32-36`. -/
def Sizes.beta (s : Sizes) (c : Char) : ℕ :=
  if c = 'o' then s.oB else if c = 'O' then s.OB else if c = 'V' then s.VB else s.vB

/-- `get_hole_combinations(n)`, `/repo/ccpy/models/operators.py:62-69`: first `i` letters `o`, the
rest `O`. -/
def holeCombinations (n : ℕ) : List (List Char) :=
  (List.range (n + 1)).map fun i => List.replicate i 'o' ++ List.replicate (n - i) 'O'

/-- `get_particle_combinations(n)`, `/repo/ccpy/models/operators.py:71-78`: last `i` letters `v`,
the rest `V`. -/
def particleCombinations (n : ℕ) : List (List Char) :=
  (List.range (n + 1)).map fun i => List.replicate (n - i) 'V' ++ List.replicate i 'v'

/-- An `ActiveOperator` object. -/
structure ActiveOp (α : Type*) where
  slices : List Name
  dimensions : List (List ℕ)
  ndim : ℕ
  attrs : Attrs (Arr α)

/-- All `(name, dimensions)` pairs kept by the quadruple loop of `ActiveOperator.__init__`,
`/repo/ccpy/models/operators.py:37-57`, for a spin case with `na` alpha and `nb` beta pairs (the spin
string is doubled, so hole and particle counts agree). -/
def activeSlices (s : Sizes) (na nb numActive : ℕ) : List (Name × List ℕ) :=
  (particleCombinations na).flatMap fun pa =>
    (particleCombinations nb).flatMap fun pb =>
      (holeCombinations na).flatMap fun ha =>
        (holeCombinations nb).flatMap fun hb =>
          let temp := pa ++ pb ++ ha ++ hb
          let dims := pa.map s.alpha ++ pb.map s.beta ++ ha.map s.alpha ++ hb.map s.beta
          if temp.count 'O' ≥ numActive ∧ temp.count 'V' ≥ numActive then [(temp, dims)] else []

/-- The loop body of `ActiveOperator.__init__`, `/repo/ccpy/models/operators.py:56-59`. -/
def ActiveOp.add [Zero α] (a : ActiveOp α) (e : Name × List ℕ) : ActiveOp α :=
  { slices := a.slices ++ [e.1]
    dimensions := a.dimensions ++ [e.2]
    ndim := a.ndim + e.2.prod
    attrs := Function.update a.attrs e.1 (some (zeros e.2)) }

/-- `ActiveOperator(system, order, spincase, num_active)`,
`/repo/ccpy/models/operators.py:19-59`. -/
def ActiveOp.init [Zero α] (s : Sizes) (na nb numActive : ℕ) : ActiveOp α :=
  (activeSlices s na nb numActive).foldl ActiveOp.add ⟨[], [], 0, fun _ => none⟩

/-- `ActiveOperator.flatten`, `/repo/ccpy/models/operators.py:80-83`. -/
def ActiveOp.flatten (a : ActiveOp α) : Option (List α) :=
  hstackAttrs (fun v => some v.data) a.slices a.attrs

/-- `ActiveOperator.unflatten`, `/repo/ccpy/models/operators.py:85-90`.  No name is skipped: the
bound is the longest name. -/
def ActiveOp.unflatten (a : ActiveOp α) (flat : List α) : Option (ActiveOp α) :=
  (unflattenLoop (fun _ d => d.prod) (fun _ d c => reshape c d)
    ((a.slices.map List.length).sum) flat (a.dimensions.zip a.slices) 0 a.attrs).map
    fun m => { a with attrs := m }

/-! ### ClusterOperator, FockOperator, SpinFlipOperator -/

/-- What an amplitude attribute can hold. -/
inductive Val (α : Type*) where
  | dense (a : Arr α)
  | active (a : ActiveOp α)

/-- `getattr(self, name).flatten()`. -/
def Val.flat : Val α → Option (List α)
  | .dense a => some a.data
  | .active a => a.flatten

/-- Length of the slice of the flat vector consumed by an attribute,
`/repo/ccpy/models/operators.py:170-171, 178-180`. -/
def Val.size : Val α → List ℕ → ℕ
  | .dense _, d => d.prod
  | .active a, _ => a.ndim

/-- Setting an attribute from its slice, `/repo/ccpy/models/operators.py:169-170, 179`. -/
def Val.put : Val α → List ℕ → List α → Option (Val α)
  | .dense _, d, c => (reshape c d).map Val.dense
  | .active a, _, c => (a.unflatten c).map Val.active

/-- The fields of an operator object shared by `ClusterOperator`, `FockOperator` and
`SpinFlipOperator`. -/
structure Op (α : Type*) where
  order : ℕ
  spinCases : List Name
  dimensions : List (List ℕ)
  attrs : Attrs (Val α)
  ndim : ℕ

/-- `flatten`, `/repo/ccpy/models/operators.py:153-156, 276-279, 340-343`. -/
def Op.flatten (t : Op α) : Option (List α) := hstackAttrs Val.flat t.spinCases t.attrs

/-- `unflatten(T_flat, order=0)`, `/repo/ccpy/models/operators.py:158-180, 281-294, 345-358`. -/
def Op.unflatten (t : Op α) (flat : List α) (order : ℕ := 0) : Option (Op α) :=
  let ord := if order = 0 then t.order else order
  (unflattenLoop Val.size Val.put ord flat (t.dimensions.zip t.spinCases) 0 t.attrs).map
    fun m => { t with attrs := m }

/-- `get_operator_name(i, j)`, `/repo/ccpy/models/operators.py:360-361`. -/
def operatorName (i j : ℕ) : Name := List.replicate (i - j) 'a' ++ List.replicate j 'b'

/-- `get_operator_dimension(i, j, system)`, `/repo/ccpy/models/operators.py:363-373`. -/
def operatorDimension (s : Sizes) (i j : ℕ) : List ℕ :=
  (List.replicate (i - j) s.nua ++ List.replicate j s.nub) ++
    (List.replicate (i - j) s.noa ++ List.replicate j s.nob)

/-- Registering a dense array under a name with recorded dimensions `dims`. -/
def Op.addDense (t : Op α) (n : Name) (dims : List ℕ) (a : Arr α) (grow : ℕ) : Op α :=
  { t with
    spinCases := t.spinCases ++ [n]
    dimensions := t.dimensions ++ [dims]
    attrs := Function.update t.attrs n (some (.dense a))
    ndim := t.ndim + grow }

/-- Registering an active operator: all its dimensions are recorded, but only one name
(`/repo/ccpy/models/operators.py:116-121, 139`). -/
def Op.addActive (t : Op α) (n : Name) (a : ActiveOp α) : Op α :=
  { t with
    spinCases := t.spinCases ++ [n]
    dimensions := t.dimensions ++ a.dimensions
    attrs := Function.update t.attrs n (some (.active a))
    ndim := t.ndim + a.ndim }

/-- A P-space block, `/repo/ccpy/models/operators.py:124-129, 260-267`: an empty block is stored with
one dummy entry, but recorded with dimension zero. -/
def Op.addPspace [Zero α] (t : Op α) (n : Name) (count : ℕ) : Op α :=
  t.addDense n [count] (if count = 0 then zeros [1] else zeros [count]) count

/-- One rank of the constructor: what kind of storage it uses. -/
inductive Rank where
  | full
  | pspace (counts : List ℕ)
  | active (numActive : ℕ)

/-- Loop over `j` in `ClusterOperator.__init__`, `/repo/ccpy/models/operators.py:112-139`. -/
def addRank [Zero α] (s : Sizes) (i : ℕ) (r : Rank) : List ℕ → Op α → Option (Op α)
  | [], t => some t
  | j :: js, t =>
    match r with
    | .active nact => addRank s i r js (t.addActive (operatorName i j) (ActiveOp.init s (i - j) j nact))
    | .pspace counts => (counts[j]?).bind fun c => addRank s i r js (t.addPspace (operatorName i j) c)
    | .full => addRank s i r js
        (t.addDense (operatorName i j) (operatorDimension s i j) (zeros (operatorDimension s i j))
          (operatorDimension s i j).prod)

/-- Loop over `i` in `ClusterOperator.__init__`, `/repo/ccpy/models/operators.py:102-139`, with its
counters into `num_active` and `pspace_sizes`. -/
def addRanks [Zero α] (s : Sizes) (pOrders : List ℕ) (pSizes : List (List ℕ)) (actOrders : List ℕ)
    (numActive : List ℕ) : List ℕ → ℕ → ℕ → Op α → Option (Op α)
  | [], _, _, t => some t
  | i :: is, actCnt, pCnt, t =>
    let step (r : Rank) (a p : ℕ) : Option (Op α) :=
      (addRank s i r (List.range (i + 1)) t).bind (addRanks s pOrders pSizes actOrders numActive is a p)
    if i ∈ actOrders then
      (numActive[actCnt]?).bind fun nact =>
        if i ∈ pOrders then (pSizes[pCnt]?).bind fun _ => step (.active nact) (actCnt + 1) (pCnt + 1)
        else step (.active nact) (actCnt + 1) pCnt
    else if i ∈ pOrders then (pSizes[pCnt]?).bind fun c => step (.pspace c) actCnt (pCnt + 1)
    else step .full actCnt pCnt

/-- `ClusterOperator(system, order, p_orders, pspace_sizes, active_orders, num_active)`,
`/repo/ccpy/models/operators.py:93-141`.  The default `[None]` lists are empty lists here. -/
def clusterOperator [Zero α] (s : Sizes) (order : ℕ) (pOrders : List ℕ) (pSizes : List (List ℕ))
    (actOrders : List ℕ) (numActive : List ℕ) : Option (Op α) :=
  addRanks s pOrders pSizes actOrders numActive (List.range' 1 order) 0 0
    ⟨order, [], [], fun _ => none, 0⟩

/-! ### FockOperator -/

/-- The added/removed electrons, `/repo/ccpy/models/operators.py:205-225`: name and dimensions; the
list is empty for three or more. -/
def fockAdd (dimA dimB : ℕ) (numAdd : ℕ) : List (Name × List ℕ) :=
  if numAdd = 1 then [(['a'], [dimA])]
  else if numAdd = 2 then [(['a', 'b'], [dimA, dimB])]
  else []

/-- Loop over `j` (and over the single added-electron case),
`/repo/ccpy/models/operators.py:252-273`. -/
def fockRank [Zero α] (s : Sizes) (add : List (Name × List ℕ)) (i : ℕ) (r : Option (List ℕ)) :
    List ℕ → Op α → Option (Op α)
  | [], t => some t
  | j :: js, t =>
    match r with
    | some counts =>
      (add.foldlM (fun (t : Op α) e => (counts[j]?).map fun c =>
        t.addPspace (e.1 ++ operatorName i j) c) t).bind (fockRank s add i r js)
    | none => fockRank s add i r js (add.foldl (fun (t : Op α) e =>
        t.addDense (e.1 ++ operatorName i j) (e.2 ++ operatorDimension s i j)
          (zeros (e.2 ++ operatorDimension s i j)) (e.2 ++ operatorDimension s i j).prod) t)

/-- Loop over `i`, `/repo/ccpy/models/operators.py:246-273`. -/
def fockRanks [Zero α] (s : Sizes) (add : List (Name × List ℕ)) (pOrders : List ℕ)
    (pSizes : List (List ℕ)) : List ℕ → ℕ → Op α → Option (Op α)
  | [], _, t => some t
  | i :: is, pCnt, t =>
    if i ∈ pOrders then
      (pSizes[pCnt]?).bind fun c =>
        (fockRank s add i (some c) (List.range (i + 1)) t).bind
          (fockRanks s add pOrders pSizes is (pCnt + 1))
    else (fockRank s add i none (List.range (i + 1)) t).bind (fockRanks s add pOrders pSizes is pCnt)

/-- `FockOperator(system, num_particles, num_holes, p_orders, pspace_sizes)`,
`/repo/ccpy/models/operators.py:193-274`; `none` when the assertion fails. -/
def fockOperator [Zero α] (s : Sizes) (np nh : ℕ) (pOrders : List ℕ) (pSizes : List (List ℕ)) :
    Option (Op α) :=
  if np = nh then none
  else
    let numAdd := if np > nh then np - nh else nh - np
    let add := if np > nh then fockAdd s.nua s.nub numAdd else fockAdd s.noa s.nob numAdd
    let numExcit := min np nh
    let t0 : Op α := ⟨numAdd + numExcit, [], [], fun _ => none, 0⟩
    fockRanks s add pOrders pSizes (List.range' 1 numExcit) 0
      (add.foldl (fun (t : Op α) e => t.addDense e.1 e.2 (zeros e.2) e.2.prod) t0)

/-! ### SpinFlipOperator -/

/-- Names and dimensions for `Ms = -1`, `/repo/ccpy/models/operators.py:313-335`.  The python
`order` argument is the rank of the spin-conserving part, so `self.order = 1 + order`. -/
def spinFlipBlocks (s : Sizes) (order : ℕ) : List (Name × List ℕ) :=
  let b1 := [(['b'], [s.nub, s.noa])]
  let b2 := [(['a', 'b'], [s.nua, s.nub, s.noa, s.noa]), (['b', 'b'], [s.nub, s.nub, s.nob, s.noa])]
  let b3 := [(['a', 'a', 'b'], [s.nua, s.nua, s.nub, s.noa, s.noa, s.noa]),
    (['a', 'b', 'b'], [s.nua, s.nub, s.nub, s.noa, s.nob, s.noa]),
    (['b', 'b', 'b'], [s.nub, s.nub, s.nub, s.nob, s.nob, s.noa])]
  if order = 1 then b1 else if order = 2 then b1 ++ b2 else if order = 3 then b1 ++ b2 ++ b3 else []

/-- `SpinFlipOperator(system, order, Ms=-1)`, `/repo/ccpy/models/operators.py:298-338`. -/
def spinFlipOperator [Zero α] (s : Sizes) (order : ℕ) : Op α :=
  (spinFlipBlocks s (1 + order)).foldl (fun (t : Op α) e => t.addDense e.1 e.2 (zeros e.2) e.2.prod)
    ⟨1 + order, [], [], fun _ => none, 0⟩

/-! ### Extending the P space -/

/-- Body of the loop of `extend_pspace_t3_operator`, `/repo/ccpy/models/operators.py:145-151`, for
the spin case at position `i` with requested count `c`.  The count is compared with the length of
the stored array. -/
def extendOne [Zero α] (t : Op α) (i : ℕ) (n : Name) (c : ℕ) : Option (Op α) :=
  match t.attrs n with
  | some (.dense a) =>
    let old := a.data.length
    if c > old then
      if i + 5 < t.dimensions.length then
        some { t with
          attrs := Function.update t.attrs n (some (.dense ⟨[c], a.data ++ List.replicate (c - old) 0⟩))
          dimensions := t.dimensions.set (i + 5) [c]
          ndim := t.ndim + (c - old) }
      else none
    else some t
  | _ => none

/-- The four triples names, `/repo/ccpy/models/operators.py:145`. -/
def tripleNames : List Name :=
  [['a', 'a', 'a'], ['a', 'a', 'b'], ['a', 'b', 'b'], ['b', 'b', 'b']]

/-- `extend_pspace_t3_operator(counts)`, `/repo/ccpy/models/operators.py:143-151`. -/
def extendPspace [Zero α] (t : Op α) (counts : List ℕ) : Option (Op α) :=
  if counts.length = 4 then
    (((List.range 4).zip (tripleNames.zip counts))).foldlM
      (fun t e => extendOne t e.1 e.2.1 e.2.2) t
  else none

end Ccpy.Operators
