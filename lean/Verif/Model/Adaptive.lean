import Verif.Model.Selection
import Verif.Model.Symmetry
import Mathlib.Data.Rat.Floor
import Mathlib.Algebra.Order.Group.Abs
import Mathlib.Algebra.Order.Ring.Rat

/-! Model of the adaptive CC(P;Q) driver `AdaptDriver`, ccpy/drivers/adaptive.py:9-362.

Simplifications: floating-point numbers are rationals; the CC(P), left-CC and CC(P;3) calculations of
one run are functions of the number of the macro-iteration and of the P space (`Engine`); printing and
the deletion of amplitudes are dropped. -/

namespace Ccpy.Adaptive

open Ccpy.Excitations

/-- Python's `int` of a number. -/
def pyInt (x : ℚ) : ℤ := if 0 ≤ x then ⌊x⌋ else ⌈x⌉

/-- `self.nmacro`, ccpy/drivers/adaptive.py:23-26, computed when the object is made, from the value of
`maximum_iterations` at that time. -/
def nmacroOf (percentage : Option (List ℚ)) (maximumIterations : ℕ) : ℕ :=
  match percentage with
  | none => maximumIterations + 1
  | some ps => ps.length

/-- Options that may be changed between `__init__` and `run`, with the defaults of
ccpy/drivers/adaptive.py:14-22. -/
structure Options where
  twoBodyApprox : Bool := true
  energyTolerance : ℚ := 1 / 10000
  maximumIterations : ℕ := 10
  nDetMax : ℕ := 100000000
  selectionFactor : ℚ := 1
  growByCcsd : Bool := true

/-- The object: `nmacro` is fixed by `__init__`, the options are open to change. -/
structure Driver where
  percentage : Option (List ℚ)
  nmacro : ℕ
  options : Options

/-- `AdaptDriver.__init__`, ccpy/drivers/adaptive.py:11-43. -/
def Driver.init (percentage : Option (List ℚ)) : Driver :=
  ⟨percentage, nmacroOf percentage (Options.maximumIterations {}), {}⟩

/-- The determinant addition plan. -/
structure Plan where
  adds : List ℚ
  base : ℕ

/-- `self.one_increment`, ccpy/drivers/adaptive.py:73. -/
def oneIncrement (total : ℕ) : ℤ := pyInt (total / 100)

/-- The percentage scheme, ccpy/drivers/adaptive.py:70-83; `none` is the IndexError of
`num_dets_to_add[-1]` for an empty schedule. -/
def percentAdds (total : ℕ) (ps : List ℚ) : Option (List ℚ) :=
  if ps.length = 0 then none
  else some ((List.range ps.length).map fun i =>
    if i + 1 = ps.length then 1
    else if ps.getD (i + 1) 0 = 100 then total - oneIncrement total * ps.getD i 0
    else oneIncrement total * (ps.getD (i + 1) 0 - ps.getD i 0))

/-- The adjustment for RHF symmetry, ccpy/drivers/adaptive.py:85-87. -/
def halve (rhf : Bool) (adds : List ℚ) : List ℚ :=
  if rhf then adds.map fun x => (pyInt (x / 2) : ℚ) else adds

/-- `excitation_count`, ccpy/drivers/adaptive.py:51-87; `h` is the number of irreps; `none` is an
IndexError. -/
def excitationCount (s : Sys) (h : ℕ) (rhf : Bool) (d : Driver) : Option Plan :=
  match d.percentage with
  | none => do
    let (singles, _) ← countSingles s h
    let nums ←
      if d.options.growByCcsd then do
        let (doubles, _) ← countDoubles s h
        pure (List.zipWith (· + ·) singles doubles)
      else pure singles
    let inc ← nums[s.ref]?
    let adds := (List.range (d.nmacro - 1)).map fun _ =>
      (pyInt (inc * d.options.selectionFactor) : ℚ)
    return ⟨halve rhf adds, inc + 1⟩
  | some ps => do
    let (nums, _) ← countTriples s h
    let total ← nums[s.ref]?
    let adds ← percentAdds total ps
    return ⟨halve rhf adds, 0⟩

/-- A P space: the list of triples of each spin case. -/
abbrev PSpace := Case → List (List ℕ)

/-- The calculations of one run: CC(P) energy, CC(P;3) energy with selection (`none`: it raises),
CC(P;3) energy without selection. -/
structure Engine where
  ccp : ℕ → PSpace → ℚ
  select : ℕ → PSpace → ℤ → Option (ℚ × List (List ℕ))
  final : ℕ → PSpace → ℚ

/-- The ways `run` can raise. -/
inductive Err where
  /-- ValueError of `math.sqrt` in the quadratic extrapolation -/
  | extrapolation
  /-- the selection raises -/
  | selection
  /-- UnboundLocalError of `triples_list`, ccpy/drivers/adaptive.py:186-195 -/
  | unassigned
  /-- IndexError reading the plan -/
  | schedule
  /-- the P space cannot be expanded or inspected -/
  | expansion
  deriving DecidableEq, Repr

/-- The three ways the loop is left. -/
inductive Stop where
  | energy
  | size
  | iterations
  deriving DecidableEq, Repr

/-- What one macro-iteration did. -/
structure Macro where
  pspace : PSpace
  counts : ℕ → Case → ℕ
  nDet : ℤ
  eP : ℚ
  eQ : ℚ
  /-- number of triples asked for, if the selection was run -/
  asked : Option ℤ
  rows : List (List ℕ)

/-- `math.sqrt(1.0 - 4 * delta3/delta2)` raises, ccpy/extrapolation/goodson_extrapolation.py:21, for
the numpy scalars handed over by the driver (whose division by zero gives an infinity or NaN). -/
def ccqRaises (ref eP eQ : ℚ) : Bool :=
  let d2 := eP - ref
  let d3 := eQ - eP
  if d2 = 0 then decide (0 < d3) else decide (1 - 4 * d3 / d2 < 0)

/-- `offset`, ccpy/drivers/adaptive.py:238-246. -/
def offset (p : PSpace) : ℤ :=
  ([Case.aaa, .aab, .abb, .bbb].map fun c =>
    if (p c).head? = some (List.replicate 6 1) then (1 : ℤ) else 0).sum

/-- `self.n_det`, ccpy/drivers/adaptive.py:249-255; `none` is the IndexError of looking at the first
row of an array without rows. -/
def nDet (base : ℕ) (p : PSpace) : Option ℤ :=
  if [Case.aaa, .aab, .abb, .bbb].any fun c => (p c).isEmpty then none
  else some (base + (((p .aaa).length + (p .aab).length + (p .abb).length + (p .bbb).length : ℤ)
    - offset p))

/-- `run_ccp3` and `run_ccp3_chol`, ccpy/drivers/adaptive.py:124-195: energy, what was asked for, and
the selected rows. -/
def runCcp3 (E : Engine) (o : Options) (cholesky : Bool) (plan : Plan) (nmacro k : ℕ) (p : PSpace) :
    Except Err (ℚ × Option ℤ × List (List ℕ)) :=
  if k < nmacro - 1 then
    if cholesky && !o.twoBodyApprox then .error .unassigned
    else
      match plan.adds[k]? with
      | none => .error .schedule
      | some x =>
        match E.select k p (pyInt x) with
        | none => .error .selection
        | some (e, rows) => .ok (e, some (pyInt x), rows)
  else .ok (E.final k p, none, [])

/-- The part of a macro-iteration before the convergence tests, ccpy/drivers/adaptive.py:232-302. -/
def macroIteration (E : Engine) (o : Options) (cholesky : Bool) (ref : ℚ) (plan : Plan)
    (nmacro k : ℕ) (p : PSpace) (counts : ℕ → Case → ℕ) : Except Err Macro :=
  match nDet plan.base p with
  | none => .error .expansion
  | some n =>
    let eP := E.ccp k p
    match runCcp3 E o cholesky plan nmacro k p with
    | .error e => .error e
    | .ok (eQ, asked, rows) =>
      if ccqRaises ref eP eQ then .error .extrapolation
      else .ok ⟨p, counts, n, eP, eQ, asked, rows⟩

/-- The tests of ccpy/drivers/adaptive.py:304-320; `prev` is E(P;Q) of the macro-iteration before. -/
def stopTest (o : Options) (nmacro k : ℕ) (prev : Option ℚ) (m : Macro) : Option Stop :=
  match prev with
  | some q =>
    if |m.eQ - q| < o.energyTolerance then some .energy
    else if m.nDet ≥ o.nDetMax then some .size
    else if k + 1 = nmacro then some .iterations
    else none
  | none => if k + 1 = nmacro then some .iterations else none

/-- The loop, ccpy/drivers/adaptive.py:232-336, with the macro-iterations done so far; `none`: the
loop ended without a `break`. -/
def loop (E : Engine) (s : Sys) (rhf : Bool) (o : Options) (cholesky : Bool) (ref : ℚ) (plan : Plan)
    (nmacro : ℕ) : ℕ → ℕ → PSpace → (ℕ → Case → ℕ) → List Macro →
    Except Err (List Macro × Option Stop)
  | 0, _, _, _, hist => .ok (hist, none)
  | fuel + 1, k, p, counts, hist =>
    match macroIteration E o cholesky ref plan nmacro k p counts with
    | .error e => .error e
    | .ok m =>
      match stopTest o nmacro k (hist.getLast?.map Macro.eQ) m with
      | some r => .ok (hist ++ [m], some r)
      | none =>
        match addTriples s rhf m.rows p counts with
        | none => .error .expansion
        | some (p', counts') =>
          loop E s rhf o cholesky ref plan nmacro fuel (k + 1) p' counts' (hist ++ [m])

/-- The P space made by `__init__`, ccpy/drivers/adaptive.py:36-39. -/
def startPSpace : PSpace := fun _ => [List.replicate 6 1]

/-- `AdaptDriver.run`, ccpy/drivers/adaptive.py:207-362. -/
def run (E : Engine) (s : Sys) (h : ℕ) (rhf cholesky : Bool) (ref : ℚ) (d : Driver) :
    Except Err (List Macro × Option Stop) :=
  match excitationCount s h rhf d with
  | none => .error .schedule
  | some plan =>
    loop E s rhf d.options cholesky ref plan d.nmacro d.nmacro 0 startPSpace (fun _ _ => 0) []

end Ccpy.Adaptive
