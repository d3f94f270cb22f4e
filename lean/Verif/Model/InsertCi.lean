import Verif.Model.Writes
import Verif.Model.ExternalCorrection
import Mathlib.Algebra.Ring.Defs

/-! Model of `insert_ci_amplitude`, `/repo/ccpy/extcorr/external_correction.py:229-373`.
Indices are the 0-based indices passed by the caller (line 211).
The quadruples branches (lines 356-373) only ever run for tensors that do not exist in the
order-3 operator and are never reached; they are not modelled. -/

namespace Ccpy.ExternalCorrection
open Ccpy.Writes

variable {R : Type*} [Neg R]

/-- Assignments for spin case `aa`, `/repo/ccpy/extcorr/external_correction.py:243-248`. -/
def ciWritesAa (a b i j : ℕ) (x : R) : List (Key2 × R) :=
  [((![a, b], ![i, j]), x),
   ((![b, a], ![i, j]), -x),
   ((![a, b], ![j, i]), -x),
   ((![b, a], ![j, i]), x)]

/-- Assignments for spin case `ab`, `/repo/ccpy/extcorr/external_correction.py:250-252`. -/
def ciWritesAb (a b i j : ℕ) (x : R) : List (Key2 × R) :=
  [((![a, b], ![i, j]), x)]

/-- Assignments for spin case `bb`, `/repo/ccpy/extcorr/external_correction.py:254-259`. -/
def ciWritesBb (a b i j : ℕ) (x : R) : List (Key2 × R) :=
  [((![a, b], ![i, j]), x),
   ((![b, a], ![i, j]), -x),
   ((![a, b], ![j, i]), -x),
   ((![b, a], ![j, i]), x)]

/-- Assignments for spin case `aaa`, `/repo/ccpy/extcorr/external_correction.py:261-298`. -/
def ciWritesAaa (a b c i j k : ℕ) (x : R) : List (Key3 × R) :=
  [((![a, b, c], ![i, j, k]), x),
   ((![a, c, b], ![i, j, k]), -x),
   ((![b, a, c], ![i, j, k]), -x),
   ((![b, c, a], ![i, j, k]), x),
   ((![c, a, b], ![i, j, k]), x),
   ((![c, b, a], ![i, j, k]), -x),
   ((![a, b, c], ![i, k, j]), -x),
   ((![a, c, b], ![i, k, j]), x),
   ((![b, a, c], ![i, k, j]), x),
   ((![b, c, a], ![i, k, j]), -x),
   ((![c, a, b], ![i, k, j]), -x),
   ((![c, b, a], ![i, k, j]), x),
   ((![a, b, c], ![j, k, i]), x),
   ((![a, c, b], ![j, k, i]), -x),
   ((![b, a, c], ![j, k, i]), -x),
   ((![b, c, a], ![j, k, i]), x),
   ((![c, a, b], ![j, k, i]), x),
   ((![c, b, a], ![j, k, i]), -x),
   ((![a, b, c], ![j, i, k]), -x),
   ((![a, c, b], ![j, i, k]), x),
   ((![b, a, c], ![j, i, k]), x),
   ((![b, c, a], ![j, i, k]), -x),
   ((![c, a, b], ![j, i, k]), -x),
   ((![c, b, a], ![j, i, k]), x),
   ((![a, b, c], ![k, i, j]), x),
   ((![a, c, b], ![k, i, j]), -x),
   ((![b, a, c], ![k, i, j]), -x),
   ((![b, c, a], ![k, i, j]), x),
   ((![c, a, b], ![k, i, j]), x),
   ((![c, b, a], ![k, i, j]), -x),
   ((![a, b, c], ![k, j, i]), -x),
   ((![a, c, b], ![k, j, i]), x),
   ((![b, a, c], ![k, j, i]), x),
   ((![b, c, a], ![k, j, i]), -x),
   ((![c, a, b], ![k, j, i]), -x),
   ((![c, b, a], ![k, j, i]), x)]

/-- Assignments for spin case `aab`, `/repo/ccpy/extcorr/external_correction.py:300-305`. -/
def ciWritesAab (a b c i j k : ℕ) (x : R) : List (Key3 × R) :=
  [((![a, b, c], ![i, j, k]), x),
   ((![b, a, c], ![i, j, k]), -x),
   ((![a, b, c], ![j, i, k]), -x),
   ((![b, a, c], ![j, i, k]), x)]

/-- Assignments for spin case `abb`, `/repo/ccpy/extcorr/external_correction.py:307-312`. -/
def ciWritesAbb (a b c i j k : ℕ) (x : R) : List (Key3 × R) :=
  [((![a, b, c], ![i, j, k]), x),
   ((![a, c, b], ![i, j, k]), -x),
   ((![a, b, c], ![i, k, j]), -x),
   ((![a, c, b], ![i, k, j]), x)]

/-- Assignments for spin case `bbb`, `/repo/ccpy/extcorr/external_correction.py:314-351`. -/
def ciWritesBbb (a b c i j k : ℕ) (x : R) : List (Key3 × R) :=
  [((![a, b, c], ![i, j, k]), x),
   ((![a, c, b], ![i, j, k]), -x),
   ((![b, a, c], ![i, j, k]), -x),
   ((![b, c, a], ![i, j, k]), x),
   ((![c, a, b], ![i, j, k]), x),
   ((![c, b, a], ![i, j, k]), -x),
   ((![a, b, c], ![i, k, j]), -x),
   ((![a, c, b], ![i, k, j]), x),
   ((![b, a, c], ![i, k, j]), x),
   ((![b, c, a], ![i, k, j]), -x),
   ((![c, a, b], ![i, k, j]), -x),
   ((![c, b, a], ![i, k, j]), x),
   ((![a, b, c], ![j, k, i]), x),
   ((![a, c, b], ![j, k, i]), -x),
   ((![b, a, c], ![j, k, i]), -x),
   ((![b, c, a], ![j, k, i]), x),
   ((![c, a, b], ![j, k, i]), x),
   ((![c, b, a], ![j, k, i]), -x),
   ((![a, b, c], ![j, i, k]), -x),
   ((![a, c, b], ![j, i, k]), x),
   ((![b, a, c], ![j, i, k]), x),
   ((![b, c, a], ![j, i, k]), -x),
   ((![c, a, b], ![j, i, k]), -x),
   ((![c, b, a], ![j, i, k]), x),
   ((![a, b, c], ![k, i, j]), x),
   ((![a, c, b], ![k, i, j]), -x),
   ((![b, a, c], ![k, i, j]), -x),
   ((![b, c, a], ![k, i, j]), x),
   ((![c, a, b], ![k, i, j]), x),
   ((![c, b, a], ![k, i, j]), -x),
   ((![a, b, c], ![k, j, i]), -x),
   ((![a, c, b], ![k, j, i]), x),
   ((![b, a, c], ![k, j, i]), x),
   ((![b, c, a], ![k, j, i]), -x),
   ((![c, a, b], ![k, j, i]), -x),
   ((![c, b, a], ![k, j, i]), x)]

/-- The amplitude tensors of `C = ClusterOperator(system, 3)` that are written to;
`/repo/ccpy/extcorr/external_correction.py:116`. -/
structure CIOperator (R : Type*) where
  a : ℕ × ℕ → R
  b : ℕ × ℕ → R
  aa : Key2 → R
  ab : Key2 → R
  bb : Key2 → R
  aaa : Key3 → R
  aab : Key3 → R
  abb : Key3 → R
  bbb : Key3 → R

/-- `insert_ci_amplitude(C, excitation, coefficient, spincase)`,
`/repo/ccpy/extcorr/external_correction.py:229-373`.  `none` is the `ValueError` raised by tuple
unpacking when the excitation has the wrong length; an unknown spin case falls through all
branches and returns `C` unchanged. -/
def insertCiAmplitude (C : CIOperator R) (exc : List ℕ) (x : R) (spincase : List Char) :
    Option (CIOperator R) :=
  if spincase = ['a'] then
    match exc with
    | [a, i] => some { C with a := Function.update C.a (a, i) x }
    | _ => none
  else if spincase = ['b'] then
    match exc with
    | [a, i] => some { C with b := Function.update C.b (a, i) x }
    | _ => none
  else if spincase = ['a', 'a'] then
    match exc with
    | [a, b, i, j] => some { C with aa := applyWrites C.aa (ciWritesAa a b i j x) }
    | _ => none
  else if spincase = ['a', 'b'] then
    match exc with
    | [a, b, i, j] => some { C with ab := applyWrites C.ab (ciWritesAb a b i j x) }
    | _ => none
  else if spincase = ['b', 'b'] then
    match exc with
    | [a, b, i, j] => some { C with bb := applyWrites C.bb (ciWritesBb a b i j x) }
    | _ => none
  else if spincase = ['a', 'a', 'a'] then
    match exc with
    | [a, b, c, i, j, k] => some { C with aaa := applyWrites C.aaa (ciWritesAaa a b c i j k x) }
    | _ => none
  else if spincase = ['a', 'a', 'b'] then
    match exc with
    | [a, b, c, i, j, k] => some { C with aab := applyWrites C.aab (ciWritesAab a b c i j k x) }
    | _ => none
  else if spincase = ['a', 'b', 'b'] then
    match exc with
    | [a, b, c, i, j, k] => some { C with abb := applyWrites C.abb (ciWritesAbb a b c i j k x) }
    | _ => none
  else if spincase = ['b', 'b', 'b'] then
    match exc with
    | [a, b, c, i, j, k] => some { C with bbb := applyWrites C.bbb (ciWritesBbb a b c i j k x) }
    | _ => none
  else some C

end Ccpy.ExternalCorrection
