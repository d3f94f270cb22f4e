import Verif.Spec.ExcitationLists

/-! What a list of selected triples means. -/

namespace Ccpy.Excitations
open Ccpy.Spec

/-- Spin-orbital number of index `x` (from 0) and spin σ: odd for alpha, even for beta, from 1. -/
def spinOrbital (σ : Spin) (x : ℕ) : ℕ :=
  match σ with
  | .α => 2 * x + 1
  | .β => 2 * x + 2

/-- A selected triple: spin case, particles, holes. -/
structure Triple where
  case : Case
  ps : List ℕ
  hs : List ℕ

/-- The row a selection routine hands over: six spin-orbital numbers, or zeros if unset. -/
def encode : Option Triple → List ℕ
  | none => [0, 0, 0, 0, 0, 0]
  | some t =>
    List.zipWith spinOrbital t.case.spins t.ps ++ List.zipWith spinOrbital t.case.spins t.hs

def Triple.row (t : Triple) : List ℕ := Spec.row t.ps t.hs

/-- The rows of a spin case among the selected triples. -/
def pick (sel : List (Option Triple)) (c : Case) : List Triple :=
  sel.filterMap fun o => o.bind fun t => if t.case = c then some t else none

/-- Exchanging the spins of an aab triple gives an abb triple. -/
def mirror (t : Triple) : Triple :=
  match t.ps, t.hs with
  | [a, b, c], [i, j, k] => ⟨.abb, [c, a, b], [k, i, j]⟩
  | _, _ => t

/-- The triples to be added to a spin case. With RHF symmetry only the aaa and aab triples count,
and the bbb and abb ones are their spin mirrors. -/
def wanted (rhf : Bool) (sel : List (Option Triple)) : Case → List Triple
  | .aaa => pick sel .aaa
  | .aab => pick sel .aab
  | .abb => if rhf then (pick sel .aab).map mirror else pick sel .abb
  | .bbb => if rhf then (pick sel .aaa).map fun t => { t with case := .bbb } else pick sel .bbb

/-- Irrep of the determinant a triple leads to. -/
def Triple.irrep (s : Sys) (t : Triple) : ℕ :=
  s.ref ^^^ excitationIrrep s.space t.case.spins t.ps t.hs

end Ccpy.Excitations
