import Verif.Engine.Parts

/-! The operators that add, remove or flip electrons, as lists of parts. -/

namespace Ccpy.Fock
open Finset

variable {ι : Type*} [LinearOrder ι]

namespace Attachment

/-- The parts of the operator. -/
def parts : List Part :=
  [⟨11, [1], 1, [1], [(true, 0)]⟩,
   ⟨12, [1, 1, 0], 2, [2, 1], [(true, 0), (true, 1), (false, 2)]⟩,
   ⟨13, [1, 3, 2], 1, [1, 1, 1], [(true, 0), (true, 1), (false, 2)]⟩]

theorem operator_eq (S : Orbitals ι) (R : Attachment) : R.operator S = partsOperator S parts R.amp := by
  simp [Attachment.operator, partsOperator, parts, boxSum, Part.product, Orbitals.size, Orbitals.orbital, Attachment.amp, add_assoc, mul_assoc]

theorem adjoint_eq (S : Orbitals ι) (R : Attachment) : R.adjoint S = partsOperator S (parts.map Part.undo) R.amp := by
  simp [Attachment.adjoint, partsOperator, parts, Part.undo, boxSum, Part.product, Orbitals.size, Orbitals.orbital, Attachment.amp, add_assoc, mul_assoc]

theorem anti_a (R : Attachment) : AntisymmetricIn [1] (R.amp 11) :=
  fun l₁ _ _ _ hs => absurd hs (by
    match l₁ with
    | [] => exact (by decide : ¬ (false = true))
    | _ :: _ => simp [sameGroup])

theorem zero_aa (R : Attachment) (l : List ℕ) (h : l.length ≠ 3) : R.amp 12 l = 0 := by
  match l, h with
  | [], _ | [_], _ | [_, _], _ | _ :: _ :: _ :: _ :: _, _ => rfl
  | [_, _, _], h => exact absurd rfl h

theorem anti_aa {R : Attachment} (h : R.Antisym) : AntisymmetricIn [2, 1] (R.amp 12) := by
  intro l₁ x y l₂ hs
  by_cases hl : l₁.length + l₂.length = 1
  · match l₁, l₂, hs, hl with
    | [], [p0], _, _ => exact (h.aa x y p0)
    | [p0], [], hs, _ => exact absurd (show false = true from hs) (by decide)
    | [], _ :: _ :: _, _, hl => exact absurd hl (by simp only [List.length_cons, List.length_nil]; omega)
    | [], [], _, hl => exact absurd hl (by simp only [List.length_cons, List.length_nil]; omega)
    | [_], _ :: _, _, hl => exact absurd hl (by simp only [List.length_cons, List.length_nil]; omega)
    | _ :: _ :: _, _, _, hl => exact absurd hl (by simp only [List.length_cons]; omega)
  · rw [zero_aa R _ (by simp only [List.length_append, List.length_cons]; omega), zero_aa R _ (by simp only [List.length_append, List.length_cons]; omega), neg_zero]

theorem anti_ab (R : Attachment) : AntisymmetricIn [1, 1, 1] (R.amp 13) :=
  fun l₁ _ _ _ hs => absurd hs (by
    match l₁ with
    | [] | [_] | [_, _] => exact (by decide : ¬ (false = true))
    | _ :: _ :: _ :: _ => simp [sameGroup])

theorem anti_parts {R : Attachment} (h : R.Antisym) : ∀ p ∈ parts, AntisymmetricIn p.groups (R.amp p.name) := by
  intro p hp
  simp only [parts, List.mem_cons, List.not_mem_nil, or_false] at hp
  rcases hp with rfl | rfl | rfl
  · exact anti_a R
  · exact anti_aa h
  · exact anti_ab R

end Attachment

namespace Ionisation

/-- The parts of the operator. -/
def parts : List Part :=
  [⟨11, [0], 1, [1], [(false, 0)]⟩,
   ⟨12, [1, 0, 0], 2, [1, 2], [(true, 0), (false, 2), (false, 1)]⟩,
   ⟨13, [0, 3, 2], 1, [1, 1, 1], [(true, 1), (false, 2), (false, 0)]⟩]

theorem operator_eq (S : Orbitals ι) (R : Ionisation) : R.operator S = partsOperator S parts R.amp := by
  simp [Ionisation.operator, partsOperator, parts, boxSum, Part.product, Orbitals.size, Orbitals.orbital, Ionisation.amp, add_assoc, mul_assoc]

theorem adjoint_eq (S : Orbitals ι) (R : Ionisation) : R.adjoint S = partsOperator S (parts.map Part.undo) R.amp := by
  simp [Ionisation.adjoint, partsOperator, parts, Part.undo, boxSum, Part.product, Orbitals.size, Orbitals.orbital, Ionisation.amp, add_assoc, mul_assoc]

theorem anti_a (R : Ionisation) : AntisymmetricIn [1] (R.amp 11) :=
  fun l₁ _ _ _ hs => absurd hs (by
    match l₁ with
    | [] => exact (by decide : ¬ (false = true))
    | _ :: _ => simp [sameGroup])

theorem zero_aa (R : Ionisation) (l : List ℕ) (h : l.length ≠ 3) : R.amp 12 l = 0 := by
  match l, h with
  | [], _ | [_], _ | [_, _], _ | _ :: _ :: _ :: _ :: _, _ => rfl
  | [_, _, _], h => exact absurd rfl h

theorem anti_aa {R : Ionisation} (h : R.Antisym) : AntisymmetricIn [1, 2] (R.amp 12) := by
  intro l₁ x y l₂ hs
  by_cases hl : l₁.length + l₂.length = 1
  · match l₁, l₂, hs, hl with
    | [], [p0], hs, _ => exact absurd (show false = true from hs) (by decide)
    | [p0], [], _, _ => exact (h.aa x p0 y)
    | [], _ :: _ :: _, _, hl => exact absurd hl (by simp only [List.length_cons, List.length_nil]; omega)
    | [], [], _, hl => exact absurd hl (by simp only [List.length_cons, List.length_nil]; omega)
    | [_], _ :: _, _, hl => exact absurd hl (by simp only [List.length_cons, List.length_nil]; omega)
    | _ :: _ :: _, _, _, hl => exact absurd hl (by simp only [List.length_cons]; omega)
  · rw [zero_aa R _ (by simp only [List.length_append, List.length_cons]; omega), zero_aa R _ (by simp only [List.length_append, List.length_cons]; omega), neg_zero]

theorem anti_ab (R : Ionisation) : AntisymmetricIn [1, 1, 1] (R.amp 13) :=
  fun l₁ _ _ _ hs => absurd hs (by
    match l₁ with
    | [] | [_] | [_, _] => exact (by decide : ¬ (false = true))
    | _ :: _ :: _ :: _ => simp [sameGroup])

theorem anti_parts {R : Ionisation} (h : R.Antisym) : ∀ p ∈ parts, AntisymmetricIn p.groups (R.amp p.name) := by
  intro p hp
  simp only [parts, List.mem_cons, List.not_mem_nil, or_false] at hp
  rcases hp with rfl | rfl | rfl
  · exact anti_a R
  · exact anti_aa h
  · exact anti_ab R

end Ionisation

namespace PairAttachment

/-- The parts of the operator. -/
def parts : List Part :=
  [⟨11, [1, 3], 1, [1, 1], [(true, 0), (true, 1)]⟩]

theorem operator_eq (S : Orbitals ι) (R : PairAttachment) : R.operator S = partsOperator S parts R.amp := by
  simp [PairAttachment.operator, partsOperator, parts, boxSum, Part.product, Orbitals.size, Orbitals.orbital, PairAttachment.amp, add_assoc, mul_assoc]

theorem anti_ab (R : PairAttachment) : AntisymmetricIn [1, 1] (R.amp 11) :=
  fun l₁ _ _ _ hs => absurd hs (by
    match l₁ with
    | [] | [_] => exact (by decide : ¬ (false = true))
    | _ :: _ :: _ => simp [sameGroup])

theorem anti_parts {R : PairAttachment} (h : R.Antisym) : ∀ p ∈ parts, AntisymmetricIn p.groups (R.amp p.name) := by
  intro p hp
  simp only [parts, List.mem_cons, List.not_mem_nil, or_false] at hp
  rcases hp with rfl
  · exact anti_ab R

end PairAttachment

namespace DoubleAttachment

/-- The parts of the operator. -/
def parts : List Part :=
  [⟨11, [1, 3], 1, [1, 1], [(true, 0), (true, 1)]⟩,
   ⟨12, [1, 1, 3, 0], 2, [2, 1, 1], [(true, 0), (true, 2), (true, 1), (false, 3)]⟩,
   ⟨13, [1, 3, 3, 2], 2, [1, 2, 1], [(true, 0), (true, 1), (true, 2), (false, 3)]⟩]

theorem operator_eq (S : Orbitals ι) (R : DoubleAttachment) : R.operator S = partsOperator S parts R.amp := by
  simp [DoubleAttachment.operator, partsOperator, parts, boxSum, Part.product, Orbitals.size, Orbitals.orbital, DoubleAttachment.amp, add_assoc, mul_assoc]

theorem anti_ab (R : DoubleAttachment) : AntisymmetricIn [1, 1] (R.amp 11) :=
  fun l₁ _ _ _ hs => absurd hs (by
    match l₁ with
    | [] | [_] => exact (by decide : ¬ (false = true))
    | _ :: _ :: _ => simp [sameGroup])

theorem zero_aba (R : DoubleAttachment) (l : List ℕ) (h : l.length ≠ 4) : R.amp 12 l = 0 := by
  match l, h with
  | [], _ | [_], _ | [_, _], _ | [_, _, _], _ | _ :: _ :: _ :: _ :: _ :: _, _ => rfl
  | [_, _, _, _], h => exact absurd rfl h

theorem anti_aba {R : DoubleAttachment} (h : R.Antisym) : AntisymmetricIn [2, 1, 1] (R.amp 12) := by
  intro l₁ x y l₂ hs
  by_cases hl : l₁.length + l₂.length = 2
  · match l₁, l₂, hs, hl with
    | [], [p0, p1], _, _ => exact (h.aba x p0 y p1)
    | [p0], [p1], hs, _ => exact absurd (show false = true from hs) (by decide)
    | [p0, p1], [], hs, _ => exact absurd (show false = true from hs) (by decide)
    | [], _ :: _ :: _ :: _, _, hl => exact absurd hl (by simp only [List.length_cons, List.length_nil]; omega)
    | [], [], _, hl => exact absurd hl (by simp only [List.length_cons, List.length_nil]; omega)
    | [], [_], _, hl => exact absurd hl (by simp only [List.length_cons, List.length_nil]; omega)
    | [_], _ :: _ :: _, _, hl => exact absurd hl (by simp only [List.length_cons, List.length_nil]; omega)
    | [_], [], _, hl => exact absurd hl (by simp only [List.length_cons, List.length_nil]; omega)
    | [_, _], _ :: _, _, hl => exact absurd hl (by simp only [List.length_cons, List.length_nil]; omega)
    | _ :: _ :: _ :: _, _, _, hl => exact absurd hl (by simp only [List.length_cons]; omega)
  · rw [zero_aba R _ (by simp only [List.length_append, List.length_cons]; omega), zero_aba R _ (by simp only [List.length_append, List.length_cons]; omega), neg_zero]

theorem zero_abb (R : DoubleAttachment) (l : List ℕ) (h : l.length ≠ 4) : R.amp 13 l = 0 := by
  match l, h with
  | [], _ | [_], _ | [_, _], _ | [_, _, _], _ | _ :: _ :: _ :: _ :: _ :: _, _ => rfl
  | [_, _, _, _], h => exact absurd rfl h

theorem anti_abb {R : DoubleAttachment} (h : R.Antisym) : AntisymmetricIn [1, 2, 1] (R.amp 13) := by
  intro l₁ x y l₂ hs
  by_cases hl : l₁.length + l₂.length = 2
  · match l₁, l₂, hs, hl with
    | [], [p0, p1], hs, _ => exact absurd (show false = true from hs) (by decide)
    | [p0], [p1], _, _ => exact (h.abb p0 x y p1)
    | [p0, p1], [], hs, _ => exact absurd (show false = true from hs) (by decide)
    | [], _ :: _ :: _ :: _, _, hl => exact absurd hl (by simp only [List.length_cons, List.length_nil]; omega)
    | [], [], _, hl => exact absurd hl (by simp only [List.length_cons, List.length_nil]; omega)
    | [], [_], _, hl => exact absurd hl (by simp only [List.length_cons, List.length_nil]; omega)
    | [_], _ :: _ :: _, _, hl => exact absurd hl (by simp only [List.length_cons, List.length_nil]; omega)
    | [_], [], _, hl => exact absurd hl (by simp only [List.length_cons, List.length_nil]; omega)
    | [_, _], _ :: _, _, hl => exact absurd hl (by simp only [List.length_cons, List.length_nil]; omega)
    | _ :: _ :: _ :: _, _, _, hl => exact absurd hl (by simp only [List.length_cons]; omega)
  · rw [zero_abb R _ (by simp only [List.length_append, List.length_cons]; omega), zero_abb R _ (by simp only [List.length_append, List.length_cons]; omega), neg_zero]

theorem anti_parts {R : DoubleAttachment} (h : R.Antisym) : ∀ p ∈ parts, AntisymmetricIn p.groups (R.amp p.name) := by
  intro p hp
  simp only [parts, List.mem_cons, List.not_mem_nil, or_false] at hp
  rcases hp with rfl | rfl | rfl
  · exact anti_ab R
  · exact anti_aba h
  · exact anti_abb h

end DoubleAttachment

namespace DoubleIonisation

/-- The parts of the operator. -/
def parts : List Part :=
  [⟨11, [0, 2], 1, [1, 1], [(false, 1), (false, 0)]⟩,
   ⟨12, [1, 2, 0, 0], 2, [1, 1, 2], [(true, 0), (false, 3), (false, 1), (false, 2)]⟩,
   ⟨13, [0, 3, 2, 2], 2, [1, 1, 2], [(true, 1), (false, 3), (false, 2), (false, 0)]⟩]

theorem operator_eq (S : Orbitals ι) (R : DoubleIonisation) : R.operator S = partsOperator S parts R.amp := by
  simp [DoubleIonisation.operator, partsOperator, parts, boxSum, Part.product, Orbitals.size, Orbitals.orbital, DoubleIonisation.amp, add_assoc, mul_assoc]

theorem anti_ab (R : DoubleIonisation) : AntisymmetricIn [1, 1] (R.amp 11) :=
  fun l₁ _ _ _ hs => absurd hs (by
    match l₁ with
    | [] | [_] => exact (by decide : ¬ (false = true))
    | _ :: _ :: _ => simp [sameGroup])

theorem zero_aba (R : DoubleIonisation) (l : List ℕ) (h : l.length ≠ 4) : R.amp 12 l = 0 := by
  match l, h with
  | [], _ | [_], _ | [_, _], _ | [_, _, _], _ | _ :: _ :: _ :: _ :: _ :: _, _ => rfl
  | [_, _, _, _], h => exact absurd rfl h

theorem anti_aba {R : DoubleIonisation} (h : R.Antisym) : AntisymmetricIn [1, 1, 2] (R.amp 12) := by
  intro l₁ x y l₂ hs
  by_cases hl : l₁.length + l₂.length = 2
  · match l₁, l₂, hs, hl with
    | [], [p0, p1], hs, _ => exact absurd (show false = true from hs) (by decide)
    | [p0], [p1], hs, _ => exact absurd (show false = true from hs) (by decide)
    | [p0, p1], [], _, _ => exact (h.aba x p1 p0 y)
    | [], _ :: _ :: _ :: _, _, hl => exact absurd hl (by simp only [List.length_cons, List.length_nil]; omega)
    | [], [], _, hl => exact absurd hl (by simp only [List.length_cons, List.length_nil]; omega)
    | [], [_], _, hl => exact absurd hl (by simp only [List.length_cons, List.length_nil]; omega)
    | [_], _ :: _ :: _, _, hl => exact absurd hl (by simp only [List.length_cons, List.length_nil]; omega)
    | [_], [], _, hl => exact absurd hl (by simp only [List.length_cons, List.length_nil]; omega)
    | [_, _], _ :: _, _, hl => exact absurd hl (by simp only [List.length_cons, List.length_nil]; omega)
    | _ :: _ :: _ :: _, _, _, hl => exact absurd hl (by simp only [List.length_cons]; omega)
  · rw [zero_aba R _ (by simp only [List.length_append, List.length_cons]; omega), zero_aba R _ (by simp only [List.length_append, List.length_cons]; omega), neg_zero]

theorem zero_abb (R : DoubleIonisation) (l : List ℕ) (h : l.length ≠ 4) : R.amp 13 l = 0 := by
  match l, h with
  | [], _ | [_], _ | [_, _], _ | [_, _, _], _ | _ :: _ :: _ :: _ :: _ :: _, _ => rfl
  | [_, _, _, _], h => exact absurd rfl h

theorem anti_abb {R : DoubleIonisation} (h : R.Antisym) : AntisymmetricIn [1, 1, 2] (R.amp 13) := by
  intro l₁ x y l₂ hs
  by_cases hl : l₁.length + l₂.length = 2
  · match l₁, l₂, hs, hl with
    | [], [p0, p1], hs, _ => exact absurd (show false = true from hs) (by decide)
    | [p0], [p1], hs, _ => exact absurd (show false = true from hs) (by decide)
    | [p0, p1], [], _, _ => exact (h.abb p0 x p1 y)
    | [], _ :: _ :: _ :: _, _, hl => exact absurd hl (by simp only [List.length_cons, List.length_nil]; omega)
    | [], [], _, hl => exact absurd hl (by simp only [List.length_cons, List.length_nil]; omega)
    | [], [_], _, hl => exact absurd hl (by simp only [List.length_cons, List.length_nil]; omega)
    | [_], _ :: _ :: _, _, hl => exact absurd hl (by simp only [List.length_cons, List.length_nil]; omega)
    | [_], [], _, hl => exact absurd hl (by simp only [List.length_cons, List.length_nil]; omega)
    | [_, _], _ :: _, _, hl => exact absurd hl (by simp only [List.length_cons, List.length_nil]; omega)
    | _ :: _ :: _ :: _, _, _, hl => exact absurd hl (by simp only [List.length_cons]; omega)
  · rw [zero_abb R _ (by simp only [List.length_append, List.length_cons]; omega), zero_abb R _ (by simp only [List.length_append, List.length_cons]; omega), neg_zero]

theorem anti_parts {R : DoubleIonisation} (h : R.Antisym) : ∀ p ∈ parts, AntisymmetricIn p.groups (R.amp p.name) := by
  intro p hp
  simp only [parts, List.mem_cons, List.not_mem_nil, or_false] at hp
  rcases hp with rfl | rfl | rfl
  · exact anti_ab R
  · exact anti_aba h
  · exact anti_abb h

end DoubleIonisation

namespace SpinFlip

/-- The parts of the operator. -/
def parts : List Part :=
  [⟨11, [3, 0], 1, [1, 1], [(true, 0), (false, 1)]⟩,
   ⟨12, [1, 3, 0, 0], 2, [1, 1, 2], [(true, 0), (true, 1), (false, 3), (false, 2)]⟩,
   ⟨13, [3, 3, 2, 0], 2, [2, 1, 1], [(true, 0), (true, 1), (false, 3), (false, 2)]⟩]

theorem operator_eq (S : Orbitals ι) (R : SpinFlip) : R.operator S = partsOperator S parts R.amp := by
  simp [SpinFlip.operator, partsOperator, parts, boxSum, Part.product, Orbitals.size, Orbitals.orbital, SpinFlip.amp, add_assoc, mul_assoc]

theorem anti_b (R : SpinFlip) : AntisymmetricIn [1, 1] (R.amp 11) :=
  fun l₁ _ _ _ hs => absurd hs (by
    match l₁ with
    | [] | [_] => exact (by decide : ¬ (false = true))
    | _ :: _ :: _ => simp [sameGroup])

theorem zero_ab (R : SpinFlip) (l : List ℕ) (h : l.length ≠ 4) : R.amp 12 l = 0 := by
  match l, h with
  | [], _ | [_], _ | [_, _], _ | [_, _, _], _ | _ :: _ :: _ :: _ :: _ :: _, _ => rfl
  | [_, _, _, _], h => exact absurd rfl h

theorem anti_ab {R : SpinFlip} (h : R.Antisym) : AntisymmetricIn [1, 1, 2] (R.amp 12) := by
  intro l₁ x y l₂ hs
  by_cases hl : l₁.length + l₂.length = 2
  · match l₁, l₂, hs, hl with
    | [], [p0, p1], hs, _ => exact absurd (show false = true from hs) (by decide)
    | [p0], [p1], hs, _ => exact absurd (show false = true from hs) (by decide)
    | [p0, p1], [], _, _ => exact (h.ab p0 p1 x y)
    | [], _ :: _ :: _ :: _, _, hl => exact absurd hl (by simp only [List.length_cons, List.length_nil]; omega)
    | [], [], _, hl => exact absurd hl (by simp only [List.length_cons, List.length_nil]; omega)
    | [], [_], _, hl => exact absurd hl (by simp only [List.length_cons, List.length_nil]; omega)
    | [_], _ :: _ :: _, _, hl => exact absurd hl (by simp only [List.length_cons, List.length_nil]; omega)
    | [_], [], _, hl => exact absurd hl (by simp only [List.length_cons, List.length_nil]; omega)
    | [_, _], _ :: _, _, hl => exact absurd hl (by simp only [List.length_cons, List.length_nil]; omega)
    | _ :: _ :: _ :: _, _, _, hl => exact absurd hl (by simp only [List.length_cons]; omega)
  · rw [zero_ab R _ (by simp only [List.length_append, List.length_cons]; omega), zero_ab R _ (by simp only [List.length_append, List.length_cons]; omega), neg_zero]

theorem zero_bb (R : SpinFlip) (l : List ℕ) (h : l.length ≠ 4) : R.amp 13 l = 0 := by
  match l, h with
  | [], _ | [_], _ | [_, _], _ | [_, _, _], _ | _ :: _ :: _ :: _ :: _ :: _, _ => rfl
  | [_, _, _, _], h => exact absurd rfl h

theorem anti_bb {R : SpinFlip} (h : R.Antisym) : AntisymmetricIn [2, 1, 1] (R.amp 13) := by
  intro l₁ x y l₂ hs
  by_cases hl : l₁.length + l₂.length = 2
  · match l₁, l₂, hs, hl with
    | [], [p0, p1], _, _ => exact (h.bb x y p0 p1)
    | [p0], [p1], hs, _ => exact absurd (show false = true from hs) (by decide)
    | [p0, p1], [], hs, _ => exact absurd (show false = true from hs) (by decide)
    | [], _ :: _ :: _ :: _, _, hl => exact absurd hl (by simp only [List.length_cons, List.length_nil]; omega)
    | [], [], _, hl => exact absurd hl (by simp only [List.length_cons, List.length_nil]; omega)
    | [], [_], _, hl => exact absurd hl (by simp only [List.length_cons, List.length_nil]; omega)
    | [_], _ :: _ :: _, _, hl => exact absurd hl (by simp only [List.length_cons, List.length_nil]; omega)
    | [_], [], _, hl => exact absurd hl (by simp only [List.length_cons, List.length_nil]; omega)
    | [_, _], _ :: _, _, hl => exact absurd hl (by simp only [List.length_cons, List.length_nil]; omega)
    | _ :: _ :: _ :: _, _, _, hl => exact absurd hl (by simp only [List.length_cons]; omega)
  · rw [zero_bb R _ (by simp only [List.length_append, List.length_cons]; omega), zero_bb R _ (by simp only [List.length_append, List.length_cons]; omega), neg_zero]

theorem anti_parts {R : SpinFlip} (h : R.Antisym) : ∀ p ∈ parts, AntisymmetricIn p.groups (R.amp p.name) := by
  intro p hp
  simp only [parts, List.mem_cons, List.not_mem_nil, or_false] at hp
  rcases hp with rfl | rfl | rfl
  · exact anti_b R
  · exact anti_ab h
  · exact anti_bb h

end SpinFlip

end Ccpy.Fock
