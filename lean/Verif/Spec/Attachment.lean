import Verif.Spec.EquationOfMotion

/-! Specification: operators that add electrons to the reference determinant, remove some or flip their spins. -/

namespace Ccpy.Fock
open Finset

variable {ι : Type*} [LinearOrder ι]

/-- The arrays of cluster amplitudes, and those of another operator from 11 on. -/
def joined (T : Cluster) (r : ℕ → List ℕ → ℚ) (name : ℕ) (idx : List ℕ) : ℚ :=
  if name < 11 then T.amp name idx else r name idx

/-- Amplitudes of an operator that adds an electron with spin up and excites at most one further electron. -/
structure Attachment where
  (a : ℕ → ℚ)
  (aa : ℕ → ℕ → ℕ → ℚ)
  (ab : ℕ → ℕ → ℕ → ℚ)

/-- The amplitudes change sign on exchange of equivalent indices. -/
structure Attachment.Antisym (R : Attachment) : Prop where
  aa : ∀ a b j, R.aa a b j = -R.aa b a j

/-- The operator with the given amplitudes. -/
noncomputable def Attachment.operator (S : Orbitals ι) (R : Attachment) : Operator ι :=
    (∑ a ∈ range S.ua,
      R.a a • cre (S.virA a))
    + ((1 / 2 : ℚ) • ∑ a ∈ range S.ua, ∑ b ∈ range S.ua, ∑ j ∈ range S.na,
      R.aa a b j • (cre (S.virA a) * cre (S.virA b) * ann (S.occA j)))
    + (∑ a ∈ range S.ua, ∑ b ∈ range S.ub, ∑ j ∈ range S.nb,
      R.ab a b j • (cre (S.virA a) * cre (S.virB b) * ann (S.occB j)))

/-- The adjoint operator: the strings are reversed and creation and annihilation operators exchanged. -/
noncomputable def Attachment.adjoint (S : Orbitals ι) (R : Attachment) : Operator ι :=
    (∑ a ∈ range S.ua,
      R.a a • ann (S.virA a))
    + ((1 / 2 : ℚ) • ∑ a ∈ range S.ua, ∑ b ∈ range S.ua, ∑ j ∈ range S.na,
      R.aa a b j • (cre (S.occA j) * ann (S.virA b) * ann (S.virA a)))
    + (∑ a ∈ range S.ua, ∑ b ∈ range S.ub, ∑ j ∈ range S.nb,
      R.ab a b j • (cre (S.occB j) * ann (S.virB b) * ann (S.virA a)))

/-- The arrays of amplitudes are numbered from 11 on. -/
def Attachment.amp (R : Attachment) (name : ℕ) (idx : List ℕ) : ℚ :=
  match name, idx with
  | 11, [a] => R.a a
  | 12, [a, b, j] => R.aa a b j
  | 13, [a, b, j] => R.ab a b j
  | _, _ => 0

/-- Amplitudes of an operator that removes an electron with spin up and excites at most one further electron. -/
structure Ionisation where
  (a : ℕ → ℚ)
  (aa : ℕ → ℕ → ℕ → ℚ)
  (ab : ℕ → ℕ → ℕ → ℚ)

/-- The amplitudes change sign on exchange of equivalent indices. -/
structure Ionisation.Antisym (R : Ionisation) : Prop where
  aa : ∀ i b j, R.aa i b j = -R.aa j b i

/-- The operator with the given amplitudes. -/
noncomputable def Ionisation.operator (S : Orbitals ι) (R : Ionisation) : Operator ι :=
    (∑ i ∈ range S.na,
      R.a i • ann (S.occA i))
    + ((1 / 2 : ℚ) • ∑ b ∈ range S.ua, ∑ i ∈ range S.na, ∑ j ∈ range S.na,
      R.aa i b j • (cre (S.virA b) * ann (S.occA j) * ann (S.occA i)))
    + (∑ i ∈ range S.na, ∑ b ∈ range S.ub, ∑ j ∈ range S.nb,
      R.ab i b j • (cre (S.virB b) * ann (S.occB j) * ann (S.occA i)))

/-- The adjoint operator: the strings are reversed and creation and annihilation operators exchanged. -/
noncomputable def Ionisation.adjoint (S : Orbitals ι) (R : Ionisation) : Operator ι :=
    (∑ i ∈ range S.na,
      R.a i • cre (S.occA i))
    + ((1 / 2 : ℚ) • ∑ b ∈ range S.ua, ∑ i ∈ range S.na, ∑ j ∈ range S.na,
      R.aa i b j • (cre (S.occA i) * cre (S.occA j) * ann (S.virA b)))
    + (∑ i ∈ range S.na, ∑ b ∈ range S.ub, ∑ j ∈ range S.nb,
      R.ab i b j • (cre (S.occA i) * cre (S.occB j) * ann (S.virB b)))

/-- The arrays of amplitudes are numbered from 11 on. -/
def Ionisation.amp (R : Ionisation) (name : ℕ) (idx : List ℕ) : ℚ :=
  match name, idx with
  | 11, [i] => R.a i
  | 12, [b, i, j] => R.aa i b j
  | 13, [i, b, j] => R.ab i b j
  | _, _ => 0

/-- Amplitudes of an operator that adds two electrons with different spins. -/
structure PairAttachment where
  (ab : ℕ → ℕ → ℚ)

/-- The amplitudes change sign on exchange of equivalent indices. -/
structure PairAttachment.Antisym (_R : PairAttachment) : Prop where

/-- The operator with the given amplitudes. -/
noncomputable def PairAttachment.operator (S : Orbitals ι) (R : PairAttachment) : Operator ι :=
    (∑ a ∈ range S.ua, ∑ b ∈ range S.ub,
      R.ab a b • (cre (S.virA a) * cre (S.virB b)))

/-- The arrays of amplitudes are numbered from 11 on. -/
def PairAttachment.amp (R : PairAttachment) (name : ℕ) (idx : List ℕ) : ℚ :=
  match name, idx with
  | 11, [a, b] => R.ab a b
  | _, _ => 0

/-- Amplitudes of an operator that adds two electrons with different spins and excites at most one electron. -/
structure DoubleAttachment where
  (ab : ℕ → ℕ → ℚ)
  (aba : ℕ → ℕ → ℕ → ℕ → ℚ)
  (abb : ℕ → ℕ → ℕ → ℕ → ℚ)

/-- The amplitudes change sign on exchange of equivalent indices. -/
structure DoubleAttachment.Antisym (R : DoubleAttachment) : Prop where
  aba : ∀ a b c k, R.aba a b c k = -R.aba c b a k
  abb : ∀ a b c k, R.abb a b c k = -R.abb a c b k

/-- The operator with the given amplitudes. -/
noncomputable def DoubleAttachment.operator (S : Orbitals ι) (R : DoubleAttachment) : Operator ι :=
    (∑ a ∈ range S.ua, ∑ b ∈ range S.ub,
      R.ab a b • (cre (S.virA a) * cre (S.virB b)))
    + ((1 / 2 : ℚ) • ∑ a ∈ range S.ua, ∑ c ∈ range S.ua, ∑ b ∈ range S.ub, ∑ k ∈ range S.na,
      R.aba a b c k • (cre (S.virA a) * cre (S.virB b) * cre (S.virA c) * ann (S.occA k)))
    + ((1 / 2 : ℚ) • ∑ a ∈ range S.ua, ∑ b ∈ range S.ub, ∑ c ∈ range S.ub, ∑ k ∈ range S.nb,
      R.abb a b c k • (cre (S.virA a) * cre (S.virB b) * cre (S.virB c) * ann (S.occB k)))

/-- The arrays of amplitudes are numbered from 11 on. -/
def DoubleAttachment.amp (R : DoubleAttachment) (name : ℕ) (idx : List ℕ) : ℚ :=
  match name, idx with
  | 11, [a, b] => R.ab a b
  | 12, [a, c, b, k] => R.aba a b c k
  | 13, [a, b, c, k] => R.abb a b c k
  | _, _ => 0

/-- Amplitudes of an operator that removes two electrons with different spins and excites at most one further electron. -/
structure DoubleIonisation where
  (ab : ℕ → ℕ → ℚ)
  (aba : ℕ → ℕ → ℕ → ℕ → ℚ)
  (abb : ℕ → ℕ → ℕ → ℕ → ℚ)

/-- The amplitudes change sign on exchange of equivalent indices. -/
structure DoubleIonisation.Antisym (R : DoubleIonisation) : Prop where
  aba : ∀ i j c k, R.aba i j c k = -R.aba k j c i
  abb : ∀ i j c k, R.abb i j c k = -R.abb i k c j

/-- The operator with the given amplitudes. -/
noncomputable def DoubleIonisation.operator (S : Orbitals ι) (R : DoubleIonisation) : Operator ι :=
    (∑ i ∈ range S.na, ∑ j ∈ range S.nb,
      R.ab i j • (ann (S.occB j) * ann (S.occA i)))
    + ((1 / 2 : ℚ) • ∑ c ∈ range S.ua, ∑ j ∈ range S.nb, ∑ i ∈ range S.na, ∑ k ∈ range S.na,
      R.aba i j c k • (cre (S.virA c) * ann (S.occA k) * ann (S.occB j) * ann (S.occA i)))
    + ((1 / 2 : ℚ) • ∑ i ∈ range S.na, ∑ c ∈ range S.ub, ∑ j ∈ range S.nb, ∑ k ∈ range S.nb,
      R.abb i j c k • (cre (S.virB c) * ann (S.occB k) * ann (S.occB j) * ann (S.occA i)))

/-- The arrays of amplitudes are numbered from 11 on. -/
def DoubleIonisation.amp (R : DoubleIonisation) (name : ℕ) (idx : List ℕ) : ℚ :=
  match name, idx with
  | 11, [i, j] => R.ab i j
  | 12, [c, j, i, k] => R.aba i j c k
  | 13, [i, c, j, k] => R.abb i j c k
  | _, _ => 0

/-- Amplitudes of an operator that turns the spin of an electron from up to down and excites at most one further electron. -/
structure SpinFlip where
  (b : ℕ → ℕ → ℚ)
  (ab : ℕ → ℕ → ℕ → ℕ → ℚ)
  (bb : ℕ → ℕ → ℕ → ℕ → ℚ)

/-- The amplitudes change sign on exchange of equivalent indices. -/
structure SpinFlip.Antisym (R : SpinFlip) : Prop where
  ab : ∀ a b i j, R.ab a b i j = -R.ab a b j i
  bb : ∀ a b i j, R.bb a b i j = -R.bb b a i j

/-- The operator with the given amplitudes. -/
noncomputable def SpinFlip.operator (S : Orbitals ι) (R : SpinFlip) : Operator ι :=
    (∑ a ∈ range S.ub, ∑ i ∈ range S.na,
      R.b a i • (cre (S.virB a) * ann (S.occA i)))
    + ((1 / 2 : ℚ) • ∑ a ∈ range S.ua, ∑ b ∈ range S.ub, ∑ i ∈ range S.na, ∑ j ∈ range S.na,
      R.ab a b i j • (cre (S.virA a) * cre (S.virB b) * ann (S.occA j) * ann (S.occA i)))
    + ((1 / 2 : ℚ) • ∑ a ∈ range S.ub, ∑ b ∈ range S.ub, ∑ i ∈ range S.nb, ∑ j ∈ range S.na,
      R.bb a b i j • (cre (S.virB a) * cre (S.virB b) * ann (S.occA j) * ann (S.occB i)))

/-- The arrays of amplitudes are numbered from 11 on. -/
def SpinFlip.amp (R : SpinFlip) (name : ℕ) (idx : List ℕ) : ℚ :=
  match name, idx with
  | 11, [a, i] => R.b a i
  | 12, [a, b, i, j] => R.ab a b i j
  | 13, [a, b, i, j] => R.bb a b i j
  | _, _ => 0

end Ccpy.Fock
