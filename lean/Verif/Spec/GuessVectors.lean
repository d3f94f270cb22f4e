import Verif.Spec.FockSpace

/-! Specification: the determinants spanning the guess spaces, in the order of the guess vectors, and the matrix of
the total spin in them.  Orbitals `0, …, n-1`; the lowest `na` are occupied with spin up and the lowest `nb` with
spin down. -/

namespace Ccpy.Fock

variable {ι : Type*} [LinearOrder ι]

/-- The matrix of `S²` between the vectors of a list. -/
noncomputable def spinMatrix (n : ℕ) (up down : ℕ → ι) (B : List (Vec ι)) : List (List ℚ) :=
  B.map fun X => B.map fun Y => inner X (spinSquared n up down Y)

/-- Single excitations `a†_a a_i Φ` with spin up, then with spin down. -/
noncomputable def singlesUp (up down : ℕ → ι) (na nb n : ℕ) : List (Vec ι) :=
  (List.range' na (n - na)).flatMap fun a => (List.range na).map fun i =>
    cre (up a) (ann (up i) (reference up down na nb))
noncomputable def singlesDown (up down : ℕ → ι) (na nb n : ℕ) : List (Vec ι) :=
  (List.range' nb (n - nb)).flatMap fun a => (List.range nb).map fun i =>
    cre (down a) (ann (down i) (reference up down na nb))

/-- Spin flips: an electron leaves with spin up and is added with spin down. -/
noncomputable def spinFlips (up down : ℕ → ι) (na nb n : ℕ) : List (Vec ι) :=
  (List.range' nb (n - nb)).flatMap fun a => (List.range na).map fun i =>
    cre (down a) (ann (up i) (reference up down na nb))

/-- Removals and attachments of a spin-up electron. -/
noncomputable def removals (up down : ℕ → ι) (na nb : ℕ) : List (Vec ι) :=
  (List.range na).map fun i => ann (up i) (reference up down na nb)
noncomputable def attachments (up down : ℕ → ι) (na nb n : ℕ) : List (Vec ι) :=
  (List.range' na (n - na)).map fun a => cre (up a) (reference up down na nb)

/-- Attachments of one electron of each spin to `ka`, `kb` lowest unoccupied orbitals, and removals of one electron
of each spin from the `ka`, `kb` highest occupied orbitals. -/
noncomputable def pairAttachments (up down : ℕ → ι) (na nb ka kb : ℕ) : List (Vec ι) :=
  (List.range' na ka).flatMap fun a => (List.range' nb kb).map fun b =>
    cre (up a) (cre (down b) (reference up down na nb))
noncomputable def pairRemovals (up down : ℕ → ι) (na nb ka kb : ℕ) : List (Vec ι) :=
  (List.range' (na - ka) ka).flatMap fun i => (List.range' (nb - kb) kb).map fun j =>
    ann (down j) (ann (up i) (reference up down na nb))

/-- Double excitations `a†_A a†_B a_J a_I Φ` within the `oa`, `ob` highest occupied and the `va`, `vb` lowest unoccupied
orbitals: two electrons with spin up, one of each spin, two with spin down. -/
noncomputable def doublesUp (up down : ℕ → ι) (na nb oa va : ℕ) : List (Vec ι) :=
  (List.range' na va).flatMap fun A => (List.range' (A + 1) (na + va - (A + 1))).flatMap fun B =>
    (List.range' (na - oa) oa).flatMap fun I => (List.range' (I + 1) (na - (I + 1))).map fun J =>
      cre (up A) (cre (up B) (ann (up J) (ann (up I) (reference up down na nb))))
noncomputable def doublesMixed (up down : ℕ → ι) (na nb oa ob va vb : ℕ) : List (Vec ι) :=
  (List.range' na va).flatMap fun A => (List.range' nb vb).flatMap fun B =>
    (List.range' (na - oa) oa).flatMap fun I => (List.range' (nb - ob) ob).map fun J =>
      cre (up A) (cre (down B) (ann (down J) (ann (up I) (reference up down na nb))))
noncomputable def doublesDown (up down : ℕ → ι) (na nb ob vb : ℕ) : List (Vec ι) :=
  (List.range' nb vb).flatMap fun A => (List.range' (A + 1) (nb + vb - (A + 1))).flatMap fun B =>
    (List.range' (nb - ob) ob).flatMap fun I => (List.range' (I + 1) (nb - (I + 1))).map fun J =>
      cre (down A) (cre (down B) (ann (down J) (ann (down I) (reference up down na nb))))

end Ccpy.Fock
