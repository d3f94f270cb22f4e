import Verif.Lemmas.SpinDoubles
import Verif.Model.SpinMatrixCisd

/-! Helpers for the CISD `S²` matrix. -/

namespace Ccpy.SpinMatrix

open Ccpy.Fock

variable {ι : Type*} [LinearOrder ι] {up down : ℕ → ι}

theorem mem_quads {as : List ℕ} {bs : ℕ → List ℕ} {is : List ℕ} {js : ℕ → List ℕ} {x : ℕ × ℕ × ℕ × ℕ} :
    x ∈ quads as bs is js ↔ x.1 ∈ as ∧ x.2.1 ∈ bs x.1 ∧ x.2.2.1 ∈ is ∧ x.2.2.2 ∈ js x.2.2.1 := by
  obtain ⟨A, B, I, J⟩ := x
  simp only [quads, List.mem_flatMap, List.mem_map, Prod.mk.injEq]
  constructor
  · rintro ⟨a, ha, b, hb, i, hi, j, hj, rfl, rfl, rfl, rfl⟩
    exact ⟨ha, hb, hi, hj⟩
  · rintro ⟨ha, hb, hi, hj⟩
    exact ⟨A, ha, B, hb, I, hi, J, hj, rfl, rfl, rfl, rfl⟩

theorem map_quads {α : Type*} (as : List ℕ) (bs : ℕ → List ℕ) (is : List ℕ) (js : ℕ → List ℕ)
    (f : ℕ → ℕ → ℕ → ℕ → α) :
    (as.flatMap fun A => (bs A).flatMap fun B => is.flatMap fun I => (js I).map fun J => f A B I J) =
      (quads as bs is js).map fun x => f x.1 x.2.1 x.2.2.1 x.2.2.2 := by
  simp only [quads, List.map_flatMap, List.map_map]
  rfl

/-- Vectors of the excitations. -/
noncomputable def vA (up down : ℕ → ι) (s : Counts) (p : ℕ × ℕ) : Vec ι :=
  cre (up p.1) (ann (up p.2) (reference up down s.noa s.nob))
noncomputable def vB (up down : ℕ → ι) (s : Counts) (p : ℕ × ℕ) : Vec ι :=
  cre (down p.1) (ann (down p.2) (reference up down s.noa s.nob))
noncomputable def vAA (up down : ℕ → ι) (s : Counts) (x : ℕ × ℕ × ℕ × ℕ) : Vec ι :=
  cre (up x.1) (cre (up x.2.1) (ann (up x.2.2.2) (ann (up x.2.2.1) (reference up down s.noa s.nob))))
noncomputable def vAB (up down : ℕ → ι) (s : Counts) (x : ℕ × ℕ × ℕ × ℕ) : Vec ι :=
  cre (up x.1) (cre (down x.2.1) (ann (down x.2.2.2) (ann (up x.2.2.1) (reference up down s.noa s.nob))))
noncomputable def vBB (up down : ℕ → ι) (s : Counts) (x : ℕ × ℕ × ℕ × ℕ) : Vec ι :=
  cre (down x.1) (cre (down x.2.1) (ann (down x.2.2.2) (ann (down x.2.2.1) (reference up down s.noa s.nob))))

/-- A block agrees with the operator when its entries do. -/
theorem block_congr {α β : Type} (P : List α) (Q : List β) (f : α → β → ℚ) (u : α → Vec ι) (v : β → Vec ι) (n : ℕ)
    (h : ∀ p ∈ P, ∀ q ∈ Q, f p q = inner (u p) (spinSquared n up down (v q))) :
    block P Q f = block P Q fun p q => inner (u p) (spinSquared n up down (v q)) :=
  List.map_congr_left fun p hp => List.map_congr_left fun q hq => h p hp q hq

end Ccpy.SpinMatrix
