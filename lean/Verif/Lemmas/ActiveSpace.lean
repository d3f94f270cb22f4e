import Verif.Model.ActiveSpace
import Verif.Lemmas.Writes
import Verif.Lemmas.Excitations
import Verif.Spec.ExcitationLists

/-! Helper lemmas for C53. -/

namespace Ccpy.ActiveSpace

open Ccpy.Writes Ccpy.Excitations

variable {R : Type} [Zero R]

theorem zeroAll_apply (T : Key3 → R) (ks : List Key3) (k : Key3) :
    zeroAll T ks k = if k ∈ ks then 0 else T k := by
  unfold zeroAll
  split_ifs with h
  · refine applyWrites_of_mem _ _ _ _ ⟨(k, 0), List.mem_map.mpr ⟨k, h, rfl⟩, rfl⟩ ?_
    intro w hw _
    obtain ⟨q, -, rfl⟩ := List.mem_map.mp hw
    rfl
  · refine applyWrites_of_not_mem _ _ _ ?_
    intro w hw e
    obtain ⟨q, hq, rfl⟩ := List.mem_map.mp hw
    exact h (e ▸ hq)

theorem vec3_eq (P : Fin 3 → ℕ) (a b c : ℕ) : P = ![a, b, c] ↔ P 0 = a ∧ P 1 = b ∧ P 2 = c := by
  constructor
  · rintro rfl
    exact ⟨rfl, rfl, rfl⟩
  · rintro ⟨rfl, rfl, rfl⟩
    funext x
    match x with
    | 0 => rfl
    | 1 => rfl
    | 2 => rfl

/-- `P` lists `a`, `b`, `c` in some order. -/
def Perm6 (P : Fin 3 → ℕ) (a b c : ℕ) : Prop :=
  P = ![a, b, c] ∨ P = ![a, c, b] ∨ P = ![b, a, c] ∨ P = ![b, c, a] ∨ P = ![c, a, b] ∨ P = ![c, b, a]

theorem mem_zeroKeysAaa (P H : Fin 3 → ℕ) (a b c i j k : ℕ) :
    (P, H) ∈ zeroKeysAaa a b c i j k ↔ Perm6 P a b c ∧ Perm6 H i j k := by
  have e : zeroKeysAaa a b c i j k =
      [![a, b, c], ![a, c, b], ![b, a, c], ![b, c, a], ![c, a, b], ![c, b, a]].flatMap fun p =>
        [![i, j, k], ![j, i, k], ![j, k, i], ![i, k, j], ![k, j, i], ![k, i, j]].map fun h => (p, h) := rfl
  rw [e, List.mem_flatMap]
  simp only [List.mem_map, Prod.mk.injEq]
  constructor
  · rintro ⟨p, hp, h, hh, rfl, rfl⟩
    simp only [List.mem_cons, List.not_mem_nil, or_false] at hp hh
    refine ⟨hp, ?_⟩
    unfold Perm6
    tauto
  · rintro ⟨hp, hh⟩
    refine ⟨P, ?_, H, ?_, rfl, rfl⟩
    · simp only [List.mem_cons, List.not_mem_nil, or_false]
      exact hp
    · simp only [List.mem_cons, List.not_mem_nil, or_false]
      unfold Perm6 at hh
      tauto

theorem mem_zeroKeysBbb (P H : Fin 3 → ℕ) (a b c i j k : ℕ) :
    (P, H) ∈ zeroKeysBbb a b c i j k ↔ Perm6 P a b c ∧ Perm6 H i j k := by
  have e : zeroKeysBbb a b c i j k =
      [![a, b, c], ![a, c, b], ![b, a, c], ![b, c, a], ![c, a, b], ![c, b, a]].flatMap fun p =>
        [![i, j, k], ![j, i, k], ![j, k, i], ![i, k, j], ![k, j, i], ![k, i, j]].map fun h => (p, h) := rfl
  rw [e, List.mem_flatMap]
  simp only [List.mem_map, Prod.mk.injEq]
  constructor
  · rintro ⟨p, hp, h, hh, rfl, rfl⟩
    simp only [List.mem_cons, List.not_mem_nil, or_false] at hp hh
    refine ⟨hp, ?_⟩
    unfold Perm6
    tauto
  · rintro ⟨hp, hh⟩
    refine ⟨P, ?_, H, ?_, rfl, rfl⟩
    · simp only [List.mem_cons, List.not_mem_nil, or_false]
      exact hp
    · simp only [List.mem_cons, List.not_mem_nil, or_false]
      unfold Perm6 at hh
      tauto

theorem perm6_exists (P : Fin 3 → ℕ) (n : ℕ) (h01 : P 0 ≠ P 1) (h02 : P 0 ≠ P 2) (h12 : P 1 ≠ P 2)
    (h0 : P 0 < n) (h1 : P 1 < n) (h2 : P 2 < n) (f : ℕ → ℕ) :
    ∃ a b c, a < b ∧ b < c ∧ c < n ∧ Perm6 P a b c ∧ f a + f b + f c = f (P 0) + f (P 1) + f (P 2) := by
  rcases Nat.lt_or_gt_of_ne h01 with x | x <;> rcases Nat.lt_or_gt_of_ne h02 with y | y <;>
    rcases Nat.lt_or_gt_of_ne h12 with z | z
  · exact ⟨P 0, P 1, P 2, x, z, h2, by simp [Perm6, vec3_eq], by omega⟩
  · exact ⟨P 0, P 2, P 1, y, z, h1, by simp [Perm6, vec3_eq], by omega⟩
  · omega
  · exact ⟨P 2, P 0, P 1, y, x, h1, by simp [Perm6, vec3_eq], by omega⟩
  · exact ⟨P 1, P 0, P 2, x, y, h2, by simp [Perm6, vec3_eq], by omega⟩
  · omega
  · exact ⟨P 1, P 2, P 0, z, y, h0, by simp [Perm6, vec3_eq], by omega⟩
  · exact ⟨P 2, P 1, P 0, z, x, h0, by simp [Perm6, vec3_eq], by omega⟩

theorem perm6_elim {P : Fin 3 → ℕ} {a b c n : ℕ} (hab : a < b) (hbc : b < c) (hc : c < n)
    (h : Perm6 P a b c) (f : ℕ → ℕ) :
    P 0 ≠ P 1 ∧ P 0 ≠ P 2 ∧ P 1 ≠ P 2 ∧ P 0 < n ∧ P 1 < n ∧ P 2 < n ∧
      f a + f b + f c = f (P 0) + f (P 1) + f (P 2) := by
  unfold Perm6 at h
  simp only [vec3_eq] at h
  rcases h with ⟨h0, h1, h2⟩ | ⟨h0, h1, h2⟩ | ⟨h0, h1, h2⟩ | ⟨h0, h1, h2⟩ | ⟨h0, h1, h2⟩ | ⟨h0, h1, h2⟩ <;>
    rw [h0, h1, h2] <;> omega

/-- Two of three places hold `a`, `b` in some order. -/
theorem pair_exists (x y n : ℕ) (hne : x ≠ y) (hx : x < n) (hy : y < n) (f : ℕ → ℕ) :
    ∃ a b, a < b ∧ b < n ∧ (x = a ∧ y = b ∨ x = b ∧ y = a) ∧ f a + f b = f x + f y := by
  rcases Nat.lt_or_gt_of_ne hne with h | h
  · exact ⟨x, y, h, hy, Or.inl ⟨rfl, rfl⟩, rfl⟩
  · exact ⟨y, x, h, hx, Or.inr ⟨rfl, rfl⟩, Nat.add_comm _ _⟩

end Ccpy.ActiveSpace
