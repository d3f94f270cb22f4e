import Verif.Spec.PSpaceLists
import Verif.Lemmas.PSpaceAnti
import Mathlib.Tactic.NormNum

/-! The amplitude of a listed excitation. -/

namespace Ccpy.PSpace
open Ccpy.Fock

theorem ite_mul_ite' {p q : Prop} [Decidable p] [Decidable q] : (if p then (1 : ℚ) else 0) * (if q then 1 else 0) = if p ∧ q then 1 else 0 := by
  split_ifs <;> simp_all

/-- The sign that belongs to a pair of rows. -/
def signThree (q r : List ℕ) : ℚ :=
  alternating3 (q.getD 0 0 - 1 + 1) (q.getD 1 0 - 1 + 1) (q.getD 2 0 - 1 + 1) (r.getD 0 0) (r.getD 1 0) (r.getD 2 0)
    * alternating3 (q.getD 3 0 - 1 + 1) (q.getD 4 0 - 1 + 1) (q.getD 5 0 - 1 + 1) (r.getD 3 0) (r.getD 4 0) (r.getD 5 0)
def signTwoOne (q r : List ℕ) : ℚ :=
  alternating2 (q.getD 0 0 - 1 + 1) (q.getD 1 0 - 1 + 1) (r.getD 0 0) (r.getD 1 0) * same1 (q.getD 2 0 - 1 + 1) (r.getD 2 0)
    * (alternating2 (q.getD 3 0 - 1 + 1) (q.getD 4 0 - 1 + 1) (r.getD 3 0) (r.getD 4 0) * same1 (q.getD 5 0 - 1 + 1) (r.getD 5 0))
def signOneTwo (q r : List ℕ) : ℚ :=
  same1 (q.getD 0 0 - 1 + 1) (r.getD 0 0) * alternating2 (q.getD 1 0 - 1 + 1) (q.getD 2 0 - 1 + 1) (r.getD 1 0) (r.getD 2 0)
    * (same1 (q.getD 3 0 - 1 + 1) (r.getD 3 0) * alternating2 (q.getD 4 0 - 1 + 1) (q.getD 5 0 - 1 + 1) (r.getD 4 0) (r.getD 5 0))

theorem three_rows {ua na : ℕ} {q r : List ℕ} (hq : ListedAAA ua na q) (hr : ListedAAA ua na r) :
    signThree q r = if q = r then 1 else 0 := by
  obtain ⟨a, b, c, i, j, k, rfl, h₁, h₂, h₃, h₄, h₅, h₆⟩ := hq
  obtain ⟨a', b', c', i', j', k', rfl, g₁, g₂, g₃, g₄, g₅, g₆⟩ := hr
  show alternating3 (a + 1) (b + 1) (c + 1) (a' + 1) (b' + 1) (c' + 1) * alternating3 (i + 1) (j + 1) (k + 1) (i' + 1) (j' + 1) (k' + 1) = _
  rw [alternating3_ordered (by omega) (by omega) (by omega) (by omega), alternating3_ordered (by omega) (by omega) (by omega) (by omega)]
  unfold same1
  simp only [ite_mul_ite', List.cons.injEq, and_true, and_assoc]

theorem twoOne_rows {ua ub na nb : ℕ} {q r : List ℕ} (hq : ListedAAB ua ub na nb q) (hr : ListedAAB ua ub na nb r) :
    signTwoOne q r = if q = r then 1 else 0 := by
  obtain ⟨a, b, c, i, j, k, rfl, h₁, h₂, h₃, h₄, h₅, h₆⟩ := hq
  obtain ⟨a', b', c', i', j', k', rfl, g₁, g₂, g₃, g₄, g₅, g₆⟩ := hr
  show alternating2 (a + 1) (b + 1) (a' + 1) (b' + 1) * same1 (c + 1) (c' + 1)
    * (alternating2 (i + 1) (j + 1) (i' + 1) (j' + 1) * same1 (k + 1) (k' + 1)) = _
  rw [alternating2_ordered (by omega) (by omega), alternating2_ordered (by omega) (by omega)]
  unfold same1
  simp only [ite_mul_ite', List.cons.injEq, and_true, and_assoc]

theorem oneTwo_rows {ua ub na nb : ℕ} {q r : List ℕ} (hq : ListedABB ua ub na nb q) (hr : ListedABB ua ub na nb r) :
    signOneTwo q r = if q = r then 1 else 0 := by
  obtain ⟨a, b, c, i, j, k, rfl, h₁, h₂, h₃, h₄, h₅, h₆⟩ := hq
  obtain ⟨a', b', c', i', j', k', rfl, g₁, g₂, g₃, g₄, g₅, g₆⟩ := hr
  show same1 (a + 1) (a' + 1) * alternating2 (b + 1) (c + 1) (b' + 1) (c' + 1)
    * (same1 (i + 1) (i' + 1) * alternating2 (j + 1) (k + 1) (j' + 1) (k' + 1)) = _
  rw [alternating2_ordered (by omega) (by omega), alternating2_ordered (by omega) (by omega)]
  unfold same1
  simp only [ite_mul_ite', List.cons.injEq, and_true, and_assoc]

theorem listed_value {P : List ℕ → Prop} {sign : List ℕ → List ℕ → ℚ} (hs : ∀ q r, P q → P r → sign q r = if q = r then 1 else 0)
    {t : TripleList} {f : ℕ → ℕ → ℕ → ℕ → ℕ → ℕ → ℚ} (hf : ∀ q, atRow f q = (t.map fun x => sign q x.1 * x.2).sum)
    (ht : ∀ x ∈ t, P x.1) (hd : (t.map Prod.fst).Nodup) :
    (∀ x ∈ t, atRow f x.1 = x.2) ∧ ∀ q, P q → q ∉ t.map Prod.fst → atRow f q = 0 := by
  simp only [hf]
  clear hf
  have z : ∀ {t : TripleList}, (∀ x ∈ t, P x.1) → ∀ q, P q → q ∉ t.map Prod.fst → (t.map fun x => sign q x.1 * x.2).sum = 0 := by
    intro t ht q hq hn
    refine List.sum_eq_zero fun y hy => ?_
    obtain ⟨x, hx, rfl⟩ := List.mem_map.1 hy
    rw [hs _ _ hq (ht x hx), if_neg (fun h : q = x.1 => hn (h ▸ List.mem_map_of_mem hx)), zero_mul]
  refine ⟨?_, z ht⟩
  induction t with
  | nil => simp
  | cons y t ih =>
    have hd' := List.nodup_cons.1 (by simpa only [List.map_cons] using hd)
    have ht' : ∀ x ∈ t, P x.1 := fun x hx => ht x (by simp [hx])
    intro x hx
    rw [List.map_cons, List.sum_cons]
    rcases List.mem_cons.1 hx with rfl | hx
    · rw [hs _ _ (ht x (by simp)) (ht x (by simp)), if_pos rfl, z ht' _ (ht x (by simp)) hd'.1, one_mul, add_zero]
    · rw [ih ht' hd'.2 x hx, hs _ _ (ht' x hx) (ht y (by simp)),
        if_neg (fun h : x.1 = y.1 => hd'.1 (h ▸ List.mem_map_of_mem hx)), zero_mul, zero_add]

end Ccpy.PSpace
