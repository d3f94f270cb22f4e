import Verif.Model.FortranLoop
import Mathlib.Data.List.Nodup
import Mathlib.Data.List.Range

namespace Ccpy.Fortran

/-- `prog` executes `step x` for the listed items `x` in order. -/
def Runs {S ι : Type*} (prog : S → S) (items : List ι) (step : ι → S → S) : Prop :=
  ∀ s, prog s = items.foldl (fun s x => step x s) s

/-- The pairs `(i, x)` with `x ∈ l i`, in loop order. -/
def pairs {α β : Type*} (L : List α) (l : α → List β) : List (α × β) :=
  L.flatMap fun i => (l i).map (Prod.mk i)

theorem mem_pairs {α β : Type*} {L : List α} {l : α → List β} {p : α × β} :
    p ∈ pairs L l ↔ p.1 ∈ L ∧ p.2 ∈ l p.1 := by
  obtain ⟨i, x⟩ := p
  simp only [pairs, List.mem_flatMap, List.mem_map, Prod.mk.injEq]
  constructor
  · rintro ⟨j, hj, y, hy, rfl, rfl⟩; exact ⟨hj, hy⟩
  · rintro ⟨h1, h2⟩; exact ⟨i, h1, x, h2, rfl, rfl⟩

theorem nodup_pairs {α β : Type*} {L : List α} {l : α → List β} (hL : L.Nodup)
    (hl : ∀ i, (l i).Nodup) : (pairs L l).Nodup := by
  rw [pairs, List.nodup_flatMap]
  refine ⟨fun i _ => (hl i).map (fun _ _ h => (Prod.mk.inj h).2), ?_⟩
  refine List.Pairwise.imp ?_ hL
  intro i j hij x hx hy
  obtain ⟨y, _, rfl⟩ := List.mem_map.mp hx
  obtain ⟨z, _, e⟩ := List.mem_map.mp hy
  exact hij (Prod.mk.inj e).1.symm

theorem runs_leaf {S : Type*} (body : S → S) : Runs body [()] (fun _ => body) := fun _ => rfl

theorem runs_do {S ι : Type*} {lo hi : ℕ} {body : ℕ → S → S} {items : ℕ → List ι}
    {step : ℕ → ι → S → S} (h : ∀ i, Runs (body i) (items i) (step i)) :
    Runs (doLoop lo hi body) (pairs (List.range' lo (hi + 1 - lo)) items)
      (fun p => step p.1 p.2) := by
  intro s
  unfold doLoop pairs
  rw [List.foldl_flatMap]
  congr 1
  funext s i
  rw [h i s, List.foldl_map]

/-- the values of a loop counter -/
theorem mem_do {lo hi i : ℕ} : i ∈ List.range' lo (hi + 1 - lo) ↔ lo ≤ i ∧ i ≤ hi := by
  rw [List.mem_range'_1]; omega

theorem nodup_do {lo hi : ℕ} : (List.range' lo (hi + 1 - lo)).Nodup := List.nodup_range'

end Ccpy.Fortran
