import Verif.Model.DriverArrays
import Mathlib.Data.Finset.Basic
import Mathlib.Data.Finset.Insert
import Mathlib.Data.Finset.Image

/-! **C37** Density matrices are stored per state: false for two states, because all rows of the table are the same list.
**C52** With RHF symmetry the lists of triple excitations are completed to a set that is closed under the exchange of spins. -/

namespace Ccpy.DriverArrays

variable {α : Type}

/-! ### C37 -/

/-- A table in which all rows are one list of length `n`. -/
def shared (n : ℕ) (row : List (Option α)) : Table α := ⟨List.replicate n 0, [row]⟩

theorem get_shared {n : ℕ} (row : List (Option α)) {i : ℕ} (hi : i < n) (j : ℕ) : (shared n row).get i j = row[j]? := by
  simp [Table.get, shared, hi]

theorem set_shared {n : ℕ} (row : List (Option α)) {i j : ℕ} (hi : i < n) (hj : j < row.length) (x : α) :
    (shared n row).set i j x = some (shared n (row.set j (some x))) := by
  simp [Table.set, shared, hi, hj]

theorem runRdm1_shared {n : ℕ} (density : ℕ → α) (l : List (ℕ × ℕ)) (hl : ∀ x ∈ l, x.1 < n ∧ x.2 < n) :
    ∀ row : List (Option α), row.length = n → (l.foldlM (fun t x => t.set x.1 x.2 (density x.1)) (shared n row))
      = some (shared n (l.foldl (fun row x => row.set x.2 (some (density x.1))) row)) := by
  induction l with
  | nil => intro row _; rfl
  | cons x l ih =>
    intro row hr
    rw [List.foldlM_cons, set_shared row (hl x (by simp)).1 (by rw [hr]; exact (hl x (by simp)).2)]
    exact ih (fun y hy => hl y (by simp [hy])) _ (by simpa using hr)

/-- What is stored after a request: in every row, the density of the state requested last, for all requested states. -/
theorem C37_last_state {n : ℕ} (density : ℕ → α) (states : List ℕ) (last : ℕ) (h : ∀ i ∈ states ++ [last], i < n) :
    ∃ t, runRdm1 density (states ++ [last]) (emptyTable α n) = some t
      ∧ ∀ i < n, ∀ j ∈ states ++ [last], t.get i j = some (some (density last)) := by
  have hl : ∀ x ∈ (states ++ [last]).flatMap fun i => (states ++ [last]).map fun j => (i, j), x.1 < n ∧ x.2 < n := by
    intro x hx
    simp only [List.mem_flatMap, List.mem_map] at hx
    obtain ⟨i, hi, j, hj, rfl⟩ := hx
    exact ⟨h i hi, h j hj⟩
  refine ⟨_, runRdm1_shared density _ hl (List.replicate n none) (by simp), fun i hi j hj => ?_⟩
  rw [get_shared _ hi]
  have hsplit : ((states ++ [last]).flatMap fun i => (states ++ [last]).map fun j => (i, j))
      = (states.flatMap fun i => (states ++ [last]).map fun j => (i, j)) ++ (states ++ [last]).map fun j => (last, j) := by simp
  rw [hsplit, List.foldl_append]
  generalize hrow : (states.flatMap fun i => (states ++ [last]).map fun j => (i, j)).foldl
    (fun row x => row.set x.2 (some (density x.1))) (List.replicate n none) = row
  have hlen : row.length = n := by
    rw [← hrow]
    have : ∀ (l : List (ℕ × ℕ)) (row : List (Option α)),
        (l.foldl (fun row x => row.set x.2 (some (density x.1))) row).length = row.length := by
      intro l
      induction l with
      | nil => exact fun _ => rfl
      | cons x l ih => intro row; rw [List.foldl_cons, ih, List.length_set]
    rw [this, List.length_replicate]
  have key : ∀ (l : List ℕ) (row : List (Option α)), row.length = n → (∀ x ∈ l, x < n) → ∀ j,
      ((l.map fun j => (last, j)).foldl (fun row x => row.set x.2 (some (density x.1))) row)[j]?
        = if j ∈ l then some (some (density last)) else row[j]? := by
    intro l
    induction l with
    | nil => intro row _ _ j; simp
    | cons x l ih =>
      intro row hr hx j
      rw [List.map_cons, List.foldl_cons, ih _ (by simpa using hr) (fun y hy => hx y (by simp [hy]))]
      have hx' := hx x (by simp)
      by_cases h₁ : j ∈ l
      · simp [h₁]
      · by_cases h₂ : x = j
        · subst h₂; simp [h₁, hr, hx']
        · simp [h₁, h₂, List.getElem?_set, Ne.symm h₂]
  rw [key _ _ hlen (fun x hx => h x hx), if_pos hj]

/-- For one state the stored density is the one of this state. -/
theorem C37_one_state_partial {n : ℕ} (density : ℕ → α) (i : ℕ) (h : i < n) :
    ∃ t, runRdm1 density [i] (emptyTable α n) = some t ∧ t.get i i = some (some (density i)) := by
  obtain ⟨t, h₁, h₂⟩ := C37_last_state density [] i (by simpa using h)
  exact ⟨t, h₁, h₂ i h i (by simp)⟩

/-- The property is false for two states: the density of the first is overwritten by that of the second. -/
theorem C37_fails : ¬ ∀ (n : ℕ) (density : ℕ → ℕ) (states : List ℕ), (∀ i ∈ states, i < n) →
    ∃ t, runRdm1 density states (emptyTable ℕ n) = some t ∧ ∀ i ∈ states, t.get i i = some (some (density i)) := by
  intro H
  obtain ⟨t, h₁, h₂⟩ := H 50 (fun i => 10 + i) [0, 1] (by decide)
  obtain ⟨t', h₃, h₄⟩ := C37_last_state (n := 50) (fun i => 10 + i) [0] 1 (by decide)
  rw [show ([0] ++ [1] : List ℕ) = [0, 1] from rfl] at h₃
  rw [h₃] at h₁
  cases h₁
  have h₅ := h₂ 0 (by decide)
  rw [h₄ 0 (by decide) 0 (by decide)] at h₅
  exact absurd h₅ (by decide)

/-- A state number beyond the table is refused. -/
theorem C37_out_of_range {n : ℕ} (density : ℕ → α) (i : ℕ) (h : n ≤ i) : runRdm1 density [i] (emptyTable α n) = none := by
  simp [runRdm1, emptyTable, Table.set, List.getElem?_eq_none, h]

example : ∃ t, runRdm1 (fun i => 10 * i) [3] (emptyTable ℕ 5) = some t ∧ t.get 3 3 = some (some 30) :=
  C37_one_state_partial _ 3 (by decide)

/-! ### C52 -/

inductive Spin where
  | up | down
  deriving DecidableEq

def Spin.flip : Spin → Spin
  | .up => .down
  | .down => .up

/-- An excitation: the particles and the holes with their spins. -/
abbrev Triple := Finset (Spin × ℕ) × Finset (Spin × ℕ)

/-- Exchange of the spins of all particles and holes. -/
def Triple.flip (t : Triple) : Triple := (t.1.image fun x => (x.1.flip, x.2), t.2.image fun x => (x.1.flip, x.2))

/-- The excitation a row stands for, when the spins of its positions are `s₁ s₂ s₃`. -/
def Row.triple (s₁ s₂ s₃ : Spin) (r : Row) : Triple :=
  ({(s₁, r.a), (s₂, r.b), (s₃, r.c)}, {(s₁, r.i), (s₂, r.j), (s₃, r.k)})

/-- All excitations of the four lists. -/
def Lists.triples (l : Lists) : List Triple :=
  l.aaa.map (Row.triple .up .up .up) ++ l.aab.map (Row.triple .up .up .down) ++ l.abb.map (Row.triple .up .down .down)
    ++ l.bbb.map (Row.triple .down .down .down)

theorem permuted_triple (r : Row) : (permuted r).triple .up .down .down = (r.triple .up .up .down).flip := by
  unfold Row.triple Triple.flip permuted
  simp only [Finset.image_insert, Finset.image_singleton, Spin.flip]
  congr 1
  · ext x; simp only [Finset.mem_insert, Finset.mem_singleton]; tauto
  · ext x; simp only [Finset.mem_insert, Finset.mem_singleton]; tauto

theorem flip_aaa (r : Row) : r.triple .down .down .down = (r.triple .up .up .up).flip := by
  unfold Row.triple Triple.flip
  simp only [Finset.image_insert, Finset.image_singleton, Spin.flip]

theorem flip_flip (t : Triple) : t.flip.flip = t := by
  obtain ⟨p, h⟩ := t
  unfold Triple.flip
  simp only [Finset.image_image]
  have : ((fun x : Spin × ℕ => (x.1.flip, x.2)) ∘ fun x : Spin × ℕ => (x.1.flip, x.2)) = id := by
    funext x; obtain ⟨s, n⟩ := x; cases s <;> rfl
  rw [this, Finset.image_id, Finset.image_id]

/-- The completed lists: row `n` of the two new lists is the spin mirror of row `n` of the given ones, and the new `abb` list is
ordered in its last two particles and holes if the `aab` list is ordered in its first two. -/
theorem C52_rows {l l' : Lists} (h : mirror true l = some l') :
    l'.aaa = l.aaa ∧ l'.aab = l.aab
    ∧ l'.bbb.map (Row.triple .down .down .down) = l.aaa.map (fun r => (r.triple .up .up .up).flip)
    ∧ l'.abb.map (Row.triple .up .down .down) = l.aab.map (fun r => (r.triple .up .up .down).flip)
    ∧ ((∀ r ∈ l.aab, r.a < r.b ∧ r.i < r.j) → ∀ r ∈ l'.abb, r.b < r.c ∧ r.j < r.k) := by
  unfold mirror at h
  rw [if_pos rfl] at h
  split at h
  · cases h
    refine ⟨rfl, rfl, ?_, ?_, fun ho r hr => ?_⟩
    · exact List.map_congr_left fun r _ => flip_aaa r
    · rw [List.map_map]
      exact List.map_congr_left fun r _ => permuted_triple r
    · obtain ⟨r', hr', rfl⟩ := List.mem_map.1 hr
      exact ho r' hr'
  · cases h

/-- Exchanging all spins maps the completed set of excitations onto itself. -/
theorem C52_closed {l l' : Lists} (h : mirror true l = some l') (t : Triple) : t ∈ l'.triples ↔ t.flip ∈ l'.triples := by
  obtain ⟨h₁, h₂, h₃, h₄, _⟩ := C52_rows h
  have key : ∀ t, t ∈ l'.triples → t.flip ∈ l'.triples := by
    intro t ht
    unfold Lists.triples at ht ⊢
    rw [h₃, h₄, h₁, h₂] at ht ⊢
    simp only [List.mem_append, List.mem_map] at ht ⊢
    rcases ht with ((⟨r, hr, rfl⟩ | ⟨r, hr, rfl⟩) | ⟨r, hr, rfl⟩) | ⟨r, hr, rfl⟩
    · exact .inr ⟨r, hr, rfl⟩
    · exact .inl (.inr ⟨r, hr, rfl⟩)
    · exact .inl (.inl (.inr ⟨r, hr, (flip_flip _).symm⟩))
    · exact .inl (.inl (.inl ⟨r, hr, (flip_flip _).symm⟩))
  exact ⟨key t, fun ht => flip_flip t ▸ key _ ht⟩

/-- Lists of different lengths are refused, and without RHF symmetry the lists are used as they are given. -/
theorem C52_lengths (l : Lists) : mirror true l = none ↔ l.aaa.length ≠ l.bbb.length ∨ l.aab.length ≠ l.abb.length := by
  unfold mirror
  rw [if_pos rfl]
  split
  · simp_all
  · simp_all; tauto
theorem C52_unrestricted (l : Lists) : mirror false l = some l := rfl

example : mirror true ⟨[⟨1, 2, 3, 1, 2, 3⟩], [⟨1, 2, 1, 1, 2, 2⟩], [⟨0, 0, 0, 0, 0, 0⟩], [⟨0, 0, 0, 0, 0, 0⟩]⟩
    = some ⟨[⟨1, 2, 3, 1, 2, 3⟩], [⟨1, 2, 1, 1, 2, 2⟩], [⟨1, 1, 2, 2, 1, 2⟩], [⟨1, 2, 3, 1, 2, 3⟩]⟩ := by decide

end Ccpy.DriverArrays
