import Verif.Model.PspaceUnion

/-! Helper lemmas about `np.unique` on rows. -/

namespace Ccpy.PspaceUnion

theorem mem_dropRepeats (x : List ℤ) : ∀ l : List (List ℤ), x ∈ dropRepeats l ↔ x ∈ l
  | [] => by simp [dropRepeats]
  | [y] => by simp [dropRepeats]
  | y :: z :: l => by
      have ih := mem_dropRepeats x (z :: l)
      unfold dropRepeats
      split
      · next h => subst h; simp [ih]
      · simp [ih]

theorem pairwise_dropRepeats : ∀ l : List (List ℤ), l.Pairwise (· ≤ ·) →
    (dropRepeats l).Pairwise (· < ·)
  | [] => by simp [dropRepeats]
  | [y] => by simp [dropRepeats]
  | y :: z :: l => by
      intro h
      have ih := pairwise_dropRepeats (z :: l) (List.pairwise_cons.mp h).2
      unfold dropRepeats
      split
      · exact ih
      · next hne =>
        refine List.pairwise_cons.mpr ⟨?_, ih⟩
        intro w hw
        rw [mem_dropRepeats] at hw
        have h1 := (List.pairwise_cons.mp h).1
        have hyz : y < z := lt_of_le_of_ne (h1 z (by simp)) hne
        rcases List.mem_cons.mp hw with rfl | hw'
        · exact hyz
        · exact lt_of_lt_of_le hyz ((List.pairwise_cons.mp (List.pairwise_cons.mp h).2).1 w hw')

theorem mem_uniqueRows (x : List ℤ) (l : List (List ℤ)) : x ∈ uniqueRows l ↔ x ∈ l := by
  unfold uniqueRows
  rw [mem_dropRepeats, List.mem_insertionSort]

theorem sorted_uniqueRows (l : List (List ℤ)) : (uniqueRows l).Pairwise (· < ·) :=
  pairwise_dropRepeats _ (List.pairwise_insertionSort _ _)

theorem nodup_of_sorted {l : List (List ℤ)} (h : l.Pairwise (· < ·)) : l.Nodup :=
  h.imp (fun h => ne_of_lt h)

theorem eq_of_sorted {l₁ l₂ : List (List ℤ)} (h1 : l₁.Pairwise (· < ·)) (h2 : l₂.Pairwise (· < ·))
    (h : ∀ x, x ∈ l₁ ↔ x ∈ l₂) : l₁ = l₂ := by
  have hp : l₁.Perm l₂ := (List.perm_ext_iff_of_nodup (nodup_of_sorted h1) (nodup_of_sorted h2)).mpr h
  exact hp.eq_of_pairwise (le := (· < ·)) (fun _ _ _ _ h h' => absurd h' (lt_asymm h)) h1 h2

/-- Folding further arrays into a sorted array without repetitions. -/
theorem fold_arrays (w : ℕ) : ∀ (sel : List (List (List ℤ))) (acc : List (List ℤ)),
    acc.Pairwise (· < ·) →
    ∃ rows, (sel.map (Rows.array w)).foldlM overlapPspaces (.array w acc) = .ok (.array w rows) ∧
      rows.Pairwise (· < ·) ∧ ∀ x, x ∈ rows ↔ x ∈ acc ∨ ∃ s ∈ sel, x ∈ s
  | [], acc, h => ⟨acc, rfl, h, by simp⟩
  | s :: sel, acc, h => by
      obtain ⟨rows, h1, h2, h3⟩ :=
        fold_arrays w sel (uniqueRows (acc ++ s)) (sorted_uniqueRows _)
      refine ⟨rows, ?_, h2, ?_⟩
      · simp only [List.map_cons, List.foldlM_cons, overlapPspaces, if_true]
        exact h1
      · intro x
        rw [h3, mem_uniqueRows, List.mem_append]
        simp only [List.mem_cons, exists_eq_or_imp, or_assoc]

end Ccpy.PspaceUnion
