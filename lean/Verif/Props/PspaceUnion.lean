import Verif.Lemmas.PspaceUnion

/-! # C56: merging the excitation lists of several states

`Sorted rows` (strictly increasing in lexicographic order) implies that no row is repeated. -/

namespace Ccpy.PspaceUnion

/-- **C56**: merging two arrays of rows gives exactly the rows that occur in one of them, each
once, in lexicographic order. -/
theorem C56_union (w : ℕ) (r1 r2 : List (List ℤ)) :
    ∃ rows, overlapPspaces (.array w r1) (.array w r2) = .ok (.array w rows) ∧
      (∀ x, x ∈ rows ↔ x ∈ r1 ∨ x ∈ r2) ∧ rows.Nodup ∧ rows.Pairwise (· < ·) := by
  refine ⟨uniqueRows (r1 ++ r2), by simp [overlapPspaces], ?_, nodup_of_sorted (sorted_uniqueRows _),
    sorted_uniqueRows _⟩
  intro x
  rw [mem_uniqueRows, List.mem_append]

example : overlapPspaces (.array 3 [[2, 1, 1], [1, 5, 2]]) (.array 3 [[1, 5, 2], [1, 4, 9]])
    = .ok (.array 3 [[1, 4, 9], [1, 5, 2], [2, 1, 1]]) := by decide +kernel

/-- **C56**: the order of the two arrays does not matter. -/
theorem C56_commutes (w : ℕ) (r1 r2 : List (List ℤ)) :
    overlapPspaces (.array w r1) (.array w r2) = overlapPspaces (.array w r2) (.array w r1) := by
  simp only [overlapPspaces, if_true]
  congr 2
  refine eq_of_sorted (sorted_uniqueRows _) (sorted_uniqueRows _) ?_
  intro x
  simp only [mem_uniqueRows, List.mem_append, or_comm]

/-- **C56**: arrays of different widths are rejected. -/
theorem C56_mismatch (w1 w2 : ℕ) (h : w1 ≠ w2) (r1 r2 : List (List ℤ)) :
    overlapPspaces (.array w1 r1) (.array w2 r2) = .error .valueError := by
  simp [overlapPspaces, h]

example : overlapPspaces (.array 2 [[1, 2]]) (.array 1 [[1]]) = .error .valueError :=
  C56_mismatch 2 1 (by decide) _ _

/-- **C56**: merging the selections of two or more states gives the union of all of them, each row
once, sorted. -/
theorem C56_states (w : ℕ) (s1 s2 : List (List ℤ)) (rest : List (List (List ℤ))) :
    ∃ rows, mergeStates ((s1 :: s2 :: rest).map (Rows.array w)) = .ok (.array w rows) ∧
      (∀ x, x ∈ rows ↔ ∃ s ∈ s1 :: s2 :: rest, x ∈ s) ∧ rows.Nodup ∧ rows.Pairwise (· < ·) := by
  obtain ⟨rows, h1, h2, h3⟩ := fold_arrays w rest (uniqueRows (s1 ++ s2)) (sorted_uniqueRows _)
  refine ⟨rows, ?_, ?_, nodup_of_sorted h2, h2⟩
  · unfold mergeStates
    simp only [List.map_cons, List.foldlM_cons, overlapPspaces, bind, Except.bind, if_true]
    exact h1
  · intro x
    rw [h3, mem_uniqueRows, List.mem_append]
    simp only [List.mem_cons, exists_eq_or_imp, or_assoc]

example : mergeStates [.array 1 [[3], [1]], .array 1 [[2], [1]], .array 1 [[3], [0]]]
    = .ok (.array 1 [[0], [1], [2], [3]]) := by decide +kernel

/-- **C56**: the order in which the states are treated does not matter. -/
theorem C56_state_order (w : ℕ) (sel sel' : List (List (List ℤ))) (hp : sel.Perm sel') :
    mergeStates (sel.map (Rows.array w)) = mergeStates (sel'.map (Rows.array w)) := by
  match sel, sel', hp with
  | [], sel', hp => rw [hp.nil_eq]
  | [s], sel', hp => rw [List.perm_singleton.mp hp.symm]
  | s1 :: s2 :: rest, [], hp => exact absurd hp.length_eq (by simp)
  | s1 :: s2 :: rest, [t], hp => exact absurd hp.length_eq (by simp)
  | s1 :: s2 :: rest, t1 :: t2 :: rest', hp =>
    obtain ⟨r, h1, h2, -, h3⟩ := C56_states w s1 s2 rest
    obtain ⟨r', h1', h2', -, h3'⟩ := C56_states w t1 t2 rest'
    rw [h1, h1']
    congr 2
    refine eq_of_sorted h3 h3' (fun x => ?_)
    rw [h2, h2']
    simp only [hp.mem_iff]

example : [[[1], [2]], [[3]], [[0]]].Perm [[[0]], [[1], [2]], [[(3 : ℤ)]]] := by decide

/-- **C56** (partial: for a single state the selection is returned as it is, so repetitions in it
survive, see `C56_single_state_fails`).  For any number of states, including none and one, the
result contains exactly the selected rows; it has no repetitions whenever there are at least two
states or the selection of the only state has none. -/
theorem C56_any_states_partial (w : ℕ) (sel : List (List (List ℤ))) :
    ∃ r, mergeStates (sel.map (Rows.array w)) = .ok r ∧
      (∀ x, x ∈ r.rows ↔ ∃ s ∈ sel, x ∈ s) ∧
      ((∀ s, sel = [s] → s.Nodup) → r.rows.Nodup) := by
  match sel with
  | [] => exact ⟨.emptyList, rfl, by simp [Rows.rows], by simp [Rows.rows]⟩
  | [s] => exact ⟨.array w s, rfl, by simp [Rows.rows], fun h => h s rfl⟩
  | s1 :: s2 :: rest =>
    obtain ⟨rows, h1, h2, h3, -⟩ := C56_states w s1 s2 rest
    exact ⟨_, h1, h2, fun _ => h3⟩

example : ∀ s, [[[1], [2]]] = [s] → (s : List (List ℤ)).Nodup := by
  intro s h; obtain rfl : [[1], [2]] = s := by simpa using h
  decide

/-- **C56 fails** for one state: repeated rows are not merged. -/
theorem C56_single_state_fails : ∃ s : List (List ℤ), ∃ r,
    mergeStates [.array 2 s] = .ok r ∧ ¬ r.rows.Nodup :=
  ⟨[[1, 2], [1, 2]], .array 2 [[1, 2], [1, 2]], rfl, by decide⟩

/-- **C56**: when the excited states share the symmetry and multiplicity of the ground state, both
lists become the union of the ground-state and excited-state lists; otherwise nothing changes. -/
theorem C56_ground (w : ℕ) (t r : List (List ℤ)) :
    (∃ rows, mergeGround true (.array w t) (.array w r) = .ok (.array w rows, .array w rows) ∧
      (∀ x, x ∈ rows ↔ x ∈ t ∨ x ∈ r) ∧ rows.Nodup) ∧
    mergeGround false (.array w t) (.array w r) = .ok (.array w t, .array w r) := by
  obtain ⟨rows, h1, h2, h3, -⟩ := C56_union w t r
  exact ⟨⟨rows, by simp [mergeGround, h1], h2, h3⟩, rfl⟩

example : mergeGround true (.array 1 [[3], [1]]) (.array 1 [[2], [1]])
    = .ok (.array 1 [[1], [2], [3]], .array 1 [[1], [2], [3]]) := by decide +kernel

/-- **C56**: in the last macro-iteration no rows are selected and none are returned. -/
theorem C56_last (same : Bool) : mergeGround same .emptyList .emptyList = .ok (.emptyList, .emptyList) := by
  cases same <;> rfl

/-- **C56 fails** when no excited state is requested: merging the (six-column) ground-state
selection with the empty list raises. -/
theorem C56_no_states_fails (w : ℕ) (hw : 0 < w) (t : List (List ℤ)) (r : Rows)
    (hr : mergeStates [] = .ok r) : mergeGround true (.array w t) r = .error .valueError := by
  have : r = .emptyList := by
    have : (Except.ok .emptyList : Except Err Rows) = .ok r := hr
    injection this with h; exact h.symm
  subst this
  simp [mergeGround, overlapPspaces, hw.ne']

example : ∃ r, mergeStates [] = .ok r := ⟨_, rfl⟩

end Ccpy.PspaceUnion
