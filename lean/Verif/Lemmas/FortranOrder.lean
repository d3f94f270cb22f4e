import Verif.Lemmas.FortranDeps

/-! The swapping loop of the build-order tool. -/

namespace Ccpy.FortranDeps
open Ccpy.Spec Relation

variable {V M : Type*} [DecidableEq V] [DecidableEq M]

/-- sum of position times rank, positions counted from `k` -/
def pot (r : V → ℕ) : ℕ → List V → ℕ
  | _, [] => 0
  | k, x :: xs => k * r x + pot r (k + 1) xs

omit [DecidableEq V] in
theorem pot_set (r : V → ℕ) (l : List V) : ∀ (k i : ℕ) (hi : i < l.length) (a : V),
    pot r k (l.set i a) + (k + i) * r l[i] = pot r k l + (k + i) * r a := by
  induction l with
  | nil => intro k i hi; simp at hi
  | cons x xs ih =>
    intro k i hi a
    match i with
    | 0 => simp only [List.set_cons_zero, pot, List.getElem_cons_zero, Nat.add_zero]; omega
    | i + 1 =>
      have := ih (k + 1) i (by simpa using hi) a
      simp only [List.set_cons_succ, pot, List.getElem_cons_succ]
      rw [show k + (i + 1) = k + 1 + i by omega]
      omega

omit [DecidableEq V] in
theorem pot_le {r : V → ℕ} {b : ℕ} (hb : ∀ v, r v ≤ b) (l : List V) : ∀ k,
    pot r k l ≤ l.length * ((k + l.length) * b) := by
  induction l with
  | nil => intro k; simp [pot]
  | cons x xs ih =>
    intro k
    simp only [pot, List.length_cons]
    have h1 := ih (k + 1)
    have h2 : k * r x ≤ (k + (xs.length + 1)) * b := Nat.mul_le_mul (by omega) (hb x)
    rw [show k + 1 + xs.length = k + (xs.length + 1) by omega] at h1
    rw [Nat.add_mul, Nat.one_mul]
    omega

/-- the loops keep a permutation of the files and either leave everything alone or raise the
potential and set the flag -/
structure Needs (r : V → ℕ) (files : List V) (needs : V → List V) : Prop where
  mem : ∀ f ∈ files, ∀ n ∈ needs f, n ∈ files
  rank : ∀ f ∈ files, ∀ n ∈ needs f, r n < r f

omit [DecidableEq M] in
theorem moveNeed_ok {r : V → ℕ} {files : List V} {file need : V} (hn : need ∈ files)
    (hr : r need < r file) {o : List V} {pos : ℕ} {moved : Bool} (hp : o.Perm files)
    (hpos : o[pos]? = some file) :
    ∃ o' pos' moved', moveNeed (M := M) file (o, pos, moved) need = .ok (o', pos', moved') ∧
      o'.Perm files ∧ o'[pos']? = some file ∧
      ((o' = o ∧ pos' = pos ∧ moved' = moved ∧ o.idxOf need ≤ pos) ∨
        (moved' = true ∧ pot r 0 o < pot r 0 o')) := by
  have hmem : need ∈ o := hp.mem_iff.mpr hn
  unfold moveNeed index
  simp only [if_pos hmem]
  by_cases hlt : o.idxOf need > pos
  · rw [if_pos hlt]
    have hj := List.idxOf_lt_length_of_mem hmem
    have hi : pos < o.length := by omega
    have ei : o[pos] = file := by
      rw [List.getElem?_eq_getElem hi] at hpos; exact Option.some.inj hpos
    have ej : o[o.idxOf need] = need := List.getElem_idxOf hj
    refine ⟨_, _, _, rfl, ?_, ?_, Or.inr ⟨rfl, ?_⟩⟩
    · have := List.set_set_perm (as := o) hj hi
      rw [ei, ej] at this
      exact this.trans hp
    · rw [List.getElem?_set_ne (by omega), List.getElem?_set_self hj]
    · have h1 := pot_set r o 0 (o.idxOf need) hj file
      have h2 := pot_set r (o.set (o.idxOf need) file) 0 pos (by simpa using hi) need
      rw [List.getElem_set_ne (by omega), ei] at h2
      rw [ej] at h1
      simp only [Nat.zero_add] at h1 h2
      have h3 : (o.idxOf need - pos) * r need < (o.idxOf need - pos) * r file :=
        Nat.mul_lt_mul_of_pos_left hr (by omega)
      rw [Nat.sub_mul, Nat.sub_mul] at h3
      have h4 : pos * r need ≤ o.idxOf need * r need := Nat.mul_le_mul_right _ (by omega)
      have h5 : pos * r file ≤ o.idxOf need * r file := Nat.mul_le_mul_right _ (by omega)
      omega
  · rw [if_neg hlt]
    exact ⟨o, pos, moved, rfl, hp, hpos, Or.inl ⟨rfl, rfl, rfl, by omega⟩⟩

omit [DecidableEq M] in
theorem moveNeeds_ok {r : V → ℕ} {files : List V} {file : V} (ns : List V)
    (hn : ∀ n ∈ ns, n ∈ files ∧ r n < r file) : ∀ (o : List V) (pos : ℕ) (moved : Bool),
    o.Perm files → o[pos]? = some file →
    ∃ o' pos' moved', forEach (moveNeed (M := M) file) ns (o, pos, moved) = .ok (o', pos', moved') ∧
      o'.Perm files ∧
      ((o' = o ∧ moved' = moved ∧ ∀ n ∈ ns, o.idxOf n ≤ pos) ∨
        (moved' = true ∧ pot r 0 o < pot r 0 o')) := by
  induction ns with
  | nil => intro o pos moved hp _; exact ⟨o, pos, moved, rfl, hp, Or.inl ⟨rfl, rfl, by simp⟩⟩
  | cons n ns ih =>
    intro o pos moved hp hpos
    obtain ⟨h1, h2⟩ := hn n (by simp)
    obtain ⟨o1, p1, m1, e1, hp1, hpos1, hc1⟩ := moveNeed_ok (M := M) h1 h2 (moved := moved) hp hpos
    obtain ⟨o2, p2, m2, e2, hp2, hc2⟩ := ih (fun w hw => hn w (List.mem_cons_of_mem _ hw)) o1 p1 m1 hp1 hpos1
    refine ⟨o2, p2, m2, ?_, hp2, ?_⟩
    · unfold forEach; rw [e1]; exact e2
    · rcases hc1 with ⟨rfl, rfl, rfl, hle⟩ | ⟨rfl, hlt⟩
      · rcases hc2 with ⟨rfl, rfl, hall⟩ | ⟨rfl, hlt⟩
        · refine Or.inl ⟨rfl, rfl, ?_⟩
          intro w hw
          rcases List.mem_cons.mp hw with rfl | hw
          · exact hle
          · exact hall w hw
        · exact Or.inr ⟨rfl, hlt⟩
      · rcases hc2 with ⟨rfl, rfl, _⟩ | ⟨rfl, hlt'⟩
        · exact Or.inr ⟨rfl, hlt⟩
        · exact Or.inr ⟨rfl, lt_trans hlt hlt'⟩

omit [DecidableEq M] in
theorem moveFiles_ok {r : V → ℕ} {files : List V} {needs : V → List V} (hN : Needs r files needs)
    (fs : List V) (hfs : ∀ f ∈ fs, f ∈ files) : ∀ (o : List V) (moved : Bool), o.Perm files →
    ∃ o' moved', forEach (moveFile (M := M) needs) fs (o, moved) = .ok (o', moved') ∧
      o'.Perm files ∧
      ((o' = o ∧ moved' = moved ∧ ∀ f ∈ fs, ∀ n ∈ needs f, o.idxOf n ≤ o.idxOf f) ∨
        (moved' = true ∧ pot r 0 o < pot r 0 o')) := by
  induction fs with
  | nil => intro o moved hp; exact ⟨o, moved, rfl, hp, Or.inl ⟨rfl, rfl, by simp⟩⟩
  | cons f fs ih =>
    intro o moved hp
    have hf := hfs f (by simp)
    have hmem : f ∈ o := hp.mem_iff.mpr hf
    have hlt := List.idxOf_lt_length_of_mem hmem
    obtain ⟨o1, p1, m1, e1, hp1, hc1⟩ := moveNeeds_ok (M := M) (r := r) (needs f)
      (fun n hn => ⟨hN.mem f hf n hn, hN.rank f hf n hn⟩) o (o.idxOf f) moved hp
      (by rw [List.getElem?_eq_getElem hlt, List.getElem_idxOf hlt])
    obtain ⟨o2, m2, e2, hp2, hc2⟩ := ih (fun w hw => hfs w (List.mem_cons_of_mem _ hw)) o1 m1 hp1
    refine ⟨o2, m2, ?_, hp2, ?_⟩
    · unfold forEach moveFile index
      simp only [if_pos hmem, e1]
      exact e2
    · rcases hc1 with ⟨rfl, rfl, hle⟩ | ⟨rfl, hlt⟩
      · rcases hc2 with ⟨rfl, rfl, hall⟩ | ⟨rfl, hlt⟩
        · refine Or.inl ⟨rfl, rfl, ?_⟩
          intro w hw
          rcases List.mem_cons.mp hw with rfl | hw
          · exact hle
          · exact hall w hw
        · exact Or.inr ⟨rfl, hlt⟩
      · rcases hc2 with ⟨rfl, rfl, _⟩ | ⟨rfl, hlt'⟩
        · exact Or.inr ⟨rfl, hlt⟩
        · exact Or.inr ⟨rfl, lt_trans hlt hlt'⟩

omit [DecidableEq M] in
theorem orderLoop_ok {r : V → ℕ} {b : ℕ} (hb : ∀ v, r v ≤ b) {files : List V} {needs : V → List V}
    (hN : Needs r files needs) (n : ℕ) : ∀ o : List V, o.Perm files →
    files.length * (files.length * b) < n + pot r 0 o →
    ∃ o', orderLoop (M := M) needs files n o = .ok o' ∧ o'.Perm files ∧
      ∀ f ∈ files, ∀ n ∈ needs f, o'.idxOf n ≤ o'.idxOf f := by
  induction n with
  | zero =>
    intro o hp h
    have := pot_le hb o 0
    rw [hp.length_eq, Nat.zero_add] at this
    omega
  | succ n ih =>
    intro o hp h
    obtain ⟨o1, m1, e1, hp1, hc1⟩ := moveFiles_ok (M := M) hN files (fun f h => h) o false hp
    unfold orderLoop
    simp only [e1]
    rcases hc1 with ⟨rfl, rfl, hle⟩ | ⟨rfl, hlt⟩
    · exact ⟨o1, rfl, hp1, hle⟩
    · obtain ⟨o2, e2, hp2, hle⟩ := ih o1 hp1 (by omega)
      exact ⟨o2, by rw [if_pos rfl, e2], hp2, hle⟩

end Ccpy.FortranDeps
