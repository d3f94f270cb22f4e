import Verif.Lemmas.HilbertBits

/-! C49: determinants, excitations, phases and matrix elements of `models/hilbert.py`. -/

namespace Ccpy.Hilbert

open Ccpy.Fock (Ordered exciteWith occupiedBy)

/-- Orbital lists a user may pass to the constructor: numbers from one to `n` without repetition. -/
structure Orbs (n : ℕ) (l : List ℕ) : Prop where
  nodup : l.Nodup
  range : ∀ i ∈ l, 1 ≤ i ∧ i ≤ n

theorem Orbs.zero {n : ℕ} {l : List ℕ} (h : Orbs n l) : 0 ∉ l := fun h0 => absurd (h.range 0 h0).1 (by omega)

variable {ι : Type*} [LinearOrder ι] {up down : ℕ → ι}

/-- C49.  A determinant has the orbitals it was made of, in increasing order, whatever the order of the arguments. -/
theorem C49_determinant {n na nb : ℕ} {a b : List ℕ} (ha : Orbs n a) (hb : Orbs n b) (hla : a.length = na) (hlb : b.length = nb) :
    ∃ d, determinant na nb a b = .ok d ∧ d.occA.Pairwise (· < ·) ∧ d.occB.Pairwise (· < ·) ∧
      (∀ i, i ∈ d.occA ↔ i + 1 ∈ a) ∧ (∀ i, i ∈ d.occB ↔ i + 1 ∈ b) := by
  have hd : ∃ d, determinant na nb a b = .ok d := by
    unfold determinant
    rw [if_pos ⟨hla, hlb⟩]
    exact ⟨_, rfl⟩
  obtain ⟨d, hd⟩ := hd
  obtain ⟨w, h1, h2, _⟩ := wf_determinant hd ha.nodup hb.nodup ha.zero hb.zero
  exact ⟨d, hd, w.sortA, w.sortB, h1, h2⟩

/-- C49.  Wrong numbers of electrons are rejected. -/
theorem C49_determinant_rejects {na nb : ℕ} {a b : List ℕ} (h : a.length ≠ na ∨ b.length ≠ nb) :
    determinant na nb a b = .error .assertion := by
  unfold determinant
  rw [if_neg]
  rintro ⟨h1, h2⟩
  rcases h with h | h
  · exact h h1
  · exact h h2

/-- C49.  The excitation between two determinants contains the orbitals in which they differ, and with its phase it turns the
second determinant into the first. -/
theorem C49_excitation (O : Ordered up down) {n na nb : ℕ} {a b a' b' : List ℕ} (ha : Orbs n a) (hb : Orbs n b) (ha' : Orbs n a')
    (hb' : Orbs n b') {d e : Det} (hd : determinant na nb a b = .ok d) (he : determinant na nb a' b' = .ok e) :
    ∃ x, getExcitation d e = .ok x ∧
      (∀ i, (i ∈ x.toA ↔ i + 1 ∈ a ∧ i + 1 ∉ a') ∧ (i ∈ x.fromA ↔ i + 1 ∈ a' ∧ i + 1 ∉ a) ∧
        (i ∈ x.toB ↔ i + 1 ∈ b ∧ i + 1 ∉ b') ∧ (i ∈ x.fromB ↔ i + 1 ∈ b' ∧ i + 1 ∉ b)) ∧
      (x.toA.Pairwise (· < ·) ∧ x.fromA.Pairwise (· < ·) ∧ x.toB.Pairwise (· < ·) ∧ x.fromB.Pairwise (· < ·)) ∧
      exciteWith (x.toA.map up ++ x.toB.map down) (x.fromA.map up ++ x.fromB.map down) (Fock.det (occupiedBy up down e.occA e.occB)) =
        x.phase • Fock.det (occupiedBy up down d.occA d.occB) := by
  obtain ⟨w, h1, h2, h3, h4⟩ := wf_determinant hd ha.nodup hb.nodup ha.zero hb.zero
  obtain ⟨w', h1', h2', h3', h4'⟩ := wf_determinant he ha'.nodup hb'.nodup ha'.zero hb'.zero
  have hx := getExcitation_eq w w' (h3.trans h3'.symm) (h4.trans h4'.symm)
  refine ⟨_, hx, fun i => ?_, ⟨w.sortA.filter _, w'.sortA.filter _, w.sortB.filter _, w'.sortB.filter _⟩,
    excite_eq O w w' (h3.trans h3'.symm) (h4.trans h4'.symm) hx⟩
  simp only [List.mem_filter, decide_eq_true_eq, h1, h2, h1', h2', and_self]

/-- C49, except for the determinants with one electron of a spin.  `slater_eval` is the matrix element of the Hamiltonian between
the two determinants.  Missing: single excitations when there is exactly one electron of either spin, see `C49_slater_fails`. -/
theorem C49_slater_partial (O : Ordered up down) (H : Arrays) (hAA : Fock.Antisymmetric H.aa) (hBB : Fock.Antisymmetric H.bb)
    {n na nb : ℕ} {a b a' b' : List ℕ} (ha : Orbs n a) (hb : Orbs n b) (ha' : Orbs n a') (hb' : Orbs n b') {d e : Det}
    (hd : determinant na nb a b = .ok d) (he : determinant na nb a' b' = .ok e)
    (hone : (occupiedBy up down d.occA d.occB \ occupiedBy up down e.occA e.occB).card = 1 → na ≠ 1 ∧ nb ≠ 1) :
    slaterEval H d e = .ok (Fock.inner (Fock.det (occupiedBy up down d.occA d.occB))
      (Fock.hamiltonian (⟨n, na, nb, up, down⟩ : Fock.Orbitals ι) ⟨H.a, H.b, H.aa, H.ab, H.bb⟩
        (Fock.det (occupiedBy up down e.occA e.occB)))) := by
  obtain ⟨w, h1, h2, h3, h4⟩ := wf_determinant hd ha.nodup hb.nodup ha.zero hb.zero
  obtain ⟨w', h1', h2', h3', h4'⟩ := wf_determinant he ha'.nodup hb'.nodup ha'.zero hb'.zero
  refine slaterEval_eq O H hAA hBB n w w' (h3.trans h3'.symm) (h4.trans h4'.symm) ?_ ?_ ?_ ?_ ?_
  · intro x hx; have := (ha.range _ ((h1 x).1 hx)).2; omega
  · intro x hx; have := (hb.range _ ((h2 x).1 hx)).2; omega
  · intro x hx; have := (ha'.range _ ((h1' x).1 hx)).2; omega
  · intro x hx; have := (hb'.range _ ((h2' x).1 hx)).2; omega
  · rw [h3', h4']; exact hone

/-- C49 fails for two electrons: the element between the reference and a single excitation raises ValueError, because `squeeze`
removes the axes of the single occupied orbital. -/
theorem C49_slater_fails (H : Arrays) : ∃ d e, determinant 1 1 [2] [1] = .ok d ∧ determinant 1 1 [1] [1] = .ok e ∧
    slaterEval H d e = .error .value := by
  refine ⟨⟨[2, 3], [1], [0]⟩, ⟨[1, 2], [0], [0]⟩, by decide +kernel, by decide +kernel, ?_⟩
  unfold slaterEval
  rw [show getExcitation ⟨[2, 3], [1], [0]⟩ ⟨[1, 2], [0], [0]⟩ = .ok ⟨[1], [0], [], [], 1⟩ by decide +kernel]
  rfl

/-- C49.  The words of the bit string contain exactly the orbitals of the list. -/
theorem C49_bitstring {norb len : ℕ} (hlen : 0 < len) {l : List ℕ} (hn : l.Nodup) (hl : ∀ x ∈ l, x < norb) :
    ∃ b, bitstring (words norb len) len l = .ok b ∧ ∀ x, x ∈ l ↔ (b.getD (x / len) 0).testBit (x % len) = true := by
  obtain ⟨b, h1, h2⟩ := bitstring_spec norb len hlen l hn hl
  refine ⟨b, h1, fun x => ?_⟩
  rw [h2, decide_eq_true_eq, mul_comm, Nat.div_add_mod]
  simp [Nat.mod_lt x hlen]

/-- C49.  Different sets of orbitals have different bit strings. -/
theorem C49_bitstring_injective {norb len : ℕ} (hlen : 0 < len) {l m : List ℕ} (hn : l.Nodup) (hm : m.Nodup) (hl : ∀ x ∈ l, x < norb)
    (hml : ∀ x ∈ m, x < norb) (h : bitstring (words norb len) len l = bitstring (words norb len) len m) : ∀ x, x ∈ l ↔ x ∈ m := by
  obtain ⟨b, h1, h2⟩ := C49_bitstring hlen hn hl
  obtain ⟨c, h3, h4⟩ := C49_bitstring hlen hm hml
  rw [h1, h3] at h
  intro x
  rw [h2, h4, Except.ok.inj h]

/-- C49, for closed shells.  Applying an excitation to the reference and reading it back gives the same excitation, but with the
particles counted from the first orbital instead of the first unoccupied one.  Missing: that both use the same numbers, see
`C49_roundtrip_fails`, and open shells, see `C49_open_shell_fails`. -/
theorem C49_roundtrip_partial {m : ℕ} {x : Excitation} (h : Proper m x) {hf : Det}
    (hhf : determinant m m (List.range' 1 m) (List.range' 1 m) = .ok hf) :
    ∃ d y, getDeterminant m m x = .ok d ∧ getExcitation d hf = .ok y ∧ y.toA = x.toA.map (· + m) ∧ y.fromA = x.fromA ∧
      y.toB = x.toB.map (· + m) ∧ y.fromB = x.fromB := by
  obtain ⟨d, h1, w, l1, l2, m1, m2⟩ := getDeterminant_spec h
  have hz : 0 ∉ List.range' 1 m := by rw [List.mem_range'_1]; omega
  obtain ⟨w', k1, k2, k3, k4⟩ := wf_determinant hhf List.nodup_range' List.nodup_range' hz hz
  have hx := getExcitation_eq w w' (l1.trans k3.symm) (l2.trans k4.symm)
  have kA : ∀ i, i ∈ hf.occA ↔ i < m := by intro i; rw [k1, List.mem_range'_1]; omega
  have kB : ∀ i, i ∈ hf.occB ↔ i < m := by intro i; rw [k2, List.mem_range'_1]; omega
  refine ⟨d, _, h1, hx, ?_, ?_, ?_, ?_⟩
  · refine eq_of_mem_iff (w.sortA.filter _) (by rw [List.pairwise_map]; exact h.toA.imp fun h => by omega) fun i => ?_
    simp only [List.mem_filter, decide_eq_true_eq, m1, kA, List.mem_map]
    constructor
    · rintro ⟨⟨h1, _⟩ | h1, h2⟩
      · exact absurd h1 h2
      · exact h1
    · rintro ⟨a, ha, rfl⟩
      exact ⟨Or.inr ⟨a, ha, rfl⟩, by omega⟩
  · refine eq_of_mem_iff (w'.sortA.filter _) h.fromA fun i => ?_
    simp only [List.mem_filter, decide_eq_true_eq, m1, kA, List.mem_map]
    constructor
    · rintro ⟨h1, h2⟩
      by_contra hc
      exact h2 (Or.inl ⟨h1, hc⟩)
    · intro hi
      refine ⟨h.ltA i hi, ?_⟩
      rintro (⟨_, hn⟩ | ⟨a, _, e⟩)
      · exact hn hi
      · have := h.ltA i hi
        omega
  · refine eq_of_mem_iff (w.sortB.filter _) (by rw [List.pairwise_map]; exact h.toB.imp fun h => by omega) fun i => ?_
    simp only [List.mem_filter, decide_eq_true_eq, m2, kB, List.mem_map]
    constructor
    · rintro ⟨⟨h1, _⟩ | h1, h2⟩
      · exact absurd h1 h2
      · exact h1
    · rintro ⟨a, ha, rfl⟩
      exact ⟨Or.inr ⟨a, ha, rfl⟩, by omega⟩
  · refine eq_of_mem_iff (w'.sortB.filter _) h.fromB fun i => ?_
    simp only [List.mem_filter, decide_eq_true_eq, m2, kB, List.mem_map]
    constructor
    · rintro ⟨h1, h2⟩
      by_contra hc
      exact h2 (Or.inl ⟨h1, hc⟩)
    · intro hi
      refine ⟨h.ltB i hi, ?_⟩
      rintro (⟨_, hn⟩ | ⟨a, _, e⟩)
      · exact hn hi
      · have := h.ltB i hi
        omega

/-- C49 fails: the excitation read from a determinant, applied to the reference, gives another determinant. -/
theorem C49_roundtrip_fails : ∃ d hf x d', determinant 2 2 [1, 3] [1, 2] = .ok d ∧ determinant 2 2 [1, 2] [1, 2] = .ok hf ∧
    getExcitation d hf = .ok x ∧ getDeterminant 2 2 x = .ok d' ∧ d' ≠ d := by
  exact ⟨⟨[1, 2, 4, 5], [0, 2], [0, 1]⟩, ⟨[1, 2, 3, 4], [0, 1], [0, 1]⟩, ⟨[2], [1], [], [], 1⟩, ⟨[1, 2, 4, 9], [0, 4], [0, 1]⟩,
    by decide +kernel, by decide +kernel, by decide +kernel, by decide +kernel, by decide +kernel⟩

/-- C49 fails for open shells: `get_determinant` always starts from the determinant with equal numbers of alpha and beta electrons
(or one more alpha electron), so that the assertions of the constructor fail. -/
theorem C49_open_shell_fails : getDeterminant 3 1 ⟨[], [], [], [], 1⟩ = .error .assertion := by decide +kernel

/-- A double excitation with a phase, the hypotheses of `C49_slater_partial`, and words of a bit string. -/
example : (∃ d e, determinant 3 2 [5, 1, 2] [1, 4] = .ok d ∧ determinant 3 2 [1, 2, 3] [2, 1] = .ok e ∧
    getExcitation d e = .ok ⟨[4], [2], [3], [1], 1⟩) ∧
    (∃ d e, determinant 3 2 [1, 3, 4] [1, 2] = .ok d ∧ determinant 3 2 [1, 2, 3] [2, 1] = .ok e ∧
    getExcitation d e = .ok ⟨[3], [1], [], [], -1⟩) ∧ Orbs 5 [5, 1, 2] ∧ Ordered (fun p => (toLex (0, p) : ℕ ×ₗ ℕ)) (fun p => toLex (1, p)) ∧
    bitstring (words 40 32) 32 [1, 33] = .ok [2, 2] ∧ Proper 2 ⟨[0, 1], [0, 1], [3], [1], 1⟩ := by
  refine ⟨⟨⟨[1, 2, 3, 8, 9], [0, 1, 4], [0, 3]⟩, ⟨[1, 2, 3, 4, 5], [0, 1, 2], [0, 1]⟩, by decide +kernel, by decide +kernel, by decide +kernel⟩,
    ⟨⟨[1, 2, 4, 5, 7], [0, 2, 3], [0, 1]⟩, ⟨[1, 2, 3, 4, 5], [0, 1, 2], [0, 1]⟩, by decide +kernel, by decide +kernel, by decide +kernel⟩,
    ⟨by decide, by decide⟩, ⟨?_, ?_, ?_⟩, by decide +kernel, ⟨rfl, rfl, by decide, by decide, by decide, by decide, by decide, by decide⟩⟩
  · intro a b h; exact Prod.Lex.right _ h
  · intro a b h; exact Prod.Lex.right _ h
  · intro p q; exact Prod.Lex.left _ _ (by decide)

end Ccpy.Hilbert
