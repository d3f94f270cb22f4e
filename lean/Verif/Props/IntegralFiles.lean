import Verif.Lemmas.IntegralFiles
import Mathlib.Data.Rat.Defs
import Mathlib.Tactic.Ring

/-! **C32** Integrals of an FCIDUMP file.  **C33** Writing and reading the direct integral files.

C32 is false for files with lines of orbital energies, which the format allows (`C32_orbital_energies_fails`), and for deleted
orbitals, which are subtracted twice (`C32_deleted_fails`); it holds for files of integrals and a constant.  C33 is false for
integrals in the notation the rest of the program uses (`C33_notation_fails`). -/

namespace Ccpy.IntegralFiles
open Ccpy.Spec Ccpy.Writes

variable {α : Type}

/-! ### C32 -/

/-- A regular file with a constant is read without error, and every element is what the last line about its integral says, or
zero.  `e2[p, q, r, t]` is the integral `(pr|qt)`. -/
theorem C32_load_partial [Zero α] {n : ℕ} (lines : List (Line α)) (h : ∀ l ∈ lines, Regular n l) {x : α}
    (hx : lastValue AboutConst lines = some x) :
    ∃ e1 e2, loadFcidump n lines = .ok (e1, e2, x)
      ∧ (∀ p r, e1 (p, r) = (lastValue (AboutOne (p + 1) (r + 1)) lines).getD 0)
      ∧ ∀ p q r t, e2 (p, q, r, t) = (lastValue (AboutTwo (p + 1) (r + 1) (q + 1) (t + 1)) lines).getD 0 := by
  obtain ⟨s, h₁, h₂⟩ := fold_ok lines h
  refine ⟨s.e1, s.e2, ?_, h₂.e1, h₂.e2⟩
  unfold loadFcidump
  rw [h₁]
  show (match s.enn with | some x => Except.ok (s.e1, s.e2, x) | none => Except.error Err.unboundLocal) = _
  rw [h₂.enn, hx]

/-- The arrays have the symmetry of integrals over real orbitals. -/
theorem C32_symmetry_partial [Zero α] {n : ℕ} (lines : List (Line α)) (h : ∀ l ∈ lines, Regular n l) {e1 e2} {x : α}
    (hl : loadFcidump n lines = .ok (e1, e2, x)) : (∀ p r, e1 (p, r) = e1 (r, p))
      ∧ ∀ p q r t, e2 (p, q, r, t) = e2 (r, q, p, t) ∧ e2 (p, q, r, t) = e2 (p, t, r, q) ∧ e2 (p, q, r, t) = e2 (q, p, t, r) := by
  obtain ⟨s, h₁, h₂⟩ := fold_ok lines h
  have hs : s.e1 = e1 ∧ s.e2 = e2 := by
    unfold loadFcidump at hl
    rw [h₁] at hl
    change (match s.enn with | some x => Except.ok (s.e1, s.e2, x) | none => Except.error Err.unboundLocal) = _ at hl
    cases hn : s.enn with
    | none => rw [hn] at hl; cases hl
    | some y => rw [hn] at hl; cases hl; exact ⟨rfl, rfl⟩
  obtain ⟨rfl, rfl⟩ := hs
  have sw : ∀ a b : ℕ, s(a, b) = s(b, a) := fun a b => Sym2.eq_swap
  refine ⟨fun p r => ?_, fun p q r t => ⟨?_, ?_, ?_⟩⟩
  · rw [h₂.e1, h₂.e1, lastValue_congr fun l => by rw [AboutOne, sw (p + 1) (r + 1), ← AboutOne]]
  · rw [h₂.e2, h₂.e2, lastValue_congr fun l => by rw [AboutTwo, twoLabel, twoLabel, sw (p + 1) (r + 1), ← twoLabel, ← twoLabel, ← AboutTwo]]
  · rw [h₂.e2, h₂.e2, lastValue_congr fun l => by rw [AboutTwo, twoLabel, twoLabel, sw (q + 1) (t + 1), ← twoLabel, ← twoLabel, ← AboutTwo]]
  · rw [h₂.e2, h₂.e2]
    have : s(s(p + 1, r + 1), s(q + 1, t + 1)) = s(s(q + 1, t + 1), s(p + 1, r + 1)) := Sym2.eq_swap
    rw [lastValue_congr fun l => by rw [AboutTwo, twoLabel, twoLabel, this, ← twoLabel, ← twoLabel, ← AboutTwo]]

/-- A file without a constant ends in an error after reading. -/
theorem C32_no_constant [Zero α] {n : ℕ} (lines : List (Line α)) (h : ∀ l ∈ lines, Regular n l)
    (hx : lastValue AboutConst lines = none) : loadFcidump n lines = .error .unboundLocal := by
  obtain ⟨s, h₁, h₂⟩ := fold_ok lines h
  unfold loadFcidump
  rw [h₁]
  show (match s.enn with | some x => Except.ok (s.e1, s.e2, x) | none => Except.error Err.unboundLocal) = _
  rw [h₂.enn, hx]

/-- An orbital that does not exist is refused. -/
theorem C32_orbital_out_of_range {n : ℕ} (s : Loaded α) (l : Line α) (hc : l.c ≠ 0) (hd : l.d ≠ 0)
    (h : n < l.a ∨ n < l.b ∨ n < l.c ∨ n < l.d) : readLine n s l = .error .indexError := by
  have hax : ∀ x, axis n x = .error .indexError ∨ ∃ y, axis n x = .ok y := fun x => by
    unfold axis; split
    · split
      · exact .inl rfl
      · exact .inr ⟨_, rfl⟩
    · split
      · exact .inr ⟨_, rfl⟩
      · exact .inl rfl
  have herr : ∀ x, n < x → axis n x = .error .indexError := fun x hx => by
    unfold axis; rw [if_neg (by omega), if_neg (by omega)]
  unfold readLine
  rw [if_pos ⟨hc, hd⟩]
  rcases hax l.a with ha | ⟨p, ha⟩
  · rw [ha]; rfl
  rcases hax l.c with hc' | ⟨q, hc'⟩
  · rw [ha, hc']; rfl
  rcases hax l.b with hb | ⟨r, hb⟩
  · rw [ha, hc', hb]; rfl
  rcases hax l.d with hd' | ⟨t, hd'⟩
  · rw [ha, hc', hb, hd']; rfl
  · rcases h with h | h | h | h
    · rw [herr _ h] at ha; cases ha
    · rw [herr _ h] at hb; cases hb
    · rw [herr _ h] at hc'; cases hc'
    · rw [herr _ h] at hd'; cases hd'

/-- Lines `ε a 0 0 0` give the energy of orbital `a` and should leave the integrals as they are.  The reader stores `ε` as the
one-body integral of `a` and the last orbital. -/
theorem C32_orbital_energies_fails : ¬ ∀ (n : ℕ) (lines : List (Line ℚ)) (e : ℚ) (a : ℕ), (∀ l ∈ lines, Regular n l) →
    1 ≤ a ∧ a ≤ n → (loadFcidump n (lines ++ [⟨e, a, 0, 0, 0⟩])).map (fun x => x.1 (0, 1))
      = (loadFcidump n lines).map fun x => x.1 (0, 1) := by
  intro H
  have := H 2 [⟨-1, 1, 1, 0, 0⟩, ⟨-2, 2, 2, 0, 0⟩, ⟨5, 0, 0, 0, 0⟩] (-7) 1
    (fun l hl => by
      simp only [List.mem_cons, List.not_mem_nil, or_false] at hl
      rcases hl with rfl | rfl | rfl
      · exact .one (by omega) (by omega)
      · exact .one (by omega) (by omega)
      · exact .const) (by omega)
  exact absurd this (by decide +kernel)

/-- With deleted orbitals the arrays are shorter than the number of orbitals kept: the deleted ones are subtracted twice. -/
theorem C32_deleted (norbitals nfrozen ndelete : ℕ) :
    readerNorb norbitals nfrozen ndelete = (norbitals - ndelete : ℤ) - ndelete := by
  unfold readerNorb; ring

/-- So a file of three orbitals cannot be read when one of them is to be deleted, even if it lists only the first two. -/
theorem C32_deleted_fails : ¬ ∀ (norbitals ndelete : ℕ) (lines : List (Line ℚ)), (∀ l ∈ lines, Regular (norbitals - ndelete) l) →
    lastValue AboutConst lines ≠ none → (loadFcidump (readerNorb norbitals 0 ndelete).toNat lines).isOk = true := by
  intro H
  have := H 3 1 [⟨-1, 2, 2, 0, 0⟩, ⟨5, 0, 0, 0, 0⟩] (fun l hl => by
      simp only [List.mem_cons, List.not_mem_nil, or_false] at hl
      rcases hl with rfl | rfl
      · exact .one (by omega) (by omega)
      · exact .const) (by decide +kernel)
  exact absurd this (by decide +kernel)

/-- Two orbitals, all integrals listed once, with one of them changed by a later line. -/
def sampleFile : List (Line ℚ) :=
  [⟨1/2, 1, 1, 1, 1⟩, ⟨1/3, 2, 1, 1, 1⟩, ⟨1/4, 2, 1, 2, 1⟩, ⟨1/5, 2, 2, 1, 1⟩, ⟨1/6, 2, 2, 2, 1⟩, ⟨1/7, 2, 2, 2, 2⟩,
   ⟨-1, 1, 1, 0, 0⟩, ⟨-2, 2, 1, 0, 0⟩, ⟨-3, 2, 2, 0, 0⟩, ⟨1/8, 1, 1, 2, 2⟩, ⟨9, 0, 0, 0, 0⟩]

theorem sampleFile_regular : ∀ l ∈ sampleFile, Regular 2 l := by
  intro l hl
  simp only [sampleFile, List.mem_cons, List.not_mem_nil, or_false] at hl
  rcases hl with rfl | rfl | rfl | rfl | rfl | rfl | rfl | rfl | rfl | rfl | rfl
  all_goals first
    | exact .const
    | exact .one (by omega) (by omega)
    | exact .two (by omega) (by omega) (by omega) (by omega)

example : lastValue AboutConst sampleFile = some 9 := by decide +kernel
example : (lastValue (AboutTwo 2 2 1 1) sampleFile).getD 0 = (1/8 : ℚ) := by decide +kernel
example : ∃ e1 e2, loadFcidump 2 sampleFile = .ok (e1, e2, 9) ∧ e1 (0, 1) = -2 ∧ e2 (1, 0, 1, 0) = 1/8 := by
  obtain ⟨e1, e2, h₁, h₂, h₃⟩ := C32_load_partial sampleFile sampleFile_regular (x := 9) (by decide +kernel)
  refine ⟨e1, e2, h₁, ?_, ?_⟩
  · rw [h₂]; decide +kernel
  · rw [h₃]; decide +kernel
example : loadFcidump 2 ([⟨1/2, 1, 1, 1, 1⟩] : List (Line ℚ)) = .error .unboundLocal :=
  C32_no_constant _ (fun l hl => by
    simp only [List.mem_cons, List.not_mem_nil, or_false] at hl
    subst hl; exact .two (by omega) (by omega) (by omega) (by omega)) (by decide +kernel)

/-! ### C33.  `print` and `parse` are the formatting with eleven decimals and `float`; `n` is the number of orbitals. -/

section
variable {β : Type} (print : α → β) (parse : β → α)

/-- A symmetric one-body matrix comes back up to the rounding of the format. -/
theorem C33_onebody [Zero α] (n : ℕ) (e1 : Key1 → α) (hs : ∀ p r, e1 (p, r) = e1 (r, p)) :
    ∃ e, loadOnebody parse n (dumpOnebody print n e1) = .ok e
      ∧ ∀ p r, p < n → r < n → e (p, r) = parse (print (e1 (p, r))) := by
  refine ⟨_, onebody_fold parse (fun x => print (e1 x)) (triangle n) [] fun _ => 0, fun p r hp hr => ?_⟩
  rw [onebody_value (g := fun x => parse (print (e1 x))) (triangle n) (fun x _ y _ h => by
    subst h; obtain ⟨a, b⟩ := x; simp only []; rw [hs])]
  by_cases h : (p, r) ∈ triangle n
  · rw [if_pos h]
  · rw [if_neg h, if_pos (mem_triangle.2 (by have := mt mem_triangle.2 h; omega)), hs]

/-- In general only the lower triangle is kept. -/
theorem C33_onebody_triangle [Zero α] (n : ℕ) (e1 : Key1 → α) :
    ∃ e, loadOnebody parse n (dumpOnebody print n e1) = .ok e
      ∧ ∀ p r, p < n → r < n → e (p, r) = parse (print (e1 (max p r, min p r))) := by
  refine ⟨_, onebody_fold parse (fun x => print (e1 x)) (triangle n) [] fun _ => 0, fun p r hp hr => ?_⟩
  rw [onebody_value (g := fun x => parse (print (e1 x))) (triangle n) (fun x hx y hy h => by
    subst h; obtain ⟨a, b⟩ := x
    have h₁ := (mem_triangle.1 hx).2
    have h₂ := (mem_triangle.1 hy).2
    simp only at h₁ h₂
    obtain rfl : a = b := by omega
    rfl)]
  rcases Nat.lt_or_ge p r with h | h
  · rw [if_neg (fun h' => by have := (mem_triangle.1 h').2; omega), if_pos (mem_triangle.2 ⟨hr, by omega⟩),
      Nat.max_eq_right (by omega), Nat.min_eq_left (by omega)]
  · rw [if_pos (mem_triangle.2 ⟨hp, h⟩), Nat.max_eq_left h, Nat.min_eq_right h]

/-- A matrix of fewer orbitals than the reader expects gives an error. -/
example : loadOnebody (β := ℚ) (fun x : ℚ => x) 3 (dumpOnebody (fun x => x) 2 fun x => (x.1 + x.2 : ℚ)) matches .error .indexError := by
  decide +kernel

/-- The two-body array comes back with its two middle axes exchanged, and the nuclear repulsion as it was: this is the
original array if the writer is given `(ij|kl)` and the reader returns `⟨ik|jl⟩`. -/
theorem C33_twobody_partial [Zero α] (n : ℕ) (e2 : Key2 → α) (nuclear : α) :
    ∃ e, loadTwobody parse n (dumpTwobody print n e2 nuclear) = .ok (parse (print nuclear), e)
      ∧ ∀ p q r t, p < n → q < n → r < n → t < n → e (p, q, r, t) = parse (print (e2 (p, r, q, t))) := by
  refine ⟨fun k => applyWrites (fun _ => 0) ((tuples n).map fun k => (k, parse (print (e2 k)))) (k.1, k.2.2.1, k.2.1, k.2.2.2),
    ?_, fun p q r t hp hq hr ht => ?_⟩
  · unfold loadTwobody
    rw [dumpTwobody_eq, List.foldlM_append, twobody_fold parse (fun k => print (e2 k)) _ fun k hk => mem_tuples.1 hk]
    rfl
  · show applyWrites _ ((tuples n).map fun k => (k, parse (print (e2 k)))) (p, r, q, t) = _
    rw [applyWrites_graph _ (fun k => parse (print (e2 k))), if_pos (mem_tuples.2 ⟨hp, hr, hq, ht⟩)]

end

/-- The integrals in the order `⟨ij|kl⟩` that the program works with, which `transform_to_natorbs` passes to the writer
(`/repo/ccpy/density/natural_orbitals.py:115`), do not come back, although they have the symmetry of real orbitals. -/
theorem C33_notation_fails : ¬ ∀ (n : ℕ) (e2 : Key2 → ℚ), (∀ p q r t, e2 (p, q, r, t) = e2 (r, q, p, t)
      ∧ e2 (p, q, r, t) = e2 (p, t, r, q) ∧ e2 (p, q, r, t) = e2 (q, p, t, r)) →
    ∀ p q r t, p < n → q < n → r < n → t < n →
      (loadTwobody (fun x => x) n (dumpTwobody (fun x => x) n e2 0)).toOption.map (fun y => y.2 (p, q, r, t))
        = some (e2 (p, q, r, t)) := by
  intro H
  have := H 2 (fun k => if k.1 = k.2.2.1 ∧ k.2.1 = k.2.2.2 then 1 else 0)
    (fun p q r t => ⟨by simp only [eq_comm], by simp only [eq_comm], by simp only [and_comm]⟩)
    0 1 0 1 (by decide) (by decide) (by decide) (by decide)
  obtain ⟨e, h₁, h₂⟩ := C33_twobody_partial (fun x : ℚ => x) (fun x => x) 2
    (fun k => if k.1 = k.2.2.1 ∧ k.2.1 = k.2.2.2 then 1 else 0) 0
  rw [h₁] at this
  have h₃ := h₂ 0 1 0 1 (by decide) (by decide) (by decide) (by decide)
  simp only [Except.toOption, Option.map_some, h₃, Option.some.injEq] at this
  exact absurd this (by decide +kernel)

end Ccpy.IntegralFiles
