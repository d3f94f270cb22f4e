import Verif.Lemmas.Qp2
import Mathlib.Data.Nat.Digits.Defs

/-! # C55: converting Quantum Package determinants

`spinOrbital σ i` is the number of spin-orbital `i` (from 0) of spin σ; `excite us [] ∅` applies the
creation operators `us` (leftmost last) to the vacuum. -/

namespace Ccpy.Qp2
open Ccpy.Spec

/-- The determinant of two bit patterns: bit `i` of the first (second) pattern stands for the alpha
(beta) spin-orbital `i`. -/
def IsDeterminant (alpha beta : ℕ) (D : Finset ℕ) : Prop :=
  ∀ x, x ∈ D ↔ (∃ i, alpha.testBit i = true ∧ x = spinOrbital .α i) ∨
    (∃ i, beta.testBit i = true ∧ x = spinOrbital .β i)

/-- `us` lists all alpha, then all beta spin-orbitals of `D`, each in ascending order. -/
def SpinBlocked (D : Finset ℕ) (us : List ℕ) : Prop :=
  ∃ uA uB, us = uA ++ uB ∧ uA.Pairwise (· < ·) ∧ uB.Pairwise (· < ·) ∧
    (∀ x, x ∈ uA ↔ x ∈ D ∧ x % 2 = 1) ∧ (∀ x, x ∈ uB ↔ x ∈ D ∧ x % 2 = 0)

theorem blocked_spec (alpha beta : ℕ) :
    IsDeterminant alpha beta (spinBlocked alpha beta).toFinset ∧
    SpinBlocked (spinBlocked alpha beta).toFinset (spinBlocked alpha beta) := by
  have hm : ∀ x, x ∈ (spinBlocked alpha beta).toFinset ↔
      (∃ i, alpha.testBit i = true ∧ x = 2 * i + 1) ∨ (∃ i, beta.testBit i = true ∧ x = 2 * i + 2) := by
    intro x
    rw [List.mem_toFinset]
    show x ∈ occ alpha 1 ++ occ beta 2 ↔ _
    rw [List.mem_append, mem_occ, mem_occ]
  refine ⟨hm, occ alpha 1, occ beta 2, rfl, sorted_occ _ _, sorted_occ _ _, ?_, ?_⟩
  · intro x
    rw [hm, mem_occ]
    constructor
    · rintro ⟨i, hi, rfl⟩; exact ⟨Or.inl ⟨i, hi, rfl⟩, by omega⟩
    · rintro ⟨h | ⟨i, _, rfl⟩, h2⟩
      · exact h
      · omega
  · intro x
    rw [hm, mem_occ]
    constructor
    · rintro ⟨i, hi, rfl⟩; exact ⟨Or.inr ⟨i, hi, rfl⟩, by omega⟩
    · rintro ⟨⟨i, _, rfl⟩ | h, h2⟩
      · omega
      · exact h

/-- **C55**: without frozen orbitals the converter returns the spin-orbitals of the determinant in
ascending order, and the coefficient times the phase between the product of all alpha, then all
beta creation operators and the determinant in alternating order. -/
theorem C55_convert (alpha beta nel : ℕ) (coef : ℚ) (D : Finset ℕ) (us : List ℕ)
    (hD : IsDeterminant alpha beta D) (hus : SpinBlocked D us) (hn : D.card = nel) :
    ∃ (phase : ℤ) (det : List ℕ), excite us [] ∅ = some (phase, D) ∧
      convert 0 nel alpha beta coef = some (coef * phase, det) ∧
      det.Pairwise (· < ·) ∧ det.toFinset = D := by
  obtain ⟨hD', hus'⟩ := blocked_spec alpha beta
  obtain rfl : D = (spinBlocked alpha beta).toFinset := by
    ext x; rw [hD x, hD' x]
  obtain ⟨uA, uB, rfl, p1, p2, p3, p4⟩ := hus
  obtain ⟨vA, vB, hv, q1, q2, q3, q4⟩ := hus'
  obtain rfl : uA = vA := CipsiReader.sorted_unique p1 q1 (fun x => by rw [p3, q3])
  obtain rfl : uB = vB := CipsiReader.sorted_unique p2 q2 (fun x => by rw [p4, q4])
  rw [← hv]
  have hnd := nodup_blocked alpha beta
  obtain ⟨g1, g2⟩ := gather_argsort _ hnd
  have hlen : (spinBlocked alpha beta).length = nel := by
    rw [← hn, List.toFinset_card_of_nodup hnd]
  refine ⟨signOf (spinBlocked alpha beta), _, excite_vacuum _ hnd, ?_, g1, ?_⟩
  · unfold convert
    simp only
    rw [correlated_eq 0 nel _ (by rw [g2.length_eq, hlen]; omega), Phases.parity_argsort _ hnd]
    simp only [Option.map_some, Nat.mul_zero, List.drop_zero, Nat.sub_zero]
    rw [List.take_of_length_le (by rw [g2.length_eq, hlen]), List.map_id']
  · ext x; rw [List.mem_toFinset, List.mem_toFinset, g2.mem_iff]

/-- **C55** (partial: the frozen orbitals must be doubly occupied, see `C55_open_core_fails`, and
the number of electrons must be the one of the system, see `C55_extra_electrons_fails`).
With `nf` frozen orbitals the converter returns the correlated spin-orbitals counted from the first
one that is not frozen, in ascending order, with the phase of the correlated part times a sign that
depends only on `nf` and on the number of correlated alpha electrons. -/
theorem C55_frozen_partial (alpha beta nf nel : ℕ) (coef : ℚ)
    (ha : ∀ i < nf, alpha.testBit i = true) (hb : ∀ i < nf, beta.testBit i = true)
    (D : Finset ℕ) (us : List ℕ) (hD : IsDeterminant (alpha >>> nf) (beta >>> nf) D)
    (hus : SpinBlocked D us) (hn : D.card = nel) :
    ∃ (phase : ℤ) (det : List ℕ), excite us [] ∅ = some (phase, D) ∧
      convert nf nel alpha beta coef =
        some (coef * ((-1) ^ (nf.choose 2 + (D.filter (fun x => x % 2 = 1)).card * nf) * phase), det) ∧
      det.Pairwise (· < ·) ∧ det.toFinset = D := by
  obtain ⟨hD', hus'⟩ := blocked_spec (alpha >>> nf) (beta >>> nf)
  obtain rfl : D = (spinBlocked (alpha >>> nf) (beta >>> nf)).toFinset := by
    ext x; rw [hD x, hD' x]
  obtain ⟨uA, uB, rfl, p1, p2, p3, p4⟩ := hus
  obtain ⟨vA, vB, hv, q1, q2, q3, q4⟩ := hus'
  obtain rfl : uA = vA := CipsiReader.sorted_unique p1 q1 (fun x => by rw [p3, q3])
  obtain rfl : uB = vB := CipsiReader.sorted_unique p2 q2 (fun x => by rw [p4, q4])
  have hA : uA = occ (alpha >>> nf) 1 := by
    refine CipsiReader.sorted_unique p1 (sorted_occ _ _) (fun x => ?_)
    rw [p3, hD' x, mem_occ]
    constructor
    · rintro ⟨h | ⟨i, _, rfl⟩, h2⟩
      · exact h
      · simp only [spinOrbital] at h2; omega
    · rintro ⟨i, hi, rfl⟩; exact ⟨Or.inl ⟨i, hi, rfl⟩, by omega⟩
  have hcard : ((spinBlocked (alpha >>> nf) (beta >>> nf)).toFinset.filter
      (fun x => x % 2 = 1)).card = (occ (alpha >>> nf) 1).length := by
    rw [← hA, ← List.toFinset_card_of_nodup (p1.imp (fun h => ne_of_lt h))]
    congr 1
    ext x
    rw [Finset.mem_filter, List.mem_toFinset (l := uA), p3]
  rw [← hv]
  have hnd := nodup_blocked (alpha >>> nf) (beta >>> nf)
  have hnd0 := nodup_blocked alpha beta
  obtain ⟨g1, g2⟩ := gather_argsort _ hnd0
  -- the sorted list splits into the core and the shifted correlated part
  have hcore : ∀ x, x ∈ spinBlocked alpha beta ↔ (1 ≤ x ∧ x ≤ 2 * nf) ∨
      ∃ y ∈ spinBlocked (alpha >>> nf) (beta >>> nf), x = y + 2 * nf := by
    intro x
    show x ∈ occ alpha 1 ++ occ beta 2 ↔ _ ∨ ∃ y ∈ occ (alpha >>> nf) 1 ++ occ (beta >>> nf) 2, _
    rw [occ_split alpha 1 nf ha, occ_split beta 2 nf hb]
    simp only [List.mem_append, List.mem_map, List.mem_range]
    constructor
    · rintro ((⟨i, hi, rfl⟩ | ⟨y, hy, rfl⟩) | (⟨i, hi, rfl⟩ | ⟨y, hy, rfl⟩))
      · left; omega
      · exact Or.inr ⟨y, Or.inl hy, rfl⟩
      · left; omega
      · exact Or.inr ⟨y, Or.inr hy, rfl⟩
    · rintro (⟨h1, h2⟩ | ⟨y, hy | hy, rfl⟩)
      · rcases Nat.mod_two_eq_zero_or_one x with h0 | h0
        · exact Or.inr (Or.inl ⟨x / 2 - 1, by omega, by omega⟩)
        · exact Or.inl (Or.inl ⟨x / 2, by omega, by omega⟩)
      · exact Or.inl (Or.inr ⟨y, hy, rfl⟩)
      · exact Or.inr (Or.inr ⟨y, hy, rfl⟩)
  obtain ⟨s1, s2⟩ := gather_argsort _ hnd
  set S := (Determinants.argsort (spinBlocked (alpha >>> nf) (beta >>> nf))).map
    (fun i => (spinBlocked (alpha >>> nf) (beta >>> nf)).getD i 0) with hS
  have hpos : ∀ y ∈ S, 1 ≤ y := by
    intro y hy
    have := (s2.mem_iff).mp hy
    rw [← List.mem_toFinset, hD' y] at this
    rcases this with ⟨i, _, rfl⟩ | ⟨i, _, rfl⟩ <;> simp only [spinOrbital] <;> omega
  have hsplit : (Determinants.argsort (spinBlocked alpha beta)).map
      (fun i => (spinBlocked alpha beta).getD i 0) =
      (List.range (2 * nf)).map (· + 1) ++ S.map (· + 2 * nf) := by
    refine CipsiReader.sorted_unique g1 ?_ ?_
    · rw [List.pairwise_append]
      refine ⟨?_, ?_, ?_⟩
      · rw [List.pairwise_map]; exact List.pairwise_lt_range.imp (fun h => by omega)
      · rw [List.pairwise_map]; exact s1.imp (fun h => by omega)
      · intro x hx y hy
        simp only [List.mem_map, List.mem_range] at hx hy
        obtain ⟨i, hi, rfl⟩ := hx
        obtain ⟨z, hz, rfl⟩ := hy
        have := hpos z hz
        omega
    · intro x
      rw [g2.mem_iff, hcore, List.mem_append]
      simp only [List.mem_map, List.mem_range]
      constructor
      · rintro (⟨h1, h2⟩ | ⟨y, hy, rfl⟩)
        · exact Or.inl ⟨x - 1, by omega, by omega⟩
        · exact Or.inr ⟨y, s2.mem_iff.mpr hy, rfl⟩
      · rintro (⟨i, hi, rfl⟩ | ⟨y, hy, rfl⟩)
        · left; omega
        · exact Or.inr ⟨y, s2.mem_iff.mp hy, rfl⟩
  have hlen : S.length = nel := by
    rw [s2.length_eq, ← hn, List.toFinset_card_of_nodup hnd]
  refine ⟨signOf (spinBlocked (alpha >>> nf) (beta >>> nf)), S, excite_vacuum _ hnd, ?_, s1, ?_⟩
  · unfold convert
    simp only
    rw [hsplit, correlated_eq nf nel _ (by simp [hlen]; omega), Phases.parity_argsort _ hnd0]
    rw [List.drop_left' (by simp), List.take_of_length_le (by simp [hlen])]
    rw [List.map_map]
    have e1 : S.map ((· - 2 * nf) ∘ (· + 2 * nf)) = S :=
      (List.map_congr_left (fun x _ => by simp [Function.comp])).trans (List.map_id _)
    have e2 : (signOf (spinBlocked alpha beta) : ℤ) =
        (-1) ^ (nf.choose 2 + (occ (alpha >>> nf) 1).length * nf) *
          signOf (spinBlocked (alpha >>> nf) (beta >>> nf)) := by
      unfold signOf
      rw [inversions_core alpha beta nf ha hb, pow_add]
    rw [e1, e2, hcard]
    simp only [Option.map_some, Int.cast_mul, Int.cast_pow, Int.cast_neg, Int.cast_one]
  · ext x; rw [List.mem_toFinset, List.mem_toFinset, s2.mem_iff]

/-- **C55**, error behaviour: too few electrons are reported. -/
theorem C55_too_few (alpha beta nf nel : ℕ) (coef : ℚ) (D : Finset ℕ)
    (hD : IsDeterminant alpha beta D) (hn : D.card < nel + 2 * nf) (hpos : 0 < nel) :
    convert nf nel alpha beta coef = none := by
  obtain ⟨hD', -⟩ := blocked_spec alpha beta
  obtain rfl : D = (spinBlocked alpha beta).toFinset := by ext x; rw [hD x, hD' x]
  obtain ⟨g1, g2⟩ := gather_argsort _ (nodup_blocked alpha beta)
  unfold convert
  simp only
  rw [correlated_none nf nel _ _ hpos]
  · rfl
  · rw [g2.length_eq]
    rwa [List.toFinset_card_of_nodup (nodup_blocked alpha beta)] at hn

/-! A sample: alpha `10111`, beta `1101` with one frozen orbital. -/

example : convert 0 7 23 13 (1/2) = some (-1/2, [1, 2, 3, 5, 6, 8, 9]) := by decide +kernel

example : convert 1 5 23 13 (1/2) = some (-1/2, [1, 3, 4, 6, 7]) := by decide +kernel

example : ∃ D us, IsDeterminant 23 13 D ∧ SpinBlocked D us ∧ D.card = 7 :=
  ⟨_, _, (blocked_spec 23 13).1, (blocked_spec 23 13).2, by decide +kernel⟩

example : (∀ i < 1, (23 : ℕ).testBit i = true) ∧ (∀ i < 1, (13 : ℕ).testBit i = true) ∧
    ∃ D us, IsDeterminant (23 >>> 1) (13 >>> 1) D ∧ SpinBlocked D us ∧ D.card = 5 :=
  ⟨by decide, by decide, _, _, (blocked_spec _ _).1, (blocked_spec _ _).2, by decide +kernel⟩

example : convert 1 6 23 13 1 = none :=
  C55_too_few 23 13 1 6 1 _ (blocked_spec 23 13).1 (by decide +kernel) (by decide)

/-- **C55 fails** when a frozen orbital is not doubly occupied: the first entries are dropped
whatever they are, and a different determinant is written without an error. -/
theorem C55_open_core_fails : ∃ alpha beta det, convert 1 2 alpha beta 1 = some (1, det) ∧
    ¬ ∀ x, x ∈ det.toFinset ↔ 1 ≤ x ∧ x + 2 ∈ (spinBlocked alpha beta).toFinset :=
  ⟨6, 5, [3, 4], by decide +kernel, fun h => absurd ((h 1).mpr (by decide +kernel)) (by decide)⟩

/-- **C55 fails** when the determinant has more electrons than the system: the highest ones are
dropped without an error. -/
theorem C55_extra_electrons_fails : ∃ alpha beta coef det,
    convert 0 2 alpha beta 1 = some (coef, det) ∧
    det.toFinset ≠ (spinBlocked alpha beta).toFinset :=
  ⟨3, 1, -1, [1, 2], by decide +kernel, by decide +kernel⟩

/-! ## Reading the text -/

/-- The hexadecimal digit of a value below 16, in capitals or not. -/
def hexChar (upper : Bool) (d : ℕ) : Char :=
  (if upper then "0123456789ABCDEF".toList else "0123456789abcdef".toList).getD d '0'

theorem hexDigit_hexChar (u : Bool) (d : ℕ) (h : d < 16) : hexDigit (hexChar u d) = some d := by
  revert d
  cases u <;> decide

theorem isSpace_hexChar (u : Bool) (d : ℕ) (h : d < 16) : isSpace (hexChar u d) = false := by
  revert d
  cases u <;> decide

theorem dropWhile_spaces (sp rest : List Char) (h : ∀ c ∈ sp, isSpace c = true) :
    (sp ++ rest).dropWhile isSpace = rest.dropWhile isSpace := by
  induction sp with
  | nil => rfl
  | cons c sp ih =>
    rw [List.cons_append, List.dropWhile_cons_of_pos (h c (by simp))]
    exact ih (fun x hx => h x (List.mem_cons_of_mem _ hx))

theorem dropWhile_digits (ds rest : List Char) (hne : ds ≠ [])
    (h : ∀ c ∈ ds, isSpace c = false) : (ds ++ rest).dropWhile isSpace = ds ++ rest := by
  match ds, hne with
  | c :: ds, _ =>
    rw [List.cons_append, List.dropWhile_cons_of_neg (by rw [h c (by simp)]; simp)]

/-- **C55**: a hexadecimal number, possibly surrounded by white space, is read as its value. -/
theorem C55_hex (ds : List (Bool × ℕ)) (hne : ds ≠ []) (hd : ∀ d ∈ ds, d.2 < 16)
    (pre post : List Char) (hpre : ∀ c ∈ pre, isSpace c = true)
    (hpost : ∀ c ∈ post, isSpace c = true) :
    parseHex (pre ++ ds.map (fun d => hexChar d.1 d.2) ++ post) =
      some (Nat.ofDigits 16 (ds.map (·.2)).reverse) := by
  have hns : ∀ c ∈ ds.map (fun d => hexChar d.1 d.2), isSpace c = false := by
    intro c hc
    obtain ⟨d, hdm, rfl⟩ := List.mem_map.mp hc
    exact isSpace_hexChar d.1 d.2 (hd d hdm)
  have hne' : ds.map (fun d => hexChar d.1 d.2) ≠ [] := by simpa using hne
  have hstrip : strip (pre ++ ds.map (fun d => hexChar d.1 d.2) ++ post) =
      ds.map (fun d => hexChar d.1 d.2) := by
    unfold strip
    rw [List.append_assoc, dropWhile_spaces pre _ hpre, dropWhile_digits _ _ hne' hns,
      List.reverse_append, dropWhile_spaces post.reverse _ (by simpa using hpost)]
    have := dropWhile_digits (ds.map (fun d => hexChar d.1 d.2)).reverse [] (by simpa using hne)
      (fun c hc => hns c (by simpa using hc))
    rw [List.append_nil] at this
    rw [this, List.reverse_reverse]
  unfold parseHex
  simp only
  rw [hstrip, if_neg hne']
  have key : ∀ (ds : List (Bool × ℕ)) (acc : ℕ), (∀ d ∈ ds, d.2 < 16) →
      (ds.map (fun d => hexChar d.1 d.2)).foldlM
        (fun acc c => (hexDigit c).map (fun d => 16 * acc + d)) acc =
      some (Nat.ofDigits 16 (ds.map (·.2)).reverse + 16 ^ ds.length * acc) := by
    intro ds
    induction ds with
    | nil => intro acc _; simp
    | cons d ds ih =>
      intro acc h
      rw [List.map_cons, List.foldlM_cons, hexDigit_hexChar _ _ (h d (by simp))]
      simp only [Option.map_some, Option.bind_eq_bind, Option.bind_some]
      rw [ih _ (fun x hx => h x (List.mem_cons_of_mem _ hx))]
      rw [List.map_cons, List.reverse_cons, Nat.ofDigits_append]
      simp only [List.length_reverse, List.length_map, Nat.ofDigits_singleton, List.length_cons]
      congr 1
      rw [pow_succ]; ring
  rw [key ds 0 hd]
  simp

example : parseHex "  1F0a\n".toList = some 7946 := by decide +kernel

/-- Five lines printed for one determinant. -/
structure Block where
  head : List Char
  bits : List Char
  l2 : List Char
  l3 : List Char
  coef : List Char

def Block.lines (b : Block) : List (List Char) := [b.head, b.bits, b.l2, b.l3, b.coef]

/-- Only the first line carries the flag. -/
structure Block.Proper (b : Block) : Prop where
  head : flagged b.head = true
  bits : flagged b.bits = false
  l2 : flagged b.l2 = false
  l3 : flagged b.l3 = false
  coef : flagged b.coef = false

theorem scan_unflagged (pf : List Char → Option ℚ) (nf nel n : ℕ) (l : List (List Char))
    (h : ∀ x ∈ l, flagged x = false) : scan pf nf nel n l = .ok [] := by
  induction l with
  | nil => rfl
  | cons x l ih =>
    unfold scan
    split
    · rw [if_neg (by rw [h x (by simp)]; simp)]
      exact ih (fun y hy => h y (List.mem_cons_of_mem _ hy))
    · rfl

/-- **C55**: every record of the file is converted, in order, and numbered from 1; lines between
the records are ignored. -/
theorem C55_records (pf : List Char → Option ℚ) (nf nel : ℕ) (blocks : List Block)
    (hb : ∀ b ∈ blocks, b.Proper) (pre post : List (List Char))
    (hpre : ∀ x ∈ pre, flagged x = false) (hpost : ∀ x ∈ post, flagged x = false)
    (out : Block → ℚ × List ℕ)
    (hout : ∀ b ∈ blocks, record pf nf nel b.bits b.coef = .ok (out b)) :
    processVectors pf nf nel (pre ++ blocks.flatMap Block.lines ++ post) =
      .ok (blocks.mapIdx (fun i b => (i + 1, out b))) := by
  have key : ∀ (blocks : List Block) (n : ℕ), (∀ b ∈ blocks, b.Proper) →
      (∀ b ∈ blocks, record pf nf nel b.bits b.coef = .ok (out b)) →
      scan pf nf nel n (blocks.flatMap Block.lines ++ post) =
        .ok (blocks.mapIdx (fun i b => (n + i + 1, out b))) := by
    intro blocks
    induction blocks with
    | nil => intro n _ _; simpa using scan_unflagged pf nf nel n post hpost
    | cons b blocks ih =>
      intro n h1 h2
      have hp := h1 b (by simp)
      have ih' := ih (n + 1) (fun x hx => h1 x (List.mem_cons_of_mem _ hx))
        (fun x hx => h2 x (List.mem_cons_of_mem _ hx))
      have hcons : (b :: blocks).flatMap Block.lines ++ post =
          b.head :: b.bits :: b.l2 :: b.l3 :: b.coef :: (blocks.flatMap Block.lines ++ post) := rfl
      rw [hcons]
      generalize hR : List.flatMap Block.lines blocks ++ post = R at ih' ⊢
      have skip : ∀ (m : ℕ) (x : List Char) (l : List (List Char)), flagged x = false →
          (∀ q, scan pf nf nel m l = .ok q → l.length < 4 → q = []) →
          (∃ q, scan pf nf nel m l = .ok q) → scan pf nf nel m (x :: l) = scan pf nf nel m l := by
        intro m x l hx hshort ⟨q, hq⟩
        conv_lhs => unfold scan
        split
        · rw [if_neg (by rw [hx]; simp)]
        · rename_i hno
          have : l.length < 4 := by
            by_contra hge
            have e0 : l[0]? = some l[0] := List.getElem?_eq_getElem (by omega)
            have e3 : l[3]? = some l[3] := List.getElem?_eq_getElem (by omega)
            exact hno _ _ e0 e3
          rw [hq, hshort q hq this]
      have short : ∀ (l : List (List Char)) (m : ℕ) (q), scan pf nf nel m l = .ok q →
          l.length < 4 → q = [] := by
        intro l m q hq hl
        match l with
        | [] => injection hq with h; exact h.symm
        | y :: l =>
          unfold scan at hq
          rw [List.getElem?_eq_none (i := 3) (by simp at hl; omega)] at hq
          split at hq
          · rename_i h1 h2; cases h2
          · injection hq with h; exact h.symm
      have s4 : scan pf nf nel (n + 1) (b.coef :: R) = .ok (blocks.mapIdx fun i b => (n + 1 + i + 1, out b)) := by
        rw [skip _ _ _ hp.coef (fun q h h' => short _ _ q h h') ⟨_, ih'⟩]; exact ih'
      have s3 : scan pf nf nel (n + 1) (b.l3 :: b.coef :: R) = .ok (blocks.mapIdx fun i b => (n + 1 + i + 1, out b)) := by
        rw [skip _ _ _ hp.l3 (fun q h h' => short _ _ q h h') ⟨_, s4⟩]; exact s4
      have s2 : scan pf nf nel (n + 1) (b.l2 :: b.l3 :: b.coef :: R) = .ok (blocks.mapIdx fun i b => (n + 1 + i + 1, out b)) := by
        rw [skip _ _ _ hp.l2 (fun q h h' => short _ _ q h h') ⟨_, s3⟩]; exact s3
      have s1 : scan pf nf nel (n + 1) (b.bits :: b.l2 :: b.l3 :: b.coef :: R) = .ok (blocks.mapIdx fun i b => (n + 1 + i + 1, out b)) := by
        rw [skip _ _ _ hp.bits (fun q h h' => short _ _ q h h') ⟨_, s2⟩]; exact s2
      unfold scan
      simp only [List.getElem?_cons_zero, List.getElem?_cons_succ]
      rw [if_pos hp.head, h2 b (by simp)]
      simp only
      rw [s1]
      simp only [List.mapIdx_cons]
      congr 2
      apply congrArg (fun f => List.mapIdx f blocks)
      funext i c
      congr 1
      omega
  have kpre : ∀ (pre : List (List Char)) , (∀ x ∈ pre, flagged x = false) →
      scan pf nf nel 0 (pre ++ (blocks.flatMap Block.lines ++ post)) =
        .ok (blocks.mapIdx (fun i b => (0 + i + 1, out b))) := by
    intro pre
    induction pre with
    | nil => intro _; exact key blocks 0 hb hout
    | cons x pre ih =>
      intro h
      have ih' := ih (fun y hy => h y (List.mem_cons_of_mem _ hy))
      rw [List.cons_append]
      unfold scan
      split
      · rw [if_neg (by rw [h x (by simp)]; simp)]; exact ih'
      · rename_i hno
        have hl : (pre ++ (blocks.flatMap Block.lines ++ post)).length < 4 := by
          by_contra hge
          exact hno _ _ (List.getElem?_eq_getElem (by omega)) (List.getElem?_eq_getElem (by omega))
        match blocks, hl with
        | [], _ => rfl
        | b :: bs, hl =>
          exfalso
          simp [Block.lines] at hl
          omega
  unfold processVectors
  rw [List.append_assoc, kpre pre hpre]
  simp

/-- A sample record. -/
def sampleBlock : Block :=
  ⟨" Determinant   1".toList, "0017|000D\n".toList, "".toList, "Coef".toList, " half ".toList⟩

example : sampleBlock.Proper := by constructor <;> decide +kernel

example : record (fun w => if w = "half".toList then some (1 / 2) else none) 1 5
    sampleBlock.bits sampleBlock.coef = .ok (-1 / 2, [1, 3, 4, 6, 7]) := by decide +kernel

end Ccpy.Qp2
