import Verif.Model.System
import Verif.Spec.PointGroups
import Mathlib.Tactic.FinCases
import Mathlib.Algebra.BigOperators.Group.List.Basic
import Mathlib.Tactic.Push

namespace Ccpy.System
open Ccpy.Spec

theorem halfInt_exact (x : ℤ) (h : x % 2 = 0) : halfInt x * 2 = x := by
  unfold halfInt
  rw [Int.mul_comm, Int.mul_tdiv_cancel']
  exact Int.dvd_of_emod_eq_zero h

theorem lookup_mem {α β : Type*} [BEq α] [LawfulBEq α] {l : List (α × β)} {a : α} {b : β}
    (h : l.lookup a = some b) : (a, b) ∈ l := by
  induction l with
  | nil => simp at h
  | cons p l ih =>
    obtain ⟨x, y⟩ := p
    rw [List.lookup_cons] at h
    split at h
    · rename_i he
      have : a = x := by simpa using he
      simp_all
    · exact List.mem_cons_of_mem _ (ih h)

def pgList : List (String × List (String × ℕ)) :=
  [("C1", [("A", 0)]),
   ("C2", [("A", 0), ("B", 1)]),
   ("CI", [("AG", 0), ("AU", 1)]),
   ("CS", [("A'", 0), ("A\"", 1)]),
   ("C2V", [("A1", 0), ("A2", 1), ("B1", 2), ("B2", 3)]),
   ("C2H", [("AG", 0), ("BG", 1), ("BU", 2), ("AU", 3)]),
   ("D2", [("A", 0), ("B1", 1), ("B2", 2), ("B3", 3)]),
   ("D2H", [("AG", 0), ("B1G", 1), ("B2G", 2), ("B3G", 3), ("AU", 4), ("B1U", 5), ("B2U", 6),
     ("B3U", 7)])]

/-- the checks on one table, in decidable form -/
def TableOk (table : List (String × ℕ)) (chars : List (String × List ℤ)) : Prop :=
  (∃ k, (table.map Prod.snd) = List.range (2 ^ k)) ∧
  (table.map Prod.fst).Nodup ∧
  (table.map Prod.fst).Perm (chars.map Prod.fst) ∧
  (∀ p ∈ table, p.2 = 0 → ∀ ch, chars.lookup p.1 = some ch → ∀ x ∈ ch, x = 1) ∧
  (∀ p ∈ table, ∀ q ∈ table, ∃ r ∈ table, ∃ cs, chars.lookup p.1 = some cs ∧
    ∃ ct, chars.lookup q.1 = some ct ∧ r.2 = p.2 ^^^ q.2 ∧ chars.lookup r.1 = some (charMul cs ct))

def tableOkB (table : List (String × ℕ)) (chars : List (String × List ℤ)) : Bool :=
  decide ((table.map Prod.snd) = List.range (2 ^ 0) ∨ (table.map Prod.snd) = List.range (2 ^ 1) ∨
    (table.map Prod.snd) = List.range (2 ^ 2) ∨ (table.map Prod.snd) = List.range (2 ^ 3)) &&
  decide ((table.map Prod.fst).Nodup) &&
  decide ((table.map Prod.fst).Perm (chars.map Prod.fst)) &&
  table.all (fun p => p.2 != 0 || (chars.lookup p.1).all (fun ch => ch.all (· == 1))) &&
  table.all (fun p => table.all (fun q => table.any (fun r =>
    match chars.lookup p.1, chars.lookup q.1 with
    | some cs, some ct => (r.2 == p.2 ^^^ q.2) && (chars.lookup r.1 == some (charMul cs ct))
    | _, _ => false)))

theorem tableOk_of_B {table : List (String × ℕ)} {chars : List (String × List ℤ)}
    (h : tableOkB table chars = true) : TableOk table chars := by
  unfold tableOkB at h
  simp only [Bool.and_eq_true, decide_eq_true_eq] at h
  obtain ⟨⟨⟨⟨h1, h2⟩, h3⟩, h4⟩, h5⟩ := h
  refine ⟨?_, h2, h3, ?_, ?_⟩
  · rcases h1 with h | h | h | h
    · exact ⟨_, h⟩
    · exact ⟨_, h⟩
    · exact ⟨_, h⟩
    · exact ⟨_, h⟩
  · intro p hp hp0 ch hch x hx
    have := (List.all_eq_true.mp h4) p hp
    rw [hp0, hch] at this
    simp only [bne_self_eq_false, Bool.false_or, Option.all_some] at this
    simpa using (List.all_eq_true.mp this) x hx
  · intro p hp q hq
    have h6 := (List.all_eq_true.mp ((List.all_eq_true.mp h5) p hp)) q hq
    obtain ⟨r, hr, h7⟩ := List.any_eq_true.mp h6
    refine ⟨r, hr, ?_⟩
    split at h7
    · rename_i cs ct e1 e2
      rw [Bool.and_eq_true] at h7
      exact ⟨cs, e1, ct, e2, by simpa using h7.1, by simpa using h7.2⟩
    · exact absurd h7 (by simp)

theorem tables_ok (pg : String) (table : List (String × ℕ)) (h : getPgIrreps pg = some table) :
    ∃ chars, characters.lookup pg = some chars ∧ TableOk table chars := by
  have hm : (pg, table) ∈ pgList := lookup_mem h
  have all : ∀ p ∈ pgList, (characters.lookup p.1).any (fun ch => tableOkB p.2 ch) = true := by
    decide +kernel
  have := all _ hm
  rw [Option.any_eq_true] at this
  obtain ⟨chars, h1, h2⟩ := this
  exact ⟨chars, h1, tableOk_of_B h2⟩

def tabList : List (String × List (List ℕ)) :=
  [("C1", [[0]]),
   ("C2", [[0, 1], [1, 0]]),
   ("CS", [[0, 1], [1, 0]]),
   ("CI", [[0, 1], [1, 0]]),
   ("C2V", [[0, 1, 2, 3], [1, 0, 3, 2], [2, 3, 0, 1], [3, 2, 1, 0]]),
   ("C2H", [[0, 1, 2, 3], [1, 0, 3, 2], [2, 3, 0, 1], [3, 2, 1, 0]]),
   ("D2", [[0, 1, 2, 3], [1, 0, 3, 2], [2, 3, 0, 1], [3, 2, 1, 0]]),
   ("D2H", [[0, 1, 2, 3, 4, 5, 6, 7], [1, 0, 3, 2, 5, 4, 7, 6], [2, 3, 0, 1, 6, 7, 4, 5],
     [3, 2, 1, 0, 7, 6, 5, 4], [4, 5, 6, 7, 0, 1, 2, 3], [5, 4, 7, 6, 1, 0, 3, 2],
     [6, 7, 4, 5, 2, 3, 0, 1], [7, 6, 5, 4, 3, 2, 1, 0]])]

theorem tables_same (pg : String) : (getPgIrreps pg).isSome ↔ (symTable pg).isSome := by
  constructor
  · intro h
    obtain ⟨t, ht⟩ := Option.isSome_iff_exists.mp h
    have hm : (pg, t) ∈ pgList := lookup_mem ht
    have all : ∀ p ∈ pgList, (symTable p.1).isSome = true := by decide +kernel
    exact all _ hm
  · intro h
    obtain ⟨t, ht⟩ := Option.isSome_iff_exists.mp h
    have hm : (pg, t) ∈ tabList := lookup_mem ht
    have all : ∀ p ∈ tabList, (getPgIrreps p.1).isSome = true := by decide +kernel
    exact all _ hm

theorem symTable_xor (pg : String) : ∀ table tab, getPgIrreps pg = some table → symTable pg = some tab →
      tab = (List.range table.length).map (fun i => (List.range table.length).map (fun j => i ^^^ j)) := by
  intro table tab h1 h2
  have hm : (pg, table) ∈ pgList := lookup_mem h1
  have all : ∀ p ∈ pgList, symTable p.1 = some
      ((List.range p.2.length).map (fun i => (List.range p.2.length).map (fun j => i ^^^ j))) := by
    decide +kernel
  have := all _ hm
  simp only [h2, Option.some.injEq] at this
  exact this

theorem noA (pg : String) (table : List (String × ℕ)) (hpg : getPgIrreps pg = some table)
    (hno : pg ∉ ["C1", "C2", "D2"]) : table.lookup "A" = none := by
  have hm : (pg, table) ∈ pgList := lookup_mem hpg
  have all : ∀ p ∈ pgList, p.1 ∉ ["C1", "C2", "D2"] → p.2.lookup "A" = none := by decide +kernel
  exact all _ hm hno

/-! ### reference symmetry -/

theorem lookup_of_mem_nodup {l : List (String × ℕ)} (hnd : (l.map Prod.fst).Nodup) {s : String} {n : ℕ}
    (h : (s, n) ∈ l) : l.lookup s = some n := by
  induction l with
  | nil => simp at h
  | cons p l ih =>
    obtain ⟨x, y⟩ := p
    rw [List.map_cons, List.nodup_cons] at hnd
    rw [List.lookup_cons]
    rcases List.mem_cons.mp h with h' | h'
    · simp only [Prod.mk.injEq] at h'
      simp [h'.1, h'.2]
    · have hne : s ≠ x := by
        rintro rfl
        exact hnd.1 (List.mem_map.mpr ⟨(s, n), h', rfl⟩)
      have : (s == x) = false := by simpa using hne
      rw [this]
      exact ih hnd.2 h'

/-- the XOR numbers that occur are numbers of the table -/
theorem xor_closed (pg : String) (table : List (String × ℕ)) (hpg : getPgIrreps pg = some table) :
    (∃ s, (s, 0) ∈ table) ∧
    ∀ m n, (∃ s, (s, m) ∈ table) → (∃ s, (s, n) ∈ table) → ∃ s, (s, m ^^^ n) ∈ table := by
  obtain ⟨chars, _, ⟨k, hk⟩, _, _, _, h5⟩ := tables_ok pg table hpg
  constructor
  · have : 0 ∈ table.map Prod.snd := by rw [hk]; simp [Nat.two_pow_pos]
    obtain ⟨p, hp, h0⟩ := List.mem_map.mp this
    exact ⟨p.1, by rw [← h0]; exact hp⟩
  · rintro m n ⟨s, hs⟩ ⟨t, ht⟩
    obtain ⟨r, hr, _, _, _, _, e, _⟩ := h5 _ hs _ ht
    exact ⟨r.1, by rw [← e]; exact hr⟩

theorem numberToIrrep_ok (table : List (String × ℕ))
    (n : ℕ) (h : ∃ s, (s, n) ∈ table) : ∃ s, numberToIrrep table n = some s ∧ (s, n) ∈ table := by
  obtain ⟨s, hs⟩ := h
  unfold numberToIrrep
  cases hl : (table.map (fun p => (p.2, p.1))).lookup n with
  | none =>
    rw [List.lookup_eq_none_iff] at hl
    have := hl (n, s) (List.mem_map.mpr ⟨_, hs, rfl⟩)
    simp at this
  | some t =>
    have := lookup_mem hl
    obtain ⟨p, hp, e⟩ := List.mem_map.mp this
    simp only [Prod.mk.injEq] at e
    exact ⟨t, rfl, by rw [← e.1, ← e.2]; exact hp⟩

theorem xorOrbitals_append (table : List (String × ℕ)) (syms : List String) (occ : List ℕ)
    (l1 l2 : List ℕ) (s : ℕ) :
    xorOrbitals table syms occ (l1 ++ l2) s =
      (xorOrbitals table syms occ l1 s).bind (fun s' => xorOrbitals table syms occ l2 s') := by
  induction l1 generalizing s with
  | nil => rfl
  | cons i l1 ih =>
    simp only [List.cons_append, xorOrbitals]
    cases occ[i]? with
    | none => rfl
    | some n =>
      simp only [Option.bind_some]
      cases xorTimes (orbitalIrrep table syms i) n s with
      | none => rfl
      | some s' => simp only [Option.bind_some, ih]

theorem xorTimes_two (r s : ℕ) : xorTimes (some r) 2 s = some s := by
  simp [xorTimes, Nat.xor_assoc]

theorem xorOrbitals_double (table : List (String × ℕ)) (syms : List String) (occ : List ℕ)
    (l : List ℕ) (s : ℕ) (hocc : ∀ i ∈ l, occ[i]? = some 2)
    (hir : ∀ i ∈ l, ∃ r, orbitalIrrep table syms i = some r) :
    xorOrbitals table syms occ l s = some s := by
  induction l with
  | nil => rfl
  | cons i l ih =>
    obtain ⟨r, hr⟩ := hir i (by simp)
    simp only [xorOrbitals, hocc i (by simp), Option.bind_some, hr, xorTimes_two]
    exact ih (fun j hj => hocc j (List.mem_cons_of_mem _ hj)) (fun j hj => hir j (List.mem_cons_of_mem _ hj))

theorem xorOrbitals_single (table : List (String × ℕ)) (syms : List String) (occ : List ℕ)
    (l : List ℕ) (s : ℕ) (hocc : ∀ i ∈ l, occ[i]? = some 1)
    (hir : ∀ i ∈ l, ∃ r, orbitalIrrep table syms i = some r) :
    xorOrbitals table syms occ l s =
      some ((l.filterMap (orbitalIrrep table syms)).foldl (· ^^^ ·) s) := by
  induction l generalizing s with
  | nil => rfl
  | cons i l ih =>
    obtain ⟨r, hr⟩ := hir i (by simp)
    simp only [xorOrbitals, hocc i (by simp), Option.bind_some, hr, xorTimes]
    rw [ih _ (fun j hj => hocc j (List.mem_cons_of_mem _ hj)) (fun j hj => hir j (List.mem_cons_of_mem _ hj)),
      List.filterMap_cons_some hr, List.foldl_cons]

theorem filterMap_range (syms : List String) (f : String → Option ℕ) (a n : ℕ)
    (h : a + n ≤ syms.length) :
    (List.range' a n).filterMap (fun i => syms[i]?.bind f) =
      ((syms.take (a + n)).drop a).filterMap f := by
  have : (List.range' a n).filterMap (fun i => syms[i]?.bind f) =
      ((List.range' a n).filterMap (fun i => syms[i]?)).filterMap f := by
    rw [List.filterMap_filterMap]
  rw [this]
  congr 1
  clear this
  induction n generalizing a with
  | zero => simp
  | succ n ih =>
    rw [List.range'_succ, List.filterMap_cons_some (b := syms[a]) (by simp [show a < syms.length by omega])]
    rw [ih (a + 1) (by omega)]
    rw [List.drop_eq_getElem_cons (i := a) (l := syms.take (a + (n + 1)))
      (by rw [List.length_take]; omega)]
    simp only [List.getElem_take]
    congr 2
    congr 1; omega

theorem reference_symmetry_aux (pg : String) (table : List (String × ℕ)) (syms : List String)
    (c : Counts) (nf : ℕ) (hpg : getPgIrreps pg = some table)
    (hb : 0 ≤ c.nob) (hab : c.nob ≤ c.noa)
    (hlen : nf + c.noa.toNat ≤ syms.length)
    (hlab : ∀ s ∈ syms, ∃ n, (s, n) ∈ table) :
    ∃ (irreps : List ℕ) (label : String),
      irreps = (((syms.take (nf + c.noa.toNat)).drop (nf + c.nob.toNat)).filterMap
        (fun s => table.lookup s)) ∧
      irreps.length = (c.noa - c.nob).toNat ∧
      referenceSymmetry table syms (defaultOccupation c nf) nf c.noa.toNat = some label ∧
      (label, irreps.foldl (· ^^^ ·) 0) ∈ table := by
  obtain ⟨chars, _, _, hnd, _, _, _⟩ := tables_ok pg table hpg
  have hlook : ∀ s ∈ syms, ∃ n, table.lookup s = some n ∧ (s, n) ∈ table := by
    intro s hs
    obtain ⟨n, hn⟩ := hlab s hs
    exact ⟨n, lookup_of_mem_nodup hnd hn, hn⟩
  have hir : ∀ i, i < nf + c.noa.toNat → ∃ r, orbitalIrrep table syms i = some r ∧ ∃ s, (s, r) ∈ table := by
    intro i hi
    obtain ⟨n, hn, hm⟩ := hlook syms[i] (List.getElem_mem _)
    refine ⟨n, ?_, _, hm⟩
    unfold orbitalIrrep
    rw [List.getElem?_eq_getElem (by omega)]
    exact hn
  -- occupation numbers
  have hocc : ∀ i, (i < nf + c.nob.toNat → (defaultOccupation c nf)[i]? = some 2) ∧
      (nf + c.nob.toNat ≤ i → i < nf + c.noa.toNat → (defaultOccupation c nf)[i]? = some 1) := by
    intro i
    unfold defaultOccupation
    constructor
    · intro h
      rw [List.append_assoc, List.getElem?_append_left (by simp; omega)]
      simp only [List.getElem?_append, List.getElem?_replicate, List.length_replicate, Int.toNat_natCast]
      split
      · simp
      · rw [if_pos (by omega)]
    · intro h1 h2
      rw [List.getElem?_append_left (by simp; omega), List.getElem?_append_right (by simp; omega)]
      simp only [List.length_append, List.length_replicate, List.getElem?_replicate, Int.toNat_natCast]
      rw [if_pos (by omega)]
  have hsplit : List.range (nf + c.noa.toNat) = List.range (nf + c.nob.toNat) ++
      List.range' (nf + c.nob.toNat) (c.noa - c.nob).toNat := by
    have := List.range'_append_1 (s := 0) (m := nf + c.nob.toNat) (n := (c.noa - c.nob).toNat)
    rw [Nat.zero_add] at this
    rw [List.range_eq_range', List.range_eq_range', this]
    congr 1; omega
  have hx : xorOrbitals table syms (defaultOccupation c nf) (List.range (nf + c.noa.toNat)) 0 =
      some (((List.range' (nf + c.nob.toNat) (c.noa - c.nob).toNat).filterMap
        (orbitalIrrep table syms)).foldl (· ^^^ ·) 0) := by
    rw [hsplit, xorOrbitals_append, xorOrbitals_double]
    · simp only [Option.bind_some]
      rw [xorOrbitals_single]
      · intro i hi
        rw [List.mem_range'_1] at hi
        exact (hocc i).2 hi.1 (by omega)
      · intro i hi
        rw [List.mem_range'_1] at hi
        obtain ⟨r, hr, _⟩ := hir i (by omega)
        exact ⟨r, hr⟩
    · intro i hi
      exact (hocc i).1 (by simpa using hi)
    · intro i hi
      rw [List.mem_range] at hi
      obtain ⟨r, hr, _⟩ := hir i (by omega)
      exact ⟨r, hr⟩
  have hfm : (List.range' (nf + c.nob.toNat) (c.noa - c.nob).toNat).filterMap (orbitalIrrep table syms) =
      (((syms.take (nf + c.noa.toNat)).drop (nf + c.nob.toNat)).filterMap
        (fun s => table.lookup s)) := by
    have := filterMap_range syms (fun s => table.lookup s) (nf + c.nob.toNat) (c.noa - c.nob).toNat (by omega)
    have e : nf + c.nob.toNat + (c.noa - c.nob).toNat = nf + c.noa.toNat := by omega
    rw [e] at this
    exact this
  obtain ⟨hzero, hmul⟩ := xor_closed pg table hpg
  have hfold : ∀ (l : List ℕ) (s : ℕ), (∀ r ∈ l, ∃ t, (t, r) ∈ table) → (∃ t, (t, s) ∈ table) →
      ∃ t, (t, l.foldl (· ^^^ ·) s) ∈ table := by
    intro l
    induction l with
    | nil => intro s _ h; exact h
    | cons r l ih =>
      intro s h1 h2
      rw [List.foldl_cons]
      exact ih _ (fun q hq => h1 q (List.mem_cons_of_mem _ hq)) (hmul _ _ h2 (h1 r (by simp)))
  have hnum := hfold ((List.range' (nf + c.nob.toNat) (c.noa - c.nob).toNat).filterMap
    (orbitalIrrep table syms)) 0 (by
      intro r hr
      obtain ⟨i, hi, e⟩ := List.mem_filterMap.mp hr
      rw [List.mem_range'_1] at hi
      obtain ⟨r', hr', ht⟩ := hir i (by omega)
      rw [e, Option.some.injEq] at hr'
      rw [hr']; exact ht) hzero
  obtain ⟨label, hl1, hl2⟩ := numberToIrrep_ok table _ hnum
  refine ⟨_, label, rfl, ?_, ?_, ?_⟩
  · rw [← hfm]
    have : ∀ l : List ℕ, (∀ i ∈ l, ∃ r, orbitalIrrep table syms i = some r) →
        (l.filterMap (orbitalIrrep table syms)).length = l.length := by
      intro l
      induction l with
      | nil => intro _; rfl
      | cons i l ih =>
        intro h
        obtain ⟨r, hr⟩ := h i (by simp)
        rw [List.filterMap_cons_some hr, List.length_cons, List.length_cons,
          ih (fun j hj => h j (List.mem_cons_of_mem _ hj))]
    rw [this]
    · simp
    · intro i hi
      rw [List.mem_range'_1] at hi
      obtain ⟨r, hr, _⟩ := hir i (by omega)
      exact ⟨r, hr⟩
  · unfold referenceSymmetry
    rw [hx, Option.bind_some]
    exact hl1
  · rw [← hfm]; exact hl2

theorem foldl_xor_acc (l : List ℕ) (a : ℕ) : l.foldl (· ^^^ ·) a = a ^^^ l.foldl (· ^^^ ·) 0 := by
  induction l generalizing a with
  | nil => simp
  | cons b l ih => rw [List.foldl_cons, List.foldl_cons, ih, ih (0 ^^^ b)]; simp [Nat.xor_assoc]

/-- both spins singly occupied, spin by spin -/
theorem xorOrbitalsUHF_both (table : List (String × ℕ)) (symsA symsB : List String)
    (occA occB : List ℕ) (l : List ℕ) (s : ℕ)
    (hA : ∀ i ∈ l, occA[i]? = some 1) (hB : ∀ i ∈ l, occB[i]? = some 1)
    (hirA : ∀ i ∈ l, ∃ r, orbitalIrrep table symsA i = some r)
    (hirB : ∀ i ∈ l, ∃ r, orbitalIrrep table symsB i = some r) :
    xorOrbitalsUHF table symsA symsB occA occB l s =
      some (s ^^^ (l.filterMap (orbitalIrrep table symsA)).foldl (· ^^^ ·) 0 ^^^
        (l.filterMap (orbitalIrrep table symsB)).foldl (· ^^^ ·) 0) := by
  induction l generalizing s with
  | nil => simp [xorOrbitalsUHF]
  | cons i l ih =>
    obtain ⟨r, hr⟩ := hirA i (by simp)
    obtain ⟨q, hq⟩ := hirB i (by simp)
    simp only [xorOrbitalsUHF, hA i (by simp), hB i (by simp), Option.bind_some, hr, hq, xorTimes]
    rw [ih _ (fun j hj => hA j (List.mem_cons_of_mem _ hj)) (fun j hj => hB j (List.mem_cons_of_mem _ hj))
      (fun j hj => hirA j (List.mem_cons_of_mem _ hj)) (fun j hj => hirB j (List.mem_cons_of_mem _ hj)),
      List.filterMap_cons_some hr, List.filterMap_cons_some hq, List.foldl_cons, List.foldl_cons,
      foldl_xor_acc _ (0 ^^^ r), foldl_xor_acc _ (0 ^^^ q)]
    simp only [Nat.zero_xor]
    congr 1
    simp only [Nat.xor_assoc, Nat.xor_left_comm q]

theorem xorOrbitalsUHF_alpha (table : List (String × ℕ)) (symsA symsB : List String)
    (occA occB : List ℕ) (l : List ℕ) (s : ℕ)
    (hA : ∀ i ∈ l, occA[i]? = some 1) (hB : ∀ i ∈ l, occB[i]? = some 0)
    (hirA : ∀ i ∈ l, ∃ r, orbitalIrrep table symsA i = some r) :
    xorOrbitalsUHF table symsA symsB occA occB l s =
      some (s ^^^ (l.filterMap (orbitalIrrep table symsA)).foldl (· ^^^ ·) 0) := by
  induction l generalizing s with
  | nil => simp [xorOrbitalsUHF]
  | cons i l ih =>
    obtain ⟨r, hr⟩ := hirA i (by simp)
    simp only [xorOrbitalsUHF, hA i (by simp), hB i (by simp), Option.bind_some, hr, xorTimes]
    rw [ih _ (fun j hj => hA j (List.mem_cons_of_mem _ hj)) (fun j hj => hB j (List.mem_cons_of_mem _ hj))
      (fun j hj => hirA j (List.mem_cons_of_mem _ hj)),
      List.filterMap_cons_some hr, List.foldl_cons, foldl_xor_acc _ (0 ^^^ r)]
    simp only [Nat.zero_xor, Nat.xor_assoc]

theorem xorOrbitalsUHF_append (table : List (String × ℕ)) (symsA symsB : List String)
    (occA occB : List ℕ) (l1 l2 : List ℕ) (s : ℕ) :
    xorOrbitalsUHF table symsA symsB occA occB (l1 ++ l2) s =
      (xorOrbitalsUHF table symsA symsB occA occB l1 s).bind
        (fun s' => xorOrbitalsUHF table symsA symsB occA occB l2 s') := by
  induction l1 generalizing s with
  | nil => rfl
  | cons i l1 ih =>
    simp only [List.cons_append, xorOrbitalsUHF]
    cases occA[i]? with
    | none => rfl
    | some n =>
      simp only [Option.bind_some]
      cases xorTimes (orbitalIrrep table symsA i) n s with
      | none => rfl
      | some s' =>
        simp only [Option.bind_some]
        cases occB[i]? with
        | none => rfl
        | some m =>
          simp only [Option.bind_some]
          cases xorTimes (orbitalIrrep table symsB i) m s' with
          | none => rfl
          | some s'' => simp only [Option.bind_some, ih]

theorem fold_mem (pg : String) (table : List (String × ℕ)) (hpg : getPgIrreps pg = some table)
    (l : List ℕ) (s : ℕ) (h1 : ∀ r ∈ l, ∃ t, (t, r) ∈ table) (h2 : ∃ t, (t, s) ∈ table) :
      ∃ t, (t, l.foldl (· ^^^ ·) s) ∈ table := by
  obtain ⟨_, hmul⟩ := xor_closed pg table hpg
  induction l generalizing s with
  | nil => exact h2
  | cons r l ih =>
    rw [List.foldl_cons]
    exact ih _ (fun q hq => h1 q (List.mem_cons_of_mem _ hq)) (hmul _ _ h2 (h1 r (by simp)))

theorem reference_symmetry_uhf_aux (pg : String) (table : List (String × ℕ))
    (symsA symsB : List String) (noa nob nv nf : ℕ) (hpg : getPgIrreps pg = some table)
    (hab : nob ≤ noa) (hlenA : nf + noa ≤ symsA.length) (hlenB : nf + noa ≤ symsB.length)
    (hlabA : ∀ s ∈ symsA, ∃ n, (s, n) ∈ table) (hlabB : ∀ s ∈ symsB, ∃ n, (s, n) ∈ table) :
    ∃ (label : String),
      referenceSymmetryUHF table symsA symsB
        (List.replicate (nf + noa) 1 ++ List.replicate nv 0)
        (List.replicate (nf + nob) 1 ++ List.replicate (noa - nob + nv) 0) nf noa = some label ∧
      (label, (((symsA.take (nf + noa)).filterMap (fun s => table.lookup s)).foldl (· ^^^ ·) 0 ^^^
        ((symsB.take (nf + nob)).filterMap (fun s => table.lookup s)).foldl (· ^^^ ·) 0)) ∈ table := by
  obtain ⟨chars, _, _, hnd, _, _, _⟩ := tables_ok pg table hpg
  have hir : ∀ syms : List String, (∀ s ∈ syms, ∃ n, (s, n) ∈ table) → ∀ i, i < syms.length →
      ∃ r, orbitalIrrep table syms i = some r ∧ ∃ s, (s, r) ∈ table := by
    intro syms hlab i hi
    obtain ⟨n, hn⟩ := hlab syms[i] (List.getElem_mem _)
    refine ⟨n, ?_, _, hn⟩
    unfold orbitalIrrep
    rw [List.getElem?_eq_getElem hi]
    exact lookup_of_mem_nodup hnd hn
  set occA := List.replicate (nf + noa) 1 ++ List.replicate nv 0 with hoA
  set occB := List.replicate (nf + nob) 1 ++ List.replicate (noa - nob + nv) 0 with hoB
  have hA : ∀ i, i < nf + noa → occA[i]? = some 1 := by
    intro i hi
    rw [hoA, List.getElem?_append_left (by simpa using hi)]
    simp [hi]
  have hB1 : ∀ i, i < nf + nob → occB[i]? = some 1 := by
    intro i hi
    rw [hoB, List.getElem?_append_left (by simpa using hi)]
    simp [hi]
  have hB0 : ∀ i, nf + nob ≤ i → i < nf + noa → occB[i]? = some 0 := by
    intro i h1 h2
    rw [hoB, List.getElem?_append_right (by simpa using h1)]
    simp only [List.length_replicate, List.getElem?_replicate]
    rw [if_pos (by omega)]
  have hsplit : List.range (nf + noa) = List.range (nf + nob) ++
      List.range' (nf + nob) (noa - nob) := by
    have := List.range'_append_1 (s := 0) (m := nf + nob) (n := noa - nob)
    rw [Nat.zero_add] at this
    rw [List.range_eq_range', List.range_eq_range', this]
    congr 1; omega
  have hfm : ∀ (syms : List String) (n : ℕ), n ≤ syms.length →
      (List.range n).filterMap (orbitalIrrep table syms) =
        (syms.take n).filterMap (fun s => table.lookup s) := by
    intro syms n hn
    have := filterMap_range syms (fun s => table.lookup s) 0 n (by omega)
    rw [List.range_eq_range']
    rw [Nat.zero_add, List.drop_zero] at this
    exact this
  have hx : xorOrbitalsUHF table symsA symsB occA occB (List.range (nf + noa)) 0 =
      some (((symsA.take (nf + noa)).filterMap (fun s => table.lookup s)).foldl (· ^^^ ·) 0 ^^^
        ((symsB.take (nf + nob)).filterMap (fun s => table.lookup s)).foldl (· ^^^ ·) 0) := by
    rw [← hfm symsA _ hlenA, ← hfm symsB _ (by omega), hsplit, xorOrbitalsUHF_append,
      xorOrbitalsUHF_both, Option.bind_some, xorOrbitalsUHF_alpha]
    · rw [List.filterMap_append, List.foldl_append, foldl_xor_acc ((List.range' _ _).filterMap _)
        (List.foldl _ _ _)]
      congr 1
      simp only [Nat.zero_xor]
      rw [Nat.xor_assoc, Nat.xor_assoc]
      congr 1
      rw [Nat.xor_comm]
    · intro i hi
      rw [List.mem_range'_1] at hi
      exact hA i (by omega)
    · intro i hi
      rw [List.mem_range'_1] at hi
      exact hB0 i (by omega) (by omega)
    · intro i hi
      rw [List.mem_range'_1] at hi
      obtain ⟨r, hr, _⟩ := hir symsA hlabA i (by omega)
      exact ⟨r, hr⟩
    · intro i hi
      rw [List.mem_range] at hi
      exact hA i (by omega)
    · intro i hi
      rw [List.mem_range] at hi
      exact hB1 i hi
    · intro i hi
      rw [List.mem_range] at hi
      obtain ⟨r, hr, _⟩ := hir symsA hlabA i (by omega)
      exact ⟨r, hr⟩
    · intro i hi
      rw [List.mem_range] at hi
      obtain ⟨r, hr, _⟩ := hir symsB hlabB i (by omega)
      exact ⟨r, hr⟩
  obtain ⟨hzero, hmul⟩ := xor_closed pg table hpg
  have hin : ∀ syms : List String, ∀ n, (∀ s ∈ syms, ∃ n, (s, n) ∈ table) →
      ∃ t, (t, ((syms.take n).filterMap (fun s => table.lookup s)).foldl (· ^^^ ·) 0) ∈ table := by
    intro syms n hl
    apply fold_mem pg table hpg _ _ _ hzero
    intro r hr
    obtain ⟨s, _, e⟩ := List.mem_filterMap.mp hr
    exact ⟨s, lookup_mem e⟩
  obtain ⟨label, hl1, hl2⟩ := numberToIrrep_ok table _ (hmul _ _ (hin symsA (nf + noa) hlabA) (hin symsB (nf + nob) hlabB))
  exact ⟨label, by unfold referenceSymmetryUHF; rw [hx]; exact hl1, hl2⟩

end Ccpy.System
