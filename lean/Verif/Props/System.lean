import Verif.Model.System
import Verif.Spec.PointGroups
import Verif.Lemmas.System
import Mathlib.Algebra.Ring.Nat

/-! C06 (electron and orbital counts), C07 (active spaces), C08 (irrep tables),
C09 (reference symmetry). -/

namespace Ccpy.System
open Ccpy.Spec

/-- Input a user calls consistent: spin and electron number fit together, and the correlated
orbitals can hold the correlated electrons. -/
structure ValidInput (nelectrons norbitals multiplicity nfrozen ndelete : ℤ) : Prop where
  frozen : 0 ≤ nfrozen
  mult : 1 ≤ multiplicity
  parity : (nelectrons + multiplicity) % 2 = 1
  enough : multiplicity - 1 ≤ nelectrons - 2 * nfrozen
  room : nelectrons - 2 * nfrozen + (multiplicity - 1) ≤ 2 * (norbitals - nfrozen - ndelete)

/-- C06: alpha and beta electrons add up to the correlated electrons, differ by multiplicity - 1,
and occupied plus unoccupied orbitals give the correlated orbitals, all nonnegative. -/
theorem C06_counts (ne norb mult nf nd : ℤ) (h : ValidInput ne norb mult nf nd) :
    let c := counts ne norb mult nf nd
    c.noa + c.nob = ne - 2 * nf ∧ c.noa - c.nob = mult - 1 ∧
    c.noa + c.nua = norb - nf - nd ∧ c.nob + c.nub = norb - nf - nd ∧
    0 ≤ c.nob ∧ c.nob ≤ c.noa ∧ 0 ≤ c.nua ∧ c.nua ≤ c.nub := by
  obtain ⟨h1, h2, h3, h4, h5⟩ := h
  have e1 : halfInt (ne - 2 * nf + mult - 1) * 2 = ne - 2 * nf + mult - 1 :=
    halfInt_exact _ (by omega)
  have e2 : halfInt (ne - 2 * nf - mult + 1) * 2 = ne - 2 * nf - mult + 1 :=
    halfInt_exact _ (by omega)
  simp only [counts]
  omega

example : ValidInput 11 20 2 1 0 := ⟨by decide, by decide, by decide, by decide, by decide⟩

/-- C06: the default occupation vector passes the length assertion and holds all electrons. -/
theorem C06_default_occupation (ne norb mult nf nd : ℤ) (h : ValidInput ne norb mult nf nd) :
    let c := counts ne norb mult nf nd
    ((defaultOccupation c nf).length : ℤ) = c.norbitals + nf ∧
    ((defaultOccupation c nf).sum : ℤ) = ne := by
  have hc := C06_counts ne norb mult nf nd h
  have hf := h.frozen
  simp only at hc ⊢
  have hn : (counts ne norb mult nf nd).norbitals = norb - nf - nd := rfl
  have hnua : (counts ne norb mult nf nd).nua =
      (counts ne norb mult nf nd).norbitals - (counts ne norb mult nf nd).noa := rfl
  simp only [defaultOccupation, List.length_append, List.length_replicate, List.sum_append,
    List.sum_replicate]
  constructor
  · push_cast
    omega
  · simp only [nsmul_eq_mul]
    push_cast
    omega

/-- C06: inconsistent input (an odd number of electrons in a singlet) is not rejected; the counts
silently lose an electron. -/
theorem C06_inconsistent_input_accepted :
    let c := counts 3 5 1 0 0
    c.noa + c.nob ≠ c.nelectrons := by decide

/-- C07: both alpha spaces and the beta occupied space are partitioned by the active space, for
every nonnegative request; the beta unoccupied space is partitioned for singlets.
Partial: for open shells the beta virtual count is wrong, see `C07_beta_virtual_fails`. -/
theorem C07_active_partition_partial (ne norb mult nf nd nao nau : ℤ)
    (h : ValidInput ne norb mult nf nd) (ho : 0 ≤ nao) (hu : 0 ≤ nau) :
    let c := counts ne norb mult nf nd
    let a := setActiveSpace c mult nao nau
    (a.coreA + a.actOccA = c.noa ∧ a.coreB + a.actOccB = c.nob ∧ a.actUnoccA + a.virtA = c.nua ∧
      0 ≤ a.coreA ∧ 0 ≤ a.actOccA ∧ 0 ≤ a.coreB ∧ 0 ≤ a.actOccB ∧ 0 ≤ a.actUnoccA ∧ 0 ≤ a.virtA ∧
      0 ≤ a.actUnoccB ∧ a.actUnoccB ≤ c.nub) ∧
    (a.actOccA = min c.noa (mult - 1 + nao) ∧ a.actOccB = min c.nob nao ∧
      a.actUnoccA = min c.nua nau ∧ a.actUnoccB = min c.nub (mult - 1 + nau)) ∧
    (mult = 1 → a.actUnoccB + a.virtB = c.nub) := by
  have hc := C06_counts ne norb mult nf nd h
  have hm := h.mult
  simp only at hc ⊢
  simp only [setActiveSpace]
  refine ⟨?_, ⟨trivial, trivial, trivial, trivial⟩, ?_⟩ <;> omega

/-- C07, the disagreement: for a doublet the beta virtual space comes out one orbital short. -/
theorem C07_beta_virtual_fails :
    ¬ (∀ ne norb mult nf nd nao nau : ℤ, ValidInput ne norb mult nf nd → 0 ≤ nao → 0 ≤ nau →
      let c := counts ne norb mult nf nd
      let a := setActiveSpace c mult nao nau
      a.actUnoccB + a.virtB = c.nub) := by
  intro h
  have := h 3 5 2 0 0 1 1 ⟨by decide, by decide, by decide, by decide, by decide⟩ (by decide) (by decide)
  revert this
  decide

/-- C07, how far off: whenever the active space leaves beta virtuals over, exactly
`multiplicity - 1` of them are missing (as long as the difference is not clipped at zero). -/
theorem C07_beta_virtual_error (ne norb mult nf nd nao nau : ℤ)
    (h : ValidInput ne norb mult nf nd)
    (hroom : nau + 2 * (mult - 1) ≤ (counts ne norb mult nf nd).nub) :
    let c := counts ne norb mult nf nd
    let a := setActiveSpace c mult nao nau
    a.actUnoccB + a.virtB = c.nub - (mult - 1) := by
  have hc := C06_counts ne norb mult nf nd h
  have hm := h.mult
  simp only at hc ⊢
  simp only [setActiveSpace]
  omega

example : ValidInput 3 5 2 0 0 ∧ (1 : ℤ) + 2 * (2 - 1) ≤ (counts 3 5 2 0 0).nub :=
  ⟨⟨by decide, by decide, by decide, by decide, by decide⟩, by decide⟩

/-- C07: the full active space leaves no core and no virtual orbitals. -/
theorem C07_full_active (ne norb mult nf nd : ℤ) (h : ValidInput ne norb mult nf nd) :
    let c := counts ne norb mult nf nd
    let a := setFullActiveSpace c mult
    a.coreA = 0 ∧ a.coreB = 0 ∧ a.virtA = 0 ∧ a.virtB = 0 ∧
    a.actOccA = c.noa ∧ a.actOccB = c.nob ∧ a.actUnoccA = c.nua ∧ a.actUnoccB = c.nub := by
  have hc := C06_counts ne norb mult nf nd h
  have hm := h.mult
  simp only at hc ⊢
  simp only [setFullActiveSpace, setActiveSpace]
  omega

/-- C08: every table of irrep numbers is a bijection between the labels with known characters and
`0..2^k-1`, number 0 is totally symmetric, and the XOR of two numbers is the number of the direct
product (the irrep whose characters are the products). -/
theorem C08_irrep_xor (pg : String) (table : List (String × ℕ)) (h : getPgIrreps pg = some table) :
    ∃ chars, characters.lookup pg = some chars ∧
      (∃ k, (table.map Prod.snd) = List.range (2 ^ k)) ∧
      (table.map Prod.fst).Nodup ∧
      (table.map Prod.fst).Perm (chars.map Prod.fst) ∧
      (∀ s ch, (s, 0) ∈ table → chars.lookup s = some ch → ∀ x ∈ ch, x = 1) ∧
      (∀ s m t n, (s, m) ∈ table → (t, n) ∈ table →
        ∃ u cs ct, (u, m ^^^ n) ∈ table ∧ chars.lookup s = some cs ∧ chars.lookup t = some ct ∧
          chars.lookup u = some (charMul cs ct)) := by
  obtain ⟨chars, h1, h2⟩ := tables_ok pg table h
  refine ⟨chars, h1, ?_⟩
  obtain ⟨k, hk⟩ := h2.1
  refine ⟨⟨k, hk⟩, h2.2.1, h2.2.2.1, ?_, ?_⟩
  · intro s ch hs hch
    exact h2.2.2.2.1 (s, 0) hs rfl ch hch
  · intro s m t n hs ht
    obtain ⟨p, hp, cs, hcs, ct, hct, h5, h6⟩ := h2.2.2.2.2 (s, m) hs (t, n) ht
    exact ⟨p.1, cs, ct, by rw [← h5]; exact hp, hcs, hct, h6⟩

example : ∃ table, getPgIrreps "D2H" = some table := ⟨_, rfl⟩

/-- C08: the explicit multiplication table exists for the same groups and is the XOR table. -/
theorem C08_sym_table (pg : String) :
    ((getPgIrreps pg).isSome ↔ (symTable pg).isSome) ∧
    ∀ table tab, getPgIrreps pg = some table → symTable pg = some tab →
      tab = (List.range table.length).map (fun i => (List.range table.length).map (fun j => i ^^^ j)) := by
  constructor
  · exact tables_same pg
  · exact symTable_xor pg

example : ∃ t, symTable "C2V" = some t := ⟨_, rfl⟩

/-- C09: with the default occupation, the reference irrep is the product of the irreps of the
singly occupied orbitals: all doubly occupied (frozen or not) orbitals cancel.  The labels of the
orbitals must be labels of the group. -/
theorem C09_reference_symmetry (pg : String) (table : List (String × ℕ)) (syms : List String)
    (c : Counts) (nf : ℕ) (hpg : getPgIrreps pg = some table)
    (hb : 0 ≤ c.nob) (hab : c.nob ≤ c.noa)
    (hlen : nf + c.noa.toNat ≤ syms.length)
    (hlab : ∀ s ∈ syms, ∃ n, (s, n) ∈ table) :
    ∃ (irreps : List ℕ) (label : String),
      irreps = (((syms.take (nf + c.noa.toNat)).drop (nf + c.nob.toNat)).filterMap
        (fun s => table.lookup s)) ∧
      irreps.length = (c.noa - c.nob).toNat ∧
      referenceSymmetry table syms (defaultOccupation c nf) nf c.noa.toNat = some label ∧
      (label, irreps.foldl (· ^^^ ·) 0) ∈ table :=
  reference_symmetry_aux pg table syms c nf hpg hb hab hlen hlab

/-- C09: closed shells are totally symmetric. -/
theorem C09_closed_shell (pg : String) (table : List (String × ℕ)) (syms : List String)
    (c : Counts) (nf : ℕ) (hpg : getPgIrreps pg = some table)
    (hb : 0 ≤ c.nob) (hab : c.nob = c.noa)
    (hlen : nf + c.noa.toNat ≤ syms.length)
    (hlab : ∀ s ∈ syms, ∃ n, (s, n) ∈ table) :
    ∃ label, referenceSymmetry table syms (defaultOccupation c nf) nf c.noa.toNat = some label ∧
      (label, 0) ∈ table := by
  obtain ⟨irreps, label, _, h2, h3, h4⟩ :=
    C09_reference_symmetry pg table syms c nf hpg hb (by omega) hlen hlab
  have : irreps = [] := by
    rw [← List.length_eq_zero_iff, h2]; omega
  subst this
  exact ⟨label, h3, by simpa using h4⟩

example : ∃ table, getPgIrreps "C2V" = some table ∧
    (∀ s ∈ ["A1", "B2", "B1", "A1", "A2"], ∃ n, (s, n) ∈ table) ∧
    1 + (counts 7 5 2 1 0).noa.toNat ≤ ["A1", "B2", "B1", "A1", "A2"].length ∧
    referenceSymmetry table ["A1", "B2", "B1", "A1", "A2"]
      (defaultOccupation (counts 7 5 2 1 0) 1) 1 3 = some "A1" := by
  refine ⟨_, rfl, ?_, by decide, by decide +kernel⟩
  intro s hs
  fin_cases hs <;> simp

/-- C09, unrestricted references: with one electron in each of the lowest alpha and beta spin
orbitals (`nf` frozen, `nv` empty), the reference irrep is the product of the irreps of all occupied
alpha and all occupied beta spin orbitals. -/
theorem C09_reference_symmetry_uhf (pg : String) (table : List (String × ℕ))
    (symsA symsB : List String) (noa nob nv nf : ℕ) (hpg : getPgIrreps pg = some table)
    (hab : nob ≤ noa) (hlenA : nf + noa ≤ symsA.length) (hlenB : nf + noa ≤ symsB.length)
    (hlabA : ∀ s ∈ symsA, ∃ n, (s, n) ∈ table) (hlabB : ∀ s ∈ symsB, ∃ n, (s, n) ∈ table) :
    ∃ (label : String),
      referenceSymmetryUHF table symsA symsB
        (List.replicate (nf + noa) 1 ++ List.replicate nv 0)
        (List.replicate (nf + nob) 1 ++ List.replicate (noa - nob + nv) 0) nf noa = some label ∧
      (label, (((symsA.take (nf + noa)).filterMap (fun s => table.lookup s)).foldl (· ^^^ ·) 0 ^^^
        ((symsB.take (nf + nob)).filterMap (fun s => table.lookup s)).foldl (· ^^^ ·) 0)) ∈ table :=
  reference_symmetry_uhf_aux pg table symsA symsB noa nob nv nf hpg hab hlenA hlenB hlabA hlabB

example : ∃ table, getPgIrreps "C2V" = some table ∧
    (∀ s ∈ ["A1", "B2", "A2"], ∃ n, (s, n) ∈ table) ∧
    referenceSymmetryUHF table ["A1", "B2", "A2"] ["A1", "A2", "B2"] [1, 1, 0] [1, 0, 0] 1 1 = some "B2" := by
  refine ⟨_, rfl, ?_, by decide +kernel⟩
  intro s hs
  fin_cases hs <;> simp

/-- C09: the default orbital labels `"A"` only exist in C1, C2 and D2; for every other group a
system with at least one electron cannot be built without explicit labels. -/
theorem C09_default_labels_fail (pg : String) (table : List (String × ℕ)) (norb nf noa : ℕ)
    (occ : List ℕ) (hpg : getPgIrreps pg = some table)
    (hno : pg ∉ ["C1", "C2", "D2"]) (hpos : 0 < nf + noa) (hocc : ∃ n, occ[0]? = some (n + 1)) :
    referenceSymmetry table (defaultSymmetries norb) occ nf noa = none := by
  have hA : table.lookup "A" = none := noA pg table hpg hno
  obtain ⟨n, hn⟩ := hocc
  unfold referenceSymmetry
  obtain ⟨m, hm⟩ : ∃ m, nf + noa = m + 1 := ⟨nf + noa - 1, by omega⟩
  have hor : orbitalIrrep table (defaultSymmetries norb) 0 = none := by
    unfold orbitalIrrep defaultSymmetries
    rcases Nat.eq_zero_or_pos norb with h | h
    · simp [h]
    · simp [h, hA]
  rw [hm, List.range_succ_eq_map]
  simp [xorOrbitals, hn, hor, xorTimes]

example : "CS" ∉ ["C1", "C2", "D2"] ∧ ∃ table, getPgIrreps "CS" = some table :=
  ⟨by decide, _, rfl⟩

end Ccpy.System
