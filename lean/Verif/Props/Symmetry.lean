import Verif.Lemmas.Symmetry
import Verif.Props.Excitations

/-! C16: symmetry-resolved excitation counts. -/

namespace Ccpy.Excitations
open Ccpy.Spec
open Finset (Ico)

set_option linter.unusedSimpArgs false

/-- A system whose irrep numbers fit the table of a group with `h` irreps (`h` a power of two, C08)
and whose occupied orbitals are among the correlated ones (C06). -/
structure Fits (s : Sys) (h : ℕ) : Prop where
  order : ∃ m, h = 2 ^ m
  ref : s.ref < h
  irrep : ∀ p, p < s.norb → s.irrep p < h
  occA : s.noa ≤ s.norb
  occB : s.nob ≤ s.norb

/-- How many ordered excitations of the given spins have irrep `t`. -/
noncomputable def number (s : Sys) (pSpins hSpins : List Spin) (t : ℕ) : ℕ :=
  Set.ncard {r | Allowed s (some t) pSpins hSpins (fun _ _ => True) r}

/-- A counting function returned one counter per irrep, each counting the excitations of that irrep
over the listed spin cases, together with the given total. -/
def Counts (s : Sys) (h : ℕ) (cases : List (List Spin × List Spin)) (total : ℕ)
    (result : Option (List ℕ × ℕ)) : Prop :=
  ∃ c, result = some (c, total) ∧ c.length = h ∧ c.sum = total ∧
    ∀ t, t < h → c[t]? = some ((cases.map fun q => number s q.1 q.2 t).sum)

theorem xor_fits {h x y : ℕ} (ho : ∃ m, h = 2 ^ m) (hx : x < h) (hy : y < h) : x ^^^ y < h := by
  obtain ⟨m, rfl⟩ := ho
  exact Nat.xor_lt_two_pow hx hy

theorem counts_of (s : Sys) (h : ℕ) (cases : List (List Spin × List Spin)) (total : ℕ)
    (syms : List ℕ) (hb : ∀ x ∈ syms, x < h) (ht : syms.length = total)
    (hc : ∀ t, syms.count t = (cases.map fun q => number s q.1 q.2 t).sum) :
    Counts s h cases total (counted h syms) := by
  refine ⟨_, by rw [counted_spec h syms hb, ht], by simp, ?_, ?_⟩
  · rw [sum_count h syms hb, ht]
  · intro t hlt
    simp [hlt, hc]

/-- C16: singles. -/
theorem C16_singles (s : Sys) (h : ℕ) (hf : Fits s h) :
    Counts s h [([.α], [.α]), ([.β], [.β])]
      (s.noa * s.nua + s.nob * s.nub) (countSingles s h) := by
  have hA := hf.occA
  have hB := hf.occB
  refine counts_of _ _ _ _ _ ?_ ?_ ?_
  · intro x hx
    simp only [symsSingles, List.mem_append, mem_forRange, List.mem_singleton] at hx
    rcases hx with ⟨i, hi', a, ha', rfl⟩ | ⟨i, hi', a, ha', rfl⟩ <;>
    · repeat' apply xor_fits hf.order
      all_goals first | exact hf.ref | exact hf.irrep _ (by omega)
  · simp only [symsSingles, List.length_append, length_forRange, List.length_singleton]
    simp only [↓sum3c, ↓sum2c, ↓sum1c, Nat.mul_one, Nat.choose_one_right, Nat.sub_zero, Sys.nua,
      Sys.nub]
  · intro t
    simp only [symsSingles, List.count_append, count_forRange, List.count_singleton, List.map_cons,
      List.map_nil, List.sum_cons, List.sum_nil, Nat.add_zero, number,
      ncard_allowed s t [.α] [.α] _ _ (enumerates1 _ .α) (enumerates1 _ .α),
      ncard_allowed s t [.β] [.β] _ _ (enumerates1 _ .β) (enumerates1 _ .β),
      enum1, enum2, enum11, enum3, enum21, enum12, sum_map_forRange, space_occ_a, space_occ_b,
      space_unocc_a, space_unocc_b, sum_shift0 s.nua s.noa s.norb hA rfl,
      sum_shift0 s.nub s.nob s.norb hB rfl, sum_shift1 _ s.nua s.noa s.norb hA rfl,
      sum_shift1 _ s.nub s.nob s.norb hB rfl, ← Nat.add_assoc]
    repeat' apply congrArg₂ (· + ·)
    all_goals
      refine Finset.sum_congr rfl fun i _ => Finset.sum_congr rfl fun a _ => ?_
      simp only [excitationIrrep, List.map_cons, List.map_nil, List.zip_cons_cons,
        List.zip_nil_right, List.cons_append, List.nil_append, List.foldl_cons, List.foldl_nil,
        space_occ_a, space_occ_b, space_irrep, beq_iff_eq]
      congr 2
      change _ = s.ref ^^^ (0 ^^^ _ ^^^ _)
      rw [Nat.zero_xor]
      ac_rfl

/-- C16: doubles. -/
theorem C16_doubles (s : Sys) (h : ℕ) (hf : Fits s h) :
    Counts s h [([.α, .α], [.α, .α]), ([.α, .β], [.α, .β]), ([.β, .β], [.β, .β])]
      (s.noa.choose 2 * s.nua.choose 2 + s.noa * (s.nob * (s.nua * s.nub)) +
        s.nob.choose 2 * s.nub.choose 2) (countDoubles s h) := by
  have hA := hf.occA
  have hB := hf.occB
  refine counts_of _ _ _ _ _ ?_ ?_ ?_
  · intro x hx
    simp only [symsDoubles, List.mem_append, mem_forRange, List.mem_singleton] at hx
    rcases hx with (⟨i, hi', j, hj', a, ha', b, hb', rfl⟩ | ⟨i, hi', j, hj', a, ha', b, hb', rfl⟩) | ⟨i, hi', j, hj', a, ha', b, hb', rfl⟩ <;>
    · repeat' apply xor_fits hf.order
      all_goals first | exact hf.ref | exact hf.irrep _ (by omega)
  · simp only [symsDoubles, List.length_append, length_forRange, List.length_singleton]
    simp only [↓sum3c, ↓sum2c, ↓sum1c, Nat.mul_one, Nat.choose_one_right, Nat.sub_zero, Sys.nua,
      Sys.nub]
  · intro t
    simp only [symsDoubles, List.count_append, count_forRange, List.count_singleton, List.map_cons,
      List.map_nil, List.sum_cons, List.sum_nil, Nat.add_zero, number,
      ncard_allowed s t [.α, .α] [.α, .α] _ _ (enumerates2 _ .α) (enumerates2 _ .α),
      ncard_allowed s t [.α, .β] [.α, .β] _ _ (enumerates11 _) (enumerates11 _),
      ncard_allowed s t [.β, .β] [.β, .β] _ _ (enumerates2 _ .β) (enumerates2 _ .β),
      enum1, enum2, enum11, enum3, enum21, enum12, sum_map_forRange, space_occ_a, space_occ_b,
      space_unocc_a, space_unocc_b, sum_shift0 s.nua s.noa s.norb hA rfl,
      sum_shift0 s.nub s.nob s.norb hB rfl, sum_shift1 _ s.nua s.noa s.norb hA rfl,
      sum_shift1 _ s.nub s.nob s.norb hB rfl, ← Nat.add_assoc]
    repeat' apply congrArg₂ (· + ·)
    all_goals
      refine Finset.sum_congr rfl fun i _ => Finset.sum_congr rfl fun j _ => Finset.sum_congr rfl fun a _ => Finset.sum_congr rfl fun b _ => ?_
      simp only [excitationIrrep, List.map_cons, List.map_nil, List.zip_cons_cons,
        List.zip_nil_right, List.cons_append, List.nil_append, List.foldl_cons, List.foldl_nil,
        space_occ_a, space_occ_b, space_irrep, beq_iff_eq]
      congr 2
      change _ = s.ref ^^^ (0 ^^^ _ ^^^ _ ^^^ _ ^^^ _)
      rw [Nat.zero_xor]
      ac_rfl

/-- C16: triples. -/
theorem C16_triples (s : Sys) (h : ℕ) (hf : Fits s h) :
    Counts s h [([.α, .α, .α], [.α, .α, .α]), ([.α, .α, .β], [.α, .α, .β]), ([.α, .β, .β], [.α, .β, .β]), ([.β, .β, .β], [.β, .β, .β])]
      (s.noa.choose 3 * s.nua.choose 3 + s.noa.choose 2 * (s.nob * (s.nua.choose 2 * s.nub)) +
        s.noa * (s.nob.choose 2 * (s.nua * s.nub.choose 2)) + s.nob.choose 3 * s.nub.choose 3) (countTriples s h) := by
  have hA := hf.occA
  have hB := hf.occB
  refine counts_of _ _ _ _ _ ?_ ?_ ?_
  · intro x hx
    simp only [symsTriples, List.mem_append, mem_forRange, List.mem_singleton] at hx
    rcases hx with ((⟨i, hi', j, hj', k, hk', a, ha', b, hb', c, hc', rfl⟩ | ⟨i, hi', j, hj', k, hk', a, ha', b, hb', c, hc', rfl⟩) | ⟨i, hi', j, hj', k, hk', a, ha', b, hb', c, hc', rfl⟩) | ⟨i, hi', j, hj', k, hk', a, ha', b, hb', c, hc', rfl⟩ <;>
    · repeat' apply xor_fits hf.order
      all_goals first | exact hf.ref | exact hf.irrep _ (by omega)
  · simp only [symsTriples, List.length_append, length_forRange, List.length_singleton]
    simp only [↓sum3c, ↓sum2c, ↓sum1c, Nat.mul_one, Nat.choose_one_right, Nat.sub_zero, Sys.nua,
      Sys.nub]
  · intro t
    simp only [symsTriples, List.count_append, count_forRange, List.count_singleton, List.map_cons,
      List.map_nil, List.sum_cons, List.sum_nil, Nat.add_zero, number,
      ncard_allowed s t [.α, .α, .α] [.α, .α, .α] _ _ (enumerates3 _ .α) (enumerates3 _ .α),
      ncard_allowed s t [.α, .α, .β] [.α, .α, .β] _ _ (enumerates21 _) (enumerates21 _),
      ncard_allowed s t [.α, .β, .β] [.α, .β, .β] _ _ (enumerates12 _) (enumerates12 _),
      ncard_allowed s t [.β, .β, .β] [.β, .β, .β] _ _ (enumerates3 _ .β) (enumerates3 _ .β),
      enum1, enum2, enum11, enum3, enum21, enum12, sum_map_forRange, space_occ_a, space_occ_b,
      space_unocc_a, space_unocc_b, sum_shift0 s.nua s.noa s.norb hA rfl,
      sum_shift0 s.nub s.nob s.norb hB rfl, sum_shift1 _ s.nua s.noa s.norb hA rfl,
      sum_shift1 _ s.nub s.nob s.norb hB rfl, ← Nat.add_assoc]
    repeat' apply congrArg₂ (· + ·)
    all_goals
      refine Finset.sum_congr rfl fun i _ => Finset.sum_congr rfl fun j _ => Finset.sum_congr rfl fun k _ => Finset.sum_congr rfl fun a _ => Finset.sum_congr rfl fun b _ => Finset.sum_congr rfl fun c _ => ?_
      simp only [excitationIrrep, List.map_cons, List.map_nil, List.zip_cons_cons,
        List.zip_nil_right, List.cons_append, List.nil_append, List.foldl_cons, List.foldl_nil,
        space_occ_a, space_occ_b, space_irrep, beq_iff_eq]
      congr 2
      change _ = s.ref ^^^ (0 ^^^ _ ^^^ _ ^^^ _ ^^^ _ ^^^ _ ^^^ _)
      rw [Nat.zero_xor]
      ac_rfl

/-- C16: attachments of one alpha electron. -/
theorem C16_1p (s : Sys) (h : ℕ) (hf : Fits s h) :
    Counts s h [([.α], [])]
      (s.nua) (count1p s h) := by
  have hA := hf.occA
  have hB := hf.occB
  refine counts_of _ _ _ _ _ ?_ ?_ ?_
  · intro x hx
    simp only [syms1p, List.mem_append, mem_forRange, List.mem_singleton] at hx
    obtain ⟨a, ha', rfl⟩ := hx
    · repeat' apply xor_fits hf.order
      all_goals first | exact hf.ref | exact hf.irrep _ (by omega)
  · simp only [syms1p, List.length_append, length_forRange, List.length_singleton]
    simp only [↓sum3c, ↓sum2c, ↓sum1c, Nat.mul_one, Nat.choose_one_right, Nat.sub_zero, Sys.nua,
      Sys.nub]
  · intro t
    simp only [syms1p, List.count_append, count_forRange, List.count_singleton, List.map_cons,
      List.map_nil, List.sum_cons, List.sum_nil, Nat.add_zero, number,
      ncard_allowed s t [.α] [] _ _ (enumerates1 _ .α) (enumerates0 _),
      enum1, enum2, enum11, enum3, enum21, enum12, sum_map_forRange, space_occ_a, space_occ_b,
      space_unocc_a, space_unocc_b, sum_shift0 s.nua s.noa s.norb hA rfl,
      sum_shift0 s.nub s.nob s.norb hB rfl, sum_shift1 _ s.nua s.noa s.norb hA rfl,
      sum_shift1 _ s.nub s.nob s.norb hB rfl, ← Nat.add_assoc]
    all_goals
      refine Finset.sum_congr rfl fun a _ => ?_
      simp only [excitationIrrep, List.map_cons, List.map_nil, List.zip_cons_cons,
        List.zip_nil_right, List.cons_append, List.nil_append, List.foldl_cons, List.foldl_nil,
        space_occ_a, space_occ_b, space_irrep, beq_iff_eq]
      congr 2
      change _ = s.ref ^^^ (0 ^^^ _)
      rw [Nat.zero_xor]
      ac_rfl

/-- C16: 2p1h excitations. -/
theorem C16_2p1h (s : Sys) (h : ℕ) (hf : Fits s h) :
    Counts s h [([.α, .α], [.α]), ([.α, .β], [.β])]
      (s.noa * s.nua.choose 2 + s.nob * (s.nua * s.nub)) (count2p1h s h) := by
  have hA := hf.occA
  have hB := hf.occB
  refine counts_of _ _ _ _ _ ?_ ?_ ?_
  · intro x hx
    simp only [syms2p1h, List.mem_append, mem_forRange, List.mem_singleton] at hx
    rcases hx with ⟨j, hj', a, ha', b, hb', rfl⟩ | ⟨j, hj', a, ha', b, hb', rfl⟩ <;>
    · repeat' apply xor_fits hf.order
      all_goals first | exact hf.ref | exact hf.irrep _ (by omega)
  · simp only [syms2p1h, List.length_append, length_forRange, List.length_singleton]
    simp only [↓sum3c, ↓sum2c, ↓sum1c, Nat.mul_one, Nat.choose_one_right, Nat.sub_zero, Sys.nua,
      Sys.nub]
  · intro t
    simp only [syms2p1h, List.count_append, count_forRange, List.count_singleton, List.map_cons,
      List.map_nil, List.sum_cons, List.sum_nil, Nat.add_zero, number,
      ncard_allowed s t [.α, .α] [.α] _ _ (enumerates2 _ .α) (enumerates1 _ .α),
      ncard_allowed s t [.α, .β] [.β] _ _ (enumerates11 _) (enumerates1 _ .β),
      enum1, enum2, enum11, enum3, enum21, enum12, sum_map_forRange, space_occ_a, space_occ_b,
      space_unocc_a, space_unocc_b, sum_shift0 s.nua s.noa s.norb hA rfl,
      sum_shift0 s.nub s.nob s.norb hB rfl, sum_shift1 _ s.nua s.noa s.norb hA rfl,
      sum_shift1 _ s.nub s.nob s.norb hB rfl, ← Nat.add_assoc]
    repeat' apply congrArg₂ (· + ·)
    all_goals
      refine Finset.sum_congr rfl fun j _ => Finset.sum_congr rfl fun a _ => Finset.sum_congr rfl fun b _ => ?_
      simp only [excitationIrrep, List.map_cons, List.map_nil, List.zip_cons_cons,
        List.zip_nil_right, List.cons_append, List.nil_append, List.foldl_cons, List.foldl_nil,
        space_occ_a, space_occ_b, space_irrep, beq_iff_eq]
      congr 2
      change _ = s.ref ^^^ (0 ^^^ _ ^^^ _ ^^^ _)
      rw [Nat.zero_xor]
      ac_rfl

/-- C16: 3p2h excitations. -/
theorem C16_3p2h (s : Sys) (h : ℕ) (hf : Fits s h) :
    Counts s h [([.α, .α, .α], [.α, .α]), ([.α, .α, .β], [.α, .β]), ([.α, .β, .β], [.β, .β])]
      (s.noa.choose 2 * s.nua.choose 3 + s.noa * (s.nob * (s.nua.choose 2 * s.nub)) +
        s.nob.choose 2 * (s.nua * s.nub.choose 2)) (count3p2h s h) := by
  have hA := hf.occA
  have hB := hf.occB
  refine counts_of _ _ _ _ _ ?_ ?_ ?_
  · intro x hx
    simp only [syms3p2h, List.mem_append, mem_forRange, List.mem_singleton] at hx
    rcases hx with (⟨j, hj', k, hk', a, ha', b, hb', c, hc', rfl⟩ | ⟨j, hj', k, hk', a, ha', b, hb', c, hc', rfl⟩) | ⟨j, hj', k, hk', a, ha', b, hb', c, hc', rfl⟩ <;>
    · repeat' apply xor_fits hf.order
      all_goals first | exact hf.ref | exact hf.irrep _ (by omega)
  · simp only [syms3p2h, List.length_append, length_forRange, List.length_singleton]
    simp only [↓sum3c, ↓sum2c, ↓sum1c, Nat.mul_one, Nat.choose_one_right, Nat.sub_zero, Sys.nua,
      Sys.nub]
  · intro t
    simp only [syms3p2h, List.count_append, count_forRange, List.count_singleton, List.map_cons,
      List.map_nil, List.sum_cons, List.sum_nil, Nat.add_zero, number,
      ncard_allowed s t [.α, .α, .α] [.α, .α] _ _ (enumerates3 _ .α) (enumerates2 _ .α),
      ncard_allowed s t [.α, .α, .β] [.α, .β] _ _ (enumerates21 _) (enumerates11 _),
      ncard_allowed s t [.α, .β, .β] [.β, .β] _ _ (enumerates12 _) (enumerates2 _ .β),
      enum1, enum2, enum11, enum3, enum21, enum12, sum_map_forRange, space_occ_a, space_occ_b,
      space_unocc_a, space_unocc_b, sum_shift0 s.nua s.noa s.norb hA rfl,
      sum_shift0 s.nub s.nob s.norb hB rfl, sum_shift1 _ s.nua s.noa s.norb hA rfl,
      sum_shift1 _ s.nub s.nob s.norb hB rfl, ← Nat.add_assoc]
    repeat' apply congrArg₂ (· + ·)
    all_goals
      refine Finset.sum_congr rfl fun j _ => Finset.sum_congr rfl fun k _ => Finset.sum_congr rfl fun a _ => Finset.sum_congr rfl fun b _ => Finset.sum_congr rfl fun c _ => ?_
      simp only [excitationIrrep, List.map_cons, List.map_nil, List.zip_cons_cons,
        List.zip_nil_right, List.cons_append, List.nil_append, List.foldl_cons, List.foldl_nil,
        space_occ_a, space_occ_b, space_irrep, beq_iff_eq]
      congr 2
      change _ = s.ref ^^^ (0 ^^^ _ ^^^ _ ^^^ _ ^^^ _ ^^^ _)
      rw [Nat.zero_xor]
      ac_rfl

/-! Links with the lists. -/

theorem ncard_eq_length {l : List (List ℕ)} (hn : l.Nodup) (P : List ℕ → Prop)
    (hm : ∀ r, r ∈ l ↔ P r) : Set.ncard {r | P r} = l.length := by
  classical
  have : {r | P r} = (l.toFinset : Set (List ℕ)) := by
    ext r
    simp [← hm]
  rw [this, Set.ncard_coe_finset, List.toFinset_card_of_nodup hn]

/-- C16: the counter of an irrep equals the summed lengths of the symmetry-adapted triples lists of
that irrep. -/
theorem C16_triples_lists (s : Sys) (h : ℕ) (hf : Fits s h) :
    ∃ c total, countTriples s h = some (c, total) ∧ ∀ t, t < h → c[t]? = some
      ((realRows 6 (activePspace s 0 (some t) .aaa)).length +
       (realRows 6 (activePspace s 0 (some t) .aab)).length +
       (realRows 6 (activePspace s 0 (some t) .abb)).length +
       (realRows 6 (activePspace s 0 (some t) .bbb)).length) := by
  obtain ⟨c, hc, -, -, ht⟩ := C16_triples s h hf
  refine ⟨c, _, hc, fun t hlt => ?_⟩
  rw [ht t hlt]
  have key : ∀ k : Case, number s k.spins k.spins t =
      (realRows 6 (activePspace s 0 (some t) k)).length := by
    intro k
    have hm := mem_activePraw s 0 (some t) k
    have hr := list_result 6 _ _ hm (nodup_activePraw s 0 (some t) k)
      (fun h => ones_not_excitation _ _ _ (Or.inl (spins_length k).ge) 6 h.isRow)
    refine ncard_eq_length hr.2.1 _ fun r => ?_
    rw [hr.1 r]
    simp [Allowed]
  have ha := key .aaa
  have hb := key .aab
  have hcc := key .abb
  have hd := key .bbb
  simp only [Case.spins] at ha hb hcc hd
  simp only [List.map_cons, List.map_nil, List.sum_cons, List.sum_nil, ha, hb, hcc, hd]
  congr 1
  omega

theorem count_pspaceSymsAaa (s : Sys) (pspace : List ℕ → Bool) (t : ℕ) :
    (pspaceSymsAaa s pspace).count t = (generalQAaa s pspace (some t)).length := by
  have e1 : ∀ (p : Prop) [Decidable p] (x : ℕ), List.count t (if p then [x] else []) =
      if p ∧ x = t then 1 else 0 := by
    intro p _ x
    by_cases hp : p <;> simp [hp, List.count_singleton]
  have e2 : ∀ (p : Prop) [Decidable p] (q : Bool) (r : List ℕ),
      (if p then (if (!q) = true then [] else [r]) else []).length =
        if p ∧ q = true then 1 else 0 := by
    intro p _ q r
    by_cases hp : p <;> cases q <;> simp [hp]
  simp only [pspaceSymsAaa, generalQAaa, count_forRange, length_forRange, e1, e2]
  rw [swap3]
  refine Finset.sum_congr rfl fun i _ => ?_
  rw [swap3]
  refine Finset.sum_congr rfl fun j _ => ?_
  rw [swap3]
  refine Finset.sum_congr rfl fun k _ => ?_
  refine Finset.sum_congr rfl fun a _ => Finset.sum_congr rfl fun b _ =>
    Finset.sum_congr rfl fun c _ => ?_
  simp only [checkAaa, beq_iff_eq]

theorem count_pspaceSymsAab (s : Sys) (pspace : List ℕ → Bool) (t : ℕ) :
    (pspaceSymsAab s pspace).count t = (generalQAab s pspace (some t)).length := by
  have e1 : ∀ (p : Prop) [Decidable p] (x : ℕ), List.count t (if p then [x] else []) =
      if p ∧ x = t then 1 else 0 := by
    intro p _ x
    by_cases hp : p <;> simp [hp, List.count_singleton]
  have e2 : ∀ (p : Prop) [Decidable p] (q : Bool) (r : List ℕ),
      (if p then (if (!q) = true then [] else [r]) else []).length =
        if p ∧ q = true then 1 else 0 := by
    intro p _ q r
    by_cases hp : p <;> cases q <;> simp [hp]
  simp only [pspaceSymsAab, generalQAab, count_forRange, length_forRange, e1, e2]
  rw [swap3]
  refine Finset.sum_congr rfl fun i _ => ?_
  rw [swap3]
  refine Finset.sum_congr rfl fun j _ => ?_
  rw [swap3]
  refine Finset.sum_congr rfl fun k _ => ?_
  refine Finset.sum_congr rfl fun a _ => Finset.sum_congr rfl fun b _ =>
    Finset.sum_congr rfl fun c _ => ?_
  simp only [checkAab, beq_iff_eq]

theorem count_pspaceSymsAbb (s : Sys) (pspace : List ℕ → Bool) (t : ℕ) :
    (pspaceSymsAbb s pspace).count t = (generalQAbb s pspace (some t)).length := by
  have e1 : ∀ (p : Prop) [Decidable p] (x : ℕ), List.count t (if p then [x] else []) =
      if p ∧ x = t then 1 else 0 := by
    intro p _ x
    by_cases hp : p <;> simp [hp, List.count_singleton]
  have e2 : ∀ (p : Prop) [Decidable p] (q : Bool) (r : List ℕ),
      (if p then (if (!q) = true then [] else [r]) else []).length =
        if p ∧ q = true then 1 else 0 := by
    intro p _ q r
    by_cases hp : p <;> cases q <;> simp [hp]
  simp only [pspaceSymsAbb, generalQAbb, count_forRange, length_forRange, e1, e2]
  rw [swap3]
  refine Finset.sum_congr rfl fun i _ => ?_
  rw [swap3]
  refine Finset.sum_congr rfl fun j _ => ?_
  rw [swap3]
  refine Finset.sum_congr rfl fun k _ => ?_
  refine Finset.sum_congr rfl fun a _ => Finset.sum_congr rfl fun b _ =>
    Finset.sum_congr rfl fun c _ => ?_
  simp only [checkAbb, beq_iff_eq]

theorem count_pspaceSymsBbb (s : Sys) (pspace : List ℕ → Bool) (t : ℕ) :
    (pspaceSymsBbb s pspace).count t = (generalQBbb s pspace (some t)).length := by
  have e1 : ∀ (p : Prop) [Decidable p] (x : ℕ), List.count t (if p then [x] else []) =
      if p ∧ x = t then 1 else 0 := by
    intro p _ x
    by_cases hp : p <;> simp [hp, List.count_singleton]
  have e2 : ∀ (p : Prop) [Decidable p] (q : Bool) (r : List ℕ),
      (if p then (if (!q) = true then [] else [r]) else []).length =
        if p ∧ q = true then 1 else 0 := by
    intro p _ q r
    by_cases hp : p <;> cases q <;> simp [hp]
  simp only [pspaceSymsBbb, generalQBbb, count_forRange, length_forRange, e1, e2]
  rw [swap3]
  refine Finset.sum_congr rfl fun i _ => ?_
  rw [swap3]
  refine Finset.sum_congr rfl fun j _ => ?_
  rw [swap3]
  refine Finset.sum_congr rfl fun k _ => ?_
  refine Finset.sum_congr rfl fun a _ => Finset.sum_congr rfl fun b _ =>
    Finset.sum_congr rfl fun c _ => ?_
  simp only [checkBbb, beq_iff_eq]

/-- C16: the counts per irrep and spin case of a P space given as a 0/1 tensor are the numbers of
its triples of that irrep. -/
theorem C16_in_pspace (s : Sys) (h : ℕ) (hf : Fits s h) (c : Case) (p : List (List ℕ))
    (pspace : List ℕ → Bool) (hp : WellFormed s c p)
    (hps : ∀ x, pspace x = true ↔ x.map (· + 1) ∈ realRows 6 p) :
    ∃ counts, countInPspace s h pspace c = some counts ∧ counts.length = h ∧
      ∀ t, t < h → counts[t]? = some (Set.ncard {r | r ∈ realRows 6 p ∧
        Allowed s (some t) c.spins c.spins (fun _ _ => True) r}) := by
  have hb : ∀ x ∈ pspaceSyms s pspace c, x < h := by
    intro x hx
    have hA := hf.occA
    have hB := hf.occB
    cases c <;> simp only [pspaceSyms, pspaceSymsAaa, pspaceSymsAab, pspaceSymsAbb, pspaceSymsBbb,
      mem_forRange, mem_ite_nil', List.mem_singleton, Sys.nua, Sys.nub] at hx <;>
    · obtain ⟨a, ha, b, hb, d, hd, i, hi, j, hj, k, hk, -, rfl⟩ := hx
      repeat' apply xor_fits hf.order
      all_goals first | exact hf.ref | exact hf.irrep _ (by omega)
  refine ⟨_, tally_spec h _ hb, by simp, fun t hlt => ?_⟩
  simp only [List.getElem?_map, List.getElem?_range hlt, Option.map_some]
  congr 1
  have hcount : (pspaceSyms s pspace c).count t = (generalQraw s pspace (some t) c).length := by
    cases c
    · exact count_pspaceSymsAaa s pspace t
    · exact count_pspaceSymsAab s pspace t
    · exact count_pspaceSymsAbb s pspace t
    · exact count_pspaceSymsBbb s pspace t
  rw [hcount]
  refine (ncard_eq_length (nodup_generalQraw s pspace (some t) c) _ fun r => ?_).symm
  rw [mem_generalQraw]
  constructor
  · rintro ⟨ps, hs, rfl, h1, h2, h3, h4⟩
    exact ⟨(hps _).mp h3, ps, hs, rfl, h1, h2, trivial, h4⟩
  · rintro ⟨hr, ps, hs, rfl, h1, h2, -, h4⟩
    exact ⟨ps, hs, rfl, h1, h2, (hps _).mpr hr, h4⟩

example : Fits sample 2 :=
  ⟨⟨1, rfl⟩, by decide, fun p _ => Nat.mod_lt p (by decide), by decide, by decide⟩

example : countSingles sample 2 = some ([9, 8], 17) ∧ countDoubles sample 2 = some ([42, 45], 87) ∧
    countTriples sample 2 = some ([65, 62], 127) ∧ count1p sample 2 = some ([2, 1], 3) := by
  decide +kernel

/-- C16: an irrep number outside the table stops the count with an error instead of being
dropped. -/
theorem C16_bad_irrep_error (h : ℕ) (syms : List ℕ) (x : ℕ) (hx : x ∈ syms) (hb : h ≤ x) :
    counted h syms = none := by
  rw [counted, tally_error h syms x hx hb]
  rfl

example : 2 ∈ symsSingles { sample with irrep := fun p => p } := by decide +kernel

end Ccpy.Excitations
