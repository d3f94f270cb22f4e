import Verif.Lemmas.Integrals
import Mathlib.Tactic.Ring
import Mathlib.Tactic.FieldSimp
import Mathlib.Algebra.CharZero.Defs
import Mathlib.Tactic.LinearCombination
import Mathlib.Algebra.Field.Rat

/-! Two-electron integrals (C27), sorted blocks (C28), Fock matrix and reference energy (C29). -/

namespace Ccpy.Integrals
open Ccpy.Spec Ccpy.Operators

variable {K : Type*} [Field K]

/-! ### C27: antisymmetrised integrals -/

/-- `build_v` gives the antisymmetrised spin-orbital integrals for its three spin cases. -/
theorem C27_build_v (e1 : ℕ → ℕ → K) (e2 : ℕ → ℕ → ℕ → ℕ → K) (p q r s : ℕ) :
    (buildV e2).aa p q r s = (restricted e1 e2).twobody (p, false) (q, false) (r, false) (s, false) ∧
    (buildV e2).ab p q r s = (restricted e1 e2).twobody (p, false) (q, true) (r, false) (s, true) ∧
    (buildV e2).bb p q r s = (restricted e1 e2).twobody (p, true) (q, true) (r, true) (s, true) := by
  simp [buildV, Integrals.twobody, restricted]

/-- Like-spin integrals change sign under exchange of the last two indices, for every input; the
opposite-spin integral is the bare one. -/
theorem C27_antisymmetric (e2 : ℕ → ℕ → ℕ → ℕ → K) (p q r s : ℕ) :
    (buildV e2).aa p q s r = - (buildV e2).aa p q r s ∧ (buildV e2).bb p q s r = - (buildV e2).bb p q r s ∧
      (buildV e2).ab p q r s = e2 p q r s := by
  simp [buildV]

/-- If the input is symmetric under exchange of the electrons, like-spin integrals also change sign
under exchange of the first two indices and are invariant under exchange of both pairs. -/
theorem C27_exchange (e2 : ℕ → ℕ → ℕ → ℕ → K) (h : ∀ p q r s, e2 p q r s = e2 q p s r) (p q r s : ℕ) :
    (buildV e2).aa q p r s = - (buildV e2).aa p q r s ∧ (buildV e2).bb q p r s = - (buildV e2).bb p q r s ∧
      (buildV e2).aa q p s r = (buildV e2).aa p q r s ∧ (buildV e2).bb q p s r = (buildV e2).bb p q r s := by
  simp only [buildV]
  rw [h q p r s, h q p s r]
  simp

/-- If the input is Hermitian (real), so are all three arrays. -/
theorem C27_hermitian (e2 : ℕ → ℕ → ℕ → ℕ → K) (h : ∀ p q r s, e2 p q r s = e2 r s p q)
    (hx : ∀ p q r s, e2 p q r s = e2 q p s r) (p q r s : ℕ) :
    (buildV e2).aa r s p q = (buildV e2).aa p q r s ∧ (buildV e2).bb r s p q = (buildV e2).bb p q r s ∧
      (buildV e2).ab r s p q = (buildV e2).ab p q r s := by
  simp only [buildV]
  rw [← h p q r s, h r s q p, hx q p r s]
  simp

-- a tensor with the electron-exchange symmetry whose antisymmetrised part does not vanish
example : let e2 : ℕ → ℕ → ℕ → ℕ → ℚ := fun p q r s => (p + r + 1) * (q + s + 1)
    (∀ p q r s, e2 p q r s = e2 q p s r) ∧ (∀ p q r s, e2 p q r s = e2 r s p q) ∧
      (buildV e2).aa 0 1 0 1 = -1 := by
  refine ⟨fun p q r s => by ring, fun p q r s => by ring, ?_⟩
  simp [buildV]; norm_num

/-! ### C28: sorted blocks -/

/-- A tensor with `2n` axes over the correlated orbitals is cut into blocks with pairwise different
names, one for each word of length `2n` in `o` and `v`. Each block has the sizes its name says and
holds the elements of the tensor at the orbitals its name says. -/
theorem C28_blocks {s : Orbitals} (ha : s.noa ≤ s.norb) (hb : s.nob ≤ s.norb) (name : Name) (m : Tensor K)
    (hm : m.shape = List.replicate (2 * name.length) s.norb) :
    ∃ blocks, sortedIntegral s name (some m) = some blocks ∧ (blocks.map Prod.fst).Nodup ∧
      (∀ attr, attr ∈ blocks.map Prod.fst ↔ IsKinds (2 * name.length) attr) ∧
      ∀ b ∈ blocks, ∃ t, b.2 = some t ∧ t.shape = blockShape (occ s) s.norb (name ++ name) b.1 ∧
        ∀ idx, WithinShape t.shape idx →
          t.entry idx = m.entry (blockOrbitals (occ s) (name ++ name) b.1 idx) := by
  have hsome : ∀ attr ∈ blockNames name.length,
      ((blockValue s name (some m) attr).map fun b => (attr, b)).isSome = true := by
    intro attr hattr
    obtain ⟨t, ht, _⟩ := blockValue_eq s ha hb hm (mem_blockNames.mp hattr)
    rw [ht]; rfl
  obtain ⟨blocks, hbl⟩ := mapM_some _ _ hsome
  have hkeys : blocks.map Prod.fst = blockNames name.length := by
    have := mapM_keys (fun a : Name => a) (blockValue s name (some m)) hbl
    rw [this, List.map_id']
  refine ⟨blocks, by rw [sortedIntegral_eq]; exact hbl, by rw [hkeys]; exact nodup_blockNames _, ?_, ?_⟩
  · intro attr
    rw [hkeys, mem_blockNames]
  · intro b hbm
    have hk : b.1 ∈ blockNames name.length := by rw [← hkeys]; exact List.mem_map_of_mem hbm
    obtain ⟨t, ht, h1, h2⟩ := blockValue_eq s ha hb hm (mem_blockNames.mp hk)
    obtain ⟨x, _, hx⟩ := mapM_mem _ hbl hbm
    rw [Option.map_eq_some_iff] at hx
    obtain ⟨y, hy, rfl⟩ := hx
    rw [ht] at hy
    refine ⟨t, (Option.some.inj hy).symm, h1, ?_⟩
    intro idx hidx
    refine h2 idx ?_
    rw [hidx.length_eq, h1, blockShape, List.length_zipWith, List.length_append,
      (mem_blockNames.mp hk).1]
    omega

/-- The blocks partition the tensor: every element lies in exactly one place of exactly one block. -/
theorem C28_partition {s : Orbitals} (ha : s.noa ≤ s.norb) (hb : s.nob ≤ s.norb) (name : Name) (m : Tensor K)
    (hm : m.shape = List.replicate (2 * name.length) s.norb) :
    ∃ blocks, sortedIntegral s name (some m) = some blocks ∧
      ∀ full, WithinShape m.shape full → ∃ attr t idx, (attr, some t) ∈ blocks ∧ WithinShape t.shape idx ∧
        blockOrbitals (occ s) (name ++ name) attr idx = full ∧ t.entry idx = m.entry full ∧
        ∀ attr' t' idx', (attr', some t') ∈ blocks → WithinShape t'.shape idx' →
          blockOrbitals (occ s) (name ++ name) attr' idx' = full → attr' = attr ∧ idx' = idx := by
  obtain ⟨blocks, h0, _, hmem, hval⟩ := C28_blocks ha hb name m hm
  refine ⟨blocks, h0, ?_⟩
  intro full hfull
  have hlen : (name ++ name).length = 2 * name.length := by rw [List.length_append]; omega
  rw [hm, ← hlen] at hfull
  obtain ⟨d1, d2, d3, d4⟩ := decompose s ha hb (name ++ name) full hfull
  rw [hlen] at d1
  obtain ⟨⟨attr, o⟩, hbm, he⟩ := List.mem_map.mp ((hmem _).mpr d1)
  obtain ⟨t, ht, h1, h2⟩ := hval _ hbm
  simp only at ht h1 h2 he
  subst ht he
  have hidx : WithinShape t.shape (localOf s (name ++ name) full) := by rw [h1]; exact d2
  refine ⟨_, t, localOf s (name ++ name) full, hbm, hidx, d3, ?_, ?_⟩
  · rw [h2 _ hidx, d3]
  · intro attr' t' idx' hb' hi' ho'
    obtain ⟨t'', e, h1', _⟩ := hval _ hb'
    cases e
    refine d4 attr' idx' ?_ (by rw [← h1']; exact hi') ho'
    rw [hlen]
    exact (hmem attr').mp (List.mem_map_of_mem (f := Prod.fst) hb')

/-- The spin orbital that index `i` of kind `k` of an axis of spin `c` stands for. -/
def spinOrbital (s : Orbitals) (c k : Char) (i : ℕ) : ℕ × Bool :=
  (s.nfrozen + kindOrbital (occ s c) k i, c = 'b')

/-- `H` holds the one-body operator `F` and the two-body operator `V`: in block `k0 k1` of spin case `σ`,
and in block `k0 k1 k2 k3` of spin case `στ`, the matrix elements between the spin orbitals that the
letters stand for, frozen orbitals skipped. -/
def Represents (s : Orbitals) (H : Integral K) (F : ℕ × Bool → ℕ × Bool → K)
    (V : ℕ × Bool → ℕ × Bool → ℕ × Bool → ℕ × Bool → K) : Prop :=
  (∀ σ : Char, σ ∈ ['a', 'b'] → ∀ k0 k1 : Char, IsKinds 2 [k0, k1] → ∃ t, H.block [σ] [k0, k1] = some t ∧
    t.shape = [kindSize (occ s σ) s.norb k0, kindSize (occ s σ) s.norb k1] ∧
    ∀ i0 i1 : ℕ, t.entry [i0, i1] = F (spinOrbital s σ k0 i0) (spinOrbital s σ k1 i1)) ∧
  (∀ σ τ : Char, (σ, τ) ∈ [('a', 'a'), ('a', 'b'), ('b', 'b')] →
    ∀ k0 k1 k2 k3 : Char, IsKinds 4 [k0, k1, k2, k3] → ∃ t, H.block [σ, τ] [k0, k1, k2, k3] = some t ∧
      t.shape = [kindSize (occ s σ) s.norb k0, kindSize (occ s τ) s.norb k1,
        kindSize (occ s σ) s.norb k2, kindSize (occ s τ) s.norb k3] ∧
      ∀ i0 i1 i2 i3 : ℕ, t.entry [i0, i1, i2, i3] = V (spinOrbital s σ k0 i0) (spinOrbital s τ k1 i1)
        (spinOrbital s σ k2 i2) (spinOrbital s τ k3 i3))

theorem represents_of {s : Orbitals} (ha : s.noa ≤ s.norb) (hb : s.nob ≤ s.norb) (f : OneBody K)
    (v : TwoBody K) (F : ℕ × Bool → ℕ × Bool → K) (V : ℕ × Bool → ℕ × Bool → ℕ × Bool → ℕ × Bool → K)
    (hfa : ∀ p q, f.a p q = F (p, false) (q, false)) (hfb : ∀ p q, f.b p q = F (p, true) (q, true))
    (haa : ∀ p q r t, v.aa p q r t = V (p, false) (q, false) (r, false) (t, false))
    (hab : ∀ p q r t, v.ab p q r t = V (p, false) (q, true) (r, false) (t, true))
    (hbb : ∀ p q r t, v.bb p q r t = V (p, true) (q, true) (r, true) (t, true)) :
    ∃ H, integral s 2 (matrices s f v) = some H ∧ Represents s H F V := by
  obtain ⟨H, hH, hblk⟩ := integral_ok s ha hb f v
  refine ⟨H, hH, ?_, ?_⟩
  · intro σ hσ k0 k1 hk
    simp only [List.mem_cons, List.not_mem_nil, or_false] at hσ
    obtain ⟨m, t, h1, h2, h3, h4⟩ := hblk [σ] (by rcases hσ with rfl | rfl <;> decide) [k0, k1] hk
    refine ⟨t, h2, h3, ?_⟩
    intro i0 i1
    rw [h4 [i0, i1] rfl]
    rcases hσ with rfl | rfl
    · rw [show matrices s f v ['a'] = some (cut2 s f.a) from rfl] at h1
      cases h1
      exact hfa _ _
    · rw [show matrices s f v ['b'] = some (cut2 s f.b) from rfl] at h1
      cases h1
      exact hfb _ _
  · intro σ τ hστ k0 k1 k2 k3 hk
    simp only [List.mem_cons, Prod.mk.injEq, List.not_mem_nil, or_false] at hστ
    obtain ⟨m, t, h1, h2, h3, h4⟩ := hblk [σ, τ] (by
      rcases hστ with ⟨rfl, rfl⟩ | ⟨rfl, rfl⟩ | ⟨rfl, rfl⟩ <;> decide) [k0, k1, k2, k3] hk
    refine ⟨t, h2, h3, ?_⟩
    intro i0 i1 i2 i3
    rw [h4 [i0, i1, i2, i3] rfl]
    rcases hστ with ⟨rfl, rfl⟩ | ⟨rfl, rfl⟩ | ⟨rfl, rfl⟩
    · rw [show matrices s f v ['a', 'a'] = some (cut4 s v.aa) from rfl] at h1
      cases h1
      exact haa _ _ _ _
    · rw [show matrices s f v ['a', 'b'] = some (cut4 s v.ab) from rfl] at h1
      cases h1
      exact hab _ _ _ _
    · rw [show matrices s f v ['b', 'b'] = some (cut4 s v.bb) from rfl] at h1
      cases h1
      exact hbb _ _ _ _

/-- `build_f` is the Fock matrix of the reference determinant. -/
theorem fock_of (s : Orbitals) (I : Integrals K) (hx : I.ElectronExchange) (v : TwoBody K)
    (haa : ∀ p q r t, v.aa p q r t = I.twobody (p, false) (q, false) (r, false) (t, false))
    (hab : ∀ p q r t, v.ab p q r t = I.twobody (p, false) (q, true) (r, false) (t, true))
    (hbb : ∀ p q r t, v.bb p q r t = I.twobody (p, true) (q, true) (r, true) (t, true)) (p q : ℕ) :
    (buildF s ⟨I.h false, I.h true⟩ v).a p q =
      I.fock (lowestOrbitals (s.noa + s.nfrozen) (s.nob + s.nfrozen)) (p, false) (q, false) ∧
    (buildF s ⟨I.h false, I.h true⟩ v).b p q =
      I.fock (lowestOrbitals (s.noa + s.nfrozen) (s.nob + s.nfrozen)) (p, true) (q, true) := by
  have hba : ∀ i, v.ab i p i q = I.twobody (p, true) (i, false) (q, true) (i, false) := by
    intro i
    rw [hab]
    simp only [Integrals.twobody, and_self, if_true, Bool.false_eq_true, and_false, if_false,
      Bool.true_eq_false]
    rw [hx]
  unfold Integrals.fock
  constructor
  · rw [sum_lowest]
    simp only [buildF, haa, hab, Integrals.onebody, if_true]
    ring
  · rw [sum_lowest]
    simp only [buildF, hbb, hba, Integrals.onebody, if_true]
    ring

/-- One-body operator of the Hamiltonian: the Fock matrix if normal ordered, else the bare one. -/
def oneBodyOperator (s : Orbitals) (I : Integrals K) (normalOrdered : Bool) : ℕ × Bool → ℕ × Bool → K :=
  if normalOrdered then I.fock (lowestOrbitals (s.noa + s.nfrozen) (s.nob + s.nfrozen)) else I.onebody

theorem hamiltonian_of {s : Orbitals} (ha : s.noa ≤ s.norb) (hb : s.nob ≤ s.norb) (no : Bool)
    (I : Integrals K) (hx : I.ElectronExchange) (v : TwoBody K)
    (haa : ∀ p q r t, v.aa p q r t = I.twobody (p, false) (q, false) (r, false) (t, false))
    (hab : ∀ p q r t, v.ab p q r t = I.twobody (p, false) (q, true) (r, false) (t, true))
    (hbb : ∀ p q r t, v.bb p q r t = I.twobody (p, true) (q, true) (r, true) (t, true)) :
    ∃ H, integral s 2 (matrices s (oneBodyPart s no ⟨I.h false, I.h true⟩ v) v) = some H ∧
      Represents s H (oneBodyOperator s I no) I.twobody := by
  refine represents_of ha hb _ v _ _ ?_ ?_ haa hab hbb
  · intro p q
    unfold oneBodyPart oneBodyOperator
    cases no
    · simp [Integrals.onebody]
    · exact (fock_of s I hx v haa hab hbb p q).1
  · intro p q
    unfold oneBodyPart oneBodyOperator
    cases no
    · simp [Integrals.onebody]
    · exact (fock_of s I hx v haa hab hbb p q).2

/-- `getHamiltonian` holds the Fock matrix (or the bare one-body operator) and the antisymmetrised
two-body integrals in the blocks their names say. -/
theorem C28_hamiltonian {s : Orbitals} (ha : s.noa ≤ s.norb) (hb : s.nob ≤ s.norb) (no : Bool)
    (e1 : ℕ → ℕ → K) (e2 : ℕ → ℕ → ℕ → ℕ → K) (hx : ∀ p q r s, e2 p q r s = e2 q p s r) :
    ∃ H, getHamiltonian s no e1 e2 = some H ∧
      Represents s H (oneBodyOperator s (restricted e1 e2) no) (restricted e1 e2).twobody :=
  hamiltonian_of ha hb no (restricted e1 e2) (fun _ _ => hx) (buildV e2)
    (fun p q r t => (C27_build_v e1 e2 p q r t).1) (fun p q r t => (C27_build_v e1 e2 p q r t).2.1)
    (fun p q r t => (C27_build_v e1 e2 p q r t).2.2)

/-- Integrals over the spin orbitals with coefficients `ca` and `cb`. -/
def transformed (nao : ℕ) (ca cb z : ℕ → ℕ → K) (v : ℕ → ℕ → ℕ → ℕ → K) : Integrals K where
  h σ p q := let c := if σ then cb else ca
    ∑ i ∈ Finset.range nao, ∑ j ∈ Finset.range nao, z i j * c i p * c j q
  g σ τ p q r s := let c := if σ then cb else ca
    let d := if τ then cb else ca
    ∑ i ∈ Finset.range nao, ∑ j ∈ Finset.range nao, ∑ k ∈ Finset.range nao, ∑ l ∈ Finset.range nao,
      v i j k l * c i p * d j q * c k r * d l s

theorem transformed_exchange (nao : ℕ) (ca cb z : ℕ → ℕ → K) (v : ℕ → ℕ → ℕ → ℕ → K)
    (hx : ∀ i j k l, v i j k l = v j i l k) : (transformed nao ca cb z v).ElectronExchange := by
  intro σ τ p q r s
  simp only [transformed]
  rw [Finset.sum_comm]
  refine Finset.sum_congr rfl fun i _ => Finset.sum_congr rfl fun j _ => ?_
  rw [Finset.sum_comm]
  refine Finset.sum_congr rfl fun k _ => Finset.sum_congr rfl fun l _ => ?_
  rw [hx]
  ring

/-- `getUHFHamiltonian` does the same in the basis of the transformed alpha and beta orbitals. -/
theorem C28_uhf_hamiltonian {s : Orbitals} (ha : s.noa ≤ s.norb) (hb : s.nob ≤ s.norb) (no : Bool) (nao : ℕ)
    (ca cb z : ℕ → ℕ → K) (v : ℕ → ℕ → ℕ → ℕ → K) (hx : ∀ i j k l, v i j k l = v j i l k) :
    ∃ H, getUHFHamiltonian s no nao ca cb z v = some H ∧
      Represents s H (oneBodyOperator s (transformed nao ca cb z v) no)
        (transformed nao ca cb z v).twobody := by
  refine hamiltonian_of ha hb no (transformed nao ca cb z v) (transformed_exchange nao ca cb z v hx)
    (uhfV nao v ca cb) ?_ ?_ ?_
  all_goals
    intro p q r t
    simp [uhfV, Integrals.twobody, transform2, transformed]

/-- `Integral.from_empty(system, 2)` gives one-body blocks with four axes instead of two. -/
theorem C28_from_empty_shape :
    ((fromEmpty (K := ℚ) ⟨0, 3, 2, 1⟩ 2 false).bind fun H =>
      (H.block ['a'] ['o', 'v']).map Tensor.shape) = some [2, 1, 3, 3] ∧
    ((fromEmpty (K := ℚ) ⟨0, 3, 2, 1⟩ 1 false).bind fun H =>
      (H.block ['a'] ['o', 'v']).map Tensor.shape) = some [2, 1] := by
  decide +kernel

/-! ### C29: Fock matrix and reference energy -/

/-- `build_f` is the Fock matrix of the reference determinant. -/
theorem C29_fock (s : Orbitals) (e1 : ℕ → ℕ → K) (e2 : ℕ → ℕ → ℕ → ℕ → K)
    (hx : ∀ p q r s, e2 p q r s = e2 q p s r) (p q : ℕ) :
    (buildF s ⟨e1, e1⟩ (buildV e2)).a p q =
      (restricted e1 e2).fock (lowestOrbitals (s.noa + s.nfrozen) (s.nob + s.nfrozen)) (p, false) (q, false) ∧
    (buildF s ⟨e1, e1⟩ (buildV e2)).b p q =
      (restricted e1 e2).fock (lowestOrbitals (s.noa + s.nfrozen) (s.nob + s.nfrozen)) (p, true) (q, true) :=
  fock_of s (restricted e1 e2) (fun _ _ => hx) (buildV e2)
    (fun p q r t => (C27_build_v e1 e2 p q r t).1) (fun p q r t => (C27_build_v e1 e2 p q r t).2.1)
    (fun p q r t => (C27_build_v e1 e2 p q r t).2.2) p q

theorem meanField_eq [CharZero K] (na nb : ℕ) (e1 : ℕ → ℕ → K) (e2 : ℕ → ℕ → ℕ → ℕ → K)
    (hx : ∀ p q r s, e2 p q r s = e2 q p s r) :
    meanFieldEnergy na nb e1 e2 = (restricted e1 e2).energy (lowestOrbitals na nb) := by
  unfold Integrals.energy
  simp only [sum_lowest, Integrals.onebody, Integrals.twobody, restricted, and_self, if_true,
    Bool.false_eq_true, and_false, if_false, sub_zero, Bool.true_eq_false, Finset.sum_add_distrib,
    Finset.sum_sub_distrib, Finset.sum_const_zero]
  have h : ∑ i ∈ Finset.range nb, ∑ j ∈ Finset.range na, e2 i j i j =
      ∑ i ∈ Finset.range na, ∑ j ∈ Finset.range nb, e2 i j i j := by
    rw [Finset.sum_comm]
    exact Finset.sum_congr rfl fun i _ => Finset.sum_congr rfl fun j _ => hx j i j i
  rw [h]
  unfold meanFieldEnergy
  have h2 : (2 : K) ≠ 0 := OfNat.ofNat_ne_zero 2
  field_simp
  ring

/-- `calc_hf_energy` is the energy of the reference determinant, `calc_hf_frozen_core_energy` that of
the closed-shell determinant of the frozen orbitals. -/
theorem C29_energy [CharZero K] (s : Orbitals) (e1 : ℕ → ℕ → K) (e2 : ℕ → ℕ → ℕ → ℕ → K)
    (hx : ∀ p q r s, e2 p q r s = e2 q p s r) :
    calcHfEnergy s e1 e2 = (restricted e1 e2).energy (lowestOrbitals (s.noa + s.nfrozen) (s.nob + s.nfrozen)) ∧
    calcHfFrozenCoreEnergy s e1 e2 = (restricted e1 e2).energy (lowestOrbitals s.nfrozen s.nfrozen) := by
  refine ⟨meanField_eq _ _ e1 e2 hx, ?_⟩
  unfold calcHfFrozenCoreEnergy
  by_cases h : s.nfrozen = 0
  · rw [if_pos h, h]
    simp [Integrals.energy, lowestOrbitals]
  · rw [if_neg h]
    exact meanField_eq _ _ e1 e2 hx

/-- Twice the reference energy is the sum of the diagonals of the bare one-body and of the Fock matrix
over the occupied spin orbitals. -/
theorem C29_energy_from_fock [CharZero K] (s : Orbitals) (e1 : ℕ → ℕ → K) (e2 : ℕ → ℕ → ℕ → ℕ → K)
    (hx : ∀ p q r s, e2 p q r s = e2 q p s r) :
    2 * calcHfEnergy s e1 e2 =
      ∑ i ∈ Finset.range (s.noa + s.nfrozen), (e1 i i + (buildF s ⟨e1, e1⟩ (buildV e2)).a i i) +
      ∑ i ∈ Finset.range (s.nob + s.nfrozen), (e1 i i + (buildF s ⟨e1, e1⟩ (buildV e2)).b i i) := by
  rw [(C29_energy s e1 e2 hx).1]
  simp only [(C29_fock s e1 e2 hx _ _).1, (C29_fock s e1 e2 hx _ _).2]
  unfold Integrals.energy Integrals.fock
  have h2 : (2 : K) ≠ 0 := OfNat.ofNat_ne_zero 2
  rw [sum_lowest, sum_lowest]
  simp only [Finset.sum_add_distrib, Integrals.onebody, if_true, restricted]
  field_simp
  ring

/-- One-body operator felt by the correlated orbitals: the bare operator and the closed-shell frozen core. -/
def coreDressed (nfrozen : ℕ) (e1 : ℕ → ℕ → K) (e2 : ℕ → ℕ → ℕ → ℕ → K) (p q : ℕ) : K :=
  e1 p q + ∑ c ∈ Finset.range nfrozen, (2 * e2 p c q c - e2 p c c q)

/-- The reference energy is the frozen-core energy plus the energy of the correlated electrons in the
field of the core. -/
theorem C29_frozen_core [CharZero K] (s : Orbitals) (e1 : ℕ → ℕ → K) (e2 : ℕ → ℕ → ℕ → ℕ → K)
    (hx : ∀ p q r s, e2 p q r s = e2 q p s r) :
    calcHfEnergy s e1 e2 = calcHfFrozenCoreEnergy s e1 e2 +
      (restricted (fun p q => coreDressed s.nfrozen e1 e2 (s.nfrozen + p) (s.nfrozen + q))
        (fun p q r t => e2 (s.nfrozen + p) (s.nfrozen + q) (s.nfrozen + r) (s.nfrozen + t))).energy
        (lowestOrbitals s.noa s.nob) := by
  rw [← meanField_eq _ _ _ _ (fun p q r t => hx _ _ _ _)]
  have hcore : calcHfFrozenCoreEnergy s e1 e2 = meanFieldEnergy s.nfrozen s.nfrozen e1 e2 := by
    unfold calcHfFrozenCoreEnergy
    by_cases h : s.nfrozen = 0
    · rw [if_pos h, h]; simp [meanFieldEnergy]
    · rw [if_neg h]
  rw [hcore]
  unfold calcHfEnergy meanFieldEnergy coreDressed
  rw [Nat.add_comm s.noa, Nat.add_comm s.nob]
  simp only [Finset.sum_range_add, Finset.sum_add_distrib, Finset.sum_sub_distrib, ← Finset.mul_sum]
  have h1 : ∀ n, ∑ c ∈ Finset.range s.nfrozen, ∑ i ∈ Finset.range n, e2 c (s.nfrozen + i) c (s.nfrozen + i) =
      ∑ i ∈ Finset.range n, ∑ c ∈ Finset.range s.nfrozen, e2 (s.nfrozen + i) c (s.nfrozen + i) c := by
    intro n
    rw [Finset.sum_comm]
    exact Finset.sum_congr rfl fun i _ => Finset.sum_congr rfl fun j _ => hx _ _ _ _
  have h2 : ∀ n, ∑ c ∈ Finset.range s.nfrozen, ∑ i ∈ Finset.range n, e2 c (s.nfrozen + i) (s.nfrozen + i) c =
      ∑ i ∈ Finset.range n, ∑ c ∈ Finset.range s.nfrozen, e2 (s.nfrozen + i) c c (s.nfrozen + i) := by
    intro n
    rw [Finset.sum_comm]
    exact Finset.sum_congr rfl fun i _ => Finset.sum_congr rfl fun j _ => hx _ _ _ _
  simp only [h1, h2]
  have h2 : (2 : K) ≠ 0 := OfNat.ofNat_ne_zero 2
  field_simp
  ring

/-- `calc_hf_energy_unsorted` is the energy of the determinant given by two lists of different
orbitals. -/
theorem C29_unsorted [CharZero K] (I : Integrals K) (hx : I.ElectronExchange) (v : TwoBody K)
    (haa : ∀ p q r t, v.aa p q r t = I.twobody (p, false) (q, false) (r, false) (t, false))
    (hab : ∀ p q r t, v.ab p q r t = I.twobody (p, false) (q, true) (r, false) (t, true))
    (hbb : ∀ p q r t, v.bb p q r t = I.twobody (p, true) (q, true) (r, true) (t, true))
    {occA occB : List ℕ} (ha : occA.Nodup) (hb : occB.Nodup) :
    calcHfEnergyUnsorted ⟨I.h false, I.h true⟩ v occA occB =
      I.energy (occA.toFinset ×ˢ {false} ∪ occB.toFinset ×ˢ {true}) := by
  have hsum : ∀ f : ℕ × Bool → K, ∑ x ∈ occA.toFinset ×ˢ {false} ∪ occB.toFinset ×ˢ {true}, f x =
      (occA.map fun i => f (i, false)).sum + (occB.map fun i => f (i, true)).sum := by
    intro f
    rw [Finset.sum_union]
    · rw [Finset.sum_product, Finset.sum_product]
      simp only [Finset.sum_singleton]
      rw [List.sum_toFinset _ ha, List.sum_toFinset _ hb]
    · rw [Finset.disjoint_left]
      rintro ⟨i, b⟩ h1 h2
      simp only [Finset.mem_product, Finset.mem_singleton] at h1 h2
      rw [h1.2] at h2
      exact Bool.noConfusion h2.2
  have hba : (occB.map fun i => (occA.map fun j => I.twobody (i, true) (j, false) (i, true) (j, false)).sum).sum =
      (occA.map fun i => (occB.map fun j => v.ab i j i j).sum).sum := by
    rw [← List.sum_toFinset _ hb, ← List.sum_toFinset _ ha]
    simp only [← List.sum_toFinset _ hb, ← List.sum_toFinset _ ha]
    rw [Finset.sum_comm]
    refine Finset.sum_congr rfl fun i _ => Finset.sum_congr rfl fun j _ => ?_
    rw [hab]
    simp only [Integrals.twobody, and_self, if_true, Bool.false_eq_true, and_false, if_false,
      Bool.true_eq_false]
    rw [hx]
  unfold Integrals.energy
  simp only [hsum, List.sum_map_add, hba]
  unfold calcHfEnergyUnsorted
  simp only [haa, hab, hbb, Integrals.onebody, if_true]
  have h2 : (2 : K) ≠ 0 := OfNat.ofNat_ne_zero 2
  field_simp
  ring

theorem sum_valence (s : Orbitals) (f : ℕ × Bool → K) :
    ∑ x ∈ lowestOrbitals (s.noa + s.nfrozen) (s.nob + s.nfrozen) \ lowestOrbitals s.nfrozen s.nfrozen, f x =
      ∑ i ∈ Finset.range s.noa, f (s.nfrozen + i, false) + ∑ i ∈ Finset.range s.nob, f (s.nfrozen + i, true) := by
  have h : lowestOrbitals s.nfrozen s.nfrozen ⊆ lowestOrbitals (s.noa + s.nfrozen) (s.nob + s.nfrozen) := by
    intro x hx
    simp only [lowestOrbitals, Finset.mem_union, Finset.mem_product, Finset.mem_range, Finset.mem_singleton] at hx ⊢
    exact hx.imp (fun h => ⟨by omega, h.2⟩) (fun h => ⟨by omega, h.2⟩)
  have := Finset.sum_sdiff (f := f) h
  rw [sum_lowest, sum_lowest] at this
  generalize ∑ x ∈ lowestOrbitals (s.noa + s.nfrozen) (s.nob + s.nfrozen) \ lowestOrbitals s.nfrozen s.nfrozen, f x = S at this ⊢
  rw [Nat.add_comm s.noa, Nat.add_comm s.nob, Finset.sum_range_add, Finset.sum_range_add] at this
  linear_combination this

/-- `calc_g_matrix` is the mean field of the correlated electrons. -/
theorem C29_g_matrix {s : Orbitals} {H : Integral K} {F : ℕ × Bool → ℕ × Bool → K} {I : Integrals K}
    (hx : I.ElectronExchange) (hH : Represents s H F I.twobody) {σ : Char} (hσ : σ ∈ ['a', 'b'])
    {k0 k1 : Char} (hk : IsKinds 2 [k0, k1]) :
    ∃ g, calcGMatrix H σ [k0, k1] = some g ∧
      g.shape = [kindSize (occ s σ) s.norb k0, kindSize (occ s σ) s.norb k1] ∧
      ∀ p q : ℕ, g.entry [p, q] =
        ∑ x ∈ lowestOrbitals (s.noa + s.nfrozen) (s.nob + s.nfrozen) \ lowestOrbitals s.nfrozen s.nfrozen,
          I.twobody (spinOrbital s σ k0 p) x (spinOrbital s σ k1 q) x := by
  obtain ⟨-, hV⟩ := hH
  obtain ⟨-, hkk⟩ := hk
  have h0 := hkk k0 (by simp)
  have h1 := hkk k1 (by simp)
  have hkinds : ∀ a b c d : Char, (a = 'o' ∨ a = 'v') → (b = 'o' ∨ b = 'v') → (c = 'o' ∨ c = 'v') →
      (d = 'o' ∨ d = 'v') → IsKinds 4 [a, b, c, d] := by
    intro a b c d ha hb hc hd
    refine ⟨rfl, ?_⟩
    intro e he
    simp only [List.mem_cons, List.not_mem_nil, or_false] at he
    rcases he with rfl | rfl | rfl | rfl <;> assumption
  have hoo : kindSize (occ s 'a') s.norb 'o' = s.noa := rfl
  have hob : kindSize (occ s 'b') s.norb 'o' = s.nob := rfl
  simp only [List.mem_cons, List.not_mem_nil, or_false] at hσ
  have hsum : ∀ P Q : ℕ × Bool, ∑ x ∈ lowestOrbitals (s.noa + s.nfrozen) (s.nob + s.nfrozen) \ lowestOrbitals s.nfrozen s.nfrozen,
      I.twobody P x Q x = ∑ i ∈ Finset.range s.noa, I.twobody P (spinOrbital s 'a' 'o' i) Q (spinOrbital s 'a' 'o' i) +
        ∑ i ∈ Finset.range s.nob, I.twobody P (spinOrbital s 'b' 'o' i) Q (spinOrbital s 'b' 'o' i) :=
    fun P Q => sum_valence s _
  rcases hσ with rfl | rfl
  · obtain ⟨t, ht, hs, he⟩ := hV 'a' 'a' (by decide) k0 'o' k1 'o' (hkinds _ _ _ _ h0 (Or.inl rfl) h1 (Or.inl rfl))
    obtain ⟨t', ht', hs', he'⟩ := hV 'a' 'b' (by decide) k0 'o' k1 'o'
      (hkinds _ _ _ _ h0 (Or.inl rfl) h1 (Or.inl rfl))
    have hg : calcGMatrix H 'a' [k0, k1] = addTensor (tracePiqi (H.block ['a', 'a'] [k0, 'o', k1, 'o']))
        (tracePiqi (H.block ['a', 'b'] [k0, 'o', k1, 'o'])) := by
      rcases h0 with rfl | rfl <;> rcases h1 with rfl | rfl <;> rfl
    rw [hg, ht, ht']
    simp only [tracePiqi, hs, hs', if_true, addTensor]
    refine ⟨_, rfl, rfl, ?_⟩
    intro p q
    simp only [he, he', hsum, hoo, hob]
  · obtain ⟨t, ht, hs, he⟩ := hV 'b' 'b' (by decide) k0 'o' k1 'o' (hkinds _ _ _ _ h0 (Or.inl rfl) h1 (Or.inl rfl))
    obtain ⟨t', ht', hs', he'⟩ := hV 'a' 'b' (by decide) 'o' k0 'o' k1
      (hkinds _ _ _ _ (Or.inl rfl) h0 (Or.inl rfl) h1)
    have hg : calcGMatrix H 'b' [k0, k1] = addTensor (tracePiqi (H.block ['b', 'b'] [k0, 'o', k1, 'o']))
        (traceIpiq (H.block ['a', 'b'] ['o', k0, 'o', k1])) := by
      rcases h0 with rfl | rfl <;> rcases h1 with rfl | rfl <;> rfl
    rw [hg, ht, ht']
    simp only [tracePiqi, traceIpiq, hs, hs', if_true, addTensor]
    refine ⟨_, rfl, rfl, ?_⟩
    intro p q
    simp only [he, he', hsum, hoo, hob]
    rw [add_comm]
    congr 1
    refine Finset.sum_congr rfl fun i _ => ?_
    simp only [Integrals.twobody, spinOrbital, and_self, decide_true, decide_false, if_true, Bool.false_eq_true,
      and_false, if_false, Bool.true_eq_false, show ('a' = 'b') = False by decide]
    rw [hx]

/-- Taking `G` away from the Fock matrix leaves the Fock matrix of the frozen core. -/
theorem C29_core_fock {s : Orbitals} {H : Integral K} {I : Integrals K}
    (hx : I.ElectronExchange) (hH : Represents s H (oneBodyOperator s I true) I.twobody)
    {σ : Char} (hσ : σ ∈ ['a', 'b']) {k0 k1 : Char} (hk : IsKinds 2 [k0, k1]) :
    ∃ t g, H.block [σ] [k0, k1] = some t ∧ calcGMatrix H σ [k0, k1] = some g ∧ t.shape = g.shape ∧
      ∀ p q : ℕ, t.entry [p, q] - g.entry [p, q] =
        I.fock (lowestOrbitals s.nfrozen s.nfrozen) (spinOrbital s σ k0 p) (spinOrbital s σ k1 q) := by
  obtain ⟨g, hg, hs, he⟩ := C29_g_matrix hx hH hσ hk
  obtain ⟨t, ht, hs', he'⟩ := hH.1 σ hσ k0 k1 hk
  refine ⟨t, g, ht, hg, by rw [hs, hs'], ?_⟩
  intro p q
  rw [he, he', sum_valence]
  simp only [oneBodyOperator, if_true, Integrals.fock, sum_lowest]
  rw [Nat.add_comm s.noa, Nat.add_comm s.nob, Finset.sum_range_add, Finset.sum_range_add]
  ring

/-- Integrals for the examples: `⟨pq|rs⟩ = (p + 2r + 1)(q + 2s + 1)`. -/
def exV (p q r s : ℕ) : ℚ := (p + 2 * r + 1) * (q + 2 * s + 1)

/-- One-body integrals for the examples. -/
def exZ (p q : ℕ) : ℚ := p - 3 * q

theorem exV_exchange (p q r s : ℕ) : exV p q r s = exV q p s r := by unfold exV; ring

/-- One frozen orbital, three correlated ones, two alpha and one beta electron. -/
def exS : Orbitals := ⟨1, 3, 2, 1⟩

-- the hypotheses of the theorems above hold for these integrals, with values that are not all zero
example : (∃ H, getHamiltonian exS true exZ exV = some H ∧
    Represents exS H (oneBodyOperator exS (restricted exZ exV) true) (restricted exZ exV).twobody) :=
  C28_hamiltonian (by decide) (by decide) true exZ exV exV_exchange
example : ((getHamiltonian exS true exZ exV).bind fun H =>
    (H.block ['a'] ['o', 'v']).map fun t => (t.shape, t.entry [0, 0], t.entry [1, 0])) =
      some ([2, 1], 28, 22) := by decide +kernel
example : ((getHamiltonian exS true exZ exV).bind fun H =>
    (calcGMatrix H 'b' ['o', 'v']).map fun t => (t.shape, t.entry [0, 0], t.entry [0, 1])) =
      some ([1, 2], 66, 88) := by decide +kernel
example : ((getUHFHamiltonian exS true 4 (fun i p => (i + p : ℚ)) (fun i p => (i - p : ℚ)) exZ exV).bind fun H =>
    (H.block ['a', 'b'] ['o', 'v', 'v', 'o']).map fun t => (t.shape, t.entry [0, 0, 0, 0])) =
      some ([2, 2, 1, 1], -37760) := by decide +kernel
example : (calcHfEnergy exS exZ exV, calcHfFrozenCoreEnergy exS exZ exV,
    calcHfEnergyUnsorted ⟨exZ, exZ⟩ (buildV exV) [0, 2] [1, 3]) = (38, 1, 84) := by decide +kernel
example : (restricted exZ exV).ElectronExchange := fun _ _ => exV_exchange

end Ccpy.Integrals
