import Verif.Lemmas.PSpaceNames
import Verif.Lemmas.PSpaceKernelA
import Verif.Lemmas.PSpaceKernelB
import Verif.Lemmas.PSpaceKernelC
import Verif.Lemmas.PSpaceKernelD
import Verif.Lemmas.PSpaceListed

/-! C82: The update of the listed triple excitations in CCSDT(P), `/repo/ccpy/cc/ccsdt_p.py:315-407` with the kernels
`update_t3a_p`, ..., `update_t3d_p` of `/repo/ccpy/lib/fortran/ccsdt_p_loops.f90`.

`T` are the amplitudes of single and double excitations in the memory `m`, the triple excitations are four lists.  The kernels
return the same excitations in a different order; each one has the amplitude increased by the projection of the similarity
transformed Hamiltonian on this excitation, divided by the energy denominator.  `X` are the intermediates that the iteration
starts from. -/

namespace Ccpy.PSpace
open Ccpy.Tensor Ccpy.Fock Ccpy.Ccsdt Ccpy.Engine Ccpy.Ccsd

variable {ι : Type*} [LinearOrder ι]

/-! ### Lists of excitations -/

/-- A listed excitation has the amplitude of its row, ... -/
theorem C82_listed_aaa {ua na : ℕ} {t : TripleList} (ht : ∀ x ∈ t, ListedAAA ua na x.1) (hd : (t.map Prod.fst).Nodup) :
    (∀ x ∈ t, atRow t.ofThree x.1 = x.2) ∧ ∀ q, ListedAAA ua na q → q ∉ t.map Prod.fst → atRow t.ofThree q = 0 :=
  listed_value (fun _ _ h h' => three_rows h h') (fun q => rfl) ht hd

theorem C82_listed_aab {ua ub na nb : ℕ} {t : TripleList} (ht : ∀ x ∈ t, ListedAAB ua ub na nb x.1) (hd : (t.map Prod.fst).Nodup) :
    (∀ x ∈ t, atRow t.ofTwoOne x.1 = x.2) ∧ ∀ q, ListedAAB ua ub na nb q → q ∉ t.map Prod.fst → atRow t.ofTwoOne q = 0 :=
  listed_value (fun _ _ h h' => twoOne_rows h h') (fun q => rfl) ht hd

theorem C82_listed_abb {ua ub na nb : ℕ} {t : TripleList} (ht : ∀ x ∈ t, ListedABB ua ub na nb x.1) (hd : (t.map Prod.fst).Nodup) :
    (∀ x ∈ t, atRow t.ofOneTwo x.1 = x.2) ∧ ∀ q, ListedABB ua ub na nb q → q ∉ t.map Prod.fst → atRow t.ofOneTwo q = 0 :=
  listed_value (fun _ _ h h' => oneTwo_rows h h') (fun q => rfl) ht hd

/-! ### Kernels -/

section
variable {S : Orbitals ι} (h : S.Proper) {Z : Fock.Integrals} (hZ : Z.Antisym) {T : Cluster} (hT : T.Antisym) (shift : ℚ) (X : Ints)
  {m : Memory} (hm : ∀ n, 6 ≤ n → n ≤ 10 → m n = T.amp n) (t3a t3b t3c t3d : Buffer)
include h hZ hT hm

theorem C82_t3a (hne : t3a.excits ≠ []) (hrows : ∀ q ∈ t3a.excits, ListedAAA S.ua S.na q)
    (hlen : t3a.amps.length = t3a.excits.length) (ub : t3b.Usable (ListedAAB S.ua S.ub S.na S.nb)) (uc : t3c.Usable (ListedABB S.ua S.ub S.na S.nb)) (ud : t3d.Usable (ListedAAA S.ub S.nb)) :
    ∃ s, updateT3a (dimsOf (setup S Z shift)) (dressed (setup S Z shift) m amplitudes3.toAmps (atTriples X)).argsA t3a t3b = some s
      ∧ s.Full ∧ s.records.Perm (t3a.list.map fun x =>
        let r := atRow (fun a b c i j k =>
          S.element (S.tripleAAA a b c i j k) (transformed3 S Z T (listed3 t3a.list t3b.list t3c.list t3d.list))
            / (fockA S Z i i + fockA S Z j j + fockA S Z k k - fockA S Z (S.na + a) (S.na + a) - fockA S Z (S.na + b) (S.na + b) - fockA S Z (S.na + c) (S.na + c) - shift)) x.1
        (x.1, x.2 + r, r)) := by
  have hT₃ := listed3_antisym t3a.list t3b.list t3c.list t3d.list
  have hA : (dressed (setup S Z shift) (store3 [T] [listed3 t3a.list t3b.list t3c.list t3d.list]) amplitudes3.toAmps hbar2).Anti :=
    dressed_anti (S := S) hZ hT hT₃ shift
  rw [dressed_start, dressed_low (m' := store3 [T] [listed3 t3a.list t3b.list t3c.list t3d.list]) (fun n h₁ h₂ => (hm n h₁ h₂).trans (by
    interval_cases n <;> rfl))]
  obtain ⟨s, hs, hf, hp⟩ := updateT3a_records hA (dimsOf (setup S Z shift)) t3a t3b t3c t3d hne hrows hlen ub uc ud
  refine ⟨s, hs, hf, hp.trans (List.Perm.of_eq (List.map_congr_left fun x hx => ?_))⟩
  obtain ⟨a, b, c, i, j, k, hq, h₁, h₂, h₃, h₄, h₅, h₆⟩ := hrows x.1 (List.of_mem_zip hx).1
  have e := (linkA shaped_hbar2 (s := setup S Z shift) rfl hA rfl hT₃ (fun _ _ _ _ _ _ => rfl) (fun _ _ _ _ _ _ => rfl)
    (fun _ _ _ _ _ _ => rfl) (fun _ _ _ _ _ _ => rfl) a b c i j k).symm.trans
      (C66_t3a h hZ hT hT₃ shift X (a := a) (b := b) (c := c) (i := i) (j := j) (k := k) (by omega) (by omega) h₃ (by omega) (by omega) h₆)
  simp only [hq, atRow_row, e]
  rfl

theorem C82_t3b (hn : S.nb ≤ S.na) (hne : t3b.excits ≠ []) (hrows : ∀ q ∈ t3b.excits, ListedAAB S.ua S.ub S.na S.nb q)
    (hlen : t3b.amps.length = t3b.excits.length) (ua : t3a.Usable (ListedAAA S.ua S.na)) (uc : t3c.Usable (ListedABB S.ua S.ub S.na S.nb)) (ud : t3d.Usable (ListedAAA S.ub S.nb)) :
    ∃ s, updateT3b (dimsOf (setup S Z shift)) (dressed (setup S Z shift) m amplitudes3.toAmps (atTriples X)).argsB t3a t3b t3c = some s
      ∧ s.Full ∧ s.records.Perm (t3b.list.map fun x =>
        let r := atRow (fun a b c i j k =>
          S.element (S.tripleAAB a b c i j k) (transformed3 S Z T (listed3 t3a.list t3b.list t3c.list t3d.list))
            / (fockA S Z i i + fockA S Z j j + fockB S Z k k - fockA S Z (S.na + a) (S.na + a) - fockA S Z (S.na + b) (S.na + b) - fockB S Z (S.nb + c) (S.nb + c) - shift)) x.1
        (x.1, x.2 + r, r)) := by
  have hT₃ := listed3_antisym t3a.list t3b.list t3c.list t3d.list
  have hA : (dressed (setup S Z shift) (store3 [T] [listed3 t3a.list t3b.list t3c.list t3d.list]) amplitudes3.toAmps hbar2).Anti :=
    dressed_anti (S := S) hZ hT hT₃ shift
  rw [dressed_start, dressed_low (m' := store3 [T] [listed3 t3a.list t3b.list t3c.list t3d.list]) (fun n h₁ h₂ => (hm n h₁ h₂).trans (by
    interval_cases n <;> rfl))]
  obtain ⟨s, hs, hf, hp⟩ := updateT3b_records hA (dimsOf (setup S Z shift)) hn t3a t3b t3c t3d hne hrows hlen ua uc ud
  refine ⟨s, hs, hf, hp.trans (List.Perm.of_eq (List.map_congr_left fun x hx => ?_))⟩
  obtain ⟨a, b, c, i, j, k, hq, h₁, h₂, h₃, h₄, h₅, h₆⟩ := hrows x.1 (List.of_mem_zip hx).1
  have e := (linkB shaped_hbar2 (s := setup S Z shift) rfl hA rfl hT₃ (fun _ _ _ _ _ _ => rfl) (fun _ _ _ _ _ _ => rfl)
    (fun _ _ _ _ _ _ => rfl) (fun _ _ _ _ _ _ => rfl) a b c i j k).symm.trans
      (C66_t3b h hZ hT hT₃ shift X (a := a) (b := b) (c := c) (i := i) (j := j) (k := k) (by omega) h₂ h₃ (by omega) h₅ h₆)
  simp only [hq, atRow_row, e]
  rfl

theorem C82_t3c (hne : t3c.excits ≠ []) (hrows : ∀ q ∈ t3c.excits, ListedABB S.ua S.ub S.na S.nb q)
    (hlen : t3c.amps.length = t3c.excits.length) (ua : t3a.Usable (ListedAAA S.ua S.na)) (ub : t3b.Usable (ListedAAB S.ua S.ub S.na S.nb)) (ud : t3d.Usable (ListedAAA S.ub S.nb)) :
    ∃ s, updateT3c (dimsOf (setup S Z shift)) (dressed (setup S Z shift) m amplitudes3.toAmps (atTriples X)).argsC t3b t3c t3d = some s
      ∧ s.Full ∧ s.records.Perm (t3c.list.map fun x =>
        let r := atRow (fun a b c i j k =>
          S.element (S.tripleABB a b c i j k) (transformed3 S Z T (listed3 t3a.list t3b.list t3c.list t3d.list))
            / (fockA S Z i i + fockB S Z j j + fockB S Z k k - fockA S Z (S.na + a) (S.na + a) - fockB S Z (S.nb + b) (S.nb + b) - fockB S Z (S.nb + c) (S.nb + c) - shift)) x.1
        (x.1, x.2 + r, r)) := by
  have hT₃ := listed3_antisym t3a.list t3b.list t3c.list t3d.list
  have hA : (dressed (setup S Z shift) (store3 [T] [listed3 t3a.list t3b.list t3c.list t3d.list]) amplitudes3.toAmps hbar2).Anti :=
    dressed_anti (S := S) hZ hT hT₃ shift
  rw [dressed_start, dressed_low (m' := store3 [T] [listed3 t3a.list t3b.list t3c.list t3d.list]) (fun n h₁ h₂ => (hm n h₁ h₂).trans (by
    interval_cases n <;> rfl))]
  obtain ⟨s, hs, hf, hp⟩ := updateT3c_records hA (dimsOf (setup S Z shift)) t3a t3b t3c t3d hne hrows hlen ua ub ud
  refine ⟨s, hs, hf, hp.trans (List.Perm.of_eq (List.map_congr_left fun x hx => ?_))⟩
  obtain ⟨a, b, c, i, j, k, hq, h₁, h₂, h₃, h₄, h₅, h₆⟩ := hrows x.1 (List.of_mem_zip hx).1
  have e := (linkC shaped_hbar2 (s := setup S Z shift) rfl hA rfl hT₃ (fun _ _ _ _ _ _ => rfl) (fun _ _ _ _ _ _ => rfl)
    (fun _ _ _ _ _ _ => rfl) (fun _ _ _ _ _ _ => rfl) a b c i j k).symm.trans
      (C66_t3c h hZ hT hT₃ shift X (a := a) (b := b) (c := c) (i := i) (j := j) (k := k) h₁ (by omega) h₃ h₄ (by omega) h₆)
  simp only [hq, atRow_row, e]
  rfl

theorem C82_t3d (hne : t3d.excits ≠ []) (hrows : ∀ q ∈ t3d.excits, ListedAAA S.ub S.nb q)
    (hlen : t3d.amps.length = t3d.excits.length) (ua : t3a.Usable (ListedAAA S.ua S.na)) (ub : t3b.Usable (ListedAAB S.ua S.ub S.na S.nb)) (uc : t3c.Usable (ListedABB S.ua S.ub S.na S.nb)) :
    ∃ s, updateT3d (dimsOf (setup S Z shift)) (dressed (setup S Z shift) m amplitudes3.toAmps (atTriples X)).argsD t3c t3d = some s
      ∧ s.Full ∧ s.records.Perm (t3d.list.map fun x =>
        let r := atRow (fun a b c i j k =>
          S.element (S.tripleBBB a b c i j k) (transformed3 S Z T (listed3 t3a.list t3b.list t3c.list t3d.list))
            / (fockB S Z i i + fockB S Z j j + fockB S Z k k - fockB S Z (S.nb + a) (S.nb + a) - fockB S Z (S.nb + b) (S.nb + b) - fockB S Z (S.nb + c) (S.nb + c) - shift)) x.1
        (x.1, x.2 + r, r)) := by
  have hT₃ := listed3_antisym t3a.list t3b.list t3c.list t3d.list
  have hA : (dressed (setup S Z shift) (store3 [T] [listed3 t3a.list t3b.list t3c.list t3d.list]) amplitudes3.toAmps hbar2).Anti :=
    dressed_anti (S := S) hZ hT hT₃ shift
  rw [dressed_start, dressed_low (m' := store3 [T] [listed3 t3a.list t3b.list t3c.list t3d.list]) (fun n h₁ h₂ => (hm n h₁ h₂).trans (by
    interval_cases n <;> rfl))]
  obtain ⟨s, hs, hf, hp⟩ := updateT3d_records hA (dimsOf (setup S Z shift)) t3a t3b t3c t3d hne hrows hlen ua ub uc
  refine ⟨s, hs, hf, hp.trans (List.Perm.of_eq (List.map_congr_left fun x hx => ?_))⟩
  obtain ⟨a, b, c, i, j, k, hq, h₁, h₂, h₃, h₄, h₅, h₆⟩ := hrows x.1 (List.of_mem_zip hx).1
  have e := (linkD shaped_hbar2 (s := setup S Z shift) rfl hA rfl hT₃ (fun _ _ _ _ _ _ => rfl) (fun _ _ _ _ _ _ => rfl)
    (fun _ _ _ _ _ _ => rfl) (fun _ _ _ _ _ _ => rfl) a b c i j k).symm.trans
      (C66_t3d h hZ hT hT₃ shift X (a := a) (b := b) (c := c) (i := i) (j := j) (k := k) (by omega) (by omega) h₃ (by omega) (by omega) h₆)
  simp only [hq, atRow_row, e]
  rfl

end

/-- The hypothesis `S.nb ≤ S.na` of `C82_t3b` is needed: a table of this kernel has the length `noa` along an axis that is filled
up to `nob`, `/repo/ccpy/lib/fortran/ccsdt_p_loops.f90:2517-2547`, so with more electrons of spin down than of spin up it is
written beyond its end. -/
theorem C82_t3b_order :
    updateT3b ⟨2, 2, 3, 2⟩ {} ⟨[[1, 1, 1, 1, 1, 1]], [0]⟩ ⟨[[1, 2, 1, 1, 2, 1]], [1]⟩ ⟨[[1, 1, 1, 1, 1, 1]], [0]⟩ = none := by
  decide +kernel

/-! ### Examples -/

/-- Seven orbitals with three electrons of each spin. -/
def listOrbitals : Orbitals ℕ := ⟨7, 3, 3, fun p => 2 * p, fun p => 2 * p + 1⟩
theorem listOrbitals_proper : listOrbitals.Proper where
  up_inj := fun p q h => by simp only [listOrbitals] at h; omega
  down_inj := fun p q h => by simp only [listOrbitals] at h; omega
  ne := fun p q h => by simp only [listOrbitals] at h; omega
  ha := by decide
  hb := by decide

def listA : Buffer := ⟨[[1, 2, 3, 1, 2, 3], [1, 3, 4, 1, 2, 3]], [1 / 2, -1]⟩
def listB : Buffer := ⟨[[1, 2, 4, 1, 3, 2], [3, 4, 1, 2, 3, 3], [1, 2, 2, 1, 3, 2]], [1, 2, -1 / 3]⟩
def listC : Buffer := ⟨[[4, 1, 2, 1, 1, 3], [1, 2, 4, 3, 2, 3]], [2, 1 / 5]⟩
/-- The placeholder of an empty list. -/
def listD : Buffer := ⟨[[1, 1, 1, 1, 1, 1]], [0]⟩
/-- A list for the kernel of the last spin case. -/
def listD' : Buffer := ⟨[[2, 3, 4, 1, 2, 3]], [1]⟩

theorem listA_rows : ∀ q ∈ listA.excits, ListedAAA 4 3 q := by
  intro q hq
  simp only [listA, List.mem_cons, List.not_mem_nil, or_false] at hq
  rcases hq with rfl | rfl
  exacts [⟨0, 1, 2, 0, 1, 2, rfl, by decide⟩, ⟨0, 2, 3, 0, 1, 2, rfl, by decide⟩]
theorem listB_rows : ∀ q ∈ listB.excits, ListedAAB 4 4 3 3 q := by
  intro q hq
  simp only [listB, List.mem_cons, List.not_mem_nil, or_false] at hq
  rcases hq with rfl | rfl | rfl
  exacts [⟨0, 1, 3, 0, 2, 1, rfl, by decide⟩, ⟨2, 3, 0, 1, 2, 2, rfl, by decide⟩, ⟨0, 1, 1, 0, 2, 1, rfl, by decide⟩]
theorem listC_rows : ∀ q ∈ listC.excits, ListedABB 4 4 3 3 q := by
  intro q hq
  simp only [listC, List.mem_cons, List.not_mem_nil, or_false] at hq
  rcases hq with rfl | rfl
  exacts [⟨3, 0, 1, 0, 0, 2, rfl, by decide⟩, ⟨0, 1, 3, 2, 1, 2, rfl, by decide⟩]
theorem listD'_rows : ∀ q ∈ listD'.excits, ListedAAA 4 3 q := by
  intro q hq
  simp only [listD', List.mem_cons, List.not_mem_nil, or_false] at hq
  subst hq
  exact ⟨1, 2, 3, 0, 1, 2, rfl, by decide⟩

theorem listA_usable : listA.Usable (ListedAAA 4 3) := ⟨rfl, Or.inr ⟨by decide, by decide, listA_rows⟩⟩
theorem listB_usable : listB.Usable (ListedAAB 4 4 3 3) := ⟨rfl, Or.inr ⟨by decide, by decide, listB_rows⟩⟩
theorem listC_usable : listC.Usable (ListedABB 4 4 3 3) := ⟨rfl, Or.inr ⟨by decide, by decide, listC_rows⟩⟩
theorem listD_usable : listD.Usable (ListedAAA 4 3) := ⟨rfl, Or.inl ⟨rfl, rfl⟩⟩

/-- The lists satisfy the hypotheses of C82. -/
example := C82_listed_aaa (t := listA.list) (ua := 4) (na := 3) (fun x hx => listA_rows x.1 (List.of_mem_zip hx).1) (by decide)
example := C82_listed_aab (t := listB.list) (ua := 4) (ub := 4) (na := 3) (nb := 3) (fun x hx => listB_rows x.1 (List.of_mem_zip hx).1) (by decide)
example := C82_listed_abb (t := listC.list) (ua := 4) (ub := 4) (na := 3) (nb := 3) (fun x hx => listC_rows x.1 (List.of_mem_zip hx).1) (by decide)

example := C82_t3a listOrbitals_proper exampleIntegrals_antisym exampleCluster_antisym 0 stored (m := exampleCluster.amp) (fun _ _ _ => rfl)
  listA listB listC listD (by decide) listA_rows rfl listB_usable listC_usable listD_usable
example := C82_t3b listOrbitals_proper exampleIntegrals_antisym exampleCluster_antisym 0 stored (m := exampleCluster.amp) (fun _ _ _ => rfl)
  listA listB listC listD (by decide) (by decide) listB_rows rfl listA_usable listC_usable listD_usable
example := C82_t3c listOrbitals_proper exampleIntegrals_antisym exampleCluster_antisym 0 stored (m := exampleCluster.amp) (fun _ _ _ => rfl)
  listA listB listC listD (by decide) listC_rows rfl listA_usable listB_usable listD_usable
example := C82_t3d listOrbitals_proper exampleIntegrals_antisym exampleCluster_antisym 0 stored (m := exampleCluster.amp) (fun _ _ _ => rfl)
  listA listB listC listD' (by decide) listD'_rows rfl listA_usable listB_usable listC_usable

end Ccpy.PSpace
