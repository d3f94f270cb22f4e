import Verif.Spec.NaturalOrbitals
import Mathlib.Algebra.BigOperators.Ring.Finset
import Mathlib.Algebra.BigOperators.Group.List.Basic
import Mathlib.Algebra.BigOperators.Intervals
import Mathlib.Data.List.GetD
import Mathlib.Tactic.Ring
import Mathlib.Tactic.LinearCombination
import Mathlib.LinearAlgebra.Matrix.NonsingularInverse

/-! Lemmas about `transform_to_natorbs`. -/

namespace Ccpy.NatOrbs
open Finset (range)

variable {K : Type*}

/-! ### Lists of orbitals -/

theorem symIndex_eq (n : ℕ) (irr : ℕ → ℕ) (s : ℕ) : symIndex n irr s = (List.range n).filter fun p => decide (s = irr p) := by
  have h : ∀ (l : List ℕ) (f : ℕ → List ℕ), l.foldl (fun idx p s => if s = irr p then idx s ++ [p] else idx s) f s =
      f s ++ l.filter fun p => decide (s = irr p) := by
    intro l
    induction l with
    | nil => intro f; simp
    | cons p l ih =>
      intro f
      rw [List.foldl_cons, ih]
      by_cases e : s = irr p
      · rw [if_pos e, List.filter_cons, if_pos (by simpa using e), List.append_assoc]; rfl
      · rw [if_neg e, List.filter_cons, if_neg (by simpa using e)]
  unfold symIndex
  rw [h]
  rfl

theorem mem_symIndex {n : ℕ} {irr : ℕ → ℕ} {s p : ℕ} : p ∈ symIndex n irr s ↔ p < n ∧ irr p = s := by
  rw [symIndex_eq, List.mem_filter, List.mem_range, decide_eq_true_iff, eq_comm]

theorem nodup_symIndex (n : ℕ) (irr : ℕ → ℕ) (s : ℕ) : (symIndex n irr s).Nodup := by
  rw [symIndex_eq]; exact List.nodup_range.filter _

/-- The position of an orbital in the list of its irrep. -/
def pos (n : ℕ) (irr : ℕ → ℕ) (p : ℕ) : ℕ := (symIndex n irr (irr p)).idxOf p

section
variable {n : ℕ} {irr : ℕ → ℕ}

theorem pos_lt {p : ℕ} (hp : p < n) : pos n irr p < (symIndex n irr (irr p)).length :=
  List.idxOf_lt_length_iff.2 (mem_symIndex.2 ⟨hp, rfl⟩)

theorem getD_pos {p : ℕ} (hp : p < n) : (symIndex n irr (irr p)).getD (pos n irr p) 0 = p := by
  rw [List.getD_eq_getElem _ _ (pos_lt hp)]
  exact List.getElem_idxOf (pos_lt hp)

theorem getD_mem {s q : ℕ} (hq : q < (symIndex n irr s).length) :
    (symIndex n irr s).getD q 0 < n ∧ irr ((symIndex n irr s).getD q 0) = s := by
  rw [List.getD_eq_getElem _ _ hq]
  exact mem_symIndex.1 (List.getElem_mem hq)

theorem pos_getD {s q : ℕ} (hq : q < (symIndex n irr s).length) : pos n irr ((symIndex n irr s).getD q 0) = q := by
  unfold pos
  rw [(getD_mem hq).2, List.getD_eq_getElem _ _ hq]
  exact (nodup_symIndex n irr s).idxOf_getElem q hq

theorem sum_irrep {B : Type*} [AddCommMonoid B] (s : ℕ) (f : ℕ → B) :
    (∑ j ∈ range n, if irr j = s then f j else 0) = ∑ q ∈ range (symIndex n irr s).length, f ((symIndex n irr s).getD q 0) := by
  rw [← Finset.sum_filter]
  refine Finset.sum_nbij' (fun j => (symIndex n irr s).idxOf j) (fun q => (symIndex n irr s).getD q 0) ?_ ?_ ?_ ?_ ?_
  · intro j hj
    rw [Finset.mem_filter, Finset.mem_range] at hj
    rw [Finset.mem_range, ← hj.2]
    exact pos_lt hj.1
  · intro q hq
    rw [Finset.mem_range] at hq
    rw [Finset.mem_filter, Finset.mem_range]
    exact getD_mem hq
  · intro j hj
    rw [Finset.mem_filter, Finset.mem_range] at hj
    rw [← hj.2]
    exact getD_pos hj.1
  · intro q hq
    rw [Finset.mem_range] at hq
    have := pos_getD hq
    unfold pos at this
    rwa [(getD_mem hq).2] at this
  · intro j hj
    rw [Finset.mem_filter, Finset.mem_range] at hj
    rw [← hj.2]
    exact congrArg f (getD_pos hj.1).symm
end

/-! ### The loops -/

/-- The step writes the elements of `W` where `C` holds and keeps the others. -/
def Wr {S ι : Type*} (get : S → ι → K) (W : ι → K) (C : ι → Prop) (step : S → S) : Prop :=
  ∀ s x, (C x → get (step s) x = W x) ∧ (¬ C x → get (step s) x = get s x)

theorem wr_list {S ι : Type*} {get : S → ι → K} {W : ι → K} {C : ℕ → ι → Prop} {body : S → ℕ → S} (l : List ℕ)
    (h : ∀ k ∈ l, Wr get W (C k) fun s => body s k) : Wr get W (fun x => ∃ k ∈ l, C k x) fun s => l.foldl body s := by
  induction l with
  | nil => exact fun s x => ⟨fun ⟨k, hk, _⟩ => absurd hk List.not_mem_nil, fun _ => rfl⟩
  | cons k l ih =>
    intro s x
    have e := ih (fun k hk => h k (List.mem_cons_of_mem _ hk)) (body s k) x
    have e' := h k List.mem_cons_self s x
    simp only [List.foldl_cons] at e ⊢
    by_cases c : ∃ k ∈ l, C k x
    · exact ⟨fun _ => e.1 c, fun n => absurd (c.imp fun k hk => ⟨List.mem_cons_of_mem _ hk.1, hk.2⟩) n⟩
    · rw [e.2 c]
      by_cases c' : C k x
      · exact ⟨fun _ => e'.1 c', fun n => absurd ⟨k, List.mem_cons_self, c'⟩ n⟩
      · refine ⟨fun ⟨k', hk, ck⟩ => ?_, fun _ => e'.2 c'⟩
        rcases List.mem_cons.1 hk with rfl | hk
        · exact absurd ck c'
        · exact absurd ⟨k', hk, ck⟩ c

theorem wr_keep {S ι : Type*} {get : S → ι → K} {body : S → ℕ → S} (h : ∀ s k x, get (body s k) x = get s x) (l : List ℕ) (s : S) (x : ι) :
    get (l.foldl body s) x = get s x := by
  induction l generalizing s with
  | nil => rfl
  | cons k l ih => rw [List.foldl_cons, ih, h]

variable [Field K]

/-- What `eig` gives for the block of an irrep. -/
def blockEig (n : ℕ) (irr : ℕ → ℕ) (eig : ℕ → Mat K → Eig K) (rdm : Mat K) (s : ℕ) : Eig K :=
  eig (symIndex n irr s).length (irrepBlock n irr rdm s)

section
variable {n pg : ℕ} {irr : ℕ → ℕ} (hpg : ∀ p < n, irr p < pg) (eig : ℕ → Mat K → Eig K) (rdm : Mat K)
include hpg

theorem fill_occ {p : ℕ} (hp : p < n) : (fill n pg irr eig rdm).occ p = (blockEig n irr eig rdm (irr p)).vals (pos n irr p) := by
  have w := wr_list (get := fun (s : Orbs K) (x : ℕ) => s.occ x) (W := fun p => (blockEig n irr eig rdm (irr p)).vals (pos n irr p))
    (C := fun sym x => ∃ p ∈ List.range (symIndex n irr sym).length, x = (symIndex n irr sym).getD p 0) (List.range pg)
    (body := fun (st : Orbs K) sym =>
      let idx := symIndex n irr sym
      let m := idx.length
      let out := eig m (irrepBlock n irr rdm sym)
      (List.range m).foldl (fun (st : Orbs K) p =>
        let st := { st with occ := fun k => if k = idx.getD p 0 then out.vals p else st.occ k }
        (List.range m).foldl (fun (st : Orbs K) q =>
          { st with left := put st.left (idx.getD q 0) (idx.getD p 0) (out.left q p)
                    right := put st.right (idx.getD q 0) (idx.getD p 0) (out.right q p) }) st) st) (fun sym _ => by
      refine wr_list _ fun p hp s x => ?_
      rw [List.mem_range] at hp
      have e := wr_keep (get := fun (s : Orbs K) (x : ℕ) => s.occ x) (body := fun (st : Orbs K) q =>
          { st with left := put st.left ((symIndex n irr sym).getD q 0) ((symIndex n irr sym).getD p 0) ((blockEig n irr eig rdm sym).left q p)
                    right := put st.right ((symIndex n irr sym).getD q 0) ((symIndex n irr sym).getD p 0) ((blockEig n irr eig rdm sym).right q p) })
        (fun _ _ _ => rfl) (List.range (symIndex n irr sym).length)
        { s with occ := fun k => if k = (symIndex n irr sym).getD p 0 then (blockEig n irr eig rdm sym).vals p else s.occ k } x
      refine ⟨fun c => e.trans ?_, fun c => e.trans (if_neg c)⟩
      simp only
      rw [if_pos c, c, pos_getD hp, (getD_mem hp).2])
  exact (w _ p).1 ⟨irr p, List.mem_range.2 (hpg p hp), pos n irr p, List.mem_range.2 (pos_lt hp), (getD_pos hp).symm⟩

/-- The elements of the arrays of vectors. -/
theorem fill_vectors {i j : ℕ} (hi : i < n) (hj : j < n) :
    (fill n pg irr eig rdm).left i j = (if irr i = irr j then (blockEig n irr eig rdm (irr j)).left (pos n irr i) (pos n irr j) else 0) ∧
    (fill n pg irr eig rdm).right i j = (if irr i = irr j then (blockEig n irr eig rdm (irr j)).right (pos n irr i) (pos n irr j) else 0) := by
  have key : ∀ (pick : Orbs K → Mat K) (of : Eig K → Mat K), (∀ (s : Orbs K) f, pick { s with occ := f } = pick s) →
      (∀ (s : Orbs K) (o : Eig K) a b q p, pick { s with left := put s.left a b (o.left q p), right := put s.right a b (o.right q p) } =
        put (pick s) a b (of o q p)) → pick ⟨fun _ => 0, fun _ _ => 0, fun _ _ => 0⟩ = (fun _ _ => 0) →
      pick (fill n pg irr eig rdm) i j = if irr i = irr j then of (blockEig n irr eig rdm (irr j)) (pos n irr i) (pos n irr j) else 0 := by
    intro pick of h₁ h₂ h₃
    have w := wr_list (get := fun (s : Orbs K) (x : ℕ × ℕ) => pick s x.1 x.2)
      (W := fun x => of (blockEig n irr eig rdm (irr x.2)) (pos n irr x.1) (pos n irr x.2))
      (C := fun sym x => ∃ p ∈ List.range (symIndex n irr sym).length, ∃ q ∈ List.range (symIndex n irr sym).length,
        x = ((symIndex n irr sym).getD q 0, (symIndex n irr sym).getD p 0)) (List.range pg)
      (body := fun (st : Orbs K) sym =>
        let idx := symIndex n irr sym
        let m := idx.length
        let out := eig m (irrepBlock n irr rdm sym)
        (List.range m).foldl (fun (st : Orbs K) p =>
          let st := { st with occ := fun k => if k = idx.getD p 0 then out.vals p else st.occ k }
          (List.range m).foldl (fun (st : Orbs K) q =>
            { st with left := put st.left (idx.getD q 0) (idx.getD p 0) (out.left q p)
                      right := put st.right (idx.getD q 0) (idx.getD p 0) (out.right q p) }) st) st) (fun sym _ => by
        refine wr_list _ fun p hp s x => ?_
        rw [List.mem_range] at hp
        have e := wr_list (get := fun (s : Orbs K) (x : ℕ × ℕ) => pick s x.1 x.2)
          (W := fun x => of (blockEig n irr eig rdm (irr x.2)) (pos n irr x.1) (pos n irr x.2))
          (C := fun q x => x = ((symIndex n irr sym).getD q 0, (symIndex n irr sym).getD p 0))
          (body := fun (st : Orbs K) q =>
            { st with left := put st.left ((symIndex n irr sym).getD q 0) ((symIndex n irr sym).getD p 0) ((blockEig n irr eig rdm sym).left q p)
                      right := put st.right ((symIndex n irr sym).getD q 0) ((symIndex n irr sym).getD p 0) ((blockEig n irr eig rdm sym).right q p) })
          (List.range (symIndex n irr sym).length) (fun q hq s x => by
            rw [List.mem_range] at hq
            simp only [h₂, put]
            refine ⟨fun c => ?_, fun c => if_neg fun d => c (Prod.ext d.1 d.2)⟩
            subst c
            rw [if_pos ⟨rfl, rfl⟩, pos_getD hp, pos_getD hq, (getD_mem hp).2])
          { s with occ := fun k => if k = (symIndex n irr sym).getD p 0 then (blockEig n irr eig rdm sym).vals p else s.occ k } x
        exact ⟨e.1, fun c => (e.2 c).trans (by simp only [h₁])⟩)
    have e := w ⟨fun _ => 0, fun _ _ => 0, fun _ _ => 0⟩ (i, j)
    split
    · rename_i h
      refine e.1 ⟨irr j, List.mem_range.2 (hpg j hj), pos n irr j, List.mem_range.2 (pos_lt hj), pos n irr i, ?_, ?_⟩
      · rw [← h]; exact List.mem_range.2 (pos_lt hi)
      · have g := getD_pos (irr := irr) hi
        rw [h] at g
        rw [g, getD_pos hj]
    · rename_i h
      refine (e.2 fun ⟨s, _, p, hp, q, hq, c⟩ => h ?_).trans ?_
      · rw [List.mem_range] at hp hq
        have c₁ := congrArg Prod.fst c
        have c₂ := congrArg Prod.snd c
        simp only at c₁ c₂
        rw [c₁, c₂, (getD_mem hp).2, (getD_mem hq).2]
      · simp only [h₃]
  exact ⟨key (fun s => s.left) (fun o => o.left) (fun _ _ => rfl) (fun _ _ _ _ _ _ => rfl) rfl,
    key (fun s => s.right) (fun o => o.right) (fun _ _ => rfl) (fun _ _ _ _ _ _ => rfl) rfl⟩

variable {eig rdm} (hs : SymmetryAdapted n irr rdm) (he : ∀ s, Returns (symIndex n irr s).length (irrepBlock n irr rdm s) (eig (symIndex n irr s).length (irrepBlock n irr rdm s)))
include hs he

theorem fill_right : RightVectors n rdm (fill n pg irr eig rdm).occ (fill n pg irr eig rdm).right := by
  intro c hc i hi
  have e : ∀ j ∈ range n, rdm i j * (fill n pg irr eig rdm).right j c =
      if irr j = irr c then rdm i j * (blockEig n irr eig rdm (irr c)).right (pos n irr j) (pos n irr c) else 0 := fun j hj => by
    rw [(fill_vectors hpg eig rdm (Finset.mem_range.1 hj) hc).2, mul_ite, mul_zero]
  rw [Finset.sum_congr rfl e, fill_occ hpg eig rdm hc, (fill_vectors hpg eig rdm hi hc).2, sum_irrep (irr c)]
  split
  · rename_i h
    have r : ∑ q ∈ range (symIndex n irr (irr c)).length, rdm ((symIndex n irr (irr c)).getD (pos n irr i) 0) ((symIndex n irr (irr c)).getD q 0) *
        (blockEig n irr eig rdm (irr c)).right q (pos n irr c) = _ := (he (irr c)).1 (pos n irr c) (pos_lt hc) (pos n irr i) (by rw [← h]; exact pos_lt hi)
    have g := getD_pos (irr := irr) hi
    rw [h] at g
    rw [g] at r
    refine Eq.trans (Finset.sum_congr rfl fun q hq => ?_) r
    rw [pos_getD (Finset.mem_range.1 hq)]
  · rename_i h
    rw [mul_zero]
    refine Finset.sum_eq_zero fun q hq => ?_
    have m := getD_mem (Finset.mem_range.1 hq)
    rw [hs i hi _ m.1 (by rw [m.2]; exact h), zero_mul]

theorem fill_left : LeftVectors n rdm (fill n pg irr eig rdm).occ (fill n pg irr eig rdm).left := by
  intro c hc j hj
  have e : ∀ i ∈ range n, (fill n pg irr eig rdm).left i c * rdm i j =
      if irr i = irr c then (blockEig n irr eig rdm (irr c)).left (pos n irr i) (pos n irr c) * rdm i j else 0 := fun i hi => by
    rw [(fill_vectors hpg eig rdm (Finset.mem_range.1 hi) hc).1, ite_mul, zero_mul]
  rw [Finset.sum_congr rfl e, fill_occ hpg eig rdm hc, (fill_vectors hpg eig rdm hj hc).1,
    sum_irrep (irr c) (fun i => (blockEig n irr eig rdm (irr c)).left (pos n irr i) (pos n irr c) * rdm i j)]
  split
  · rename_i h
    have r : ∑ q ∈ range (symIndex n irr (irr c)).length, (blockEig n irr eig rdm (irr c)).left q (pos n irr c) *
        rdm ((symIndex n irr (irr c)).getD q 0) ((symIndex n irr (irr c)).getD (pos n irr j) 0) = _ := (he (irr c)).2.1 (pos n irr c) (pos_lt hc) (pos n irr j) (by rw [← h]; exact pos_lt hj)
    have g := getD_pos (irr := irr) hj
    rw [h] at g
    rw [g] at r
    refine Eq.trans (Finset.sum_congr rfl fun q hq => ?_) r
    rw [pos_getD (Finset.mem_range.1 hq)]
  · rename_i h
    rw [mul_zero]
    refine Finset.sum_eq_zero fun q hq => ?_
    have m := getD_mem (Finset.mem_range.1 hq)
    rw [hs _ m.1 j hj (by rw [m.2]; exact fun q => h q.symm), mul_zero]

omit hs he in
/-- The product of a left and a right vector of the same irrep. -/
theorem fill_dot {p q : ℕ} (hp : p < n) (hq : q < n) (h : irr p = irr q) :
    ∑ i ∈ range n, (fill n pg irr eig rdm).left i p * (fill n pg irr eig rdm).right i q =
      ∑ k ∈ range (symIndex n irr (irr q)).length,
        (blockEig n irr eig rdm (irr q)).left k (pos n irr p) * (blockEig n irr eig rdm (irr q)).right k (pos n irr q) := by
  have e : ∀ i ∈ range n, (fill n pg irr eig rdm).left i p * (fill n pg irr eig rdm).right i q =
      if irr i = irr q then (blockEig n irr eig rdm (irr q)).left (pos n irr i) (pos n irr p) *
        (blockEig n irr eig rdm (irr q)).right (pos n irr i) (pos n irr q) else 0 := fun i hi => by
    rw [Finset.mem_range] at hi
    rw [(fill_vectors hpg eig rdm hi hp).1, (fill_vectors hpg eig rdm hi hq).2, h]
    split
    · rfl
    · rw [zero_mul]
  rw [Finset.sum_congr rfl e, sum_irrep (irr q) (fun i => (blockEig n irr eig rdm (irr q)).left (pos n irr i) (pos n irr p) *
        (blockEig n irr eig rdm (irr q)).right (pos n irr i) (pos n irr q))]
  refine Finset.sum_congr rfl fun k hk => ?_
  rw [pos_getD (Finset.mem_range.1 hk)]

omit hs he in
/-- Vectors of different irreps are orthogonal. -/
theorem fill_other {p q : ℕ} (hp : p < n) (hq : q < n) (h : irr p ≠ irr q) :
    ∑ i ∈ range n, (fill n pg irr eig rdm).left i p * (fill n pg irr eig rdm).right i q = 0 := by
  refine Finset.sum_eq_zero fun i hi => ?_
  rw [Finset.mem_range] at hi
  rw [(fill_vectors hpg eig rdm hi hp).1, (fill_vectors hpg eig rdm hi hq).2]
  split
  · rw [if_neg fun e => h (by rw [← e]; exact Eq.symm (by assumption)), mul_zero]
  · rw [zero_mul]

end

/-! ### Eigenvectors -/

theorem orthogonal_one {n : ℕ} {A : Mat K} {x : ℕ → K} {L : Mat K} (hl : LeftVectors n A x L) {w : ℕ → K} {y : K}
    (hr : ∀ i < n, ∑ j ∈ range n, A i j * w j = y * w i) {p : ℕ} (hp : p < n) (h : x p ≠ y) : ∑ i ∈ range n, L i p * w i = 0 := by
  have e₁ : ∑ i ∈ range n, ∑ j ∈ range n, L i p * A i j * w j = x p * ∑ i ∈ range n, L i p * w i := by
    rw [Finset.sum_comm, Finset.mul_sum]
    refine Finset.sum_congr rfl fun j hj => ?_
    rw [← Finset.sum_mul, hl p hp j (Finset.mem_range.1 hj), mul_assoc]
  have e₂ : ∑ i ∈ range n, ∑ j ∈ range n, L i p * A i j * w j = y * ∑ i ∈ range n, L i p * w i := by
    rw [Finset.mul_sum]
    refine Finset.sum_congr rfl fun i hi => ?_
    simp only [mul_assoc]
    rw [← Finset.mul_sum, hr i (Finset.mem_range.1 hi)]
    ring
  have e : (x p - y) * ∑ i ∈ range n, L i p * w i = 0 := by linear_combination e₂ - e₁
  exact (mul_eq_zero.1 e).resolve_left (sub_ne_zero.2 h)

theorem orthogonal {n : ℕ} {A : Mat K} {x : ℕ → K} {L R : Mat K} (hl : LeftVectors n A x L) (hr : RightVectors n A x R) {p q : ℕ}
    (hp : p < n) (hq : q < n) (h : x p ≠ x q) : ∑ i ∈ range n, L i p * R i q = 0 :=
  orthogonal_one hl (hr q hq) hp h

theorem pos_inj {n : ℕ} {irr : ℕ → ℕ} {p q : ℕ} (hp : p < n) (hq : q < n) (h : irr p = irr q) (e : pos n irr p = pos n irr q) : p = q := by
  have g := getD_pos (irr := irr) hp
  rw [h, e, getD_pos hq] at g
  exact g.symm

/-- The other order of the matrices of the vectors. -/
theorem biorthonormal_comm {n : ℕ} {L R : Mat K} (h : Biorthonormal n L R) {i j : ℕ} (hi : i < n) (hj : j < n) :
    ∑ p ∈ range n, R i p * L j p = if i = j then 1 else 0 := by
  let A : Matrix (Fin n) (Fin n) K := fun p i => L i p
  let B : Matrix (Fin n) (Fin n) K := fun i q => R i q
  have e : A * B = 1 := by
    funext p q
    rw [Matrix.mul_apply, Matrix.one_apply]
    have := h p p.2 q q.2
    rw [Finset.sum_range] at this
    rw [show (∑ j, A p j * B j q) = ∑ i : Fin n, L i p * R i q from rfl, this]
    simp only [Fin.ext_iff]
  have e₀ : B * A = 1 := mul_eq_one_comm.1 e
  have e' := congrFun (congrFun e₀ ⟨i, hi⟩) ⟨j, hj⟩
  rw [Matrix.mul_apply, Matrix.one_apply] at e'
  rw [Finset.sum_range]
  rw [show (∑ p : Fin n, R i p * L j p) = ∑ k : Fin n, B ⟨i, hi⟩ k * A k ⟨j, hj⟩ from rfl, e']
  simp only [Fin.mk.injEq]

/-- Expansion in the vectors. -/
theorem resolve {n : ℕ} {L R : Mat K} (h : Biorthonormal n L R) {k : ℕ} (hk : k < n) (f : ℕ → K) :
    ∑ p ∈ range n, R k p * ∑ i ∈ range n, L i p * f i = f k := by
  simp only [Finset.mul_sum]
  rw [Finset.sum_comm]
  have e : ∀ i ∈ range n, ∑ p ∈ range n, R k p * (L i p * f i) = if k = i then f i else 0 := fun i hi => by
    have := biorthonormal_comm h hk (Finset.mem_range.1 hi)
    simp only [← mul_assoc]
    rw [← Finset.sum_mul, this, ite_mul, one_mul, zero_mul]
  rw [Finset.sum_congr rfl e, Finset.sum_ite_eq, if_pos (Finset.mem_range.2 hk)]

/-- A vector of a matrix without elements between the first orbitals and the others does not mix them. -/
theorem no_mixing {n no : ℕ} {A : Mat K} {x : ℕ → K} {L R : Mat K} (hA : ∀ i < n, ∀ j < n, (i < no ↔ ¬ j < no) → A i j = 0)
    (hl : LeftVectors n A x L) (hr : RightVectors n A x R) (hb : Biorthonormal n L R) {c : ℕ} (hc : c < n)
    (h : ∀ p < n, p ≠ c → x p ≠ x c ∨ ∀ i < n, L i p * R i c = 0) :
    (∀ i < n, no ≤ i → R i c = 0) ∨ ∀ i < n, i < no → R i c = 0 := by
  let w : ℕ → K := fun i => if i < no then R i c else 0
  have hw : ∀ i < n, ∑ j ∈ range n, A i j * w j = x c * w i := fun i hi => by
    by_cases ci : i < no
    · simp only [w, if_pos ci]
      rw [← hr c hc i hi]
      refine Finset.sum_congr rfl fun j hj => ?_
      by_cases cj : j < no
      · rw [if_pos cj]
      · rw [if_neg cj, hA i hi j (Finset.mem_range.1 hj) (by simp [ci, cj]), zero_mul, zero_mul]
    · simp only [w, if_neg ci, mul_zero]
      refine Finset.sum_eq_zero fun j hj => ?_
      by_cases cj : j < no
      · rw [hA i hi j (Finset.mem_range.1 hj) (by simp [ci, cj]), zero_mul]
      · rw [if_neg cj, mul_zero]
  have o : ∀ p < n, p ≠ c → ∑ i ∈ range n, L i p * w i = 0 := fun p hp ne => by
    rcases h p hp ne with q | q
    · exact orthogonal_one hl hw hp q
    · refine Finset.sum_eq_zero fun i hi => ?_
      simp only [w]
      split
      · exact q i (Finset.mem_range.1 hi)
      · exact mul_zero _
  have e : ∀ k < n, R k c * ∑ i ∈ range n, L i c * w i = w k := fun k hk => by
    rw [← resolve hb hk w]
    refine (Finset.sum_eq_single_of_mem (f := fun p => R k p * ∑ i ∈ range n, L i p * w i) c (Finset.mem_range.2 hc) fun p hp ne => ?_).symm
    rw [o p (Finset.mem_range.1 hp) ne, mul_zero]
  by_cases z : ∑ i ∈ range n, L i c * w i = 0
  · refine Or.inr fun i hi ci => ?_
    have := e i hi
    rw [z, mul_zero] at this
    simp only [w, if_pos ci] at this
    exact this.symm
  · refine Or.inl fun i hi ci => ?_
    have := e i hi
    simp only [w, if_neg (Nat.not_lt.2 ci)] at this
    exact (mul_eq_zero.1 this).resolve_right z

end Ccpy.NatOrbs
