import Verif.Model.Blocks
import Verif.Spec.Blocks
import Verif.Lemmas.Argsort
import Mathlib.Data.List.Nodup
import Mathlib.Data.List.Range
import Mathlib.Algebra.Order.Ring.Int
import Mathlib.Tactic.Linarith

set_option linter.unusedSimpArgs false

namespace Ccpy.Blocks
open Spec

theorem mem_loop {lo hi x : ℤ} : x ∈ loop lo hi ↔ lo ≤ x ∧ x ≤ hi := by
  simp only [loop, List.mem_map, List.mem_range]
  constructor
  · rintro ⟨i, hi', rfl⟩; omega
  · rintro ⟨h1, h2⟩
    exact ⟨(x - lo).toNat, by omega, by omega⟩

theorem nodup_loop (lo hi : ℤ) : (loop lo hi).Nodup := by
  refine List.Nodup.map (fun a b h => ?_) List.nodup_range
  simpa using h

theorem nodup_flatMap_loop {β : Type*} {l : List ℤ} (hl : l.Nodup) {f : ℤ → List β}
    (hf : ∀ p ∈ l, (f p).Nodup) (hd : ∀ p q x, x ∈ f p → x ∈ f q → p = q) :
    (l.flatMap f).Nodup := by
  rw [List.nodup_flatMap]
  refine ⟨hf, ?_⟩
  refine List.Pairwise.imp (fun {p q} hpq => ?_) hl
  intro x hx hy
  exact hpq (hd p q x hx hy)

theorem foldl_table (tuples : List (List ℤ)) (hn : tuples.Nodup) (f : List ℤ → ℕ) (k : ℕ) (t : List ℤ) :
    let res := (tuples.foldl (fun st t => (Function.update st.1 t st.2, st.2 + 1)) (f, k)).1 t
    (t ∉ tuples → res = f t) ∧ (∀ i, tuples[i]? = some t → res = k + i) := by
  induction tuples generalizing f k with
  | nil => simp
  | cons u us ih =>
    obtain ⟨hu, hus⟩ := List.nodup_cons.mp hn
    have := ih hus (Function.update f u k) (k + 1)
    simp only [List.foldl_cons]
    refine ⟨fun ht => ?_, fun i hi => ?_⟩
    · rw [this.1 (fun h => ht (List.mem_cons_of_mem _ h))]
      have : t ≠ u := fun h => ht (h ▸ List.mem_cons_self ..)
      simp [Function.update, this]
    · cases i with
      | zero =>
        simp at hi; subst hi
        rw [this.1 hu]; simp
      | succ i =>
        simp at hi
        rw [this.2 i hi]; omega

/-- The filled table numbers the visited tuples. -/
theorem fillTable_numbers (dims : List ℤ) (tuples : List (List ℤ)) (hn : tuples.Nodup)
    (hb : ∀ t ∈ tuples, ∀ x ∈ t.zip dims, 1 ≤ x.1 ∧ x.1 ≤ x.2) :
    ∃ table, fillTable dims tuples = some table ∧
      Numbers table (· ∈ tuples) tuples.length := by
  have hall : (tuples.all fun t => (t.zip dims).all fun x => 1 ≤ x.1 ∧ x.1 ≤ x.2) = true := by
    simp only [List.all_eq_true, decide_eq_true_eq]
    exact hb
  rw [fillTable, if_pos hall]
  refine ⟨_, rfl, ?_⟩
  have key := fun t => foldl_table tuples hn (fun _ => 0) 1 t
  refine ⟨fun t => ?_, fun t ht => ?_, fun t u ht hu h => ?_, fun k h1 h2 => ?_⟩
  · constructor
    · intro h ht
      obtain ⟨i, hi, rfl⟩ := List.mem_iff_getElem.mp ht
      have := (key tuples[i]).2 i (by simp [hi])
      omega
    · intro h; simpa using (key t).1 h
  · obtain ⟨i, hi, rfl⟩ := List.mem_iff_getElem.mp ht
    have := (key tuples[i]).2 i (by simp [hi])
    omega
  · obtain ⟨i, hi, rfl⟩ := List.mem_iff_getElem.mp ht
    obtain ⟨j, hj, rfl⟩ := List.mem_iff_getElem.mp hu
    have h1 := (key tuples[i]).2 i (by simp [hi])
    have h2 := (key tuples[j]).2 j (by simp [hj])
    have : i = j := by omega
    subst this; rfl
  · have hk : k - 1 < tuples.length := by omega
    refine ⟨tuples[k - 1], List.getElem_mem _, ?_⟩
    have := (key tuples[k - 1]).2 (k - 1) (by simp [hk])
    omega

theorem _root_.Ccpy.Spec.Numbers.congr {τ : Type*} {table : τ → ℕ} {S S' : τ → Prop} {n : ℕ} (h : Numbers table S n)
    (hS : ∀ t, S t ↔ S' t) : Numbers table S' n := by
  have : S = S' := funext fun t => propext (hS t)
  rwa [← this]

/-- Combinations of bound pairs that `get_index_table` distinguishes. -/
theorem nodup_tuples4 (r1 r2 r3 r4 : ℤ × ℤ) : (tuples4 r1 r2 r3 r4).Nodup := by
  unfold tuples4
  split_ifs <;>
  · refine nodup_flatMap_loop (nodup_loop _ _) (fun p _ => nodup_flatMap_loop (nodup_loop _ _)
      (fun q _ => nodup_flatMap_loop (nodup_loop _ _)
        (fun r _ => List.Nodup.map (fun a b h => by simpa using h) (nodup_loop _ _)) ?_) ?_) ?_
    all_goals
      intro p q x hp hq
      simp only [List.mem_flatMap, List.mem_map] at hp hq
      aesop

theorem nodup_tuples3 (r1 r2 r3 : ℤ × ℤ) : (tuples3 r1 r2 r3).Nodup := by
  unfold tuples3
  split_ifs <;>
  · refine nodup_flatMap_loop (nodup_loop _ _) (fun p _ => nodup_flatMap_loop (nodup_loop _ _)
      (fun q _ => List.Nodup.map (fun a b h => by simpa using h) (nodup_loop _ _)) ?_) ?_
    all_goals
      intro p q x hp hq
      simp only [List.mem_flatMap, List.mem_map] at hp hq
      aesop

theorem nodup_tuples2 (r1 r2 : ℤ × ℤ) : (tuples2 r1 r2).Nodup := by
  unfold tuples2
  split_ifs <;>
  · refine nodup_flatMap_loop (nodup_loop _ _)
      (fun q _ => List.Nodup.map (fun a b h => by simpa using h) (nodup_loop _ _)) ?_
    all_goals
      intro p q x hp hq
      simp only [List.mem_map] at hp hq
      aesop

theorem mem_tuples4 {r1 r2 r3 r4 : ℤ × ℤ} (h : Supported4 r1 r2 r3 r4) (t : List ℤ) :
    t ∈ tuples4 r1 r2 r3 r4 ↔ InRanges [r1, r2, r3, r4] 0 t := by
  obtain ⟨h1, h⟩ := h
  have hn : ¬ r1.1 < 0 := by omega
  constructor
  · intro ht
    rcases h with ⟨h2, h3, h4⟩ | ⟨h2, h3, h4⟩ | ⟨h2, h3, h4⟩ | ⟨h2, h3, h4⟩ <;>
    · simp only [tuples4, h1, h2, h3, h4, hn, not_lt_of_gt h2, not_lt_of_gt h3, not_lt_of_gt h4,
        false_and, and_false, true_and, and_true, if_false, if_true, List.mem_flatMap,
        List.mem_map, mem_loop] at ht
      obtain ⟨p, hp, q, hq, r, hr, s, hs, rfl⟩ := ht
      simp only [InRanges, lowest, h2, h3, h4, hn, not_lt_of_gt h2, not_lt_of_gt h3,
        not_lt_of_gt h4, if_true, if_false]
      exact ⟨hp.1, hp.2, hq.1, hq.2, hr.1, hr.2, hs.1, hs.2, trivial⟩
  · intro ht
    match t, ht with
    | [p, q, r, s], ht =>
      rcases h with ⟨h2, h3, h4⟩ | ⟨h2, h3, h4⟩ | ⟨h2, h3, h4⟩ | ⟨h2, h3, h4⟩ <;>
      · simp only [InRanges, lowest, h2, h3, h4, hn, not_lt_of_gt h2, not_lt_of_gt h3,
          not_lt_of_gt h4, if_true, if_false] at ht
        obtain ⟨a1, a2, a3, a4, a5, a6, a7, a8, -⟩ := ht
        simp only [tuples4, h1, h2, h3, h4, hn, not_lt_of_gt h2, not_lt_of_gt h3, not_lt_of_gt h4,
          false_and, and_false, true_and, and_true, if_false, if_true, List.mem_flatMap,
          List.mem_map, mem_loop]
        exact ⟨p, ⟨a1, a2⟩, q, ⟨a3, a4⟩, r, ⟨a5, a6⟩, s, ⟨a7, a8⟩, rfl⟩

theorem mem_tuples3 {r1 r2 r3 : ℤ × ℤ} (h : Supported3 r1 r2 r3) (t : List ℤ) :
    t ∈ tuples3 r1 r2 r3 ↔ InRanges [r1, r2, r3] 0 t := by
  obtain ⟨h1, h⟩ := h
  have hn : ¬ r1.1 < 0 := by omega
  constructor
  · intro ht
    rcases h with ⟨h2, h3⟩ | ⟨h2, h3⟩ | ⟨h2, h3⟩ | ⟨h2, h3⟩ <;>
    · simp only [tuples3, h1, h2, h3, not_lt_of_gt h2, not_lt_of_gt h3,
        false_and, and_false, true_and, and_true, if_false, if_true, List.mem_flatMap,
        List.mem_map, mem_loop] at ht
      obtain ⟨p, hp, q, hq, r, hr, rfl⟩ := ht
      simp only [InRanges, lowest, h2, h3, hn, not_lt_of_gt h2, not_lt_of_gt h3, if_true, if_false]
      exact ⟨hp.1, hp.2, hq.1, hq.2, hr.1, hr.2, trivial⟩
  · intro ht
    match t, ht with
    | [p, q, r], ht =>
      rcases h with ⟨h2, h3⟩ | ⟨h2, h3⟩ | ⟨h2, h3⟩ | ⟨h2, h3⟩ <;>
      · simp only [InRanges, lowest, h2, h3, hn, not_lt_of_gt h2, not_lt_of_gt h3,
          if_true, if_false] at ht
        obtain ⟨a1, a2, a3, a4, a5, a6, -⟩ := ht
        simp only [tuples3, h1, h2, h3, not_lt_of_gt h2, not_lt_of_gt h3,
          false_and, and_false, true_and, and_true, if_false, if_true, List.mem_flatMap,
          List.mem_map, mem_loop]
        exact ⟨p, ⟨a1, a2⟩, q, ⟨a3, a4⟩, r, ⟨a5, a6⟩, rfl⟩

theorem mem_tuples2 {r1 r2 : ℤ × ℤ} (h : Supported2 r1 r2) (t : List ℤ) :
    t ∈ tuples2 r1 r2 ↔ InRanges [r1, r2] 0 t := by
  obtain ⟨h1, h⟩ := h
  have hn : ¬ r1.1 < 0 := by omega
  have h : r2.1 < 0 ∨ 0 < r2.1 := by omega
  constructor
  · intro ht
    rcases h with h2 | h2 <;>
    · simp only [tuples2, h1, h2, not_lt_of_gt h2,
        false_and, and_false, true_and, and_true, if_false, if_true, List.mem_flatMap,
        List.mem_map, mem_loop] at ht
      obtain ⟨p, hp, q, hq, rfl⟩ := ht
      simp only [InRanges, lowest, h2, hn, not_lt_of_gt h2, if_true, if_false]
      exact ⟨hp.1, hp.2, hq.1, hq.2, trivial⟩
  · intro ht
    match t, ht with
    | [p, q], ht =>
      rcases h with h2 | h2 <;>
      · simp only [InRanges, lowest, h2, hn, not_lt_of_gt h2, if_true, if_false] at ht
        obtain ⟨a1, a2, a3, a4, -⟩ := ht
        simp only [tuples2, h1, h2, not_lt_of_gt h2,
          false_and, and_false, true_and, and_true, if_false, if_true, List.mem_flatMap,
          List.mem_map, mem_loop]
        exact ⟨p, ⟨a1, a2⟩, q, ⟨a3, a4⟩, rfl⟩

/-! ### Lengths -/

theorem length_loop (lo hi : ℤ) : (loop lo hi).length = (hi + 1 - lo).toNat := by simp [loop]

theorem loop_cons {lo hi : ℤ} (h : lo ≤ hi) : loop lo hi = lo :: loop (lo + 1) hi := by
  obtain ⟨k, hk⟩ : ∃ k : ℕ, (hi + 1 - lo).toNat = k + 1 := ⟨(hi - lo).toNat, by omega⟩
  have hk' : (hi + 1 - (lo + 1)).toNat = k := by omega
  simp only [loop, hk, hk', List.range_succ_eq_map, List.map_cons, List.map_map]
  congr 1
  · simp
  · apply List.map_congr_left
    intro i _
    simp only [Function.comp]
    push_cast
    ring

theorem loop_nil {lo hi : ℤ} (h : hi < lo) : loop lo hi = [] := by
  have : (hi + 1 - lo).toNat = 0 := by omega
  simp [loop, this]

/-- Number of turns of `do p = lo, hi1; do q = p + o, hi2`. -/
theorem length_pairs (m : ℕ) (lo hi1 o hi2 : ℤ) (e : ℕ) (hm : hi1 = lo + m - 1)
    (he : hi2 + 1 - o - hi1 = e) :
    ((loop lo hi1).map fun p => (loop (p + o) hi2).length).sum * 2 + m = 2 * m * e + m * m := by
  induction m generalizing lo with
  | zero => rw [loop_nil (by omega)]; simp
  | succ m ih =>
    rw [loop_cons (by omega), List.map_cons, List.sum_cons, length_loop]
    have := ih (lo + 1) (by omega)
    have e1 : (hi2 + 1 - (lo + o)).toNat = e + m := by omega
    rw [e1]
    linarith

/-- Number of turns of `do p = lo, n-2; do q = p + 1, n-1; do r = q + 1, n`. -/
theorem length_triples (m : ℕ) (lo n : ℤ) (hm : n - 2 = lo + m - 1) :
    ((loop lo (n - 2)).map fun p =>
      ((loop (p + 1) (n - 1)).map fun q => (loop (q + 1) n).length).sum).sum * 6
      = m * (m + 1) * (m + 2) := by
  induction m generalizing lo with
  | zero => rw [loop_nil (by omega)]; simp
  | succ m ih =>
    rw [loop_cons (by omega), List.map_cons, List.sum_cons]
    have := ih (lo + 1) (by omega)
    have h2 := length_pairs (m + 1) (lo + 1) (n - 1) 1 n 1 (by omega) (by omega)
    nlinarith

theorem sum_const_mul (l : List ℤ) (f : ℤ → ℕ) (c : ℕ) :
    (l.map fun p => f p * c).sum = (l.map f).sum * c := by
  induction l with
  | nil => simp
  | cons a l ih => simp [ih, Nat.add_mul]

/-- Number of turns of a loop pair `p`, `q` with `q` bounded from below by `p`. -/
def pairCount (r1 r2 : ℤ × ℤ) : ℕ :=
  ((loop r1.1 r1.2).map fun p => (r2.2 + 1 - (p - r2.1)).toNat).sum

theorem pairCount_eq (m : ℕ) (lo hi1 o hi2 : ℤ) (e : ℕ) (hm : hi1 = lo + m - 1)
    (he : hi2 + 1 - o - hi1 = e) :
    pairCount (lo, hi1) (-o, hi2) * 2 + m = 2 * m * e + m * m := by
  have := length_pairs m lo hi1 o hi2 e hm he
  simpa [pairCount, length_loop, Int.sub_neg] using this

theorem _root_.Ccpy.Spec.PairPattern.count {n : ℕ} {r1 r2 : ℤ × ℤ} {c : ℕ} (h : PairPattern n r1 r2 c) :
    pairCount r1 r2 = c := by
  have key1 : ∀ k : ℕ, 2 ≤ n → pairCount r1 r2 * 2 + (n - 2) = 2 * (n - 2) * 1 + (n - 2) * (n - 2) →
      pairCount r1 r2 = (n - 1) * (n - 2) / 2 := by
    intro _ hn h
    obtain ⟨m, rfl⟩ : ∃ m, n = m + 2 := ⟨n - 2, by omega⟩
    simp only [Nat.add_sub_cancel, show m + 2 - 1 = m + 1 by omega] at *
    have : (m + 1) * m = pairCount r1 r2 * 2 := by nlinarith
    rw [this]; omega
  have small : ∀ hi : ℤ, ∀ r2 : ℤ × ℤ, hi < r1.1 → r1.2 = hi → pairCount r1 r2 = 0 := by
    intro hi r2 h1 h2
    simp [pairCount, loop_nil (by omega : r1.2 < r1.1)]
  have zero1 : n < 2 → (n - 1) * (n - 2) / 2 = 0 := by
    intro hn; rcases (by omega : n = 0 ∨ n = 1) with rfl | rfl <;> rfl
  rcases h with ⟨rfl, rfl, rfl⟩ | ⟨rfl, rfl, rfl⟩ | ⟨rfl, rfl, rfl⟩ | ⟨rfl, rfl, rfl⟩
  · rcases Nat.lt_or_ge n 1 with hn | hn
    · have : n = 0 := by omega
      subst this
      simp [pairCount, loop]
    · obtain ⟨m, rfl⟩ : ∃ m, n = m + 1 := ⟨n - 1, by omega⟩
      have h := pairCount_eq m 1 ((m + 1 : ℕ) - 1) 1 (m + 1 : ℕ) 1 (by push_cast; ring)
        (by push_cast; ring)
      have : (m + 1) * (m + 1 - 1) = pairCount (1, ((m + 1 : ℕ) : ℤ) - 1) (-1, (m + 1 : ℕ)) * 2 := by
        simp only [Nat.add_sub_cancel]; nlinarith
      rw [this]; omega
  · rcases Nat.lt_or_ge n 2 with hn | hn
    · rw [small (n - 2) _ (by simp; omega) rfl, zero1 hn]
    · exact key1 0 hn (pairCount_eq (n - 2) 1 (n - 2) 1 (n - 1) 1 (by omega) (by omega))
  · rcases Nat.lt_or_ge n 2 with hn | hn
    · rw [small (n - 2) _ (by simp; omega) rfl, zero1 hn]
    · exact key1 0 hn (pairCount_eq (n - 2) 1 (n - 2) 2 n 1 (by omega) (by omega))
  · rcases Nat.lt_or_ge n 2 with hn | hn
    · rw [small (n - 1) _ (by simp; omega) rfl, zero1 hn]
    · exact key1 0 hn (pairCount_eq (n - 2) 2 (n - 1) 1 n 1 (by omega) (by omega))

theorem _root_.Ccpy.Spec.PairPattern.signs {n : ℕ} {r1 r2 : ℤ × ℤ} {c : ℕ} (h : PairPattern n r1 r2 c) :
    0 < r1.1 ∧ r2.1 < 0 ∧ r1.2 ≤ n ∧ r2.2 ≤ n := by
  rcases h with ⟨rfl, rfl, rfl⟩ | ⟨rfl, rfl, rfl⟩ | ⟨rfl, rfl, rfl⟩ | ⟨rfl, rfl, rfl⟩ <;>
    simp

/-- Number of turns of `p < q < r` in 1..n. -/
theorem tripleCount (n : ℕ) :
    ((loop 1 ((n : ℤ) - 2)).map fun p =>
      ((loop (p + 1) ((n : ℤ) - 1)).map fun q => ((n : ℤ) + 1 - (q + 1)).toNat).sum).sum
      = n * (n - 1) * (n - 2) / 6 := by
  rcases Nat.lt_or_ge n 2 with hn | hn
  · rw [loop_nil (by omega)]
    have : n * (n - 1) = 0 := by
      rcases (by omega : n = 0 ∨ n = 1) with rfl | rfl <;> rfl
    simp [this]
  · have := length_triples (n - 2) 1 n (by omega)
    simp only [length_loop] at this
    obtain ⟨k, rfl⟩ : ∃ k, n = k + 2 := ⟨n - 2, by omega⟩
    have e : (k + 2) * (k + 2 - 1) * (k + 2 - 2) = k * (k + 1) * (k + 2) := by
      simp; ring
    rw [e]
    simp only [Nat.add_sub_cancel] at this
    rw [← this]; omega

/-- `p < q < r`, then `s` on its own. -/
theorem length_tuples4_triple (n : ℕ) (r4 : ℤ × ℤ) (hl : 0 < r4.1) :
    (tuples4 (1, n - 2) (-1, n - 1) (-1, n) r4).length
      = n * (n - 1) * (n - 2) / 6 * (r4.2 + 1 - r4.1).toNat := by
  have e : ¬ (1 : ℤ) < 0 := by decide
  have e1 : (-1 : ℤ) < 0 := by decide
  rw [← tripleCount]
  simp only [tuples4, e, e1, hl, false_and, if_false, true_and, and_true, Int.zero_lt_one, if_true,
    List.length_flatMap, List.length_map, length_loop, List.map_const', List.sum_replicate_nat,
    Int.sub_neg, sum_const_mul]

/-- `p < q` and `r < s`. -/
theorem length_tuples4_pairs (r1 r2 r3 r4 : ℤ × ℤ) (h1 : 0 < r1.1) (h2 : r2.1 < 0) (h3 : 0 < r3.1)
    (h4 : r4.1 < 0) : (tuples4 r1 r2 r3 r4).length = pairCount r1 r2 * pairCount r3 r4 := by
  simp only [tuples4, h1, h2, h3, h4, not_lt_of_gt h1, not_lt_of_gt h2, not_lt_of_gt h3,
    not_lt_of_gt h4, false_and, and_false, if_false, true_and, and_true, if_true,
    List.length_flatMap, List.length_map, length_loop, List.map_const', List.sum_replicate_nat,
    sum_const_mul, pairCount]

/-- `p < q`, `r`, `s`. -/
theorem length_tuples4_pair (r1 r2 r3 r4 : ℤ × ℤ) (h1 : 0 < r1.1) (h2 : r2.1 < 0) (h3 : 0 < r3.1)
    (h4 : 0 < r4.1) : (tuples4 r1 r2 r3 r4).length
      = pairCount r1 r2 * ((r3.2 + 1 - r3.1).toNat * (r4.2 + 1 - r4.1).toNat) := by
  simp only [tuples4, h1, h2, h3, h4, not_lt_of_gt h1, not_lt_of_gt h2, not_lt_of_gt h3,
    not_lt_of_gt h4, false_and, and_false, if_false, true_and, and_true, if_true,
    List.length_flatMap, List.length_map, length_loop, List.map_const', List.sum_replicate_nat,
    sum_const_mul, pairCount]

/-- Four independent indices. -/
theorem length_tuples4_free (r1 r2 r3 r4 : ℤ × ℤ) (h1 : 0 < r1.1) (h2 : 0 < r2.1) :
    (tuples4 r1 r2 r3 r4).length = (r1.2 + 1 - r1.1).toNat * ((r2.2 + 1 - r2.1).toNat *
      ((r3.2 + 1 - r3.1).toNat * (r4.2 + 1 - r4.1).toNat)) := by
  simp only [tuples4, h1, h2, not_lt_of_gt h1, not_lt_of_gt h2, false_and, and_false, if_false,
    true_and, and_true, if_true, List.length_flatMap, List.length_map, length_loop, List.map_const',
    List.sum_replicate_nat, sum_const_mul]

theorem length_tuples3_triple (n : ℕ) :
    (tuples3 (1, n - 2) (-1, n - 1) (-1, n)).length = n * (n - 1) * (n - 2) / 6 := by
  have e1 : (-1 : ℤ) < 0 := by decide
  rw [← tripleCount]
  simp only [tuples3, e1, if_true, true_and, Int.zero_lt_one,
    List.length_flatMap, List.length_map, length_loop, Int.sub_neg]

theorem length_tuples3_single_pair (r1 r2 r3 : ℤ × ℤ) (h1 : 0 < r1.1) (h2 : 0 < r2.1)
    (h3 : r3.1 < 0) :
    (tuples3 r1 r2 r3).length = (r1.2 + 1 - r1.1).toNat * pairCount r2 r3 := by
  simp only [tuples3, h1, h2, h3, not_lt_of_gt h1, not_lt_of_gt h2, not_lt_of_gt h3, false_and,
    and_false, if_false, true_and, and_true, if_true, List.length_flatMap, List.length_map,
    length_loop, List.map_const', List.sum_replicate_nat, pairCount]

theorem length_tuples3_pair_single (r1 r2 r3 : ℤ × ℤ) (h1 : 0 < r1.1) (h2 : r2.1 < 0)
    (h3 : 0 < r3.1) :
    (tuples3 r1 r2 r3).length = pairCount r1 r2 * (r3.2 + 1 - r3.1).toNat := by
  simp only [tuples3, h1, h2, h3, not_lt_of_gt h1, not_lt_of_gt h2, not_lt_of_gt h3, false_and,
    and_false, if_false, true_and, and_true, if_true, List.length_flatMap, List.length_map,
    length_loop, List.map_const', List.sum_replicate_nat, pairCount, sum_const_mul]

/-! ### Sorting -/

section
variable {β : Type*}

theorem gather_perm {idx : List ℕ} {n : ℕ} (h : idx.Perm (List.range' 1 n)) (x : List β)
    (hx : x.length = n) : (gather idx x).Perm x := by
  have e : gather (List.range' 1 n) x = x := by
    subst hx
    apply List.ext_getElem?
    intro i
    simp only [gather]
    have : (List.range' 1 x.length).filterMap (fun i => x[i - 1]?)
        = (List.range x.length).filterMap (fun i => x[i]?) := by
      rw [List.range'_eq_map_range, List.filterMap_map]
      congr 1
      funext i
      simp
    rw [this]
    have h2 : (List.range x.length).filterMap (fun i => x[i]?) = x := by
      clear this h
      induction x using List.reverseRecOn with
      | nil => simp
      | append_singleton l a ih =>
        rw [List.length_append, List.length_singleton, List.range_succ, List.filterMap_append]
        congr 1
        · conv_rhs => rw [← ih]
          apply List.filterMap_congr
          intro i hi
          rw [List.getElem?_append_left (by simpa using hi)]
        · simp
    rw [h2]
  have := h.filterMap (fun i => x[i - 1]?)
  simpa [gather, e] using this.trans (by simpa [gather] using List.Perm.of_eq e)

theorem gather_eq_map {idx : List ℕ} {n : ℕ} (h : idx.Perm (List.range' 1 n)) (x : List β)
    (hx : x.length = n) (d : β) : gather idx x = idx.map fun i => x.getD (i - 1) d := by
  unfold gather
  rw [← List.filterMap_eq_map]
  apply List.filterMap_congr
  intro i hi
  have := h.mem_iff.mp hi
  simp only [List.mem_range'_1] at this
  have hlt : i - 1 < x.length := by omega
  simp [List.getD_eq_getElem?_getD, List.getElem?_eq_getElem hlt]

theorem gather_zip {γ : Type*} {idx : List ℕ} {n : ℕ} (h : idx.Perm (List.range' 1 n)) (x : List β)
    (y : List γ) (hx : x.length = n) (hy : y.length = n) :
    (gather idx x).zip (gather idx y) = gather idx (x.zip y) := by
  cases x with
  | nil =>
    simp at hx; subst hx
    simp at h; subst h; simp [gather]
  | cons a x =>
    cases y with
    | nil => simp at hx hy; omega
    | cons b y =>
      rw [gather_eq_map h (a :: x) hx a, gather_eq_map h (b :: y) hy b,
        gather_eq_map h ((a :: x).zip (b :: y)) (by simp at *; omega) (a, b), List.zip_map']
      apply List.map_congr_left
      intro i hi
      have := h.mem_iff.mp hi
      simp only [List.mem_range'_1] at this
      have h1 : i - 1 < (a :: x).length := by omega
      have h2 : i - 1 < (b :: y).length := by omega
      have h3 : i - 1 < ((a :: x).zip (b :: y)).length := by rw [List.length_zip]; omega
      simp only [List.getD_eq_getElem?_getD, List.getElem?_eq_getElem h1,
        List.getElem?_eq_getElem h2, List.getElem?_eq_getElem h3, Option.getD_some, List.getElem_zip]

end

theorem scan_spec (nloc : ℕ) (rest : List ℕ) (c idet : ℕ) (loc : Loc) (last0 : ℤ)
    (hs : (c :: rest).Pairwise (· ≤ ·)) (hb : ∀ t ∈ c :: rest, 1 ≤ t ∧ t ≤ nloc)
    (h0 : rest ≠ [] ∨ last0 = c) :
    ∃ loc' last R, scan nloc (c :: rest) idet loc last0 = some (loc', last) ∧
      setEnd nloc loc' last (idet + rest.length) = some R ∧
      (∀ t, t ∉ c :: rest → R t = loc t) ∧ (R c).1 = (loc c).1 ∧
      ∀ t ∈ c :: rest, ∀ x, ((if t = c then idet else (R t).1) ≤ x ∧ x ≤ (R t).2) ↔
        (idet ≤ x ∧ (c :: rest)[x - idet]? = some t) := by
  induction rest generalizing c idet loc last0 with
  | nil =>
    have h0 : last0 = c := by simpa using h0
    have hc := hb c (by simp)
    refine ⟨loc, last0, Function.update loc c ((loc c).1, idet), by simp [scan], ?_, ?_, ?_, ?_⟩
    · subst h0
      simp [setEnd, hc]
    · intro t ht
      have : t ≠ c := by simpa using ht
      simp [Function.update, this]
    · simp
    · intro t ht x
      have : t = c := by simpa using ht
      subst this
      simp only [if_true, Function.update_self]
      constructor
      · intro h
        have : x = idet := by omega
        subst this; simp
      · rintro ⟨h1, h2⟩
        have : x - idet = 0 := by
          by_contra hne
          rw [List.getElem?_eq_none (by simp; omega)] at h2
          cases h2
        omega
  | cons c2 rest ih =>
    obtain ⟨hc, hs'⟩ := List.pairwise_cons.mp hs
    have hb' : ∀ t ∈ c2 :: rest, 1 ≤ t ∧ t ≤ nloc := fun t ht => hb t (List.mem_cons_of_mem _ ht)
    have hcb := hb c (by simp)
    have hc2b := hb c2 (by simp)
    have shift : ∀ t x, (idet + 1 ≤ x ∧ (c2 :: rest)[x - (idet + 1)]? = some t) ↔
        (idet + 1 ≤ x ∧ (c :: c2 :: rest)[x - idet]? = some t) := by
      intro t x
      constructor
      · rintro ⟨h1, h2⟩
        refine ⟨h1, ?_⟩
        rw [show x - idet = (x - (idet + 1)) + 1 by omega]
        simpa using h2
      · rintro ⟨h1, h2⟩
        refine ⟨h1, ?_⟩
        rw [show x - idet = (x - (idet + 1)) + 1 by omega] at h2
        simpa using h2
    have atzero : ∀ t, (c :: c2 :: rest)[idet - idet]? = some t ↔ c = t := by intro t; simp
    have split : ∀ t x, (idet ≤ x ∧ (c :: c2 :: rest)[x - idet]? = some t) ↔
        ((x = idet ∧ c = t) ∨ (idet + 1 ≤ x ∧ (c2 :: rest)[x - (idet + 1)]? = some t)) := by
      intro t x
      rw [shift]
      constructor
      · rintro ⟨h1, h2⟩
        by_cases hx : x = idet
        · left; subst hx; exact ⟨rfl, (atzero t).mp h2⟩
        · right; exact ⟨by omega, h2⟩
      · rintro (⟨rfl, h⟩ | ⟨h1, h2⟩)
        · exact ⟨le_refl _, (atzero t).mpr h⟩
        · exact ⟨by omega, h2⟩
    by_cases hcc : c = c2
    · subst hcc
      obtain ⟨loc', last, R, h1, h2, h3, h4, h5⟩ := ih c (idet + 1) loc c hs' hb' (Or.inr rfl)
      refine ⟨loc', last, R, ?_, ?_, ?_, h4, ?_⟩
      · simp [scan, h1]
      · rw [← h2]; simp; congr 1; omega
      · intro t ht; exact h3 t (fun h => ht (List.mem_cons_of_mem _ h))
      · intro t ht x
        have ht' : t ∈ c :: rest := by simpa using ht
        have h5 := h5 t ht'
        rw [split]
        by_cases htc : t = c
        · subst htc
          simp only [if_true] at h5 ⊢
          have hlast := (h5 (idet + 1)).mpr ⟨le_refl _, by simp⟩
          rw [← h5 x]
          constructor
          · intro h; by_cases hx : x = idet
            · left; exact ⟨hx, trivial⟩
            · right; omega
          · rintro (⟨rfl, _⟩ | h)
            · omega
            · omega
        · simp only [if_neg htc] at h5 ⊢
          rw [h5 x]
          constructor
          · intro h; exact Or.inr h
          · rintro (⟨_, h⟩ | h)
            · exact absurd h.symm htc
            · exact h
    · have hlt : c < c2 := lt_of_le_of_ne (hc c2 (by simp)) hcc
      have hnot : c ∉ c2 :: rest := by
        intro h
        rcases List.mem_cons.mp h with h | h
        · exact hcc h
        · have := (List.pairwise_cons.mp hs').1 c h; omega
      set l1 : Loc := Function.update loc c ((loc c).1, idet) with hl1
      set l2 : Loc := Function.update l1 c2 (idet + 1, (l1 c2).2) with hl2
      obtain ⟨loc', last, R, h1, h2, h3, h4, h5⟩ := ih c2 (idet + 1) l2 c2 hs' hb' (Or.inr rfl)
      have e1 : setEnd nloc loc c idet = some l1 := by
        simp [setEnd, hcb, hl1]
      have e2 : setStart nloc l1 c2 (idet + 1) = some l2 := by
        simp [setStart, hc2b, hl2]
      refine ⟨loc', last, R, ?_, ?_, ?_, ?_, ?_⟩
      · simp [scan, hcc, e1, e2, h1]
      · rw [← h2]; simp; congr 1; omega
      · intro t ht
        rw [h3 t (fun h => ht (List.mem_cons_of_mem _ h))]
        have a1 : t ≠ c := fun h => ht (by simp [h])
        have a2 : t ≠ c2 := fun h => ht (by simp [h])
        simp [hl2, hl1, Function.update, a1, a2]
      · rw [h3 c hnot]
        simp [hl2, hl1, Function.update, hcc]
      · intro t ht x
        rw [split]
        by_cases htc : t = c
        · subst htc
          have hR : (R t).2 = idet := by
            rw [h3 t hnot]; simp [hl2, hl1, Function.update, hcc]
          simp only [if_true, hR]
          constructor
          · intro h; left; exact ⟨by omega, trivial⟩
          · rintro (⟨rfl, _⟩ | ⟨_, h⟩)
            · omega
            · exact absurd (List.mem_of_getElem? h) hnot
        · have ht' : t ∈ c2 :: rest := by
            rcases List.mem_cons.mp ht with h | h
            · exact absurd h htc
            · exact h
          have h5 := h5 t ht' x
          simp only [if_neg htc]
          have hstart : (if t = c2 then idet + 1 else (R t).1) = (R t).1 := by
            split
            · rename_i h; subst h
              rw [h4]; simp [hl2]
            · rfl
          rw [hstart] at h5
          rw [h5]
          constructor
          · intro h; exact Or.inr h
          · rintro (⟨_, h⟩ | h)
            · exact absurd h.symm htc
            · exact h

/-- Final write for a list with at least one row. -/
theorem scan_addresses (nloc : ℕ) (codes : List ℕ) (hne : codes ≠ []) (last0 : ℤ)
    (hs : codes.Pairwise (· ≤ ·)) (hb : ∀ t ∈ codes, 1 ≤ t ∧ t ≤ nloc)
    (h0 : codes.length = 1 → last0 = (codes.getD 0 0 : ℕ)) :
    ∃ loc' last R, scan nloc codes 1 (fun _ => (1, 0)) last0 = some (loc', last) ∧
      setEnd nloc loc' last codes.length = some R ∧ AddressesBlocks R nloc codes := by
  match codes, hne with
  | c :: rest, _ =>
    have h0' : rest ≠ [] ∨ last0 = c := by
      by_cases h : rest = []
      · right; subst h; simpa using h0 (by simp)
      · left; exact h
    obtain ⟨loc', last, R, h1, h2, h3, h4, h5⟩ := scan_spec nloc rest c 1 (fun _ => (1, 0)) last0 hs hb h0'
    refine ⟨loc', last, R, h1, ?_, ?_⟩
    · rw [← h2]; simp; congr 1; omega
    · intro t _ _ x
      by_cases ht : t ∈ c :: rest
      · have := h5 t ht x
        by_cases htc : t = c
        · subst htc
          rw [h4]
          simpa using this
        · simpa [htc] using this
      · rw [h3 t ht]
        simp only
        constructor
        · omega
        · rintro ⟨_, h⟩
          exact absurd (List.mem_of_getElem? h) ht

/-- What the common part of the sort routines does. -/
theorem sorted_spec {K : Type} (table : List ℤ → ℕ) (idims : List ℕ) (excits : List (List ℕ))
    (amps : List K) (resid : Option (List K)) :
    ∃ idx : List ℕ, idx.Perm (List.range' 1 excits.length) ∧
      (sorted table idims excits amps resid).excits = gather idx excits ∧
      (sorted table idims excits amps resid).amps = gather idx amps ∧
      (sorted table idims excits amps resid).resid = resid.map (gather idx) ∧
      ((sorted table idims excits amps resid).excits.map (lookup table idims)).Pairwise (· ≤ ·) := by
  set temp := excits.map (lookup table idims) with htemp
  set idx := Argsort.argsort excits.length fun i => temp.getD (i - 1) 0 with hidx
  obtain ⟨hp, hs⟩ := Argsort.argsortBy_spec Argsort.total_lt excits.length fun i => temp.getD (i - 1) 0
  change idx.Perm _ at hp
  change idx.Pairwise _ at hs
  refine ⟨idx, hp, rfl, rfl, rfl, ?_⟩
  have e : (sorted table idims excits amps resid).excits = gather idx excits := rfl
  rw [e, gather_eq_map hp excits rfl [], List.map_map]
  have e2 : idx.map (lookup table idims ∘ fun i => excits.getD (i - 1) [])
      = idx.map fun i => temp.getD (i - 1) 0 := by
    apply List.map_congr_left
    intro i hi
    have := hp.mem_iff.mp hi
    simp only [List.mem_range'_1] at this
    have h1 : i - 1 < excits.length := by omega
    simp [htemp, List.getD_eq_getElem?_getD, List.getElem?_eq_getElem h1]
  rw [e2]
  refine List.Pairwise.map _ (fun a b h => ?_) hs
  simpa [Argsort.Ok] using h

theorem table4_numbers (r1 r2 r3 r4 : ℤ × ℤ) (n1 n2 n3 n4 : ℤ) (h : Supported4 r1 r2 r3 r4)
    (hd : r1.2 ≤ n1 ∧ r2.2 ≤ n2 ∧ r3.2 ≤ n3 ∧ r4.2 ≤ n4) :
    ∃ table, getIndexTable4 r1 r2 r3 r4 n1 n2 n3 n4 = some table ∧
      Numbers table (InRanges [r1, r2, r3, r4] 0) (tuples4 r1 r2 r3 r4).length := by
  obtain ⟨table, h1, h2⟩ := fillTable_numbers [n1, n2, n3, n4] _ (nodup_tuples4 r1 r2 r3 r4) (by
    intro t ht
    rw [mem_tuples4 h] at ht
    obtain ⟨k1, k⟩ := h
    match t, ht with
    | [p, q, r, s], ht =>
      simp only [InRanges, lowest] at ht
      simp only [List.zip_cons_cons, List.mem_cons, List.zip_nil_left, List.not_mem_nil, or_false]
      obtain ⟨d1, d2, d3, d4⟩ := hd
      obtain ⟨a1, a2, a3, a4, a5, a6, a7, a8, -⟩ := ht
      rintro x (rfl | rfl | rfl | rfl) <;> (split_ifs at * <;> simp only <;> omega))
  exact ⟨table, h1, h2.congr (mem_tuples4 h)⟩

theorem table3_numbers (r1 r2 r3 : ℤ × ℤ) (n1 n2 n3 : ℤ) (h : Supported3 r1 r2 r3)
    (hd : r1.2 ≤ n1 ∧ r2.2 ≤ n2 ∧ r3.2 ≤ n3) :
    ∃ table, getIndexTable3 r1 r2 r3 n1 n2 n3 = some table ∧
      Numbers table (InRanges [r1, r2, r3] 0) (tuples3 r1 r2 r3).length := by
  obtain ⟨table, h1, h2⟩ := fillTable_numbers [n1, n2, n3] _ (nodup_tuples3 r1 r2 r3) (by
    intro t ht
    rw [mem_tuples3 h] at ht
    obtain ⟨k1, k⟩ := h
    match t, ht with
    | [p, q, r], ht =>
      simp only [InRanges, lowest] at ht
      simp only [List.zip_cons_cons, List.mem_cons, List.zip_nil_left, List.not_mem_nil, or_false]
      obtain ⟨d1, d2, d3⟩ := hd
      obtain ⟨a1, a2, a3, a4, a5, a6, -⟩ := ht
      rintro x (rfl | rfl | rfl) <;> (split_ifs at * <;> simp only <;> omega))
  exact ⟨table, h1, h2.congr (mem_tuples3 h)⟩

theorem table2_numbers (r1 r2 : ℤ × ℤ) (n1 n2 : ℤ) (h : Supported2 r1 r2)
    (hd : r1.2 ≤ n1 ∧ r2.2 ≤ n2) :
    ∃ table, getIndexTable2 r1 r2 n1 n2 = some table ∧
      Numbers table (InRanges [r1, r2] 0) (tuples2 r1 r2).length := by
  obtain ⟨table, h1, h2⟩ := fillTable_numbers [n1, n2] _ (nodup_tuples2 r1 r2) (by
    intro t ht
    rw [mem_tuples2 h] at ht
    obtain ⟨k1, k⟩ := h
    match t, ht with
    | [p, q], ht =>
      simp only [InRanges, lowest] at ht
      simp only [List.zip_cons_cons, List.mem_cons, List.zip_nil_left, List.not_mem_nil, or_false]
      obtain ⟨d1, d2⟩ := hd
      obtain ⟨a1, a2, a3, a4, -⟩ := ht
      rintro x (rfl | rfl) <;> (split_ifs at * <;> simp only <;> omega))
  exact ⟨table, h1, h2.congr (mem_tuples2 h)⟩

end Ccpy.Blocks
