import Verif.Model.SelfEnergy
import Verif.Lemmas.UniqueSums
import Mathlib.Algebra.BigOperators.Intervals
import Mathlib.Algebra.BigOperators.Pi
import Mathlib.Algebra.BigOperators.Field
import Mathlib.Tactic.Ring
import Mathlib.Tactic.Linarith
import Mathlib.Tactic.NormNum

/-! The loops of the self-energy as sums. -/

namespace Ccpy.SelfEnergy
open Finset Ccpy.Spec Ccpy.Fortran

/-- The matrix with one element. -/
def single (i j : ℕ) (x : ℚ) : Arr2 := fun p q => if p = i ∧ q = j then x else 0

theorem bump_eq (i j : ℕ) (x : ℚ) (M : Arr2) : bump i j x M = M + single i j x := by
  funext p q
  simp only [bump, single, Pi.add_apply]
  split <;> simp

theorem single_add (i j : ℕ) (x y : ℚ) : single i j x + single i j y = single i j (x + y) := by
  funext p q
  simp only [single, Pi.add_apply]
  split <;> simp

theorem single_sum {s : Finset ℕ} (i j : ℕ) (c : ℕ → ℚ) : ∑ k ∈ s, single i j (c k) = single i j (∑ k ∈ s, c k) := by
  funext p q
  simp only [Finset.sum_apply, single]
  split <;> simp

/-- The elements of a matrix added one by one. -/
theorem grid (n n' : ℕ) (c : ℕ → ℕ → ℚ) (p q : ℕ) :
    (∑ i ∈ range n, ∑ j ∈ range n', single i j (c i j)) p q = if p < n ∧ q < n' then c p q else 0 := by
  simp only [Finset.sum_apply, single]
  have h : ∀ i, ∑ j ∈ range n', (if p = i ∧ q = j then c i j else 0) = if p = i then (if q < n' then c i q else 0) else 0 := by
    intro i
    by_cases hp : p = i
    · subst hp; simp
    · simp [hp]
  simp only [h]
  by_cases hp : p < n <;> by_cases hq : q < n' <;> simp [hp, hq]

theorem forRange_add {σ : Type} [AddCommMonoid σ] {lo hi : ℕ} {body : ℕ → σ → Option σ} {c : ℕ → σ}
    (h : ∀ k s, lo ≤ k → k < hi → body k s = some (s + c k)) (s : σ) :
    forRange lo hi body s = some (s + ∑ k ∈ Ico lo hi, c k) := by
  unfold forRange
  by_cases hl : lo ≤ hi
  · obtain ⟨n, rfl⟩ := Nat.exists_eq_add_of_le hl
    rw [Nat.add_sub_cancel_left]
    induction n with
    | zero => simp
    | succ n ih =>
      rw [List.range'_concat, List.foldlM_append, ih (fun k s h1 h2 => h k s h1 (by omega)) (by omega), ← Nat.add_assoc,
        sum_Ico_succ_top (by omega)]
      simp [h (lo + n) _ (by omega) (by omega), add_assoc]
  · rw [Nat.sub_eq_zero_of_le (by omega), Ico_eq_empty (by omega)]
    simp

theorem forRange_single {lo hi i j : ℕ} {body : ℕ → Arr2 → Option Arr2} {c : ℕ → ℚ}
    (h : ∀ k s, lo ≤ k → k < hi → body k s = some (s + single i j (c k))) (s : Arr2) :
    forRange lo hi body s = some (s + single i j (∑ k ∈ Ico lo hi, c k)) := by
  rw [forRange_add h, single_sum]

/-- A loop raises if one of its passes raises. -/
theorem forRange_none {σ : Type} {lo hi : ℕ} {body : ℕ → σ → Option σ} {k : ℕ} (h1 : lo ≤ k) (h2 : k < hi)
    (h : ∀ s, body k s = none) (s : σ) : forRange lo hi body s = none := by
  unfold forRange
  have e : List.range' lo (hi - lo) = List.range' lo (k - lo) ++ k :: List.range' (k + 1) (hi - (k + 1)) := by
    rw [show hi - lo = (k - lo) + (hi - (k + 1) + 1) by omega, ← List.range'_append_1]
    congr 1
    rw [show lo + (k - lo) = k by omega, List.range'_succ]
  rw [e, List.foldlM_append]
  cases List.foldlM (fun s k => body k s) s (List.range' lo (k - lo)) <;> simp [h]

theorem doLoop_single {lo hi i j : ℕ} {body : ℕ → Arr2 → Arr2} {c : ℕ → ℚ}
    (h : ∀ k s, body (k + 1) s = s + single i j (c k)) (s : Arr2) :
    doLoop (lo + 1) hi body s = s + single i j (∑ k ∈ Ico lo hi, c k) := by
  rw [← single_sum]
  unfold doLoop
  rw [show hi + 1 - (lo + 1) = hi - lo by omega]
  by_cases hl : lo ≤ hi
  · obtain ⟨n, rfl⟩ := Nat.exists_eq_add_of_le hl
    rw [Nat.add_sub_cancel_left]
    induction n with
    | zero => simp
    | succ n ih =>
      rw [List.range'_concat, List.foldl_append, ih (by omega), ← Nat.add_assoc, sum_Ico_succ_top (by omega)]
      simp only [List.foldl_cons, List.foldl_nil]
      rw [show lo + 1 + 1 * n = lo + n + 1 by omega, h, add_assoc]
  · rw [Nat.sub_eq_zero_of_le (by omega), Ico_eq_empty (by omega)]
    simp

theorem doLoop_matrix {hi : ℕ} {body : ℕ → Arr2 → Arr2} {c : ℕ → Arr2}
    (h : ∀ k s, body (k + 1) s = s + c k) (s : Arr2) :
    doLoop 1 hi body s = s + ∑ k ∈ range hi, c k := by
  unfold doLoop
  rw [show hi + 1 - 1 = hi by omega]
  induction hi with
  | zero => simp
  | succ n ih =>
    rw [List.range'_concat, List.foldl_append, ih, sum_range_succ]
    simp only [List.foldl_cons, List.foldl_nil]
    rw [show 1 + 1 * n = n + 1 by omega, h, add_assoc]

theorem nest {N G i j : ℕ} {body : ℕ → ℕ → Arr2 → Arr2} {c : ℕ → ℕ → ℚ}
    (h : ∀ n g s, body (n + 1) (g + 1) s = s + single i j (c n g)) (s : Arr2) :
    doLoop 1 N (fun n => doLoop 1 G fun g M => body n g M) s = s + single i j (∑ n ∈ range N, ∑ g ∈ range G, c n g) := by
  simp only [Finset.range_eq_Ico]
  exact doLoop_single (lo := 0) (fun n s => doLoop_single (lo := 0) (c := fun g => c n g) (fun g s => h n g s) s) s

theorem forNest {N G i j : ℕ} {body : ℕ → ℕ → Arr2 → Option Arr2} {c : ℕ → ℕ → ℚ}
    (h : ∀ n g s, n < N → g < G → body n g s = some (s + single i j (c n g))) (s : Arr2) :
    forRange 0 N (fun n => forRange 0 G fun g M => body n g M) s =
      some (s + single i j (∑ n ∈ range N, ∑ g ∈ range G, c n g)) := by
  simp only [Finset.range_eq_Ico]
  exact forRange_single (fun n s _ hn => forRange_single (c := fun g => c n g) (fun g s _ hg => h n g s hn hg) s) s

/-- What one pass of the loops adds for partners of the same spin. -/
def likeTerm (no nu : ℕ) (f : ℕ → ℕ → ℚ) (v : Arr4) (ω : ℚ) (i j i' n g : ℕ) : ℚ :=
  ∑ m ∈ Ico (n + 1) no, -(v m n i (no + g) * v j (no + g) m n / (f m m + (f n n - f (no + g) (no + g)) - ω)) +
  ∑ e ∈ Ico (g + 1) nu, v j n (no + e) (no + g) * v (no + e) (no + g) i' n / (f n n - f (no + g) (no + g) - f (no + e) (no + e) + ω)

/-- What the loops add to one element for partners of the same spin. -/
def likePart (no nu : ℕ) (f : ℕ → ℕ → ℚ) (v : Arr4) (ω : ℚ) (i j i' : ℕ) : ℚ :=
  ∑ n ∈ range no, ∑ g ∈ range nu, likeTerm no nu f v ω i j i' n g

/-- What one pass of the loops adds for partners of the other spin. -/
def mixedTerm (noa nua nob : ℕ) (f f' : ℕ → ℕ → ℚ) (v : Arr4) (ω : ℚ) (i j n g : ℕ) : ℚ :=
  ∑ m ∈ range noa, -(v m n i (nob + g) * v j (nob + g) m n / (f m m + (f' n n - f' (nob + g) (nob + g)) - ω)) +
  ∑ e ∈ range nua, v j n (noa + e) (nob + g) * v (noa + e) (nob + g) i n /
    (f' n n - f' (nob + g) (nob + g) - f (noa + e) (noa + e) + ω)

/-- What the loops add to one element for partners of the other spin. -/
def mixedPart (noa nua nob nub : ℕ) (f f' : ℕ → ℕ → ℚ) (v : Arr4) (ω : ℚ) (i j : ℕ) : ℚ :=
  ∑ n ∈ range nob, ∑ g ∈ range nub, mixedTerm noa nua nob f f' v ω i j n g

theorem fortran_matrix (P : Problem) (ω : ℚ) :
    (fortranSigma ω (args (slices P)) (P.no false) (P.nu false) (P.no true) (P.nu true)).1 =
      ∑ i ∈ range (P.no false), ∑ j ∈ range (P.no false), single (i + 1) (j + 1)
        (likePart (P.no false) (P.nu false) P.fA P.vAA ω i j i +
         mixedPart (P.no false) (P.nu false) (P.no true) (P.nu true) P.fA P.fB P.vAB ω i j) := by
  unfold fortranSigma
  simp only
  refine (doLoop_matrix (fun i s => doLoop_matrix (c := fun j => single (i + 1) (j + 1)
        (likePart (P.no false) (P.nu false) P.fA P.vAA ω i j i +
         mixedPart (P.no false) (P.nu false) (P.no true) (P.nu true) P.fA P.fB P.vAB ω i j)) (fun j s => ?_) s) _).trans
    (zero_add (M := Arr2) _)
  rw [← single_add, ← add_assoc]
  rw [nest (c := mixedTerm (P.no false) (P.nu false) (P.no true) P.fA P.fB P.vAB ω i j),
    nest (c := likeTerm (P.no false) (P.nu false) P.fA P.vAA ω i j i)]
  · rfl
  · intro n g s
    rw [doLoop_single (lo := n + 1) (fun m s => bump_eq _ _ _ s), doLoop_single (lo := g + 1) (fun m s => bump_eq _ _ _ s), add_assoc,
      single_add]
    rfl
  · intro n g s
    rw [doLoop_single (lo := 0) (fun m s => bump_eq _ _ _ s), doLoop_single (lo := 0) (fun m s => bump_eq _ _ _ s), add_assoc,
      single_add]
    simp only [mixedTerm, Finset.range_eq_Ico]
    rfl

theorem fortran_alpha (P : Problem) (ω : ℚ) (p q : ℕ) :
    (fortranSigma ω (args (slices P)) (P.no false) (P.nu false) (P.no true) (P.nu true)).1 (p + 1) (q + 1) =
      if p < P.no false ∧ q < P.no false then
        likePart (P.no false) (P.nu false) P.fA P.vAA ω p q p +
         mixedPart (P.no false) (P.nu false) (P.no true) (P.nu true) P.fA P.fB P.vAB ω p q else 0 := by
  rw [fortran_matrix]
  refine Eq.trans ?_ (grid _ _ (fun i j => likePart (P.no false) (P.nu false) P.fA P.vAA ω i j i +
         mixedPart (P.no false) (P.nu false) (P.no true) (P.nu true) P.fA P.fB P.vAB ω i j) p q)
  simp only [Finset.sum_apply, single, Nat.add_right_cancel_iff]

/-- Sums over ordered pairs. -/
theorem ordered {n : ℕ} {F : ℕ → ℕ → ℚ} (h : ∀ a b, F b a = F a b) (h0 : ∀ a, F a a = 0) :
    ∑ a ∈ range n, ∑ b ∈ range n, F a b = 2 * ∑ a ∈ range n, ∑ b ∈ Ico (a + 1) n, F b a := by
  rw [sum_pairs h h0, sum_uniquePairs]
  simp only [Finset.range_eq_Ico]
  rw [← sum_Ico_Ico_comm' 0 n fun e f => F e f]
  simp only [h]

theorem like_sigma (no nu : ℕ) (f : ℕ → ℕ → ℚ) (v : Arr4) (hl : ∀ p q r s, v q p r s = -v p q r s)
    (hr : ∀ p q r s, v p q s r = -v p q r s) (ω : ℚ) (i j : ℕ) :
    likePart no nu f v ω i j i =
      1 / 2 * (∑ m ∈ range no, ∑ n ∈ range no, ∑ g ∈ range nu,
        v m n i (no + g) * v j (no + g) m n / (ω + f (no + g) (no + g) - f m m - f n n)) +
      1 / 2 * (∑ n ∈ range no, ∑ e ∈ range nu, ∑ g ∈ range nu,
        v j n (no + e) (no + g) * v (no + e) (no + g) i n / (ω + f n n - f (no + e) (no + e) - f (no + g) (no + g))) := by
  have zl : ∀ p r s, v p p r s = 0 := fun p r s => by have := hl p p r s; linarith
  have zr : ∀ p q r, v p q r r = 0 := fun p q r => by have := hr p q r r; linarith
  have e1 : ∑ m ∈ range no, ∑ n ∈ range no, ∑ g ∈ range nu,
        v m n i (no + g) * v j (no + g) m n / (ω + f (no + g) (no + g) - f m m - f n n) =
      2 * ∑ n ∈ range no, ∑ m ∈ Ico (n + 1) no, ∑ g ∈ range nu,
        v m n i (no + g) * v j (no + g) m n / (ω + f (no + g) (no + g) - f m m - f n n) := by
    refine ordered (F := fun m n => ∑ g ∈ range nu,
        v m n i (no + g) * v j (no + g) m n / (ω + f (no + g) (no + g) - f m m - f n n)) ?_ ?_
    · intro m n
      refine sum_congr rfl fun g _ => ?_
      rw [hl m n, hr j (no + g) m n, neg_mul_neg, sub_right_comm]
    · intro m
      simp [zl]
  have e2 : ∀ n, ∑ e ∈ range nu, ∑ g ∈ range nu,
        v j n (no + e) (no + g) * v (no + e) (no + g) i n / (ω + f n n - f (no + e) (no + e) - f (no + g) (no + g)) =
      2 * ∑ g ∈ range nu, ∑ e ∈ Ico (g + 1) nu,
        v j n (no + e) (no + g) * v (no + e) (no + g) i n / (ω + f n n - f (no + e) (no + e) - f (no + g) (no + g)) := by
    intro n
    refine ordered (F := fun e g =>
        v j n (no + e) (no + g) * v (no + e) (no + g) i n / (ω + f n n - f (no + e) (no + e) - f (no + g) (no + g))) ?_ ?_
    · intro e g
      rw [hr j n (no + e), hl (no + e), neg_mul_neg, sub_right_comm]
    · intro e
      simp [zl]
  rw [e1]
  simp only [e2]
  rw [← mul_sum, ← mul_assoc, ← mul_assoc, show (1 / 2 * 2 : ℚ) = 1 by norm_num, one_mul, one_mul]
  unfold likePart likeTerm
  rw [← sum_add_distrib]
  refine sum_congr rfl fun n _ => ?_
  rw [sum_comm (s := Ico (n + 1) no), ← sum_add_distrib]
  refine sum_congr rfl fun g _ => ?_
  congr 1
  · refine sum_congr rfl fun m _ => ?_
    rw [← div_neg]
    congr 1
    ring
  · refine sum_congr rfl fun e _ => ?_
    congr 1
    ring

theorem mixed_sum (noa nua nob nub : ℕ) (f f' : ℕ → ℕ → ℚ) (v : Arr4) (ω : ℚ) (i j : ℕ) :
    mixedPart noa nua nob nub f f' v ω i j =
      (∑ m ∈ range noa, ∑ n ∈ range nob, ∑ g ∈ range nub,
        v m n i (nob + g) * v j (nob + g) m n / (ω + f' (nob + g) (nob + g) - f m m - f' n n)) +
      (∑ n ∈ range nob, ∑ e ∈ range nua, ∑ g ∈ range nub,
        v j n (noa + e) (nob + g) * v (noa + e) (nob + g) i n / (ω + f' n n - f (noa + e) (noa + e) - f' (nob + g) (nob + g))) := by
  unfold mixedPart mixedTerm
  rw [sum_comm (s := range noa), ← sum_add_distrib]
  refine sum_congr rfl fun n _ => ?_
  rw [sum_comm (s := range noa), sum_comm (s := range nua), ← sum_add_distrib]
  refine sum_congr rfl fun g _ => ?_
  congr 1
  · refine sum_congr rfl fun m _ => ?_
    rw [← div_neg]
    congr 1
    ring
  · refine sum_congr rfl fun e _ => ?_
    congr 1
    ring

theorem sigma_alpha (P : Problem) (h : P.Antisymmetric) (ω : ℚ) (i j : ℕ) :
    P.sigma ω (false, i) (false, j) =
      likePart (P.no false) (P.nu false) P.fA P.vAA ω i j i +
        mixedPart (P.no false) (P.nu false) (P.no true) (P.nu true) P.fA P.fB P.vAB ω i j := by
  rw [like_sigma _ _ _ _ h.aaLeft h.aaRight, mixed_sum]
  unfold Problem.sigma Problem.unocc soSum Problem.v Problem.energy
  simp only [Fintype.sum_bool, spinOrbital4, spinOrbital2, zero_mul, mul_zero, zero_div, sum_const_zero, add_zero, zero_add,
    neg_mul_neg]
  simp only [sum_add_distrib]
  have m1 : ∑ n ∈ range (P.no true), ∑ m ∈ range (P.no false), ∑ g ∈ range (P.nu true),
      P.vAB m n i (P.no true + g) * P.vAB j (P.no true + g) m n /
        (ω + P.fB (P.no true + g) (P.no true + g) - P.fB n n - P.fA m m) =
      ∑ m ∈ range (P.no false), ∑ n ∈ range (P.no true), ∑ g ∈ range (P.nu true),
      P.vAB m n i (P.no true + g) * P.vAB j (P.no true + g) m n /
        (ω + P.fB (P.no true + g) (P.no true + g) - P.fA m m - P.fB n n) := by
    rw [sum_comm]
    simp only [sub_right_comm _ (P.fB _ _) (P.fA _ _)]
  have m2 : ∑ n ∈ range (P.no true), ∑ g ∈ range (P.nu true), ∑ e ∈ range (P.nu false),
      P.vAB j n (P.no false + e) (P.no true + g) * P.vAB (P.no false + e) (P.no true + g) i n /
        (ω + P.fB n n - P.fB (P.no true + g) (P.no true + g) - P.fA (P.no false + e) (P.no false + e)) =
      ∑ n ∈ range (P.no true), ∑ e ∈ range (P.nu false), ∑ g ∈ range (P.nu true),
      P.vAB j n (P.no false + e) (P.no true + g) * P.vAB (P.no false + e) (P.no true + g) i n /
        (ω + P.fB n n - P.fA (P.no false + e) (P.no false + e) - P.fB (P.no true + g) (P.no true + g)) := by
    refine sum_congr rfl fun n _ => ?_
    rw [sum_comm]
    simp only [sub_right_comm _ (P.fB _ _) (P.fA _ _)]
  rw [m1, m2]
  ring

/-- The problem with the spins exchanged. -/
def swap (P : Problem) : Problem where
  no s := P.no !s
  nu s := P.nu !s
  fA := P.fB
  fB := P.fA
  vAA := P.vBB
  vAB p q r s := P.vAB q p s r
  vBB := P.vAA

theorem swap_antisymmetric {P : Problem} (h : P.Antisymmetric) : (swap P).Antisymmetric := ⟨h.bbLeft, h.bbRight, h.aaLeft, h.aaRight⟩

theorem sigma_swap (P : Problem) (ω : ℚ) (i j : ℕ) : P.sigma ω (true, i) (true, j) = (swap P).sigma ω (false, i) (false, j) := by
  have hs : ∀ (n : Bool → ℕ) (f : SO → ℚ), soSum n f = soSum (fun s => n !s) fun p => f (!p.1, p.2) := by
    intro n f
    unfold soSum
    simp only [Fintype.sum_bool, Bool.not_true, Bool.not_false]
    exact add_comm _ _
  have hv : ∀ p q r s : SO, P.v (!p.1, p.2) (!q.1, q.2) (!r.1, r.2) (!s.1, s.2) = (swap P).v p q r s := by
    rintro ⟨_ | _, p⟩ ⟨_ | _, q⟩ ⟨_ | _, r⟩ ⟨_ | _, s⟩ <;> rfl
  have he : ∀ p : SO, P.energy (!p.1, p.2) = (swap P).energy p := by
    rintro ⟨_ | _, p⟩ <;> rfl
  have hu : ∀ f : SO → ℚ, P.unocc f = (swap P).unocc fun p => f (!p.1, p.2) := by
    intro f
    unfold Problem.unocc
    exact hs _ _
  have hs' : ∀ f : SO → ℚ, soSum P.no f = soSum (swap P).no fun p => f (!p.1, p.2) := fun f => hs _ f
  have e1 : (soSum P.no fun m => soSum P.no fun n => P.unocc fun f =>
      P.v m n (true, i) f * P.v (true, j) f m n / (ω + P.energy f - P.energy m - P.energy n)) =
      (soSum (swap P).no fun m => soSum (swap P).no fun n => (swap P).unocc fun f =>
      (swap P).v m n (false, i) f * (swap P).v (false, j) f m n /
        (ω + (swap P).energy f - (swap P).energy m - (swap P).energy n)) := by
    simp only [hs', hu, he, ← hv, Bool.not_false]
  have e2 : (soSum P.no fun n => P.unocc fun e => P.unocc fun f =>
      P.v (true, j) n e f * P.v e f (true, i) n / (ω + P.energy n - P.energy e - P.energy f)) =
      (soSum (swap P).no fun n => (swap P).unocc fun e => (swap P).unocc fun f =>
      (swap P).v (false, j) n e f * (swap P).v e f (false, i) n /
        (ω + (swap P).energy n - (swap P).energy e - (swap P).energy f)) := by
    simp only [hs', hu, he, ← hv, Bool.not_false]
  unfold Problem.sigma
  rw [e1, e2]

theorem sigma_beta (P : Problem) (h : P.Antisymmetric) (ω : ℚ) (i j : ℕ) :
    P.sigma ω (true, i) (true, j) =
      mixedPart (P.no true) (P.nu true) (P.no false) (P.nu false) P.fB P.fA (fun p q r s => P.vAB q p s r) ω i j +
        likePart (P.no true) (P.nu true) P.fB P.vBB ω i j i := by
  rw [sigma_swap, sigma_alpha _ (swap_antisymmetric h), add_comm]
  rfl

theorem get2 {n0 n1 : ℕ} {a : Arr2} {i j : ℕ} (h0 : i < n0) (h1 : j < n1) : (⟨n0, n1, a⟩ : Nd2).get i j = some (a i j) :=
  if_pos ⟨h0, h1⟩

theorem get4 {n0 n1 n2 n3 : ℕ} {a : Arr4} {i j k l : ℕ} (h0 : i < n0) (h1 : j < n1) (h2 : k < n2) (h3 : l < n3) :
    (⟨n0, n1, n2, n3, a⟩ : Nd4).get i j k l = some (a i j k l) :=
  if_pos ⟨h0, h1, h2, h3⟩

theorem python_alpha (P : Problem) (ω : ℚ) :
    pythonA ω (slices P) = some fun p q => if p < P.no false ∧ q < P.no false then
        likePart (P.no false) (P.nu false) P.fA P.vAA ω p q p +
         mixedPart (P.no false) (P.nu false) (P.no true) (P.nu true) P.fA P.fB P.vAB ω p q else 0 := by
  have hg : (fun p q => if p < P.no false ∧ q < P.no false then
        likePart (P.no false) (P.nu false) P.fA P.vAA ω p q p +
         mixedPart (P.no false) (P.nu false) (P.no true) (P.nu true) P.fA P.fB P.vAB ω p q else 0) =
      (fun _ _ => 0) + ∑ i ∈ Ico 0 (P.no false), ∑ j ∈ Ico 0 (P.no false), single i j
        (likePart (P.no false) (P.nu false) P.fA P.vAA ω i j i +
         mixedPart (P.no false) (P.nu false) (P.no true) (P.nu true) P.fA P.fB P.vAB ω i j) := by
    rw [← Finset.range_eq_Ico]
    funext p q
    rw [Pi.add_apply, Pi.add_apply, grid, zero_add]
  rw [hg]
  refine forRange_add (fun i s _ hi => forRange_add (c := fun j => single i j _) (fun j s _ hj => ?_) s) _
  replace hi : i < P.no false := hi
  replace hj : j < P.no false := hj
  rw [slices, ← single_add, ← add_assoc]
  simp only
  rw [forNest (c := likeTerm (P.no false) (P.nu false) P.fA P.vAA ω i j i)]
  · refine forNest (c := mixedTerm (P.no false) (P.nu false) (P.no true) P.fA P.fB P.vAB ω i j) ?_ _
    intro n g s hn hg
    simp only [get2 hn hn, get2 hg hg, Option.bind_eq_bind, Option.bind_some]
    rw [forRange_single (c := fun m => -(P.vAB m n i (P.no true + g) * P.vAB j (P.no true + g) m n /
      (P.fA m m + (P.fB n n - P.fB (P.no true + g) (P.no true + g)) - ω)))]
    · rw [Option.bind_some, mixedTerm, ← single_add, ← add_assoc]
      simp only [Finset.range_eq_Ico]
      refine forRange_single ?_ _
      intro e s _ he
      simp only [get2 he he, get4 hj hn he hg, get4 he hg hi hn, Option.bind_some, bump_eq]
    · intro m s _ hm
      simp only [get2 hm hm, get4 hm hn hi hg, get4 hj hg hm hn, Option.bind_some, bump_eq]
  · intro n g s hn hg
    simp only [get2 hn hn, get2 hg hg, Option.bind_eq_bind, Option.bind_some]
    rw [forRange_single (c := fun m => -(P.vAA m n i (P.no false + g) * P.vAA j (P.no false + g) m n /
      (P.fA m m + (P.fA n n - P.fA (P.no false + g) (P.no false + g)) - ω)))]
    · rw [Option.bind_some, likeTerm, ← single_add, ← add_assoc]
      refine forRange_single ?_ _
      intro e s _ he
      simp only [get2 he he, get4 hj hn he hg, get4 he hg hi hn, Option.bind_some, bump_eq]
    · intro m s _ hm
      simp only [get2 hm hm, get4 hm hn hi hg, get4 hj hg hm hn, Option.bind_some, bump_eq]

theorem python_beta (P : Problem) (ho : P.no false = P.no true) (hu : P.nu false = P.nu true) (ω : ℚ) :
    pythonB ω (slices P) = some fun p q => if p < P.no true ∧ q < P.no true then
      mixedPart (P.no true) (P.nu true) (P.no false) (P.nu false) P.fB P.fA (fun p q r s => P.vAB q p s r) ω p q +
        likePart (P.no true) (P.nu true) P.fB P.vBB ω p q q else 0 := by
  have hg : (fun p q => if p < P.no true ∧ q < P.no true then
      mixedPart (P.no true) (P.nu true) (P.no false) (P.nu false) P.fB P.fA (fun p q r s => P.vAB q p s r) ω p q +
        likePart (P.no true) (P.nu true) P.fB P.vBB ω p q q else 0) =
      (fun _ _ => 0) + ∑ i ∈ Ico 0 (P.no true), ∑ j ∈ Ico 0 (P.no true), single i j
        (mixedPart (P.no true) (P.nu true) (P.no false) (P.nu false) P.fB P.fA (fun p q r s => P.vAB q p s r) ω i j +
        likePart (P.no true) (P.nu true) P.fB P.vBB ω i j j) := by
    rw [← Finset.range_eq_Ico]
    funext p q
    rw [Pi.add_apply, Pi.add_apply, grid, zero_add]
  rw [hg]
  refine forRange_add (fun i s _ hi => forRange_add (c := fun j => single i j _) (fun j s _ hj => ?_) s) _
  replace hi : i < P.no true := hi
  replace hj : j < P.no true := hj
  rw [slices, ← single_add, ← add_assoc]
  simp only
  rw [forNest (c := mixedTerm (P.no true) (P.nu true) (P.no false) P.fB P.fA (fun p q r s => P.vAB q p s r) ω i j)]
  · refine forNest (c := likeTerm (P.no true) (P.nu true) P.fB P.vBB ω i j j) ?_ _
    intro n g s hn hg
    simp only [get2 hn hn, get2 hg hg, Option.bind_eq_bind, Option.bind_some]
    rw [forRange_single (c := fun m => -(P.vBB m n i (P.no true + g) * P.vBB j (P.no true + g) m n /
      (P.fB m m + (P.fB n n - P.fB (P.no true + g) (P.no true + g)) - ω)))]
    · rw [Option.bind_some, likeTerm, ← single_add, ← add_assoc]
      refine forRange_single ?_ _
      intro e s _ he
      simp only [get2 he he, get4 hj hn he hg, get4 he hg hj hn, Option.bind_some, bump_eq]
    · intro m s _ hm
      simp only [get2 hm hm, get4 hm hn hi hg, get4 hj hg hm hn, Option.bind_some, bump_eq]
  · intro n g s hn hg
    simp only [get2 hn hn, get2 hg hg, Option.bind_eq_bind, Option.bind_some]
    rw [forRange_single (c := fun m => -(P.vAB n m (P.no false + g) i * P.vAB (P.no false + g) j n m /
      (P.fB m m + (P.fA n n - P.fA (P.no false + g) (P.no false + g)) - ω)))]
    · rw [Option.bind_some, mixedTerm, ← single_add, ← add_assoc]
      rw [show range (P.no true) = Ico 0 (P.no false) by rw [ho, Finset.range_eq_Ico],
        show range (P.nu true) = Ico 0 (P.nu false) by rw [hu, Finset.range_eq_Ico]]
      refine forRange_single ?_ _
      intro e s _ he
      have he' : e < P.nu true := hu ▸ he
      simp only [get2 he' he', get4 hn hj hg he', get4 hg he' hn hi, Option.bind_some, bump_eq]
    · intro m s _ hm
      have hm' : m < P.no true := ho ▸ hm
      simp only [get2 hm' hm', get4 hn hm' hg hi, get4 hg hj hn hm', Option.bind_some, bump_eq]

/-- What the python routine returns for equal numbers of electrons. -/
theorem python_both (P : Problem) (ho : P.no false = P.no true) (hu : P.nu false = P.nu true) (ω : ℚ) :
    calcMp2Selfenergy ω (slices P) = some (fun p q => if p < P.no false ∧ q < P.no false then
        likePart (P.no false) (P.nu false) P.fA P.vAA ω p q p +
         mixedPart (P.no false) (P.nu false) (P.no true) (P.nu true) P.fA P.fB P.vAB ω p q else 0,
      fun p q => if p < P.no true ∧ q < P.no true then
      mixedPart (P.no true) (P.nu true) (P.no false) (P.nu false) P.fB P.fA (fun p q r s => P.vAB q p s r) ω p q +
        likePart (P.no true) (P.nu true) P.fB P.vBB ω p q q else 0) := by
  unfold calcMp2Selfenergy
  rw [python_alpha, python_beta P ho hu]
  rfl

theorem call_alpha (P : Problem) (h : P.Antisymmetric) (ω : ℚ) {p : ℕ} (hp : p < P.no false) :
    (callSigma ω (slices P)).1.at' p p = P.sigma ω (false, p) (false, p) := by
  rw [sigma_alpha P h]
  exact (fortran_alpha P ω p p).trans (if_pos ⟨hp, hp⟩)

theorem axis_nat {n p : ℕ} {q : ℤ} (hq : q = p) (h : p < n) : axis n q = some p := by
  unfold axis
  rw [if_pos (by omega), hq, Int.toNat_natCast]

/-- What the program finds for the root of orbital `p`, in terms of the energies `x`. -/
def Found (x : ℕ → ℚ) (tol : ℚ) (lo hi : ℕ) : Option ℚ → Prop
  | some w => ∃ m, lo ≤ m ∧ m < hi ∧ w = -x (m + 1) ∧ |x (m + 1) - x m| < tol ∧ ∀ l, lo ≤ l → l < m → tol ≤ |x (l + 1) - x l|
  | none => ∀ l, lo ≤ l → l < hi → tol ≤ |x (l + 1) - x l|

theorem iterations_found (P : Problem) (h : P.Antisymmetric) {p : ℕ} {q : ℤ} (hq : q = p) (hp : p < P.no false) (tol : ℚ) (t n : ℕ) :
    ∃ r, iterations (slices P) q tol t (P.iterate p n) = some r ∧ Found (P.iterate p) tol n (n + t) r := by
  induction t generalizing n with
  | zero => exact ⟨none, rfl, fun l h1 h2 => by omega⟩
  | succ t ih =>
    have e1 : (slices P).fA_oo.diag q = some (P.fA p p) := by
      unfold Nd2.diag
      rw [show (slices P).fA_oo.n0 = P.no false from rfl, show (slices P).fA_oo.n1 = P.no false from rfl, axis_nat hq hp]
      rfl
    have e2 : (callSigma (P.iterate p n) (slices P)).1.diag q = some (P.sigma (P.iterate p n) (false, p) (false, p)) := by
      unfold Nd2.diag
      rw [show (callSigma (P.iterate p n) (slices P)).1.n0 = P.no false + P.nu false from rfl,
        show (callSigma (P.iterate p n) (slices P)).1.n1 = P.no false + P.nu false from rfl,
        axis_nat hq (Nat.lt_add_right _ hp), ← call_alpha P h _ hp]
      rfl
    have step : P.fA p p + P.sigma (P.iterate p n) (false, p) (false, p) = P.iterate p (n + 1) := rfl
    unfold iterations
    simp only [e1, e2, Option.bind_eq_bind, Option.bind_some, step, neg_mul, one_mul]
    by_cases hc : |P.iterate p (n + 1) - P.iterate p n| < tol
    · rw [if_pos hc]
      exact ⟨_, rfl, n, le_refl n, by omega, rfl, hc, fun l h1 h2 => by omega⟩
    · rw [if_neg hc]
      obtain ⟨r, hr, hf⟩ := ih (n + 1)
      refine ⟨r, hr, ?_⟩
      cases r with
      | none =>
        intro l h1 h2
        by_cases hl : l = n
        · subst hl; exact not_lt.mp hc
        · exact hf l (by omega) (by omega)
      | some w =>
        obtain ⟨m, h1, h2, h3, h4, h5⟩ := hf
        refine ⟨m, by omega, by omega, h3, h4, fun l hl1 hl2 => ?_⟩
        by_cases hl : l = n
        · subst hl; exact not_lt.mp hc
        · exact h5 l (by omega) hl2

theorem forRange_succ {σ : Type} (n : ℕ) (body : ℕ → σ → Option σ) (s : σ) :
    forRange 0 (n + 1) body s = (forRange 0 n body s).bind (body n) := by
  unfold forRange
  rw [Nat.sub_zero, Nat.sub_zero, List.range'_concat, List.foldlM_append]
  simp

/-- The roots of all orbitals from the highest occupied one down. -/
theorem roots_found (P : Problem) (h : P.Antisymmetric) (nroot maxit : ℕ) (hn : nroot ≤ P.no false) (tol : ℚ) :
    ∃ w c, gf2Ip nroot (slices P) maxit tol = some (w, c) ∧
      (∀ k, k < nroot → Found (P.iterate (P.no false - 1 - k)) tol 0 maxit (if c k then some (w k) else none) ∧ (c k = false → w k = 0)) ∧
      ∀ k, nroot ≤ k → w k = 0 ∧ c k = false := by
  induction nroot with
  | zero => exact ⟨_, _, rfl, fun k hk => absurd hk (Nat.not_lt_zero k), fun k _ => ⟨rfl, rfl⟩⟩
  | succ n ih =>
    obtain ⟨w, c, h1, h2, h3⟩ := ih (by omega)
    unfold gf2Ip at h1 ⊢
    rw [forRange_succ, h1, Option.bind_some]
    have hp : P.no false - 1 - n < P.no false := by omega
    have hq : ((slices P).noa : ℤ) - 1 - n = ((P.no false - 1 - n : ℕ) : ℤ) := by
      show ((P.no false : ℕ) : ℤ) - 1 - n = _
      omega
    have e1 : (slices P).fA_oo.diag (((slices P).noa : ℤ) - 1 - n) = some (P.iterate (P.no false - 1 - n) 0) := by
      unfold Nd2.diag
      rw [show (slices P).fA_oo.n0 = P.no false from rfl, show (slices P).fA_oo.n1 = P.no false from rfl, axis_nat hq hp]
      rfl
    obtain ⟨r, hr, hf⟩ := iterations_found P h hq hp tol maxit 0
    rw [Nat.zero_add] at hf
    simp only [e1, hr, Option.bind_eq_bind, Option.bind_some]
    cases r with
    | none =>
      refine ⟨w, c, rfl, fun k hk => ?_, fun k hk => h3 k (by omega)⟩
      by_cases hkn : k = n
      · subst hkn
        rw [(h3 k (le_refl k)).2]
        exact ⟨hf, fun _ => (h3 k (le_refl k)).1⟩
      · exact h2 k (by omega)
    | some v =>
      refine ⟨_, _, rfl, fun k hk => ?_, fun k hk => ?_⟩
      · by_cases hkn : k = n
        · subst hkn
          simpa using hf
        · simp only [if_neg hkn]
          exact h2 k (by omega)
      · simp only [if_neg (show k ≠ n by omega)]
        exact h3 k (by omega)

end Ccpy.SelfEnergy
