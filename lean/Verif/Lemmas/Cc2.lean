import Verif.Engine.SubClusters
import Verif.Lemmas.Ccd
import Verif.Lemmas.DensityPrograms
import Verif.Model.Cc2

/-! The comparisons for the CC2 equations, and the stages of one iteration. -/

namespace Ccpy.Cc2
open Ccpy.Fock Ccpy.Tensor Ccpy.Engine Ccpy.HbarCcs
open Ccpy.Ccsd (anti tableT antiSym_T holds_of denote_anti setup no_triples store3_amp clean_amp)
open Ccpy.Ccsdt (mem_one clean eval_clean')
open Ccpy.Rdm (denote_add denote_sub denote_neg denote_half)

variable {ι : Type*} [LinearOrder ι]

/-- The intermediates, without update of the amplitudes in between. -/
def pre : Ints := getPreCcsIntermediates stored amplitudes stored false
def hbar : Ints := addVvvv (getCcsIntermediatesOpt pre amplitudes stored false) amplitudes stored false
def preR : Ints := getPreCcsIntermediates stored amplitudes stored true
def hbarR : Ints := addVvvv (getCcsIntermediatesOpt preR amplitudes stored true) amplitudes stored true

/-- The terms without double excitations, and the others. -/
def singlesT2b (T : Amps) (H H0 : Ints) : Ex :=
  let dT_ab := -(es% "mbij,am->abij" H.ab.ovoo, T.a)
  let dT_ab := dT_ab - (es% "amij,bm->abij" H.ab.vooo, T.b)
  let dT_ab := dT_ab + (es% "abej,ei->abij" H.ab.vvvo, T.a)
  let dT_ab := dT_ab + (es% "abie,ej->abij" H.ab.vvov, T.b)
  dT_ab + H0.ab.vvoo
def doublesT2b (T : Amps) (H0 : Ints) : Ex :=
  let dT_ab := -(es% "mi,abmj->abij" H0.a.oo, T.ab)
  let dT_ab := dT_ab - (es% "mj,abim->abij" H0.b.oo, T.ab)
  let dT_ab := dT_ab + (es% "ae,ebij->abij" H0.a.vv, T.ab)
  dT_ab + (es% "be,aeij->abij" H0.b.vv, T.ab)
def singlesT2a (T : Amps) (H H0 : Ints) : Ex :=
  let dT := -half (es% "amij,bm->abij" H.aa.vooo, T.a)
  let dT := dT + half (es% "abie,ej->abij" H.aa.vvov, T.a)
  dT + quarter H0.aa.vvoo
def doublesT2a (T : Amps) (H0 : Ints) : Ex :=
  let dT := -half (es% "mi,abmj->abij" H0.a.oo, T.aa)
  dT + half (es% "ae,ebij->abij" H0.a.vv, T.aa)
def singlesT2c (T : Amps) (H H0 : Ints) : Ex :=
  let dT := -half (es% "amij,bm->abij" H.bb.vooo, T.b)
  let dT := dT + half (es% "abie,ej->abij" H.bb.vvov, T.b)
  dT + quarter H0.bb.vvoo
def doublesT2c (T : Amps) (H0 : Ints) : Ex :=
  let dT := -half (es% "mi,abmj->abij" H0.b.oo, T.bb)
  dT + half (es% "ae,ebij->abij" H0.b.vv, T.bb)

/-- The contribution of four virtual orbitals and two single excitations. -/
def twice : Ex := es% "abef,ei,fj->abij" stored.aa.vvvv, amplitudes.a, amplitudes.a

section
set_option maxRecDepth 100000
theorem check_t1a : check (groups tableT) (listC 0) listH (residualT1a amplitudes stored pre) [1, 4]
    (left [(true, 4), (false, 1)]) = true := by decide +kernel
theorem check_t1b : check (groups tableT) (listC 0) listH (residualT1b amplitudes stored pre) [3, 6]
    (left [(true, 6), (false, 3)]) = true := by decide +kernel
theorem checkS_t2a : check (groups tableT) (listSingles 0) listH (anti (singlesT2a amplitudes hbar stored)) [1, 5, 8, 12]
    (left [(true, 8), (true, 12), (false, 5), (false, 1)]) = true := by decide +kernel
theorem checkD_t2a : dcheck (groups tableT) noT listFock (anti (doublesT2a amplitudes stored)) [1, 5, 8, 12] [] false
    [⟨false, false, [slot [(true, 8), (true, 12), (false, 5), (false, 1)]], listDoubles 0, fun _ => []⟩] = true := by decide +kernel
theorem checkS_t2b : check (groups tableT) (listSingles 0) listH (singlesT2b amplitudes hbar stored) [1, 7, 8, 14]
    (left [(true, 8), (true, 14), (false, 7), (false, 1)]) = true := by decide +kernel
theorem checkD_t2b : dcheck (groups tableT) noT listFock (doublesT2b amplitudes stored) [1, 7, 8, 14] [] false
    [⟨false, false, [slot [(true, 8), (true, 14), (false, 7), (false, 1)]], listDoubles 0, fun _ => []⟩] = true := by decide +kernel
theorem checkS_t2c : check (groups tableT) (listSingles 0) listH (anti (singlesT2c amplitudes hbar stored)) [3, 7, 10, 14]
    (left [(true, 10), (true, 14), (false, 7), (false, 3)]) = true := by decide +kernel
theorem checkD_t2c : dcheck (groups tableT) noT listFock (anti (doublesT2c amplitudes stored)) [3, 7, 10, 14] [] false
    [⟨false, false, [slot [(true, 10), (true, 14), (false, 7), (false, 3)]], listDoubles 0, fun _ => []⟩] = true := by decide +kernel
theorem equal_t1a : equalC (residualT1a amplitudes stored preR) [1, 4] (residualT1a amplitudes stored pre) [1, 4] = true := by
  decide +kernel
theorem equal_t2a : equalC (anti (residualT2a amplitudes hbarR stored)) [1, 5, 8, 12]
    (anti (residualT2a amplitudes hbar stored) + twice) [1, 5, 8, 12] = true := by decide +kernel
theorem equal_t2b : equalC (residualT2b amplitudes hbarR stored) [1, 5, 8, 12] (residualT2b amplitudes hbar stored) [1, 5, 8, 12]
    = true := by decide +kernel
end

theorem split_t2a (dim : ℕ → ℕ) (I : ℕ → List (ℕ × ℕ) → ℚ) (l : List ℕ) : (residualT2a amplitudes hbar stored).denote dim I l
    = (singlesT2a amplitudes hbar stored).denote dim I l + (doublesT2a amplitudes stored).denote dim I l := by
  unfold residualT2a singlesT2a doublesT2a
  simp only [denote_add, denote_sub, denote_neg]
  ring
theorem split_t2b (dim : ℕ → ℕ) (I : ℕ → List (ℕ × ℕ) → ℚ) (l : List ℕ) : (residualT2b amplitudes hbar stored).denote dim I l
    = (singlesT2b amplitudes hbar stored).denote dim I l + (doublesT2b amplitudes stored).denote dim I l := by
  unfold residualT2b singlesT2b doublesT2b
  simp only [denote_add, denote_sub, denote_neg]
  ring
theorem split_t2c (dim : ℕ → ℕ) (I : ℕ → List (ℕ × ℕ) → ℚ) (l : List ℕ) : (residualT2c amplitudes hbar stored).denote dim I l
    = (singlesT2c amplitudes hbar stored).denote dim I l + (doublesT2c amplitudes stored).denote dim I l := by
  unfold residualT2c singlesT2c doublesT2c
  simp only [denote_add, denote_sub, denote_neg]
  ring

theorem expect_add (S : Orbitals ι) (P A B : Operator ι) : expect S (P * (A + B)) = expect S (P * A) + expect S (P * B) := by
  rw [mul_add, map_add]

section
variable {S : Orbitals ι} (h : S.Proper) {Z : Fock.Integrals} (hZ : Z.Antisym) {T : Cluster} (hT : T.Antisym)
  {amp : ℕ → List ℕ → ℚ} (ha : ∀ n, 6 ≤ n → n ≤ 10 → amp n = T.amp n)
include h hZ hT ha

theorem value_left {x : Ex} {ext : List ℕ} {bra : List Op} (hb : ∀ o ∈ bra, o.2 ∈ ext)
    (hx : check (groups tableT) (listC 0) listH x ext (left bra) = true) {ρ : Env} (hρ : ExtOk (dimS S) ext ρ) :
    value S Z amp x (ext.map ρ) = expect S (evalO (opX S) ρ bra * transformed S Z T) :=
  check_left h (antiSym_T hZ hT ha) (fun m ρ => evalS_listC S T (Ccd.holds_zero (holds_of ha)) m ρ) (cluster_nilpotent h T) hb hx hρ

theorem value_leftS {x : Ex} {ext : List ℕ} {bra : List Op} (hb : ∀ o ∈ bra, o.2 ∈ ext)
    (hx : check (groups tableT) (listSingles 0) listH x ext (left bra) = true) {ρ : Env} (hρ : ExtOk (dimS S) ext ρ) :
    value S Z amp x (ext.map ρ) = expect S (evalO (opX S) ρ bra * transformed S Z T.singles) :=
  check_left h (antiSym_T hZ hT ha) (fun m ρ => evalS_listSingles S T (Ccd.holds_zero (holds_of ha)) m ρ)
    (cluster_nilpotent h T.singles) hb hx hρ

theorem value_t1a {a i : ℕ} (ha' : a < S.ua) (hi : i < S.na) :
    value S Z amp (residualT1a amplitudes stored pre) [a, i] = S.element (S.singleA a i) (transformed S Z T) := by
  have hρ : ExtOk (dimS S) [1, 4] (env [1, 4] [a, i]) := fun v hv => by
    simp only [List.mem_cons, List.not_mem_nil, or_false] at hv
    rcases hv with rfl | rfl <;> assumption
  refine (value_left h hZ hT ha (by decide) check_t1a hρ).trans ?_
  rw [evalO_two, element_single]
  rfl

theorem value_t1b {a i : ℕ} (ha' : a < S.ub) (hi : i < S.nb) :
    value S Z amp (residualT1b amplitudes stored pre) [a, i] = S.element (S.singleB a i) (transformed S Z T) := by
  have hρ : ExtOk (dimS S) [3, 6] (env [3, 6] [a, i]) := fun v hv => by
    simp only [List.mem_cons, List.not_mem_nil, or_false] at hv
    rcases hv with rfl | rfl <;> assumption
  refine (value_left h hZ hT ha (by decide) check_t1b hρ).trans ?_
  rw [evalO_two, element_single]
  rfl

theorem value_t2a {a b i j : ℕ} (h₁ : a < S.ua) (h₂ : b < S.ua) (h₃ : i < S.na) (h₄ : j < S.na) :
    value S Z amp (anti (residualT2a amplitudes hbar stored)) [a, b, i, j]
      = S.element (S.doubleAA a b i j) (cc2Doubles S Z T) := by
  have hρ : ExtOk (dimS S) [1, 5, 8, 12] (env [1, 5, 8, 12] [a, b, i, j]) := fun v hv => by
    simp only [List.mem_cons, List.not_mem_nil, or_false] at hv
    rcases hv with rfl | rfl | rfl | rfl <;> assumption
  have e₁ := value_leftS h hZ hT ha (by decide) checkS_t2a hρ
  have e₂ := value_commF h (antiSym_T hZ hT ha) (Ccd.holds_zero (holds_of ha)) (by decide) checkD_t2a hρ
  have e₃ : value S Z amp (anti (residualT2a amplitudes hbar stored)) [a, b, i, j]
      = value S Z amp (anti (singlesT2a amplitudes hbar stored)) [a, b, i, j]
      + value S Z amp (anti (doublesT2a amplitudes stored)) [a, b, i, j] := by
    unfold value
    rw [denote_anti, denote_anti, denote_anti]
    unfold exchange
    simp only [split_t2a]
    ring
  refine (e₃.trans (congrArg₂ (· + ·) e₁ e₂)).trans ?_
  rw [← expect_add, evalO_four, element_double]
  rfl

theorem value_t2b {a b i j : ℕ} (h₁ : a < S.ua) (h₂ : b < S.ub) (h₃ : i < S.na) (h₄ : j < S.nb) :
    value S Z amp (residualT2b amplitudes hbar stored) [a, b, i, j]
      = S.element (S.doubleAB a b i j) (cc2Doubles S Z T) := by
  have hρ : ExtOk (dimS S) [1, 7, 8, 14] (env [1, 7, 8, 14] [a, b, i, j]) := fun v hv => by
    simp only [List.mem_cons, List.not_mem_nil, or_false] at hv
    rcases hv with rfl | rfl | rfl | rfl <;> assumption
  have e₁ := value_leftS h hZ hT ha (by decide) checkS_t2b hρ
  have e₂ := value_commF h (antiSym_T hZ hT ha) (Ccd.holds_zero (holds_of ha)) (by decide) checkD_t2b hρ
  have e₃ : value S Z amp (residualT2b amplitudes hbar stored) [a, b, i, j]
      = value S Z amp (singlesT2b amplitudes hbar stored) [a, b, i, j]
      + value S Z amp (doublesT2b amplitudes stored) [a, b, i, j] := by
    exact split_t2b _ _ _
  refine (e₃.trans (congrArg₂ (· + ·) e₁ e₂)).trans ?_
  rw [← expect_add, evalO_four, element_double]
  rfl

theorem value_t2c {a b i j : ℕ} (h₁ : a < S.ub) (h₂ : b < S.ub) (h₃ : i < S.nb) (h₄ : j < S.nb) :
    value S Z amp (anti (residualT2c amplitudes hbar stored)) [a, b, i, j]
      = S.element (S.doubleBB a b i j) (cc2Doubles S Z T) := by
  have hρ : ExtOk (dimS S) [3, 7, 10, 14] (env [3, 7, 10, 14] [a, b, i, j]) := fun v hv => by
    simp only [List.mem_cons, List.not_mem_nil, or_false] at hv
    rcases hv with rfl | rfl | rfl | rfl <;> assumption
  have e₁ := value_leftS h hZ hT ha (by decide) checkS_t2c hρ
  have e₂ := value_commF h (antiSym_T hZ hT ha) (Ccd.holds_zero (holds_of ha)) (by decide) checkD_t2c hρ
  have e₃ : value S Z amp (anti (residualT2c amplitudes hbar stored)) [a, b, i, j]
      = value S Z amp (anti (singlesT2c amplitudes hbar stored)) [a, b, i, j]
      + value S Z amp (anti (doublesT2c amplitudes stored)) [a, b, i, j] := by
    unfold value
    rw [denote_anti, denote_anti, denote_anti]
    unfold exchange
    simp only [split_t2c]
    ring
  refine (e₃.trans (congrArg₂ (· + ·) e₁ e₂)).trans ?_
  rw [← expect_add, evalO_four, element_double]
  rfl
end

/-! ### The restricted program -/

section
variable {S : Orbitals ι} {Z : Fock.Integrals} (hC : ClosedShell S Z) (hZ : Z.Antisym) {T : Cluster} (hT : T.Antisym)
  (hs : T.Symmetric)
include hC hZ hT hs

theorem closed_t1a (a i : ℕ) : value S Z (store3 [T] []) (residualT1a amplitudes stored preR) [a, i]
    = value S Z (store3 [T] []) (residualT1a amplitudes stored pre) [a, i] :=
  equalC_sound hC hZ (mem_one hT) (mem_one hs) no_triples no_triples equal_t1a (env [1, 4] [a, i])

theorem closed_t2a (a b i j : ℕ) : value S Z (store3 [T] []) (anti (residualT2a amplitudes hbarR stored)) [a, b, i, j]
    = value S Z (store3 [T] []) (anti (residualT2a amplitudes hbar stored)) [a, b, i, j]
    + value S Z (store3 [T] []) twice [a, b, i, j] :=
  equalC_sound hC hZ (mem_one hT) (mem_one hs) no_triples no_triples equal_t2a (env [1, 5, 8, 12] [a, b, i, j])

theorem closed_t2b (a b i j : ℕ) : value S Z (store3 [T] []) (residualT2b amplitudes hbarR stored) [a, b, i, j]
    = value S Z (store3 [T] []) (residualT2b amplitudes hbar stored) [a, b, i, j] :=
  equalC_sound hC hZ (mem_one hT) (mem_one hs) no_triples no_triples equal_t2b (env [1, 5, 8, 12] [a, b, i, j])
end

theorem value_twice (S : Orbitals ι) (Z : Fock.Integrals) (T : Cluster) (a b i j : ℕ) : value S Z (store3 [T] []) twice [a, b, i, j]
    = ∑ e ∈ Finset.range S.ua, ∑ f ∈ Finset.range S.ua, Z.vAA (S.na + a) (S.na + b) (S.na + e) (S.na + f) * T.tA e i * T.tA f j := by
  unfold value twice
  simp [Ex.denote, Body.letters, Ex.axes, summed, sumLetters, amplitudes, stored, Body.denote, look, elements, mul_assoc]
  rfl

set_option maxRecDepth 100000 in
theorem cleanR_t1a : (residualT1a amplitudes stored preR).rename clean = residualT1a amplitudes stored preR := by rfl
set_option maxRecDepth 100000 in
theorem cleanR_t2a : (residualT2a amplitudes hbarR stored).rename clean = residualT2a amplitudes hbarR stored := by rfl
set_option maxRecDepth 100000 in
theorem cleanR_t2b : (residualT2b amplitudes hbarR stored).rename clean = residualT2b amplitudes hbarR stored := by rfl

/-! ### Stages -/

def T₁ : Amps := { amplitudes with a := .arr 11 [1, 0] }
def T₂ : Amps := { T₁ with b := .arr 12 [3, 2] }
def T₃ : Amps := { T₂ with aa := .arr 13 [1, 1, 0, 0] }
def T₄ : Amps := { T₃ with ab := .arr 14 [1, 3, 0, 2] }

section
variable (X : Ints)
def ints1 : Ints := getPreCcsIntermediates X amplitudes stored false
def ints2 : Ints := addVvvv (getCcsIntermediatesOpt (ints1 X) T₂ stored false) T₂ stored false

set_option maxRecDepth 100000
theorem rename_t1a : (residualT1a amplitudes stored (ints1 X)).rename (backName 0) = residualT1a amplitudes stored pre := by rfl
theorem rename_t1b : (residualT1b T₁ stored (ints1 X)).rename (backName 1) = residualT1b amplitudes stored pre := by rfl
theorem rename_t2a : (residualT2a T₂ (ints2 X) stored).rename (backName 2) = residualT2a amplitudes hbar stored := by rfl
theorem rename_t2b : (residualT2b T₃ (ints2 X) stored).rename (backName 3) = residualT2b amplitudes hbar stored := by rfl
theorem rename_t2c : (residualT2c T₄ (ints2 X) stored).rename (backName 4) = residualT2c amplitudes hbar stored := by rfl
end

/-- The stages of the iteration. -/
def program (s : Setup) (X : Ints) : List (Memory → (List ℕ → ℚ) × (List ℕ → ℚ)) :=
  [fun m => callT1a s (s.eval m (residualT1a amplitudes stored (ints1 X))) (m 6),
   fun m => callT1b s (s.eval m (residualT1b T₁ stored (ints1 X))) (m 7),
   fun m => callT2a s (s.eval m (residualT2a T₂ (ints2 X) stored)) (m 8),
   fun m => callT2b s (s.eval m (residualT2b T₃ (ints2 X) stored)) (m 9),
   fun m => callT2c s (s.eval m (residualT2c T₄ (ints2 X) stored)) (m 10)]

theorem update_eq (s : Setup) (X : Ints) (m : Memory) : update s X m = stages m (program s X) 1 := by
  delta update
  extract_lets T X₁ m₁ T₁ m₂ T₂ X₂ m₃ T₃ m₄
  have e₁ : stages m (program s X) 1 = stages m₁ ((program s X).drop 1) 2 := rfl
  have e₂ : stages m₁ ((program s X).drop 1) 2 = stages m₂ ((program s X).drop 2) 3 := rfl
  have e₃ : stages m₂ ((program s X).drop 2) 3 = stages m₃ ((program s X).drop 3) 4 := rfl
  have e₄ : stages m₃ ((program s X).drop 3) 4 = stages m₄ ((program s X).drop 4) 5 := rfl
  rw [e₁, e₂, e₃, e₄]
  rfl

theorem kept {m : Memory} {T : Cluster} (hm : ∀ n, ¬ Reserved n → m n = T.amp n) (n : ℕ) (_ : 6 ≤ n) (_ : n ≤ 10) :
    m n = T.amp n := hm n (by unfold Reserved; omega)

section
variable {S : Orbitals ι} (h : S.Proper) {Z : Fock.Integrals} (hZ : Z.Antisym) {T : Cluster} (hT : T.Antisym)
  {shift : ℚ} (hd : Ccsd.Denominators (setup S Z shift)) (X : Ints) {m : Memory}
  (hm : ∀ n, ¬ Reserved n → m n = T.amp n)
include h hZ hT hd hm

theorem rest_t1a (hk : ∀ n, m n = m (backName 0 n)) :
    (callT1a (setup S Z shift) ((setup S Z shift).eval m (residualT1a amplitudes stored (ints1 X))) (m 6)).1
      = T.amp 6 ↔ ∀ a i, a < S.ua → i < S.na → S.element (S.singleA a i) (transformed S Z T) = 0 := by
  rw [eval_backName _ hk, rename_t1a, hm 6 (by unfold Reserved; omega), (calledT1a _ _ _ hd.a).fixed_iff hd.a]
  exact forall₄_congr fun a i ha hi => by
    rw [← value_t1a h hZ hT (kept hm) ha hi]; rfl

theorem rest_t1b (hk : ∀ n, m n = m (backName 1 n)) :
    (callT1b (setup S Z shift) ((setup S Z shift).eval m (residualT1b T₁ stored (ints1 X))) (m 7)).1
      = T.amp 7 ↔ ∀ a i, a < S.ub → i < S.nb → S.element (S.singleB a i) (transformed S Z T) = 0 := by
  rw [eval_backName _ hk, rename_t1b, hm 7 (by unfold Reserved; omega), (calledT1b _ _ _ hd.b).fixed_iff hd.b]
  exact forall₄_congr fun a i ha hi => by
    rw [← value_t1b h hZ hT (kept hm) ha hi]; rfl

theorem rest_t2a (hk : ∀ n, m n = m (backName 2 n)) :
    (callT2a (setup S Z shift) ((setup S Z shift).eval m (residualT2a T₂ (ints2 X) stored)) (m 8)).1
      = T.amp 8 ↔ ∀ a b i j, a < S.ua → b < S.ua → i < S.na → j < S.na →
        S.element (S.doubleAA a b i j) (cc2Doubles S Z T) = 0 := by
  rw [eval_backName _ hk, rename_t2a, hm 8 (by unfold Reserved; omega),
    (calledT2a _ _ _ hT.aa (fun _ _ _ _ => rfl) hd.aa).fixed_iff hd.aa]
  exact forall₄_congr fun a b i j => forall₄_congr fun ha hb hi hj => by
    rw [← value_t2a h hZ hT (kept hm) ha hb hi hj, value, denote_anti]; rfl

theorem rest_t2b (hk : ∀ n, m n = m (backName 3 n)) :
    (callT2b (setup S Z shift) ((setup S Z shift).eval m (residualT2b T₃ (ints2 X) stored)) (m 9)).1
      = T.amp 9 ↔ ∀ a b i j, a < S.ua → b < S.ub → i < S.na → j < S.nb →
        S.element (S.doubleAB a b i j) (cc2Doubles S Z T) = 0 := by
  rw [eval_backName _ hk, rename_t2b, hm 9 (by unfold Reserved; omega),
    (calledT2b _ _ _ hd.ab).fixed_iff hd.ab]
  exact forall₄_congr fun a b i j => forall₄_congr fun ha hb hi hj => by
    rw [← value_t2b h hZ hT (kept hm) ha hb hi hj]; rfl

theorem rest_t2c (hk : ∀ n, m n = m (backName 4 n)) :
    (callT2c (setup S Z shift) ((setup S Z shift).eval m (residualT2c T₄ (ints2 X) stored)) (m 10)).1
      = T.amp 10 ↔ ∀ a b i j, a < S.ub → b < S.ub → i < S.nb → j < S.nb →
        S.element (S.doubleBB a b i j) (cc2Doubles S Z T) = 0 := by
  rw [eval_backName _ hk, rename_t2c, hm 10 (by unfold Reserved; omega),
    (calledT2c _ _ _ hT.bb (fun _ _ _ _ => rfl) hd.bb).fixed_iff hd.bb]
  exact forall₄_congr fun a b i j => forall₄_congr fun ha hb hi hj => by
    rw [← value_t2c h hZ hT (kept hm) ha hb hi hj, value, denote_anti]; rfl

end

/-! ### Stages of the restricted program -/

section
variable (X : Ints)
def ints1R : Ints := getPreCcsIntermediates X amplitudes stored true
def ints2R : Ints := addVvvv (getCcsIntermediatesOpt (ints1R X) T₂ stored true) T₂ stored true

set_option maxRecDepth 100000
theorem renameR_t1a : (residualT1a amplitudes stored (ints1R X)).rename (backName 0) = residualT1a amplitudes stored preR := by rfl
theorem renameR_t2a : (residualT2a T₂ (ints2R X) stored).rename (backName 2) = residualT2a amplitudes hbarR stored := by rfl
theorem renameR_t2b : (residualT2b T₃ (ints2R X) stored).rename (backName 3) = residualT2b amplitudes hbarR stored := by rfl
end

def programR (s : Setup) (X : Ints) : List (Memory → (List ℕ → ℚ) × (List ℕ → ℚ)) :=
  [fun m => callT1a s (s.eval m (residualT1a amplitudes stored (ints1R X))) (m 6),
   fun m => (m 11, m 16),
   fun m => callT2a s (s.eval m (residualT2a T₂ (ints2R X) stored)) (m 8),
   fun m => callT2b s (s.eval m (residualT2b T₃ (ints2R X) stored)) (m 9),
   fun m => (m 13, m 18)]

theorem updateRhf_eq (s : Setup) (X : Ints) (m : Memory) : updateRhf s X m = stages m (programR s X) 1 := by
  delta updateRhf
  extract_lets T X₁ m₁ T₁ m₂ T₂ X₂ m₃ T₃ m₄
  have e₁ : stages m (programR s X) 1 = stages m₁ ((programR s X).drop 1) 2 := rfl
  have e₂ : stages m₁ ((programR s X).drop 1) 2 = stages m₂ ((programR s X).drop 2) 3 := rfl
  have e₃ : stages m₂ ((programR s X).drop 2) 3 = stages m₃ ((programR s X).drop 3) 4 := rfl
  have e₄ : stages m₃ ((programR s X).drop 3) 4 = stages m₄ ((programR s X).drop 4) 5 := rfl
  rw [e₁, e₂, e₃, e₄]
  rfl

section
variable {S : Orbitals ι} (h : S.Proper) {Z : Fock.Integrals} (hC : ClosedShell S Z) (hZ : Z.Antisym) {T : Cluster} (hT : T.Antisym)
  (hs : T.Symmetric) {shift : ℚ} (hd : Ccsd.Denominators (setup S Z shift)) (X : Ints) {m : Memory}
  (hm : ∀ n, ¬ Reserved n → m n = T.amp n)
include h hC hZ hT hs hd hm

theorem restR_t1a (hk : ∀ n, m n = m (backName 0 n)) :
    (callT1a (setup S Z shift) ((setup S Z shift).eval m (residualT1a amplitudes stored (ints1R X))) (m 6)).1
      = T.amp 6 ↔ ∀ a i, a < S.ua → i < S.na → S.element (S.singleA a i) (transformed S Z T) = 0 := by
  have e : (setup S Z shift).eval m (residualT1a amplitudes stored preR) = value S Z (store3 [T] []) (residualT1a amplitudes stored preR) :=
    eval_clean' (clean_amp hm) cleanR_t1a
  rw [eval_backName _ hk, renameR_t1a, e, hm 6 (by unfold Reserved; omega), (calledT1a _ _ _ hd.a).fixed_iff hd.a]
  exact forall₄_congr fun a i ha hi => by
    rw [← value_t1a h hZ hT (store3_amp T) ha hi, closed_t1a hC hZ hT hs]

theorem restR_t2a (hk : ∀ n, m n = m (backName 2 n)) :
    (callT2a (setup S Z shift) ((setup S Z shift).eval m (residualT2a T₂ (ints2R X) stored)) (m 8)).1
      = T.amp 8 ↔ ∀ a b i j, a < S.ua → b < S.ua → i < S.na → j < S.na →
        S.element (S.doubleAA a b i j) (cc2Doubles S Z T) + ∑ e ∈ Finset.range S.ua, ∑ f ∈ Finset.range S.ua,
          Z.vAA (S.na + a) (S.na + b) (S.na + e) (S.na + f) * T.tA e i * T.tA f j = 0 := by
  have e : (setup S Z shift).eval m (residualT2a amplitudes hbarR stored) = value S Z (store3 [T] []) (residualT2a amplitudes hbarR stored) :=
    eval_clean' (clean_amp hm) cleanR_t2a
  rw [eval_backName _ hk, renameR_t2a, e, hm 8 (by unfold Reserved; omega),
    (calledT2a _ _ _ hT.aa (fun _ _ _ _ => rfl) hd.aa).fixed_iff hd.aa]
  exact forall₄_congr fun a b i j => forall₄_congr fun ha hb hi hj => by
    rw [← value_t2a h hZ hT (store3_amp T) ha hb hi hj, ← value_twice, ← closed_t2a hC hZ hT hs]
    exact iff_of_eq (congrArg (· = 0) (denote_anti _ _ _ a b i j).symm)

theorem restR_t2b (hk : ∀ n, m n = m (backName 3 n)) :
    (callT2b (setup S Z shift) ((setup S Z shift).eval m (residualT2b T₃ (ints2R X) stored)) (m 9)).1
      = T.amp 9 ↔ ∀ a b i j, a < S.ua → b < S.ub → i < S.na → j < S.nb →
        S.element (S.doubleAB a b i j) (cc2Doubles S Z T) = 0 := by
  have e : (setup S Z shift).eval m (residualT2b amplitudes hbarR stored) = value S Z (store3 [T] []) (residualT2b amplitudes hbarR stored) :=
    eval_clean' (clean_amp hm) cleanR_t2b
  rw [eval_backName _ hk, renameR_t2b, e, hm 9 (by unfold Reserved; omega), (calledT2b _ _ _ hd.ab).fixed_iff hd.ab]
  exact forall₄_congr fun a b i j => forall₄_congr fun ha hb hi hj => by
    rw [← value_t2b h hZ hT (store3_amp T) ha hb hi hj, ← closed_t2b hC hZ hT hs]
    rfl
end

end Ccpy.Cc2
