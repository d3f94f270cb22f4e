import Verif.Lemmas.CcsdtChecks
import Verif.Lemmas.StagedUpdate

/-! The CCSDT equations and the stages of the iteration. -/

namespace Ccpy.Engine
open Ccpy.Fock
variable {ι : Type*} [LinearOrder ι] {S : Orbitals ι}

theorem evalO_six (ρ : Env) (b c d e f g : Bool) (v w x y z u : ℕ) :
    evalO (opX S) ρ [(b, v), (c, w), (d, x), (e, y), (f, z), (g, u)] = opX S b (val ρ v) * (opX S c (val ρ w) *
      (opX S d (val ρ x) * (opX S e (val ρ y) * (opX S f (val ρ z) * opX S g (val ρ u))))) := by
  simp [evalO]

theorem element_triple (x y z u v w : ℕ × ℕ) (A : Operator ι) :
    expect S (opX S true u * (opX S true v * (opX S true w * (opX S false z * (opX S false y * opX S false x)))) * A)
      = S.element (cre (orb S x) (cre (orb S y) (cre (orb S z) (ann (orb S w) (ann (orb S v) (ann (orb S u) S.ref)))))) A := by
  show inner S.ref (cre (orb S u) (cre (orb S v) (cre (orb S w) (ann (orb S z) (ann (orb S y) (ann (orb S x) (A S.ref)))))))
    = inner _ _
  rw [← inner_ann, ← inner_ann, ← inner_ann, ← inner_cre, ← inner_cre, ← inner_cre]

end Ccpy.Engine

namespace Ccpy.Ccsdt
open Ccpy.Fock Ccpy.Tensor Ccpy.Engine Ccpy.HbarCcs Ccpy.UpdateKernels Ccpy.Spec Ccpy.Writes

variable {ι : Type*} [LinearOrder ι]

theorem mem_one {α : Type*} {p : α → Prop} {x : α} (hx : p x) : ∀ y ∈ [x], p y := fun y hy => by
  rw [List.mem_singleton.1 hy]; exact hx

section
variable {S : Orbitals ι} (h : S.Proper) {Z : Fock.Integrals} (hZ : Z.Antisym) {T : Cluster} (hT : T.Antisym)
  {T₃ : Triples} (hT₃ : T₃.Antisym)
include h hZ hT hT₃

theorem value_t1a {a i : ℕ} (ha : a < S.ua) (hi : i < S.na) :
    antisymmetrize ![false] ![false] (fun k => value S Z (store3 [T] [T₃]) (residualT1a amplitudes3 pre stored) (listed k))
      (![a], ![i]) = S.element (S.singleA a i) (transformed3 S Z T T₃) := by
  have hρ : ExtOk (dimS S) [25, 28] (env [25, 28] [a, i]) := fun v hv => by
    simp only [List.mem_cons, List.not_mem_nil, or_false] at hv
    rcases hv with rfl | rfl <;> assumption
  have e := open_eq h hZ (mem_one hT) (mem_one hT₃) check_t1a (lists_pat1 false) (by decide) collapse_t1a (by decide) hρ
  rw [evalO_two, element_single] at e
  have e₁ : (env [25, 28] [a, i] ∘ ![25]) = ![a] := by funext i; fin_cases i <;> rfl
  have e₂ : (env [25, 28] [a, i] ∘ ![28]) = ![i] := by funext i; fin_cases i <;> rfl
  rw [e₁, e₂] at e
  exact e

theorem value_t1b {a i : ℕ} (ha : a < S.ub) (hi : i < S.nb) :
    antisymmetrize ![true] ![true] (fun k => value S Z (store3 [T] [T₃]) (residualT1b amplitudes3 pre stored) (listed k))
      (![a], ![i]) = S.element (S.singleB a i) (transformed3 S Z T T₃) := by
  have hρ : ExtOk (dimS S) [27, 30] (env [27, 30] [a, i]) := fun v hv => by
    simp only [List.mem_cons, List.not_mem_nil, or_false] at hv
    rcases hv with rfl | rfl <;> assumption
  have e := open_eq h hZ (mem_one hT) (mem_one hT₃) check_t1b (lists_pat1 true) (by decide) collapse_t1b (by decide) hρ
  rw [evalO_two, element_single] at e
  have e₁ : (env [27, 30] [a, i] ∘ ![27]) = ![a] := by funext i; fin_cases i <;> rfl
  have e₂ : (env [27, 30] [a, i] ∘ ![30]) = ![i] := by funext i; fin_cases i <;> rfl
  rw [e₁, e₂] at e
  exact e

theorem value_t2a {a b i j : ℕ} (ha : a < S.ua) (hb : b < S.ua) (hi : i < S.na) (hj : j < S.na) :
    antisymmetrize ![false, false] ![false, false] (fun k => value S Z (store3 [T] [T₃]) (residualT2a amplitudes3 hbar1 stored) (listed k))
      (![a, b], ![i, j]) = S.element (S.doubleAA a b i j) (transformed3 S Z T T₃) := by
  have hρ : ExtOk (dimS S) [25, 29, 32, 36] (env [25, 29, 32, 36] [a, b, i, j]) := fun v hv => by
    simp only [List.mem_cons, List.not_mem_nil, or_false] at hv
    rcases hv with rfl | rfl | rfl | rfl <;> assumption
  have e := open_eq h hZ (mem_one hT) (mem_one hT₃) check_t2a (lists_pat2 false) (by decide) collapse_t2a (by decide) hρ
  rw [evalO_four, element_double] at e
  have e₁ : (env [25, 29, 32, 36] [a, b, i, j] ∘ ![25, 29]) = ![a, b] := by funext i; fin_cases i <;> rfl
  have e₂ : (env [25, 29, 32, 36] [a, b, i, j] ∘ ![32, 36]) = ![i, j] := by funext i; fin_cases i <;> rfl
  rw [e₁, e₂] at e
  exact e

theorem value_t2b {a b i j : ℕ} (ha : a < S.ua) (hb : b < S.ub) (hi : i < S.na) (hj : j < S.nb) :
    antisymmetrize ![false, true] ![false, true] (fun k => value S Z (store3 [T] [T₃]) (residualT2b amplitudes3 hbar1 stored) (listed k))
      (![a, b], ![i, j]) = S.element (S.doubleAB a b i j) (transformed3 S Z T T₃) := by
  have hρ : ExtOk (dimS S) [25, 31, 32, 38] (env [25, 31, 32, 38] [a, b, i, j]) := fun v hv => by
    simp only [List.mem_cons, List.not_mem_nil, or_false] at hv
    rcases hv with rfl | rfl | rfl | rfl <;> assumption
  have e := open_eq h hZ (mem_one hT) (mem_one hT₃) check_t2b lists_pat2b (by decide) collapse_t2b (by decide) hρ
  rw [evalO_four, element_double] at e
  have e₁ : (env [25, 31, 32, 38] [a, b, i, j] ∘ ![25, 31]) = ![a, b] := by funext i; fin_cases i <;> rfl
  have e₂ : (env [25, 31, 32, 38] [a, b, i, j] ∘ ![32, 38]) = ![i, j] := by funext i; fin_cases i <;> rfl
  rw [e₁, e₂] at e
  exact e

theorem value_t2c {a b i j : ℕ} (ha : a < S.ub) (hb : b < S.ub) (hi : i < S.nb) (hj : j < S.nb) :
    antisymmetrize ![true, true] ![true, true] (fun k => value S Z (store3 [T] [T₃]) (residualT2c amplitudes3 hbar1 stored) (listed k))
      (![a, b], ![i, j]) = S.element (S.doubleBB a b i j) (transformed3 S Z T T₃) := by
  have hρ : ExtOk (dimS S) [27, 31, 34, 38] (env [27, 31, 34, 38] [a, b, i, j]) := fun v hv => by
    simp only [List.mem_cons, List.not_mem_nil, or_false] at hv
    rcases hv with rfl | rfl | rfl | rfl <;> assumption
  have e := open_eq h hZ (mem_one hT) (mem_one hT₃) check_t2c (lists_pat2 true) (by decide) collapse_t2c (by decide) hρ
  rw [evalO_four, element_double] at e
  have e₁ : (env [27, 31, 34, 38] [a, b, i, j] ∘ ![27, 31]) = ![a, b] := by funext i; fin_cases i <;> rfl
  have e₂ : (env [27, 31, 34, 38] [a, b, i, j] ∘ ![34, 38]) = ![i, j] := by funext i; fin_cases i <;> rfl
  rw [e₁, e₂] at e
  exact e

theorem value_t3a {a b c i j k : ℕ} (ha : a < S.ua) (hb : b < S.ua) (hc : c < S.ua) (hi : i < S.na) (hj : j < S.na) (hk : k < S.na) :
    antisymmetrize ![false, false, false] ![false, false, false] (fun k => value S Z (store3 [T] [T₃]) (residualT3a amplitudes3 hbar2 stored) (listed k))
      (![a, b, c], ![i, j, k]) = S.element (S.tripleAAA a b c i j k) (transformed3 S Z T T₃) := by
  have hρ : ExtOk (dimS S) [25, 29, 33, 36, 40, 44] (env [25, 29, 33, 36, 40, 44] [a, b, c, i, j, k]) := fun v hv => by
    simp only [List.mem_cons, List.not_mem_nil, or_false] at hv
    rcases hv with rfl | rfl | rfl | rfl | rfl | rfl <;> assumption
  have e := open_eq h hZ (mem_one hT) (mem_one hT₃) check_t3a (lists_terms3 false) (by decide) collapse_t3a (by decide) hρ
  rw [evalO_six, element_triple] at e
  have e₁ : (env [25, 29, 33, 36, 40, 44] [a, b, c, i, j, k] ∘ ![25, 29, 33]) = ![a, b, c] := by funext i; fin_cases i <;> rfl
  have e₂ : (env [25, 29, 33, 36, 40, 44] [a, b, c, i, j, k] ∘ ![36, 40, 44]) = ![i, j, k] := by funext i; fin_cases i <;> rfl
  rw [e₁, e₂] at e
  exact e

theorem value_t3b {a b c i j k : ℕ} (ha : a < S.ua) (hb : b < S.ua) (hc : c < S.ub) (hi : i < S.na) (hj : j < S.na) (hk : k < S.nb) :
    antisymmetrize ![false, false, true] ![false, false, true] (fun k => value S Z (store3 [T] [T₃]) (residualT3b amplitudes3 hbar2 stored) (listed k))
      (![a, b, c], ![i, j, k]) = S.element (S.tripleAAB a b c i j k) (transformed3 S Z T T₃) := by
  have hρ : ExtOk (dimS S) [25, 29, 35, 36, 40, 46] (env [25, 29, 35, 36, 40, 46] [a, b, c, i, j, k]) := fun v hv => by
    simp only [List.mem_cons, List.not_mem_nil, or_false] at hv
    rcases hv with rfl | rfl | rfl | rfl | rfl | rfl <;> assumption
  have e := open_eq h hZ (mem_one hT) (mem_one hT₃) check_t3b lists_3b (by decide) collapse_t3b (by decide) hρ
  rw [evalO_six, element_triple] at e
  have e₁ : (env [25, 29, 35, 36, 40, 46] [a, b, c, i, j, k] ∘ ![25, 29, 35]) = ![a, b, c] := by funext i; fin_cases i <;> rfl
  have e₂ : (env [25, 29, 35, 36, 40, 46] [a, b, c, i, j, k] ∘ ![36, 40, 46]) = ![i, j, k] := by funext i; fin_cases i <;> rfl
  rw [e₁, e₂] at e
  exact e

theorem value_t3c {a b c i j k : ℕ} (ha : a < S.ua) (hb : b < S.ub) (hc : c < S.ub) (hi : i < S.na) (hj : j < S.nb) (hk : k < S.nb) :
    antisymmetrize ![false, true, true] ![false, true, true] (fun k => value S Z (store3 [T] [T₃]) (residualT3c amplitudes3 hbar2 stored) (listed k))
      (![a, b, c], ![i, j, k]) = S.element (S.tripleABB a b c i j k) (transformed3 S Z T T₃) := by
  have hρ : ExtOk (dimS S) [25, 31, 35, 36, 42, 46] (env [25, 31, 35, 36, 42, 46] [a, b, c, i, j, k]) := fun v hv => by
    simp only [List.mem_cons, List.not_mem_nil, or_false] at hv
    rcases hv with rfl | rfl | rfl | rfl | rfl | rfl <;> assumption
  have e := open_eq h hZ (mem_one hT) (mem_one hT₃) check_t3c lists_3c (by decide) collapse_t3c (by decide) hρ
  rw [evalO_six, element_triple] at e
  have e₁ : (env [25, 31, 35, 36, 42, 46] [a, b, c, i, j, k] ∘ ![25, 31, 35]) = ![a, b, c] := by funext i; fin_cases i <;> rfl
  have e₂ : (env [25, 31, 35, 36, 42, 46] [a, b, c, i, j, k] ∘ ![36, 42, 46]) = ![i, j, k] := by funext i; fin_cases i <;> rfl
  rw [e₁, e₂] at e
  exact e

theorem value_t3d {a b c i j k : ℕ} (ha : a < S.ub) (hb : b < S.ub) (hc : c < S.ub) (hi : i < S.nb) (hj : j < S.nb) (hk : k < S.nb) :
    antisymmetrize ![true, true, true] ![true, true, true] (fun k => value S Z (store3 [T] [T₃]) (residualT3d amplitudes3 hbar2 stored) (listed k))
      (![a, b, c], ![i, j, k]) = S.element (S.tripleBBB a b c i j k) (transformed3 S Z T T₃) := by
  have hρ : ExtOk (dimS S) [27, 31, 35, 38, 42, 46] (env [27, 31, 35, 38, 42, 46] [a, b, c, i, j, k]) := fun v hv => by
    simp only [List.mem_cons, List.not_mem_nil, or_false] at hv
    rcases hv with rfl | rfl | rfl | rfl | rfl | rfl <;> assumption
  have e := open_eq h hZ (mem_one hT) (mem_one hT₃) check_t3d (lists_terms3 true) (by decide) collapse_t3d (by decide) hρ
  rw [evalO_six, element_triple] at e
  have e₁ : (env [27, 31, 35, 38, 42, 46] [a, b, c, i, j, k] ∘ ![27, 31, 35]) = ![a, b, c] := by funext i; fin_cases i <;> rfl
  have e₂ : (env [27, 31, 35, 38, 42, 46] [a, b, c, i, j, k] ∘ ![38, 42, 46]) = ![i, j, k] := by funext i; fin_cases i <;> rfl
  rw [e₁, e₂] at e
  exact e

end

/-! ### Stages -/

/-- The names of the arrays that the residuals use. -/
def clean (n : ℕ) : ℕ := if n ≤ 10 ∨ 106 ≤ n ∧ n ≤ 109 then n else 0

theorem eval_clean' {S : Orbitals ι} {Z : Fock.Integrals} {m m' : Memory}
    (hm : ∀ n, 6 ≤ n → n ≤ 10 ∨ 106 ≤ n ∧ n ≤ 109 → m n = m' n) {x : Ex} (hx : x.rename clean = x) :
    value S Z m x = value S Z m' x := by
  unfold value
  funext idx
  rw [← hx, Ex.denote_rename, Ex.denote_rename]
  congr 1
  funext n idx
  have e : ∀ k, 6 ≤ k → m k = m' k → elements S.na S.nb ⟨fockA S Z, fockB S Z⟩ ⟨Z.vAA, Z.vAB, Z.vBB⟩ m k
      = elements S.na S.nb ⟨fockA S Z, fockB S Z⟩ ⟨Z.vAA, Z.vAB, Z.vBB⟩ m' k := fun k hk hm => by
    obtain ⟨k, rfl⟩ := Nat.exists_eq_add_of_le' hk
    funext idx
    show m (k + 6) _ = m' (k + 6) _
    rw [hm]
  have e' : ∀ k, k < 6 → ∀ idx, elements S.na S.nb ⟨fockA S Z, fockB S Z⟩ ⟨Z.vAA, Z.vAB, Z.vBB⟩ m k idx
      = elements S.na S.nb ⟨fockA S Z, fockB S Z⟩ ⟨Z.vAA, Z.vAB, Z.vBB⟩ m' k idx := fun k hk idx => by
    match k, idx, hk with
    | 0, [], _ | 0, [_], _ | 0, [_, _], _ | 0, _ :: _ :: _ :: _, _ => rfl
    | 1, [], _ | 1, [_], _ | 1, [_, _], _ | 1, _ :: _ :: _ :: _, _ => rfl
    | 2, [], _ | 2, [_], _ | 2, [_, _], _ | 2, _ :: _ :: _ :: _, _ => rfl
    | 3, [], _ | 3, [_], _ | 3, [_, _], _ | 3, [_, _, _], _ | 3, [_, _, _, _], _ | 3, _ :: _ :: _ :: _ :: _ :: _, _ => rfl
    | 4, [], _ | 4, [_], _ | 4, [_, _], _ | 4, [_, _, _], _ | 4, [_, _, _, _], _ | 4, _ :: _ :: _ :: _ :: _ :: _, _ => rfl
    | 5, [], _ | 5, [_], _ | 5, [_, _], _ | 5, [_, _, _], _ | 5, [_, _, _, _], _ | 5, _ :: _ :: _ :: _ :: _ :: _, _ => rfl
  by_cases h6 : clean n < 6
  · exact e' _ h6 _
  · rw [e _ (by omega) (hm _ (by omega) ?_)]
    unfold clean at *
    split_ifs at h6 ⊢ <;> omega

theorem eval_clean {S : Orbitals ι} {Z : Fock.Integrals} {m m' : Memory} (hm : ∀ n, ¬ Reserved n → m n = m' n) {x : Ex}
    (hx : x.rename clean = x) : value S Z m x = value S Z m' x :=
  eval_clean' (fun n _ h => hm n (by unfold Reserved; omega)) hx

def stage1 : Amps3 := { amplitudes3 with a := .arr 11 [1, 0] }
def stage2 : Amps3 := { stage1 with b := .arr 12 [3, 2] }
def stage3 : Amps3 := { stage2 with aa := .arr 13 [1, 1, 0, 0] }
def stage4 : Amps3 := { stage3 with ab := .arr 14 [1, 3, 0, 2] }
def stage5 : Amps3 := { stage4 with bb := .arr 15 [3, 3, 2, 2] }
def stage6 : Amps3 := { stage5 with aaa := .arr 110 [1, 1, 1, 0, 0, 0] }
def stage7 : Amps3 := { stage6 with aab := .arr 111 [1, 1, 3, 0, 0, 2] }
def stage8 : Amps3 := { stage7 with abb := .arr 112 [1, 3, 3, 0, 2, 2] }

section
variable (X : Ints)
def ints1 : Ints := getPreCcsIntermediates X amplitudes3.toAmps stored false
def ints2 : Ints := getCcsIntermediatesOpt (ints1 X) stage2.toAmps stored false
def ints3 : Ints := HbarCcsd.getCcsdIntermediates stage5.toAmps (ints2 X) stored false

set_option maxRecDepth 100000
theorem rename_t1a : (residualT1a amplitudes3 (ints1 X) stored).rename (backName 0) = residualT1a amplitudes3 pre stored := by rfl
theorem clean_t1a : (residualT1a amplitudes3 pre stored).rename clean = residualT1a amplitudes3 pre stored := by rfl
theorem rename_t1b : (residualT1b stage1 (ints1 X) stored).rename (backName 1) = residualT1b amplitudes3 pre stored := by rfl
theorem clean_t1b : (residualT1b amplitudes3 pre stored).rename clean = residualT1b amplitudes3 pre stored := by rfl
theorem rename_t2a : (residualT2a stage2 (ints2 X) stored).rename (backName 2) = residualT2a amplitudes3 hbar1 stored := by rfl
theorem clean_t2a : (residualT2a amplitudes3 hbar1 stored).rename clean = residualT2a amplitudes3 hbar1 stored := by rfl
theorem rename_t2b : (residualT2b stage3 (ints2 X) stored).rename (backName 3) = residualT2b amplitudes3 hbar1 stored := by rfl
theorem clean_t2b : (residualT2b amplitudes3 hbar1 stored).rename clean = residualT2b amplitudes3 hbar1 stored := by rfl
theorem rename_t2c : (residualT2c stage4 (ints2 X) stored).rename (backName 4) = residualT2c amplitudes3 hbar1 stored := by rfl
theorem clean_t2c : (residualT2c amplitudes3 hbar1 stored).rename clean = residualT2c amplitudes3 hbar1 stored := by rfl
theorem rename_t3a : (residualT3a stage5 (ints3 X) stored).rename (backName 5) = residualT3a amplitudes3 hbar2 stored := by rfl
theorem clean_t3a : (residualT3a amplitudes3 hbar2 stored).rename clean = residualT3a amplitudes3 hbar2 stored := by rfl
theorem rename_t3b : (residualT3b stage6 (ints3 X) stored).rename (backName 6) = residualT3b amplitudes3 hbar2 stored := by rfl
theorem clean_t3b : (residualT3b amplitudes3 hbar2 stored).rename clean = residualT3b amplitudes3 hbar2 stored := by rfl
theorem rename_t3c : (residualT3c stage7 (ints3 X) stored).rename (backName 7) = residualT3c amplitudes3 hbar2 stored := by rfl
theorem clean_t3c : (residualT3c amplitudes3 hbar2 stored).rename clean = residualT3c amplitudes3 hbar2 stored := by rfl
theorem rename_t3d : (residualT3d stage8 (ints3 X) stored).rename (backName 8) = residualT3d amplitudes3 hbar2 stored := by rfl
theorem clean_t3d : (residualT3d amplitudes3 hbar2 stored).rename clean = residualT3d amplitudes3 hbar2 stored := by rfl
end

/-- The stages of the iteration. -/
def program (s : Setup) (X : Ints) : List (Memory → (List ℕ → ℚ) × (List ℕ → ℚ)) :=
  [fun m => callT1a s (s.eval m (residualT1a amplitudes3 (ints1 X) stored)) (m 6),
   fun m => callT1b s (s.eval m (residualT1b stage1 (ints1 X) stored)) (m 7),
   fun m => callT2a s (s.eval m (residualT2a stage2 (ints2 X) stored)) (m 8),
   fun m => callT2b s (s.eval m (residualT2b stage3 (ints2 X) stored)) (m 9),
   fun m => callT2c s (s.eval m (residualT2c stage4 (ints2 X) stored)) (m 10),
   fun m => callT3a s (s.eval m (residualT3a stage5 (ints3 X) stored)) (m 106),
   fun m => callT3b s (s.eval m (residualT3b stage6 (ints3 X) stored)) (m 107),
   fun m => callT3c s (s.eval m (residualT3c stage7 (ints3 X) stored)) (m 108),
   fun m => callT3d s (s.eval m (residualT3d stage8 (ints3 X) stored)) (m 109)]

theorem update_eq (s : Setup) (X : Ints) (m : Memory) : update s X m = stages m (program s X) 1 := by
  delta update
  extract_lets T X₁ m₁ T₁ m₂ T₂ X₂ m₃ T₃ m₄ T₄ m₅ T₅ X₃ m₆ T₆ m₇ T₇ m₈ T₈
  have e₁ : stages m (program s X) 1 = stages m₁ ((program s X).drop 1) 2 := rfl
  have e₂ : stages m₁ ((program s X).drop 1) 2 = stages m₂ ((program s X).drop 2) 3 := rfl
  have e₃ : stages m₂ ((program s X).drop 2) 3 = stages m₃ ((program s X).drop 3) 4 := rfl
  have e₄ : stages m₃ ((program s X).drop 3) 4 = stages m₄ ((program s X).drop 4) 5 := rfl
  have e₅ : stages m₄ ((program s X).drop 4) 5 = stages m₅ ((program s X).drop 5) 6 := rfl
  have e₆ : stages m₅ ((program s X).drop 5) 6 = stages m₆ ((program s X).drop 6) 7 := rfl
  have e₇ : stages m₆ ((program s X).drop 6) 7 = stages m₇ ((program s X).drop 7) 8 := rfl
  have e₈ : stages m₇ ((program s X).drop 7) 8 = stages m₈ ((program s X).drop 8) 9 := rfl
  rw [e₁, e₂, e₃, e₄, e₅, e₆, e₇, e₈]
  rfl

end Ccpy.Ccsdt
