import Verif.Engine.Closed
import Verif.Engine.Left
import Verif.Lemmas.DensityPrograms

/-! Comparison of the programs of the density matrices with expectation values. -/

namespace Ccpy.Engine
open Ccpy.Fock Ccpy.Tensor Ccpy.Ccsdt Ccpy.Rdm Finset

variable {ι : Type*} [LinearOrder ι]

section pieces
variable {A : Type*} [Ring A] [Algebra ℚ A]
variable {I : ℕ → List (ℕ × ℕ) → ℚ} {X : Bool → ℕ × ℕ → A} {dim : ℕ → ℕ}

theorem evalP_six' {c : Coef} {n v w x y z u : ℕ} {b₁ b₂ b₃ b₄ b₅ b₆ : Bool} (h : [v, w, x, y, z, u].Nodup) (ρ : Env) :
    evalP I X dim ⟨c, [v, w, x, y, z, u], [(n, [v, w, x, y, z, u])], [(b₁, y), (b₂, z), (b₃, u), (b₄, x), (b₅, w), (b₆, v)]⟩ ρ
      = c.val • ∑ a ∈ range (dim (v % 4)), ∑ b ∈ range (dim (w % 4)), ∑ d ∈ range (dim (x % 4)), ∑ i ∈ range (dim (y % 4)),
        ∑ j ∈ range (dim (z % 4)), ∑ k ∈ range (dim (u % 4)),
      I n [(v % 4, a), (w % 4, b), (x % 4, d), (y % 4, i), (z % 4, j), (u % 4, k)]
        • (X b₁ (y % 4, i) * X b₂ (z % 4, j) * X b₃ (u % 4, k) * X b₄ (x % 4, d) * X b₅ (w % 4, b) * X b₆ (v % 4, a)) := by
  simp only [List.nodup_cons, List.mem_cons, List.not_mem_nil, or_false, not_or] at h
  obtain ⟨⟨h1, h2, h3, h4, h5⟩, ⟨h6, h7, h8, h9⟩, ⟨h10, h11, h12⟩, ⟨h13, h14⟩, h15, _⟩ := h
  simp [evalP, sumV, evalFs, evalF, evalO, val, Function.update_of_ne h1, Function.update_of_ne h2, Function.update_of_ne h3,
    Function.update_of_ne h4, Function.update_of_ne h5, Function.update_of_ne h6, Function.update_of_ne h7,
    Function.update_of_ne h8, Function.update_of_ne h9, Function.update_of_ne h10, Function.update_of_ne h11,
    Function.update_of_ne h12, Function.update_of_ne h13, Function.update_of_ne h14, Function.update_of_ne h15, mul_assoc]

end pieces

noncomputable section

/-- A triple de-excitation for spins with first spaces `s`, `t`, `u`. -/
def tripleL (name d s t u n : ℕ) : Piece :=
  ⟨⟨false, 1, d⟩, [4 * (n + 3) + (s + 1), 4 * (n + 4) + (t + 1), 4 * (n + 5) + (u + 1), 4 * n + s, 4 * (n + 1) + t, 4 * (n + 2) + u],
    [(name, [4 * (n + 3) + (s + 1), 4 * (n + 4) + (t + 1), 4 * (n + 5) + (u + 1), 4 * n + s, 4 * (n + 1) + t, 4 * (n + 2) + u])],
    [(true, 4 * n + s), (true, 4 * (n + 1) + t), (true, 4 * (n + 2) + u),
      (false, 4 * (n + 5) + (u + 1)), (false, 4 * (n + 4) + (t + 1)), (false, 4 * (n + 3) + (s + 1))]⟩

def listL3 (o n : ℕ) : List Piece :=
  [tripleL (o + 106) 36 0 0 0 n, tripleL (o + 107) 4 0 0 2 n, tripleL (o + 108) 4 0 2 2 n, tripleL (o + 109) 36 2 2 2 n]

/-- The de-excitation operator of the `o`-th set. -/
def listD (o n : ℕ) : List Piece := app (listL (Nat.mul 5 o) n) (listL3 (Nat.mul 4 o) n)

/-- The operators of the density matrix with their places. -/
def goodD : List (ℕ × Op) :=
  bindL (fun s => [(15, (true, 4 + s)), (23, (true, 4 + s)), (23, (false, s)), (31, (false, s))]) [0, 1, 2, 3]

/-- `(1 + L) e^{-T} q† p e^{T}` -/
def densityTerms : List Term := [⟨false, [], fun _ => []⟩, ⟨false, [listD 1 15], fun _ => []⟩]

def dcheckD (x : Ex) (p q : Var) : Bool :=
  kcheck (groups table3) hatT3 goodD (slot [(true, q), (false, p)]) x [p, q] densityTerms

end

theorem evalS_listL3 (S : Orbitals ι) (T : Triples) {f v} {amp : ℕ → List ℕ → ℚ} {o : ℕ} (hT : Holds3 T fun name => amp (o + name))
    (n : ℕ) (ρ : Env) : evalS (elements S.na S.nb f v amp) (opX S) (dimS S) (listL3 o n) ρ = deexcitationTriples S T := by
  have hnd : ∀ s t u, s < 3 → t < 3 → u < 3 → [4 * (n + 3) + (s + 1), 4 * (n + 4) + (t + 1), 4 * (n + 5) + (u + 1), 4 * n + s,
      4 * (n + 1) + t, 4 * (n + 2) + u].Nodup := fun s t u _ _ _ => by simp; omega
  have m1 : ∀ k, (4 * k + (0 + 1)) % 4 = 1 := fun k => by omega
  have m2 : ∀ k, (4 * k + 2) % 4 = 2 := fun k => by omega
  have m3 : ∀ k, (4 * k + (2 + 1)) % 4 = 3 := fun k => by omega
  have m0 : ∀ k, (4 * k + 0) % 4 = 0 := fun k => by omega
  unfold listL3 tripleL
  rw [evalS_cons, evalS_cons, evalS_cons, evalS_cons, evalP_six' (hnd _ _ _ (by decide) (by decide) (by decide)),
    evalP_six' (hnd _ _ _ (by decide) (by decide) (by decide)), evalP_six' (hnd _ _ _ (by decide) (by decide) (by decide)),
    evalP_six' (hnd _ _ _ (by decide) (by decide) (by decide))]
  simp only [m0, m1, m2, m3]
  have c4 : (⟨false, 1, 4⟩ : Coef).val = 1 / 4 := by simp [Coef.val]
  have c36 : (⟨false, 1, 36⟩ : Coef).val = 1 / 36 := by simp [Coef.val]
  rw [c4, c36]
  have e6 : ∀ a b c i j k, elements S.na S.nb f v amp (o + 106) [(1, a), (1, b), (1, c), (0, i), (0, j), (0, k)]
    = T.tAAA a b c i j k := fun a b c i j k => hT.aaa a b c i j k
  have e7 : ∀ a b c i j k, elements S.na S.nb f v amp (o + 107) [(1, a), (1, b), (3, c), (0, i), (0, j), (2, k)]
    = T.tAAB a b c i j k := fun a b c i j k => hT.aab a b c i j k
  have e8 : ∀ a b c i j k, elements S.na S.nb f v amp (o + 108) [(1, a), (3, b), (3, c), (0, i), (2, j), (2, k)]
    = T.tABB a b c i j k := fun a b c i j k => hT.abb a b c i j k
  have e9 : ∀ a b c i j k, elements S.na S.nb f v amp (o + 109) [(3, a), (3, b), (3, c), (2, i), (2, j), (2, k)]
    = T.tBBB a b c i j k := fun a b c i j k => hT.bbb a b c i j k
  simp only [e6, e7, e8, e9]
  have hnil : evalS (elements S.na S.nb f v amp) (opX S) (dimS S) [] ρ = 0 := rfl
  rw [hnil, add_zero]
  unfold deexcitationTriples
  simp only [add_assoc]
  rfl

theorem evalS_listD (S : Orbitals ι) (T : Cluster) (T₃ : Triples) {f v} {amp : ℕ → List ℕ → ℚ} {o : ℕ}
    (hT : Holds T fun name => amp (5 * o + name)) (hT₃ : Holds3 T₃ fun name => amp (4 * o + name)) (n : ℕ) (ρ : Env) :
    evalS (elements S.na S.nb f v amp) (opX S) (dimS S) (listD o n) ρ = deexcitation S T + deexcitationTriples S T₃ := by
  unfold listD
  rw [app_eq, evalS_append]
  exact congrArg₂ _ (evalS_listL S T hT n ρ) (evalS_listL3 S T₃ hT₃ n ρ)

theorem okHats_D : okHats1 (groups table3) (listE 0) 60 goodD = true := by decide +kernel
theorem lowHats_D : lowHats goodD = true := by decide +kernel

theorem transforms_D {S : Orbitals ι} (h : S.Proper) {Z : Fock.Integrals} (hZ : Z.Antisym) {l : List Cluster} {l₃ : List Triples}
    (hl : ∀ T ∈ l, T.Antisym) (hl₃ : ∀ T ∈ l₃, T.Antisym) :
    Transforms (elements S.na S.nb (stF S Z) (stV Z) (store3 l l₃)) (opX S) (dimS S) hatT3 goodD
      (clusterOperator3 S (l.getD 0 Cluster.zero) (l₃.getD 0 Triples.zero)) := by
  intro x hx ρ hr
  have h₁ := okHats1_spec okHats_D x hx
  obtain ⟨h₂, h₃⟩ := lowHats_spec lowHats_D x hx
  have e := hat1_eq (fock_car h) delta_elements (antiSym_3 (na := S.na) (nb := S.nb) (f := stF S Z) hZ hl hl₃) h₁ h₂ h₃ hr
  rwa [evalS_listE S _ _ (o := 0) (store3_holds_low l l₃ 0 (by decide)) (store3_holds l l₃ 0)] at e

/-- A program of the density matrix has the values of the expectation value. -/
theorem density_eq {S : Orbitals ι} (h : S.Proper) {Z : Fock.Integrals} (hZ : Z.Antisym) {T L : State} (hT : T.Antisym)
    (hL : L.Antisym) {x : Ex} {p q : Var} (hx : dcheckD x p q = true) {ρ : Env} (hp : ρ p < dimS S (p % 4))
    (hq : ρ q < dimS S (q % 4)) :
    value S Z (store3 [T.one, L.one] [T.three, L.three]) x [ρ p, ρ q] = density S T L (orb S (val ρ p)) (orb S (val ρ q)) := by
  have hl : ∀ C ∈ [T.one, L.one], C.Antisym := fun C hC => by
    simp only [List.mem_cons, List.not_mem_nil, or_false] at hC
    rcases hC with rfl | rfl
    · exact hT.one
    · exact hL.one
  have hl₃ : ∀ C ∈ [T.three, L.three], C.Antisym := fun C hC => by
    simp only [List.mem_cons, List.not_mem_nil, or_false] at hC
    rcases hC with rfl | rfl
    · exact hT.three
    · exact hL.three
  have hρ : ExtOk (dimS S) [p, q] ρ := fun v hv => by
    simp only [List.mem_cons, List.not_mem_nil, or_false] at hv
    rcases hv with rfl | rfl <;> assumption
  have e := kcheck_sound (fock_vacuum h) delta_elements (antiSym_3 (na := S.na) (nb := S.nb) (f := stF S Z) hZ hl hl₃)
    (transforms_D h hZ hl hl₃) (cluster3_nilpotent h _ _) hx hρ
    (vs := [(1, 1), (deexcitation S L.one + deexcitationTriples S L.three, 1)])
    (.cons ⟨fun _ _ => rfl, fun _ _ _ => rfl⟩ (.cons ⟨fun ρ' _ => ?_, fun _ _ _ => rfl⟩ .nil))
  · refine Eq.trans e ?_
    rw [evalS_slot (ρ := ρ) (ext := [p, q]) (fun _ _ => rfl) (by simp)]
    simp only [densityTerms, List.zipWith_cons_cons, List.zipWith_nil_left, List.sum_cons, List.sum_nil, Bool.false_eq_true, if_false,
      one_mul, mul_one, add_zero]
    rw [← map_add]
    unfold density
    show expect S _ = expect S _
    congr 1
  · simp only [List.map_cons, List.map_nil, List.prod_cons, List.prod_nil, mul_one]
    exact evalS_listD S _ _ (store3_holds_low _ _ 1 (by decide)) (store3_holds _ _ 1) 15 ρ'

theorem check_a_oo : dcheckD (prog_a_oo amplitudes3 amplitudesL3 + progTriples_a_oo amplitudes3 amplitudesL3) 0 4 = true := by decide +kernel
theorem check_b_oo : dcheckD (prog_b_oo amplitudes3 amplitudesL3 + progTriples_b_oo amplitudes3 amplitudesL3) 2 6 = true := by decide +kernel
theorem check_a_ov : dcheckD (prog_a_ov amplitudes3 amplitudesL3) 0 5 = true := by decide +kernel
theorem check_b_ov : dcheckD (prog_b_ov amplitudes3 amplitudesL3) 2 7 = true := by decide +kernel
theorem check_a_vo : dcheckD (prog_a_vo amplitudes3 amplitudesL3 + progTriples_a_vo amplitudes3 amplitudesL3) 1 4 = true := by decide +kernel
theorem check_b_vo : dcheckD (prog_b_vo amplitudes3 amplitudesL3 + progTriples_b_vo amplitudes3 amplitudesL3) 3 6 = true := by decide +kernel
theorem check_a_vv : dcheckD (prog_a_vv amplitudes3 amplitudesL3 + progTriples_a_vv amplitudes3 amplitudesL3) 1 5 = true := by decide +kernel
theorem check_b_vv : dcheckD (prog_b_vv amplitudes3 amplitudesL3 + progTriples_b_vv amplitudes3 amplitudesL3) 3 7 = true := by decide +kernel

end Ccpy.Engine
