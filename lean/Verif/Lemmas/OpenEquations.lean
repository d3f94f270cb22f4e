import Verif.Engine.Triples
import Verif.Lemmas.CcElements
import Verif.Lemmas.UpdateKernels
import Verif.Lemmas.UpdateLists
import Verif.Lemmas.UpdateLoops

/-! From the comparison of all projections at once to single projections. -/

namespace Ccpy.Engine
open Ccpy.Fock Ccpy.Tensor Finset Ccpy.UpdateKernels Ccpy.Spec Ccpy.Writes

variable {A : Type*} [Ring A] [Algebra ℚ A] {X : Bool → ℕ × ℕ → A} {dim : ℕ → ℕ}

/-- The creators of the listed variables. -/
def creOps (l : List Var) : List Op := l.map fun v => (v % 4 % 2 == 1, v)

/-- A piece that is a single number of the array 149. -/
def termOf (p : Piece) : Option (ℤ × List ℕ) :=
  match p with
  | ⟨⟨s, 1, 1⟩, [], [(149, idx)], []⟩ => some (bif s then -1 else 1, idx)
  | _ => none

/-- The expectation value of the operators with the creators of an array gives the listed numbers. -/
noncomputable def collapses {m n : ℕ} (pat : Pattern m n) (P : Fin m → Var) (H : Fin n → Var) (vars wv : List Var) (bra : List Op) : Bool :=
  decide (((pat.map fun e => some (e.2.2, List.ofFn (P ∘ e.1) ++ List.ofFn (H ∘ e.2.1))).Perm
    ((wickPiece (List.ofFn P ++ List.ofFn H) ⟨⟨false, 1, 1⟩, vars, [(149, vars)], bra ++ creOps wv⟩).map termOf))
    ∧ ∀ o ∈ bra, o.2 ∉ vars)

/-- The array 149, and the identity. -/
def withArray (R : List ℕ → ℚ) (n : ℕ) (idx : List (ℕ × ℕ)) : ℚ :=
  match n with
  | 0 => match idx with
    | [x, y] => if x = y then 1 else 0
    | _ => 0
  | _ + 1 => R (idx.map Prod.snd)

theorem withArray_delta (R : List ℕ → ℚ) : IsDelta (withArray R) := fun _ _ => rfl

theorem evalO_creOps (ρ : Env) (l : List Var) : evalO X ρ (creOps l) = creProd X (l.map (val ρ)) := by
  induction l with
  | nil => rfl
  | cons v l ih =>
    have e : creOps (v :: l) = (v % 4 % 2 == 1, v) :: creOps l := rfl
    rw [e, evalO_cons, ih, List.map_cons]
    rfl

theorem termOf_spec {E : A →ₗ[ℚ] ℚ} (h1 : E 1 = 1) (R : List ℕ → ℚ) {p : Piece} {t : ℤ × List ℕ} (h : termOf p = some t) (ρ : Env) :
    E (evalP (withArray R) X dim p ρ) = t.1 * R (t.2.map ρ) := by
  unfold termOf at h
  split at h
  · rename_i s idx
    cases Option.some.inj h
    have e : idx.map (Prod.snd ∘ val ρ) = idx.map ρ := rfl
    cases s <;> simp [evalP, sumV, evalFs, evalF, withArray, evalO, Coef.val, h1, e]
  · cases h

theorem terms_sum {E : A →ₗ[ℚ] ℚ} (h1 : E 1 = 1) (R : List ℕ → ℚ) (ρ : Env) : ∀ {l : List Piece} {L : List (ℤ × List ℕ)},
    l.map termOf = L.map some → E (evalS (withArray R) X dim l ρ) = (L.map fun t => t.1 * R (t.2.map ρ)).sum
  | [], [], _ => by simp [evalS]
  | p :: l, [], h => by cases h
  | [], t :: L, h => by cases h
  | p :: l, t :: L, h => by
    rw [List.map_cons, List.map_cons] at h
    injection h with h₁ h₂
    rw [evalS_cons, map_add, termOf_spec h1 R h₁, terms_sum h1 R ρ h₂, List.map_cons, List.sum_cons]

theorem exists_terms {l : List Piece} {L : List (ℤ × List ℕ)} (h : (L.map some).Perm (l.map termOf)) :
    ∃ L' : List (ℤ × List ℕ), l.map termOf = L'.map some ∧ L.Perm L' := by
  obtain ⟨L', hL', h'⟩ : ∃ L' : List (ℤ × List ℕ), l.map termOf = L'.map some ∧ True := by
    have hs : ∀ x ∈ l.map termOf, ∃ y, x = some y := fun x hx => by
      obtain ⟨y, _, rfl⟩ := List.mem_map.1 (h.mem_iff.2 hx)
      exact ⟨y, rfl⟩
    generalize l.map termOf = M at hs
    induction M with
    | nil => exact ⟨[], rfl, trivial⟩
    | cons x M ih =>
      obtain ⟨y, rfl⟩ := hs x (List.mem_cons_self ..)
      obtain ⟨L', hL, _⟩ := ih fun z hz => hs z (List.mem_cons_of_mem _ hz)
      exact ⟨y :: L', by rw [hL, List.map_cons], trivial⟩
  refine ⟨L', hL', ?_⟩
  rw [hL'] at h
  exact (List.map_perm_map_iff (Option.some_injective _)).1 h

theorem collapse {E : A →ₗ[ℚ] ℚ} (hE : Vacuum dim X E) (R : List ℕ → ℚ) {m n : ℕ} {sp : Fin m → Bool} {sh : Fin n → Bool}
    {pat : Pattern m n} (hp : Lists sp sh pat) {P : Fin m → Var} {H : Fin n → Var} {vars wv : List Var} {bra : List Op}
    (hc : collapses pat P H vars wv bra = true) {ρ : Env} (hρ : ExtOk dim (List.ofFn P ++ List.ofFn H) ρ) :
    sumV dim vars (fun ρ' => R (vars.map ρ') * E (evalO X ρ bra * creProd X (wv.map (val ρ')))) ρ
      = antisymmetrize sp sh (fun k => R (List.ofFn k.1 ++ List.ofFn k.2)) (ρ ∘ P, ρ ∘ H) := by
  unfold collapses at hc
  obtain ⟨h₁, h₂⟩ := of_decide_eq_true hc
  have h₁' : ((pat.map fun e => (e.2.2, List.ofFn (P ∘ e.1) ++ List.ofFn (H ∘ e.2.1))).map some).Perm
      ((wickPiece (List.ofFn P ++ List.ofFn H) ⟨⟨false, 1, 1⟩, vars, [(149, vars)], bra ++ creOps wv⟩).map termOf) := by
    rw [List.map_map]
    exact h₁
  obtain ⟨L, hL, hL'⟩ := exists_terms h₁'
  have hw := wickPiece_eq hE (withArray_delta R) hρ ⟨⟨false, 1, 1⟩, vars, [(149, vars)], bra ++ creOps wv⟩
  rw [terms_sum hE.one R ρ hL, ← (hL'.map _).sum_eq, List.map_map] at hw
  rw [← signedSum_at hp, signedSum, At, List.map_map]
  have e₁ : ((fun t : ℤ × List ℕ => (t.1 : ℚ) * R (t.2.map ρ)) ∘ fun e : (Fin m → Fin m) × (Fin n → Fin n) × ℤ =>
      (e.2.2, List.ofFn (P ∘ e.1) ++ List.ofFn (H ∘ e.2.1)))
      = ((fun p : ((Fin m → ℕ) × (Fin n → ℕ)) × ℤ => (p.2 : ℚ) * R (List.ofFn p.1.1 ++ List.ofFn p.1.2)) ∘
        fun e : (Fin m → Fin m) × (Fin n → Fin n) × ℤ => (((ρ ∘ P) ∘ e.1, (ρ ∘ H) ∘ e.2.1), e.2.2)) := by
    funext e
    simp only [Function.comp_apply, List.map_append, List.map_ofFn]
    rfl
  rw [e₁] at hw
  refine Eq.trans ?_ hw.symm
  have c1 : (⟨false, 1, 1⟩ : Coef).val = 1 := by simp [Coef.val]
  dsimp only [evalP]
  rw [c1, one_smul]
  refine Eq.trans ?_ (sumV_hom E.toAddMonoidHom vars _ ρ).symm
  refine sumV_congr fun ρ' hr => ?_
  have e₂ : evalO X ρ' bra = evalO X ρ bra := evalO_agree bra fun x hx => hr.1 _ (h₂ x hx)
  have e₃ : vars.map (Prod.snd ∘ val ρ') = vars.map ρ' := rfl
  show _ = E _
  rw [evalO_append, e₂, evalO_creOps, map_smul]
  simp [evalFs, evalF, withArray, e₃]

/-! ### Orbitals -/

section
variable {ι : Type*} [LinearOrder ι]

/-- The transformed operators of the Hamiltonian. -/
theorem transforms_T3 {S : Orbitals ι} (h : S.Proper) {Z : Fock.Integrals} (hZ : Z.Antisym) {l : List Cluster} {l₃ : List Triples}
    (hl : ∀ T ∈ l, T.Antisym) (hl₃ : ∀ T ∈ l₃, T.Antisym) (φ : Operator ι →ₗ[ℚ] ℚ) :
    Transforms (withCre (elements S.na S.nb (stF S Z) (stV Z) (store3 l l₃)) (dimS S) (opX S) φ) (opX S) (dimS S) hatT3 goodH
      (clusterOperator3 S (l.getD 0 Cluster.zero) (l₃.getD 0 Triples.zero)) := by
  intro x hx ρ hr
  have h₁ := okHats1_spec okHats_T3 x hx
  obtain ⟨h₂, h₃⟩ := lowHats_spec lowHats_T3 x hx
  have e := hat1_eq (fock_car h) delta_elements (antiSym_3 (na := S.na) (nb := S.nb) (f := stF S Z) hZ hl hl₃) h₁ h₂ h₃ hr
  rw [evalS_listE S _ _ (o := 0) (store3_holds_low l l₃ 0 (by decide)) (store3_holds l l₃ 0)] at e
  rw [← e]
  refine evalS_low (fun n hn => withCre_low φ hn) ?_ ρ
  have e' : lowS (hatT3 x.1 x.2) = lowS (bindL (commOp1 x.2) (listE 0 x.1)) := rfl
  rw [e']
  exact h₃

theorem lowS_listH : lowS listH = true := by decide +kernel

/-- The antisymmetrised program is the projection of the transformed operator. -/
theorem open_eq' {S : Orbitals ι} (h : S.Proper) {Z : Fock.Integrals} (hZ : Z.Antisym) {l : List Cluster} {l₃ : List Triples}
    (hl : ∀ T ∈ l, T.Antisym) (hl₃ : ∀ T ∈ l₃, T.Antisym) {L : List Piece} (hL : lowS L = true) {x : Ex} {vars wv : List Var}
    {bra : List Op} (hx : ocheck (groups table3) hatT3 goodH L x vars wv bra = true) {m n : ℕ} {sp : Fin m → Bool}
    {sh : Fin n → Bool} {pat : Pattern m n} (hp : Lists sp sh pat) {P : Fin m → Var} {H : Fin n → Var} (hwv : ∀ v ∈ wv, v ∈ vars)
    (hc : collapses pat P H vars wv bra = true) (hb : ∀ o ∈ bra, o.2 ∈ List.ofFn P ++ List.ofFn H)
    {ρ : Env} (hρ : ExtOk (dimS S) (List.ofFn P ++ List.ofFn H) ρ) {B : Operator ι}
    (hB : evalS (elements S.na S.nb (stF S Z) (stV Z) (store3 l l₃)) (opX S) (dimS S) L ρ = B) :
    antisymmetrize sp sh (fun k => value S Z (store3 l l₃) x (List.ofFn k.1 ++ List.ofFn k.2)) (ρ ∘ P, ρ ∘ H)
      = expect S (evalO (opX S) ρ bra * (IsNilpotent.exp (-clusterOperator3 S (l.getD 0 Cluster.zero) (l₃.getD 0 Triples.zero)) * B
        * IsNilpotent.exp (clusterOperator3 S (l.getD 0 Cluster.zero) (l₃.getD 0 Triples.zero)))) := by
  rw [← collapse (fock_vacuum h) (value S Z (store3 l l₃) x) hp hc hρ]
  have e := ocheck_sound (fock_vacuum h) delta_elements (antiSym_3 (na := S.na) (nb := S.nb) (f := stF S Z) hZ hl hl₃)
    (transforms_T3 h hZ hl hl₃) (cluster3_nilpotent h _ _) hL hwv hx (ρ₀ := ρ) (fun o ho => hρ _ (hb o ho)) ρ
  rw [hB] at e
  exact e

/-- The antisymmetrised program is the projection of the transformed Hamiltonian. -/
theorem open_eq {S : Orbitals ι} (h : S.Proper) {Z : Fock.Integrals} (hZ : Z.Antisym) {l : List Cluster} {l₃ : List Triples}
    (hl : ∀ T ∈ l, T.Antisym) (hl₃ : ∀ T ∈ l₃, T.Antisym) {x : Ex} {vars wv : List Var} {bra : List Op}
    (hx : ocheck (groups table3) hatT3 goodH listH x vars wv bra = true) {m n : ℕ} {sp : Fin m → Bool} {sh : Fin n → Bool}
    {pat : Pattern m n} (hp : Lists sp sh pat) {P : Fin m → Var} {H : Fin n → Var} (hwv : ∀ v ∈ wv, v ∈ vars)
    (hc : collapses pat P H vars wv bra = true) (hb : ∀ o ∈ bra, o.2 ∈ List.ofFn P ++ List.ofFn H)
    {ρ : Env} (hρ : ExtOk (dimS S) (List.ofFn P ++ List.ofFn H) ρ) :
    antisymmetrize sp sh (fun k => value S Z (store3 l l₃) x (List.ofFn k.1 ++ List.ofFn k.2)) (ρ ∘ P, ρ ∘ H)
      = expect S (evalO (opX S) ρ bra * transformed3 S Z (l.getD 0 Cluster.zero) (l₃.getD 0 Triples.zero)) :=
  open_eq' h hZ hl hl₃ lowS_listH hx hp hwv hc hb hρ (evalS_listH h Z _ ρ)

end

end Ccpy.Engine
