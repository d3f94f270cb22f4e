import Verif.Engine.Fold
import Verif.Engine.Triples
import Verif.Spec.ClosedShell

/-! Closed shells: the instance of `Fold.lean` for the stored arrays. -/

namespace Ccpy.Engine

open Ccpy.Tensor Ccpy.Fock

noncomputable section

/-- The space with the other spin is identified with the one of spin up. -/
def sigma (s : ℕ) : ℕ := brec% Nat.beq s 2, 0, (brec% Nat.beq s 3, 1, s)

/-- The arrays of spin down that are copies of arrays of spin up. -/
def copies : List (ℕ × ℕ) := [(2, 1), (5, 3), (7, 6), (10, 8), (12, 11), (15, 13), (109, 106), (113, 110)]
/-- The arrays with one index pair of each spin. -/
def mixed : List ℕ := [4, 9, 14]

def rename (m : List (ℕ × ℕ)) (n : ℕ) : ℕ := lrec% m, n, fun e _ ih => brec% Nat.beq n e.1, e.2, ih

/-- An array that is not allowed. -/
def bad (sp : List ℕ) : Ex := .add (.arr 0 (mapL sigma sp)) (.arr 0 [7])

/-- The array `t_abb` of index spaces `sp` in terms of `t_aab`, whose name is `n`. -/
def turned (n : ℕ) (sp : List ℕ) : Ex :=
  lrec% sp, bad sp, fun a l₁ _ => lrec% l₁, bad sp, fun b l₂ _ => lrec% l₂, bad sp, fun c l₃ _ => lrec% l₃, bad sp, fun i l₄ _ =>
    lrec% l₄, bad sp, fun j l₅ _ => lrec% l₅, bad sp, fun k l₆ _ => lrec% l₆,
      .es [0, 1, 2, 3, 4, 5] (.cons [1, 2, 0, 4, 5, 3] (.arr n [sigma b, sigma c, sigma a, sigma j, sigma k, sigma i]) .nil),
      fun _ _ _ => bad sp

/-- Stored arrays in terms of those of spin up. -/
def closed (n : ℕ) (sp : List ℕ) : Ex :=
  brec% Nat.beq n 0, bad sp, (brec% Nat.beq n 108, turned 107 sp, (brec% Nat.beq n 112, turned 111 sp,
    .arr (rename copies n) (mapL sigma sp)))

def isMixed (n : ℕ) : Bool := mem n mixed

/-- Two expressions agree for closed shells. -/
def equalC (x : Ex) (xs : List Var) (y : Ex) (ys : List Var) : Bool := sameF closed isMixed (groups table3) x xs y ys

end

variable {ι : Type*} [LinearOrder ι]

theorem sigma_eq (s : ℕ) : sigma s = if s = 2 then 0 else if s = 3 then 1 else s := by
  have e : sigma s = (brec% Nat.beq s 2, 0, (brec% Nat.beq s 3, 1, s)) := rfl
  rw [e, brec_eq, brec_eq]
  by_cases h2 : s = 2
  · subst h2; rfl
  · by_cases h3 : s = 3
    · subst h3; rfl
    · have b2 : Nat.beq s 2 = false := by cases h : Nat.beq s 2 with | false => rfl | true => exact absurd ((beq_iff _ _).1 h) h2
      have b3 : Nat.beq s 3 = false := by cases h : Nat.beq s 3 with | false => rfl | true => exact absurd ((beq_iff _ _).1 h) h3
      rw [b2, b3, if_neg h2, if_neg h3]; rfl

theorem sigma_position (n : ℕ) (x : ℕ × ℕ) : position n n (sigma x.1, x.2) = position n n x := by
  obtain ⟨s, k⟩ := x
  match s with
  | 0 | 1 | 2 | 3 => rfl
  | s + 4 =>
    have e : sigma (s + 4) = s + 4 := by rw [sigma_eq, if_neg (by omega), if_neg (by omega)]
    show position n n (sigma (s + 4), k) = _
    rw [e]

theorem zip_sigma (sp idx : List ℕ) : (sp.map sigma).zip idx = (sp.zip idx).map fun x => (sigma x.1, x.2) := by
  induction sp generalizing idx with
  | nil => rfl
  | cons s sp ih =>
    cases idx with
    | nil => rfl
    | cons k idx => exact congrArg ((sigma s, k) :: ·) (ih idx)

/-- Arrays of spin up and spin down with the same elements. -/
structure SymAmp (amp : ℕ → List ℕ → ℚ) : Prop where
  copy : ∀ n, n + 6 ∈ copies.map Prod.fst → amp (n + 6) = amp (rename copies (n + 6))
  swap : ∀ n, isMixed (n + 6) = true → ∀ a b i j, amp (n + 6) [a, b, i, j] = amp (n + 6) [b, a, j, i]
  turn : ∀ a b c i j k, amp 108 [a, b, c, i, j, k] = amp 107 [b, c, a, j, k, i]
  turn' : ∀ a b c i j k, amp 112 [a, b, c, i, j, k] = amp 111 [b, c, a, j, k, i]

theorem rename_other {n : ℕ} (h : n ∉ copies.map Prod.fst) : ∀ m : List (ℕ × ℕ), n ∉ m.map Prod.fst → rename m n = n
  | [], _ => rfl
  | e :: m, hm => by
    have e' : rename (e :: m) n = (brec% Nat.beq n e.1, e.2, (rename m n)) := rfl
    rw [List.map_cons, List.mem_cons, not_or] at hm
    have b : Nat.beq n e.1 = false := by cases hb : Nat.beq n e.1 with | false => rfl | true => exact absurd ((beq_iff _ _).1 hb) hm.1
    rw [e', b]
    exact rename_other h m hm.2

section
variable {na : ℕ} {f : Integrals.OneBody ℚ} {v : Integrals.TwoBody ℚ} {amp : ℕ → List ℕ → ℚ}

theorem elements_sigma {n : ℕ} (hn : n ≠ 0) (l : List (ℕ × ℕ)) :
    elements na na f v amp n (l.map fun x => (sigma x.1, x.2)) = elements na na f v amp n l := by
  match n, l, hn with
  | 1, [], _ | 1, [_], _ | 1, _ :: _ :: _ :: _, _ => rfl
  | 2, [], _ | 2, [_], _ | 2, _ :: _ :: _ :: _, _ => rfl
  | 3, [], _ | 3, [_], _ | 3, [_, _], _ | 3, [_, _, _], _ | 3, _ :: _ :: _ :: _ :: _ :: _, _ => rfl
  | 4, [], _ | 4, [_], _ | 4, [_, _], _ | 4, [_, _, _], _ | 4, _ :: _ :: _ :: _ :: _ :: _, _ => rfl
  | 5, [], _ | 5, [_], _ | 5, [_, _], _ | 5, [_, _, _], _ | 5, _ :: _ :: _ :: _ :: _ :: _, _ => rfl
  | 1, [x, y], _ | 2, [x, y], _ => simp only [List.map_cons, List.map_nil, elements, sigma_position]
  | 3, [x, y, z, w], _ | 4, [x, y, z, w], _ | 5, [x, y, z, w], _ =>
    simp only [List.map_cons, List.map_nil, elements, sigma_position]
  | n + 6, l, _ =>
    show amp (n + 6) _ = amp (n + 6) _
    rw [List.map_map]
    rfl

theorem elements_copy (hf : f.b = f.a) (hv : v.bb = v.aa) (hA : SymAmp amp) {n : ℕ} (l : List (ℕ × ℕ)) :
    elements na na f v amp (rename copies n) l = elements na na f v amp n l := by
  by_cases h : n ∈ copies.map Prod.fst
  · match n, h with
    | 0, h | 1, h | 3, h | 4, h => exact absurd h (by decide)
    | 2, _ =>
      show elements na na f v amp 1 l = _
      match l with
      | [] | [_] | _ :: _ :: _ :: _ => rfl
      | [x, y] => simp only [elements, hf]
    | 5, _ =>
      show elements na na f v amp 3 l = _
      match l with
      | [] | [_] | [_, _] | [_, _, _] | _ :: _ :: _ :: _ :: _ :: _ => rfl
      | [x, y, z, w] => simp only [elements, hv]
    | n + 6, h =>
      show _ = amp (n + 6) _
      rw [hA.copy n h]
      have h6 : ∃ k, rename copies (n + 6) = k + 6 := by
        have : n + 6 ∈ [2, 5, 7, 10, 12, 15, 109, 113] := h
        simp only [List.mem_cons, List.not_mem_nil, or_false] at this
        rcases this with h | h | h | h | h | h | h | h
        · omega
        · omega
        · rw [h]; exact ⟨0, rfl⟩
        · rw [h]; exact ⟨2, rfl⟩
        · rw [h]; exact ⟨5, rfl⟩
        · rw [h]; exact ⟨7, rfl⟩
        · rw [h]; exact ⟨100, rfl⟩
        · rw [h]; exact ⟨104, rfl⟩
      obtain ⟨k, hk⟩ := h6
      rw [hk]
      rfl
  · rw [rename_other h copies h]

theorem bad_ok (sp : List ℕ) : (bad sp).ok = false := by
  simp [bad, Ex.ok]

theorem turned_axes (n : ℕ) (sp : List ℕ) : (turned n sp).axes = sp.map sigma := by
  have hb : ∀ sp, (bad sp).axes = sp.map sigma := fun sp => by rw [bad, Ex.axes, Ex.axes, mapL_eq]
  match sp with
  | [] | [_] | [_, _] | [_, _, _] | [_, _, _, _] | [_, _, _, _, _] | _ :: _ :: _ :: _ :: _ :: _ :: _ :: _ => exact hb _
  | [a, b, c, i, j, k] => rfl

theorem turned_value (dim : ℕ → ℕ) (I : ℕ → List (ℕ × ℕ) → ℚ) (n : ℕ) {sp : List ℕ} (h : (turned n sp).ok = true) {idx : List ℕ}
    (hl : idx.length = sp.length) : ∃ a b c i j k a' b' c' i' j' k', sp = [a', b', c', i', j', k'] ∧ idx = [a, b, c, i, j, k]
      ∧ (turned n sp).denote dim I idx = I n [(sigma b', b), (sigma c', c), (sigma a', a), (sigma j', j), (sigma k', k), (sigma i', i)] := by
  match sp, idx with
  | [], _ | [_], _ | [_, _], _ | [_, _, _], _ | [_, _, _, _], _ | [_, _, _, _, _], _ | _ :: _ :: _ :: _ :: _ :: _ :: _ :: _, _ =>
    exact absurd (h.symm.trans (bad_ok _)) (by decide)
  | [a', b', c', i', j', k'], [a, b, c, i, j, k] =>
    exact ⟨a, b, c, i, j, k, a', b', c', i', j', k', rfl, rfl, mul_one _⟩
  | [_, _, _, _, _, _], [] | [_, _, _, _, _, _], [_] | [_, _, _, _, _, _], [_, _] | [_, _, _, _, _, _], [_, _, _]
  | [_, _, _, _, _, _], [_, _, _, _] | [_, _, _, _, _, _], [_, _, _, _, _] | [_, _, _, _, _, _], _ :: _ :: _ :: _ :: _ :: _ :: _ :: _ =>
    simp at hl

theorem closed_eq (n : ℕ) (sp : List ℕ) : closed n sp = if n = 0 then bad sp else if n = 108 then turned 107 sp
    else if n = 112 then turned 111 sp else .arr (rename copies n) (sp.map sigma) := by
  have e : closed n sp = (brec% Nat.beq n 0, bad sp, (brec% Nat.beq n 108, turned 107 sp, (brec% Nat.beq n 112, turned 111 sp,
    .arr (rename copies n) (mapL sigma sp)))) := rfl
  have b : ∀ (k : ℕ) (x y : Ex), (brec% Nat.beq n k, x, y) = if n = k then x else y := fun k x y => by
    rw [brec_eq]
    by_cases h : n = k
    · subst h; rw [Nat.beq_refl, if_pos rfl]; rfl
    · have : Nat.beq n k = false := by cases hb : Nat.beq n k with | false => rfl | true => exact absurd ((beq_iff _ _).1 hb) h
      rw [this, if_neg h]; rfl
  rw [e, b, b, b, mapL_eq]

theorem folds_closed {n : ℕ} (hf : f.b = f.a) (hv : v.bb = v.aa) (hA : SymAmp amp) :
    Folds closed sigma (dims n na na) (elements na na f v amp) where
  zero := rfl
  lengths s := by
    match s with
    | 0 | 1 | 2 | 3 => rfl
    | s + 4 => rw [sigma_eq, if_neg (by omega), if_neg (by omega)]
  axes m sp := by
    rw [closed_eq]
    split_ifs
    · rw [bad, Ex.axes, Ex.axes, mapL_eq]
    · exact turned_axes _ _
    · exact turned_axes _ _
    · rfl
  value m sp h idx hl := by
    rw [closed_eq] at h ⊢
    split_ifs at h ⊢ with h₁ h₂ h₃
    · exact absurd (h.symm.trans (bad_ok _)) (by decide)
    · obtain ⟨a, b, c, i, j, k, a', b', c', i', j', k', rfl, rfl, e⟩ := turned_value (dims n na na) (elements na na f v amp) 107 h hl
      rw [e, h₂]
      exact (hA.turn a b c i j k).symm
    · obtain ⟨a, b, c, i, j, k, a', b', c', i', j', k', rfl, rfl, e⟩ := turned_value (dims n na na) (elements na na f v amp) 111 h hl
      rw [e, h₃]
      exact (hA.turn' a b c i j k).symm
    · show elements na na f v amp _ _ = _
      rw [elements_copy hf hv hA, zip_sigma, elements_sigma h₁]

theorem exch_closed (hm : ∀ p q r s, v.ab q p s r = v.ab p q r s) (hA : SymAmp amp) : Exch isMixed (elements na na f v amp) := by
  intro n hn p q r s
  have hm' : n ∈ mixed := (mem_iff _ _).1 hn
  match n, hn with
  | 0, _ | 1, _ | 2, _ | 3, _ | 5, _ => exact absurd hm' (by decide)
  | 4, _ => exact (hm _ _ _ _).symm
  | n + 6, h => exact hA.swap n h _ _ _ _
end

theorem symAmp_store3 {l : List Cluster} {l₃ : List Triples} (hl : ∀ T ∈ l, T.Symmetric) (hl₃ : ∀ T ∈ l₃, T.Symmetric) :
    SymAmp (store3 l l₃) := by
  have hk : ∀ k, (l.getD k Cluster.zero).Symmetric := fun k => by
    by_cases h : k < l.length
    · rw [List.getD_eq_getElem?_getD, List.getElem?_eq_getElem h]; exact hl _ (List.getElem_mem h)
    · rw [List.getD_eq_getElem?_getD, List.getElem?_eq_none (Nat.le_of_not_lt h)]; exact ⟨rfl, rfl, fun _ _ _ _ => rfl⟩
  have hk₃ : ∀ k, (l₃.getD k Triples.zero).Symmetric := fun k => by
    by_cases h : k < l₃.length
    · rw [List.getD_eq_getElem?_getD, List.getElem?_eq_getElem h]; exact hl₃ _ (List.getElem_mem h)
    · rw [List.getD_eq_getElem?_getD, List.getElem?_eq_none (Nat.le_of_not_lt h)]; exact ⟨rfl, fun _ _ _ _ _ _ => rfl⟩
  have e₁ : ∀ T : Cluster, T.Symmetric → T.amp 7 = T.amp 6 := fun T hT => by
    funext l
    match l with
    | [] | [_] | _ :: _ :: _ :: _ => rfl
    | [a, i] => exact congrFun (congrFun hT.a a) i
  have e₂ : ∀ T : Cluster, T.Symmetric → T.amp 10 = T.amp 8 := fun T hT => by
    funext l
    match l with
    | [] | [_] | [_, _] | [_, _, _] | _ :: _ :: _ :: _ :: _ :: _ => rfl
    | [a, b, i, j] => exact congrFun (congrFun (congrFun (congrFun hT.aa a) b) i) j
  have e₃ : ∀ T : Triples, T.Symmetric → T.amp 109 = T.amp 106 := fun T hT => by
    funext l
    match l with
    | [] | [_] | [_, _] | [_, _, _] | [_, _, _, _] | [_, _, _, _, _] | _ :: _ :: _ :: _ :: _ :: _ :: _ :: _ => rfl
    | [a, b, c, i, j, k] => exact congrFun (congrFun (congrFun (congrFun (congrFun (congrFun hT.aaa a) b) c) i) j) k
  constructor
  · intro n h
    have : n + 6 ∈ [2, 5, 7, 10, 12, 15, 109, 113] := h
    simp only [List.mem_cons, List.not_mem_nil, or_false] at this
    rcases this with h | h | h | h | h | h | h | h
    · omega
    · omega
    · rw [h]; exact e₁ _ (hk 0)
    · rw [h]; exact e₂ _ (hk 0)
    · rw [h]; exact e₁ _ (hk 1)
    · rw [h]; exact e₂ _ (hk 1)
    · rw [h]; exact e₃ _ (hk₃ 0)
    · rw [h]; exact e₃ _ (hk₃ 1)
  · intro n h a b i j
    have h' : n + 6 ∈ mixed := (mem_iff _ _).1 h
    have : n + 6 = 4 ∨ n + 6 = 9 ∨ n + 6 = 14 := by simpa [mixed] using h'
    rcases this with h | h | h
    · omega
    · rw [h]; exact ((hk 0).ab a b i j).symm
    · rw [h]; exact ((hk 1).ab a b i j).symm
  · exact fun a b c i j k => (hk₃ 0).aab a b c i j k
  · exact fun a b c i j k => (hk₃ 1).aab a b c i j k

theorem fock_closed {S : Orbitals ι} {Z : Fock.Integrals} (hC : ClosedShell S Z) : fockB S Z = fockA S Z := by
  funext p q
  unfold fockA fockB
  rw [hC.z, hC.same, hC.electrons]
  congr 1
  exact Finset.sum_congr rfl fun k _ => hC.mixed p k q k

/-- Programs that agree after identification of the spins have the same elements for closed shells. -/
theorem equalC_sound {S : Orbitals ι} {Z : Fock.Integrals} (hC : ClosedShell S Z) (hZ : Z.Antisym) {l : List Cluster}
    {l₃ : List Triples} (hl : ∀ T ∈ l, T.Antisym) (hs : ∀ T ∈ l, T.Symmetric) (hl₃ : ∀ T ∈ l₃, T.Antisym)
    (hs₃ : ∀ T ∈ l₃, T.Symmetric) {x y : Ex} {xs ys : List Var} (h : equalC x xs y ys = true) (ρ : Env) :
    value S Z (store3 l l₃) x (xs.map ρ) = value S Z (store3 l l₃) y (ys.map ρ) := by
  have hA := symAmp_store3 hs hs₃
  have e : elements S.na S.nb (stF S Z) (stV Z) (store3 l l₃) = elements S.na S.na (stF S Z) (stV Z) (store3 l l₃) := by
    rw [hC.electrons]
  have e' : dims S.n S.na S.nb = dims S.n S.na S.na := by rw [hC.electrons]
  have := sameF_sound (folds_closed (n := S.n) (na := S.na) (f := stF S Z) (v := stV Z) (fock_closed hC) hC.same hA)
    (exch_closed hC.mixed hA) (antiSym_3 hZ hl hl₃) h ρ
  rw [← e, ← e'] at this
  exact this

end Ccpy.Engine
