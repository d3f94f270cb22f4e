import Verif.Engine.Clusters
import Verif.Lemmas.Parts
import Verif.Spec.LeftStates

/-! Operators given by their parts, in the comparisons. -/

namespace Ccpy.Engine
open Ccpy.Fock Ccpy.Tensor Finset

noncomputable section

/-- The variables of the axes, with the identifiers `n, n + 1, …`. -/
def partVars (axes : List ℕ) : ℕ → List ℕ :=
  lrec% axes, (fun _ => []), fun s _ ih n => Nat.add (Nat.mul 4 n) s :: ih (Nat.succ n)
def nth (l : List ℕ) : ℕ → ℕ :=
  lrec% l, (fun _ => 0), fun x _ ih k => nrec% k, x, fun j _ => ih j
def partPiece (p : Part) (n : ℕ) : Piece :=
  forceL (partVars p.axes n) fun vs =>
    forceO (mapL (fun o => (o.1, nth vs o.2)) p.string) fun os => ⟨⟨false, 1, p.divisor⟩, vs, [(p.name, vs)], os⟩
def listP (ps : List Part) (n : ℕ) : List Piece := mapL (fun p => partPiece p n) ps

/-- `[e^{-T} H e^{T}, R]` for an operator given by its parts. -/
def commP (odd : Bool) (ps : List Part) (bra : List Op) : List Dterm := [⟨false, odd, [slot bra], listP ps, fun _ => []⟩]
/-- `L [e^{-T} H e^{T}, τ]` for an operator `L` given by its parts. -/
def leftP (odd : Bool) (ps : List Part) (τ : List Op) : List Dterm :=
  [⟨false, odd, [listP ps 15], fun _ => slot τ, fun _ => []⟩]

/-- The string of a part for variables of its axes. -/
def Part.ops (p : Part) (vs : List ℕ) : List Op := p.string.map fun o => (o.1, vs.getD o.2 0)

end

theorem nth_eq (l : List ℕ) : ∀ k, nth l k = l.getD k 0 := by
  induction l with
  | nil => intro k; rfl
  | cons x l ih =>
    intro k
    cases k with
    | zero => rfl
    | succ k =>
      have e : nth (x :: l) (k + 1) = nth l k := rfl
      rw [e, ih]
      rfl

theorem partPiece_eq (p : Part) (n : ℕ) : partPiece p n = ⟨⟨false, 1, p.divisor⟩, partVars p.axes n,
    [(p.name, partVars p.axes n)], Part.ops p (partVars p.axes n)⟩ := by
  unfold partPiece Part.ops
  rw [forceL_eq, forceO_eq, mapL_eq]
  congr 1
  exact List.map_congr_left fun o _ => by rw [nth_eq]

theorem partVars_cons (s : ℕ) (axes : List ℕ) (n : ℕ) : partVars (s :: axes) n = (4 * n + s) :: partVars axes (n + 1) := rfl

theorem partVars_ge {axes : List ℕ} : ∀ {n v : ℕ}, v ∈ partVars axes n → 4 * n ≤ v := by
  induction axes with
  | nil => intro n v h; exact absurd h List.not_mem_nil
  | cons s axes ih =>
    intro n v h
    rw [partVars_cons, List.mem_cons] at h
    rcases h with rfl | h
    · omega
    · have := ih h; omega

theorem partVars_nodup {axes : List ℕ} (ha : ∀ s ∈ axes, s < 4) : ∀ n, (partVars axes n).Nodup := by
  induction axes with
  | nil => intro n; exact List.nodup_nil
  | cons s axes ih =>
    intro n
    rw [partVars_cons, List.nodup_cons]
    have hs := ha s List.mem_cons_self
    refine ⟨fun h => ?_, ih (fun t ht => ha t (List.mem_cons_of_mem _ ht)) _⟩
    have := partVars_ge h
    omega

theorem partVars_space {axes : List ℕ} (ha : ∀ s ∈ axes, s < 4) : ∀ n, (partVars axes n).map (· % 4) = axes := by
  induction axes with
  | nil => intro n; rfl
  | cons s axes ih =>
    intro n
    have hs := ha s List.mem_cons_self
    rw [partVars_cons, List.map_cons, ih fun t ht => ha t (List.mem_cons_of_mem _ ht)]
    congr 1
    omega

section sums
variable {M : Type*} [AddCommMonoid M] {dim : ℕ → ℕ}

/-- A sum over distinct variables, when the summand depends on them only through their values. -/
theorem sumV_box {vs : List ℕ} (hd : vs.Nodup) {g : Env → M} {h : List ℕ → M} (ρ : Env)
    (hg : ∀ ρ' : Env, (∀ v, v ∉ vs → ρ' v = ρ v) → g ρ' = h (vs.map ρ')) :
    sumV dim vs g ρ = boxSum (vs.map fun v => dim (v % 4)) h := by
  induction vs generalizing ρ h with
  | nil => exact hg ρ fun _ _ => rfl
  | cons v vs ih =>
    rw [List.nodup_cons] at hd
    show ∑ k ∈ range (dim (v % 4)), sumV dim vs g (Function.update ρ v k) = ∑ k ∈ range (dim (v % 4)), boxSum _ _
    refine sum_congr rfl fun k _ => ih hd.2 _ fun ρ' hr => ?_
    have hv : ρ' v = k := by rw [hr v hd.1, Function.update_self]
    rw [hg ρ' fun w hw => ?_, List.map_cons, hv]
    rw [List.mem_cons, not_or] at hw
    rw [hr w hw.2, Function.update_of_ne hw.1]
end sums

variable {ι : Type*} [LinearOrder ι]

theorem boxSum_congr {M : Type*} [AddCommMonoid M] {g h : List ℕ → M} : ∀ {l : List ℕ},
    (∀ idx, idx.length = l.length → g idx = h idx) → boxSum l g = boxSum l h := by
  intro l
  induction l generalizing g h with
  | nil => intro e; exact e [] rfl
  | cons d l ih => intro e; exact sum_congr rfl fun k _ => ih fun idx hl => e _ (by rw [List.length_cons, hl, List.length_cons])

theorem size_eq (S : Orbitals ι) {s : ℕ} : S.size s = dimS S s := by
  match s with
  | 0 | 1 | 2 | _ + 3 => rfl

theorem orbital_eq (S : Orbitals ι) (s k : ℕ) : S.orbital s k = orb S (s, k) := by
  match s with
  | 0 | 1 | 2 | _ + 3 => rfl

theorem getD_map_mod {vs : List ℕ} (k : ℕ) (hk : k < vs.length) : (vs.map (· % 4)).getD k 0 = vs.getD k 0 % 4 := by
  rw [List.getD_eq_getElem?_getD, List.getD_eq_getElem?_getD, List.getElem?_map, List.getElem?_eq_getElem hk]
  rfl

theorem evalO_part (S : Orbitals ι) (p : Part) {vs : List ℕ} (hv : vs.map (· % 4) = p.axes)
    (hs : ∀ o ∈ p.string, o.2 < p.axes.length) (ρ : Env) : evalO (opX S) ρ (Part.ops p vs) = p.product S (vs.map ρ) := by
  unfold evalO Part.ops Part.product
  rw [List.map_map]
  congr 1
  refine List.map_congr_left fun o ho => ?_
  have hk : o.2 < vs.length := by rw [← List.length_map (as := vs) (· % 4), hv]; exact hs o ho
  rw [← hv, getD_map_mod _ hk, orbital_eq, List.getD_eq_getElem?_getD (l := vs.map ρ), List.getElem?_map,
    List.getElem?_eq_getElem hk, Function.comp_apply, List.getD_eq_getElem?_getD, List.getElem?_eq_getElem hk]
  rfl

/-- The parts are well formed. -/
structure PartOk (p : Part) : Prop where
  axes : ∀ s ∈ p.axes, s < 4
  string : ∀ o ∈ p.string, o.2 < p.axes.length
  name : 11 ≤ p.name

def partOk (p : Part) : Bool := p.axes.all (decide <| · < 4) && p.string.all (fun o => decide (o.2 < p.axes.length)) && decide (11 ≤ p.name)

theorem partOk_spec {ps : List Part} (h : ps.all partOk = true) : ∀ p ∈ ps, PartOk p := fun p hp => by
  have := List.all_eq_true.1 h p hp
  simp only [partOk, Bool.and_eq_true, List.all_eq_true, decide_eq_true_eq] at this
  exact ⟨this.1.1, this.1.2, this.2⟩

theorem evalP_part (S : Orbitals ι) {f v} {amp : ℕ → List ℕ → ℚ} {p : Part} (hp : PartOk p) (n : ℕ) (ρ : Env) :
    evalP (elements S.na S.nb f v amp) (opX S) (dimS S) (partPiece p n) ρ
      = (1 / p.divisor : ℚ) • boxSum (p.axes.map S.size) fun idx => amp p.name idx • p.product S idx := by
  have hv := partVars_space hp.axes n
  rw [partPiece_eq]
  unfold evalP
  have hc : (⟨false, 1, p.divisor⟩ : Coef).val = 1 / p.divisor := by simp [Coef.val]
  rw [hc]
  congr 1
  rw [sumV_box (partVars_nodup hp.axes n) (h := fun idx => amp p.name idx • p.product S idx)]
  · congr 1
    conv_rhs => rw [← hv]
    rw [List.map_map]
    exact List.map_congr_left fun w _ => (size_eq S).symm
  · intro ρ' _
    rw [evalO_part S p hv hp.string]
    congr 1
    obtain ⟨m, hm⟩ := Nat.exists_eq_add_of_le hp.name
    have e : ∀ l, elements S.na S.nb f v amp p.name l = amp p.name (l.map Prod.snd) := fun l => by
      have h6 : p.name = (5 + m) + 6 := by omega
      rw [h6]
      rfl
    simp only [evalFs, evalF, List.map_cons, List.map_nil, List.prod_cons, List.prod_nil, mul_one]
    rw [e, List.map_map]
    rfl

theorem evalS_parts (S : Orbitals ι) {f v} {amp : ℕ → List ℕ → ℚ} {ps : List Part} (hp : ps.all partOk = true) (n : ℕ) (ρ : Env) :
    evalS (elements S.na S.nb f v amp) (opX S) (dimS S) (listP ps n) ρ = partsOperator S ps amp := by
  unfold listP evalS partsOperator
  rw [mapL_eq, List.map_map]
  congr 1
  exact List.map_congr_left fun p h => evalP_part S (partOk_spec hp p h) n ρ

theorem partsOperator_congr (S : Orbitals ι) {ps : List Part} {r r' : ℕ → List ℕ → ℚ} (h : ∀ p ∈ ps, r p.name = r' p.name) :
    partsOperator S ps r = partsOperator S ps r' := by
  unfold partsOperator
  congr 1
  exact List.map_congr_left fun p hp => by rw [h p hp]

theorem joined_parts (S : Orbitals ι) (T : Cluster) {ps : List Part} (hp : ps.all partOk = true) (r : ℕ → List ℕ → ℚ) :
    partsOperator S ps (joined T r) = partsOperator S ps r :=
  partsOperator_congr S fun p h => funext fun idx => if_neg (Nat.not_lt.2 (partOk_spec hp p h).name)

theorem joined_holds (T : Cluster) (r : ℕ → List ℕ → ℚ) : Holds T fun name => joined T r (0 + name) := by
  constructor <;> intros <;> rfl

/-! ### Antisymmetry -/

theorem anti_groups {J : List (ℕ × ℕ) → ℚ} {F : List ℕ → ℚ} : ∀ {g : List ℕ} (o : List (ℕ × ℕ)),
    (∀ l, J l = F (l.map Prod.snd)) → (∀ l₁ x y l₂, sameGroup g l₁.length = true →
      F (o.map Prod.snd ++ (l₁ ++ x :: y :: l₂)) = - F (o.map Prod.snd ++ (l₁ ++ y :: x :: l₂))) →
    Anti g fun m => J (o ++ m) := by
  intro g
  induction g with
  | nil => intros; trivial
  | cons g gs ih =>
    intro o hJ hF
    refine ⟨fun l₁ x y l₂ m hl => ?_, fun l hl => ?_⟩
    · have hs : sameGroup (g :: gs) (l₁.map Prod.snd).length = true := by
        rw [List.length_map]
        have : l₁.length + 1 < g := by rw [← hl]; simp
        simp [sameGroup, this]
      have := hF (l₁.map Prod.snd) x.2 y.2 (l₂.map Prod.snd ++ m.map Prod.snd) hs
      beta_reduce
      rw [hJ, hJ]
      simpa using this
    · have := ih (o ++ l) hJ fun l₁ x y l₂ hs => ?_
      · simpa [List.append_assoc] using this
      have hs' : sameGroup (g :: gs) (l.map Prod.snd ++ l₁).length = true := by
        rw [List.length_append, List.length_map, hl]
        have h1 : ¬ g + l₁.length + 1 < g := by omega
        have h2 : ¬ g + l₁.length < g := by omega
        simp [sameGroup, h1, hs]
      have := hF (l.map Prod.snd ++ l₁) x y l₂ hs'
      simpa [List.append_assoc] using this

/-- The antisymmetric arrays. -/
def tableP (ps : List Part) : List (ℕ × List ℕ) :=
  (3, [2, 2]) :: (5, [2, 2]) :: (8, [2, 2]) :: (10, [2, 2]) :: ps.map fun p => (p.name, p.groups)

theorem antiSym_P {na nb : ℕ} {f : Integrals.OneBody ℚ} {Z : Fock.Integrals} {T : Cluster} {ps : List Part}
    {r : ℕ → List ℕ → ℚ} (hZ : Z.Antisym) (hT : T.Antisym) (hp : ps.all partOk = true)
    (hr : ∀ p ∈ ps, AntisymmetricIn p.groups (r p.name)) :
    AntiSym (groups (tableP ps)) (elements na nb f (stV Z) (joined T r)) := by
  have hz : ∀ l : List ℕ, l.length ≠ 4 → T.amp 8 l = 0 ∧ T.amp 10 l = 0 := fun l hl => by
    match l, hl with
    | [], _ | [_], _ | [_, _], _ | [_, _, _], _ | _ :: _ :: _ :: _ :: _ :: _, _ => exact ⟨rfl, rfl⟩
    | [_, _, _, _], h => exact absurd rfl h
  refine antiSym_groups fun e he => ?_
  simp only [tableP, List.mem_cons, List.mem_map] at he
  rcases he with rfl | rfl | rfl | rfl | ⟨p, h, rfl⟩
  · exact anti_aa hZ.aa
  · exact anti_bb hZ.bb
  · exact anti_amp (n := 2) hT.aa (fun a b i j => rfl) fun l hl => (hz l hl).1
  · exact anti_amp (n := 4) hT.bb (fun a b i j => rfl) fun l hl => (hz l hl).2
  · have hn := (partOk_spec hp p h).name
    refine anti_groups (F := r p.name) [] (fun l => ?_) fun l₁ x y l₂ hs => hr p h l₁ x y l₂ hs
    obtain ⟨m, hm⟩ := Nat.exists_eq_add_of_le hn
    have h6 : p.name = (5 + m) + 6 := by omega
    have : elements na nb f (stV Z) (joined T r) p.name l = joined T r p.name (l.map Prod.snd) := by rw [h6]; rfl
    rw [this]
    exact if_neg (Nat.not_lt.2 hn)

/-! ### Matrix elements -/

theorem ops_undo (p : Part) (vs : List ℕ) :
    Part.ops p.undo vs = ((Part.ops p vs).map fun o => (!o.1, o.2)).reverse := by
  simp [Part.ops, Part.undo, Function.comp_def]

theorem inner_string (S : Orbitals ι) (ρ : Env) (l : List Op) (v w : Vec ι) :
    inner v (evalO (opX S) ρ ((l.map fun o => (!o.1, o.2)).reverse) w) = inner (evalO (opX S) ρ l v) w := by
  induction l generalizing v w with
  | nil => rfl
  | cons o l ih =>
    have e : evalO (opX S) ρ [(!o.1, o.2)] = opX S (!o.1) (val ρ o.2) := by simp [evalO]
    rw [List.map_cons, List.reverse_cons, evalO_append, Module.End.mul_apply, ih, e, evalO_cons, Module.End.mul_apply]
    cases o.1 with
    | false => exact (inner_ann ..).symm
    | true => exact (inner_cre ..).symm

theorem expect_undo (S : Orbitals ι) (p : Part) {vs : List ℕ} (hv : vs.map (· % 4) = p.axes)
    (hs : ∀ o ∈ p.string, o.2 < p.axes.length) (ρ : Env) (A : Operator ι) :
    expect S (evalO (opX S) ρ (Part.ops p.undo vs) * A) = S.element (p.state S (vs.map ρ)) A := by
  rw [ops_undo]
  show inner S.ref (evalO (opX S) ρ _ (A S.ref)) = _
  rw [inner_string, evalO_part S p hv hs]
  rfl

section
variable {S : Orbitals ι} (h : S.Proper) {Z : Fock.Integrals} (hZ : Z.Antisym) {T : Cluster} (hT : T.Antisym)
  {ps : List Part} (hp : ps.all partOk = true) {r : ℕ → List ℕ → ℚ} (hr : ∀ p ∈ ps, AntisymmetricIn p.groups (r p.name))
  {x : Ex} {ext vs : List ℕ} {odd : Bool} {tb : List (ℕ × List ℕ)} (ht : tb = tableP ps)
include h hZ hT hp hr ht

/-- A component of the commutator of the transformed Hamiltonian with an operator given by its parts. -/
theorem value_commP {p : Part} (hm : p ∈ ps) {bra : List Op} (hb : bra = Part.ops p.undo vs) (hsub : ∀ o ∈ bra, o.2 ∈ ext)
    (hv : vs.map (· % 4) = p.axes)
    (hx : dcheck (groups tb) (listC 0) listH x ext [] false (commP odd ps bra) = true) {ρ : Env} (hρ : ExtOk (dimS S) ext ρ) :
    value S Z (joined T r) x (ext.map ρ) = S.element (p.state S (vs.map ρ))
      (transformed S Z T * partsOperator S ps r - partsOperator S ps r * transformed S Z T) := by
  subst ht
  rw [dcheck_sound h (antiSym_P hZ hT hp hr) (fun m ρ => evalS_listC S T (joined_holds T r) m ρ) (cluster_nilpotent h T) hx
    (evalS_listH h Z _ ρ) hρ .nil (ws := [(evalO (opX S) ρ bra, partsOperator S ps r, 1)])
    (.cons ⟨fun ρ' hr' => ?_, fun m ρ' _ => ?_, fun ρ' m hr => rfl⟩ .nil)]
  · rw [← expect_undo S p hv (partOk_spec hp p hm).string, ← hb]
    simp [commP, sg, transformed]
  · simp only [commP, List.map_cons, List.map_nil, List.prod_cons, List.prod_nil, mul_one]
    exact evalS_slot hr' hsub
  · exact (evalS_parts S hp m ρ').trans (joined_parts S T hp r)

/-- The expectation value of `L [e^{-T} H e^{T}, τ]` for an operator `L` given by its parts. -/
theorem value_leftP {p : Part} (hm : p ∈ ps) {τ : List Op} (hb : τ = Part.ops p vs) (hsub : ∀ o ∈ τ, o.2 ∈ ext)
    (hv : vs.map (· % 4) = p.axes) {us : List Part} (hu : us = ps.map Part.undo)
    (hx : dcheck (groups tb) (listC 0) listH x ext [] true (leftP odd us τ) = true) {ρ : Env} (hρ : ExtOk (dimS S) ext ρ) :
    value S Z (joined T r) x (ext.map ρ) = leftElement S Z T (partsOperator S (ps.map Part.undo) r) (p.product S (vs.map ρ)) := by
  have hp' : us.all partOk = true := by
    rw [hu, List.all_map]
    refine List.all_eq_true.2 fun q hq => ?_
    have e : partOk q.undo = partOk q := by simp only [partOk, Part.undo, List.all_reverse, List.all_map]; rfl
    rw [Function.comp_apply, e]
    exact List.all_eq_true.1 hp q hq
  subst ht
  rw [dcheck_sound h (antiSym_P hZ hT hp hr) (fun m ρ => evalS_listC S T (joined_holds T r) m ρ) (cluster_nilpotent h T) hx
    (evalS_listH h Z _ ρ) hρ .nil (ws := [(partsOperator S us r, evalO (opX S) ρ τ, 1)])
    (.cons ⟨fun ρ' hr' => ?_, fun m ρ' hr' => evalS_slot hr' hsub, fun ρ' m hr => rfl⟩ .nil)]
  · rw [hb, evalO_part S p hv (partOk_spec hp p hm).string, hu]
    simp [leftP, sg, leftElement, transformed, Orbitals.element, expect]
  · simp only [leftP, List.map_cons, List.map_nil, List.prod_cons, List.prod_nil, mul_one]
    exact (evalS_parts S hp' 15 ρ').trans (joined_parts S T hp' r)

end

end Ccpy.Engine
