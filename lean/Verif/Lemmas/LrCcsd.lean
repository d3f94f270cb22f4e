import Verif.Lemmas.EomCcsd
import Verif.Lemmas.Cc2
import Verif.Lemmas.DensityPrograms
import Verif.Spec.LinearResponse
import Verif.Model.LrCcsd

/-! The comparisons for linear-response CCSD: the part with the response amplitudes is the EOM-CCSD product, the part with the property
is compared with `e^{-T} W e^{T}`. -/

namespace Ccpy.LrCcsd
open Ccpy.Fock Ccpy.Tensor Ccpy.Engine Ccpy.HbarCcsd Ccpy.EomCcsd
open Ccpy.Ccsd (anti denote_anti)
open Ccpy.Cc2 (expect_add)
open Ccpy.Rdm (denote_add denote_sub denote_neg denote_half)

variable {ι : Type*} [LinearOrder ι]

/-- The intermediates of the similarity-transformed Hamiltonian. -/
def hb : Ints := buildHbarCcsd amplitudes stored false
def xs : Ints := getLrccsdIntermediates stored hb excitation

/-- `update_t2b` with the blocks of `W.b` in the intermediates for spin down. -/
def correctedT2b (T1 T : Amps) (W : Prop1) (X H : Ints) : Ex :=
  let dT := es% "ae,ebij->abij" H.a.vv, T1.ab
  let dT := dT + (es% "be,aeij->abij" H.b.vv, T1.ab)
  let dT := dT - (es% "mi,abmj->abij" H.a.oo, T1.ab)
  let dT := dT - (es% "mj,abim->abij" H.b.oo, T1.ab)
  let dT := dT + (es% "mnij,abmn->abij" H.ab.oooo, T1.ab)
  let dT := dT + (es% "abef,efij->abij" H.ab.vvvv, T1.ab)
  let dT := dT + (es% "amie,ebmj->abij" H.aa.voov, T1.ab)
  let dT := dT + (es% "amie,ebmj->abij" H.ab.voov, T1.bb)
  let dT := dT + (es% "mbej,aeim->abij" H.ab.ovvo, T1.aa)
  let dT := dT + (es% "bmje,aeim->abij" H.bb.voov, T1.ab)
  let dT := dT - (es% "mbie,aemj->abij" H.ab.ovov, T1.ab)
  let dT := dT - (es% "amej,ebim->abij" H.ab.vovo, T1.ab)
  let dT := dT + (es% "abej,ei->abij" H.ab.vvvo, T1.a)
  let dT := dT + (es% "abie,ej->abij" H.ab.vvov, T1.b)
  let dT := dT - (es% "mbij,am->abij" H.ab.ovoo, T1.a)
  let dT := dT - (es% "amij,bm->abij" H.ab.vooo, T1.b)
  let dT := dT + (es% "ae,ebij->abij" X.a.vv, T.ab)
  let dT := dT - (es% "mi,abmj->abij" X.a.oo, T.ab)
  let dT := dT + (es% "be,aeij->abij" X.b.vv, T.ab)
  let dT := dT - (es% "mj,abim->abij" X.b.oo, T.ab)
  let I1A_oo := W.a.oo + (es% "me,ei->mi" W.a.ov, T.a)
  let I1A_vv := W.a.vv - (es% "me,am->ae" W.a.ov, T.a)
  let I1B_oo := W.b.oo + (es% "me,ei->mi" W.b.ov, T.b)
  let I1B_vv := W.b.vv - (es% "me,am->ae" W.b.ov, T.b)
  let dT := dT - (es% "mi,abmj->abij" I1A_oo, T.ab)
  let dT := dT + (es% "ae,ebij->abij" I1A_vv, T.ab)
  let dT := dT - (es% "mj,abim->abij" I1B_oo, T.ab)
  dT + (es% "be,aeij->abij" I1B_vv, T.ab)

/-! ### The part with the property -/

def w1a : Ex :=
  -(es% "mi,am->ai" (property.a.oo + (es% "me,ei->mi" property.a.ov, amplitudes.a)), amplitudes.a)
  + (es% "ae,ei->ai" property.a.vv, amplitudes.a) + (es% "me,aeim->ai" property.a.ov, amplitudes.aa)
  + (es% "me,aeim->ai" property.b.ov, amplitudes.ab) + property.a.vo
def w1b : Ex :=
  -(es% "mi,am->ai" (property.b.oo + (es% "me,ei->mi" property.b.ov, amplitudes.b)), amplitudes.b)
  + (es% "ae,ei->ai" property.b.vv, amplitudes.b) + (es% "me,aeim->ai" property.b.ov, amplitudes.bb)
  + (es% "me,eami->ai" property.a.ov, amplitudes.ab) + property.b.vo
def ooA : Ex := property.a.oo + (es% "me,ei->mi" property.a.ov, amplitudes.a)
def vvA : Ex := property.a.vv - (es% "me,am->ae" property.a.ov, amplitudes.a)
def ooB : Ex := property.b.oo + (es% "me,ei->mi" property.b.ov, amplitudes.b)
def vvB : Ex := property.b.vv - (es% "me,am->ae" property.b.ov, amplitudes.b)
def w2a : Ex := -half (es% "mi,abmj->abij" ooA, amplitudes.aa) + half (es% "ae,ebij->abij" vvA, amplitudes.aa)
def w2b : Ex := -(es% "mi,abmj->abij" ooA, amplitudes.ab) + (es% "ae,ebij->abij" vvA, amplitudes.ab)
  - (es% "mj,abim->abij" ooB, amplitudes.ab) + (es% "be,aeij->abij" vvB, amplitudes.ab)
def w2c : Ex := -half (es% "mi,abmj->abij" ooB, amplitudes.bb) + half (es% "ae,ebij->abij" vvB, amplitudes.bb)
/-- With the diagonal sum over the occupied orbitals. -/
def w0 : Ex := (es% "me,em->" property.a.ov, amplitudes.a) + (es% "me,em->" property.b.ov, amplitudes.b)
  + (es% "mm->" property.a.oo) + (es% "mm->" property.b.oo)
def e0 : Ex := (es% "me,em->" hb.a.ov, excitation.a) + (es% "me,em->" hb.b.ov, excitation.b)
  + quarter (es% "mnef,efmn->" hb.aa.oovv, excitation.aa) + (es% "mnef,efmn->" hb.ab.oovv, excitation.ab)
  + quarter (es% "mnef,efmn->" hb.bb.oovv, excitation.bb)

noncomputable section
def pieceW (name v w : ℕ) : Piece := ⟨⟨false, 1, 1⟩, [40 + v, 48 + w], [(name, [40 + v, 48 + w])], [(true, 40 + v), (false, 48 + w)]⟩
/-- The property. -/
def listW : List Piece := [pieceW 26 0 0, pieceW 27 0 1, pieceW 28 1 0, pieceW 29 1 1,
  pieceW 30 2 2, pieceW 31 2 3, pieceW 32 3 2, pieceW 33 3 3]
end

section
set_option maxRecDepth 100000
theorem check_w1a : check (groups tableC) (listC 0) listW w1a [1, 4] (left [(true, 4), (false, 1)]) = true := by decide +kernel
theorem check_w1b : check (groups tableC) (listC 0) listW w1b [3, 6] (left [(true, 6), (false, 3)]) = true := by decide +kernel
theorem check_w2a : check (groups tableC) (listC 0) listW (anti w2a) [1, 5, 8, 12]
    (left [(true, 8), (true, 12), (false, 5), (false, 1)]) = true := by decide +kernel
theorem check_w2b : check (groups tableC) (listC 0) listW w2b [1, 7, 8, 14]
    (left [(true, 8), (true, 14), (false, 7), (false, 1)]) = true := by decide +kernel
theorem check_w2c : check (groups tableC) (listC 0) listW (anti w2c) [3, 7, 10, 14]
    (left [(true, 10), (true, 14), (false, 7), (false, 3)]) = true := by decide +kernel
theorem check_w0 : check (groups tableC) (listC 0) listW w0 [] (left []) = true := by decide +kernel
theorem check_e0 : dcheck (groups tableC) (listC 0) listH e0 [] [] false (commR []) = true := by decide +kernel
end

/-! ### The arrays -/

theorem holds_T (S : Orbitals ι) (T R : Cluster) (W : OneElectron) : Holds T fun name => responseStore S T R W (0 + name) :=
  ⟨fun _ _ => rfl, fun _ _ => rfl, fun _ _ _ _ => rfl, fun _ _ _ _ => rfl, fun _ _ _ _ => rfl⟩
theorem holds_R (S : Orbitals ι) (T R : Cluster) (W : OneElectron) : Holds R fun name => responseStore S T R W (5 + name) :=
  ⟨fun _ _ => rfl, fun _ _ => rfl, fun _ _ _ _ => rfl, fun _ _ _ _ => rfl, fun _ _ _ _ => rfl⟩

theorem antiSym_R {S : Orbitals ι} {Z : Fock.Integrals} (hZ : Z.Antisym) {T R : Cluster} (hT : T.Antisym) (hR : R.Antisym)
    (W : OneElectron) : AntiSym (groups tableC) (elements S.na S.nb (stF S Z) (stV Z) (responseStore S T R W)) := by
  have hk : ∀ k, ([T, R].getD k Cluster.zero).Antisym := fun k => by
    match k with
    | 0 => exact hT
    | 1 => exact hR
    | _ + 2 => exact zero_antisym
  have e : ∀ name, name < 20 → elements S.na S.nb (stF S Z) (stV Z) (responseStore S T R W) (name + 6)
      = elements S.na S.nb (stF S Z) (stV Z) (Cluster.store [T, R]) (name + 6) := fun name hn => by
    funext l
    show responseStore S T R W (name + 6) _ = Cluster.store [T, R] (name + 6) _
    unfold responseStore
    split <;> first | rfl | omega
  refine antiSym_groups fun x hx => ?_
  simp only [tableC, List.mem_cons, List.not_mem_nil, or_false] at hx
  rcases hx with rfl | rfl | rfl | rfl | rfl | rfl | rfl | rfl
  · exact anti_aa hZ.aa
  · exact anti_bb hZ.bb
  · rw [e 2 (by decide)]; exact (store_anti 0 (hk 0)).1
  · rw [e 4 (by decide)]; exact (store_anti 0 (hk 0)).2
  · rw [e 7 (by decide)]; exact (store_anti 1 (hk 1)).1
  · rw [e 9 (by decide)]; exact (store_anti 1 (hk 1)).2
  · rw [e 12 (by decide)]; exact (store_anti 2 (hk 2)).1
  · rw [e 14 (by decide)]; exact (store_anti 2 (hk 2)).2

theorem evalS_listW {S : Orbitals ι} (h : S.Proper) (Z : Fock.Integrals) (T R : Cluster) (W : OneElectron) (ρ : Env) :
    evalS (elements S.na S.nb (stF S Z) (stV Z) (responseStore S T R W)) (opX S) (dimS S) listW ρ = oneElectron S W := by
  unfold oneElectron
  rw [sum_two_a h, sum_two_b h]
  unfold listW pieceW
  rw [evalS_cons, evalS_cons, evalS_cons, evalS_cons, evalS_cons, evalS_cons, evalS_cons, evalS_cons, evalP_two (by omega),
    evalP_two (by omega), evalP_two (by omega), evalP_two (by omega), evalP_two (by omega), evalP_two (by omega),
    evalP_two (by omega), evalP_two (by omega), c_one]
  have hnil : evalS (elements S.na S.nb (stF S Z) (stV Z) (responseStore S T R W)) (opX S) (dimS S) [] ρ = 0 := rfl
  rw [hnil]
  have e26 : ∀ i j, elements S.na S.nb (stF S Z) (stV Z) (responseStore S T R W) 26 [(0, i), (0, j)] = W.a i j := fun _ _ => rfl
  have e27 : ∀ i j, elements S.na S.nb (stF S Z) (stV Z) (responseStore S T R W) 27 [(0, i), (1, j)] = W.a i (S.na + j) := fun _ _ => rfl
  have e28 : ∀ i j, elements S.na S.nb (stF S Z) (stV Z) (responseStore S T R W) 28 [(1, i), (0, j)] = W.a (S.na + i) j := fun _ _ => rfl
  have e29 : ∀ i j, elements S.na S.nb (stF S Z) (stV Z) (responseStore S T R W) 29 [(1, i), (1, j)] = W.a (S.na + i) (S.na + j) := fun _ _ => rfl
  have e30 : ∀ i j, elements S.na S.nb (stF S Z) (stV Z) (responseStore S T R W) 30 [(2, i), (2, j)] = W.b i j := fun _ _ => rfl
  have e31 : ∀ i j, elements S.na S.nb (stF S Z) (stV Z) (responseStore S T R W) 31 [(2, i), (3, j)] = W.b i (S.nb + j) := fun _ _ => rfl
  have e32 : ∀ i j, elements S.na S.nb (stF S Z) (stV Z) (responseStore S T R W) 32 [(3, i), (2, j)] = W.b (S.nb + i) j := fun _ _ => rfl
  have e33 : ∀ i j, elements S.na S.nb (stF S Z) (stV Z) (responseStore S T R W) 33 [(3, i), (3, j)] = W.b (S.nb + i) (S.nb + j) := fun _ _ => rfl
  simp only [Nat.reduceAdd, Nat.reduceMod, one_smul, e26, e27, e28, e29, e30, e31, e32, e33]
  simp only [add_zero, add_assoc]
  rfl

section
variable {S : Orbitals ι} (h : S.Proper) {Z : Fock.Integrals} (hZ : Z.Antisym) {T : Cluster} (hT : T.Antisym)
  {R : Cluster} (hR : R.Antisym) (W : OneElectron)
include h hZ hT hR

/-- The part with the response amplitudes. -/
theorem value_R {x : Ex} {ext : List ℕ} {bra : List Op} (hb : ∀ o ∈ bra, o.2 ∈ ext)
    (hx : dcheck (groups tableC) (listC 0) listH x ext [] false (commR bra) = true) {ρ : Env} (hρ : ExtOk (dimS S) ext ρ) :
    value S Z (responseStore S T R W) x (ext.map ρ) = expect S (evalO (opX S) ρ bra * commutatorR S Z T R) := by
  rw [dcheck_sound h (antiSym_R hZ hT hR W) (fun m ρ => evalS_listC S T (holds_T S T R W) m ρ) (cluster_nilpotent h T) hx
    (evalS_listH h Z _ ρ) hρ .nil (ws := [(evalO (opX S) ρ bra, clusterOperator S R, 1)])
    (.cons ⟨fun ρ' hr => ?_, fun m ρ' _ => evalS_listC S R (holds_R S T R W) m ρ', fun ρ' m hr => rfl⟩ .nil)]
  · simp [commR, sg, commutatorR, transformed]
  · simp only [commR, List.map_cons, List.map_nil, List.prod_cons, List.prod_nil, mul_one]
    exact evalS_slot hr hb

/-- The part with the property. -/
theorem value_W {x : Ex} {ext : List ℕ} {bra : List Op} (hb : ∀ o ∈ bra, o.2 ∈ ext)
    (hx : check (groups tableC) (listC 0) listW x ext (left bra) = true) {ρ : Env} (hρ : ExtOk (dimS S) ext ρ) :
    value S Z (responseStore S T R W) x (ext.map ρ) = expect S (evalO (opX S) ρ bra
      * (IsNilpotent.exp (-(clusterOperator S T)) * oneElectron S W * IsNilpotent.exp (clusterOperator S T))) := by
  rw [check_sound' h (antiSym_R hZ hT hR W) (fun m ρ => evalS_listC S T (holds_T S T R W) m ρ) (cluster_nilpotent h T) hx
    (evalS_listW h Z T R W ρ) hρ (vs := [(evalO (opX S) ρ bra, 1)])]
  · simp [left]
  · refine .cons ⟨fun ρ' hr => ?_, fun ρ' m hr => ?_⟩ .nil
    · simp only [List.map_cons, List.map_nil, List.prod_cons, List.prod_nil, mul_one]
      exact evalS_slot hr hb
    · rfl

/-- Both parts together. -/
theorem value_both {x y z : Ex} {ext : List ℕ} {bra : List Op} (hb : ∀ o ∈ bra, o.2 ∈ ext)
    (hy : dcheck (groups tableC) (listC 0) listH y ext [] false (commR bra) = true)
    (hz : check (groups tableC) (listC 0) listW z ext (left bra) = true) {ρ : Env} (hρ : ExtOk (dimS S) ext ρ)
    (hx : value S Z (responseStore S T R W) x (ext.map ρ) = value S Z (responseStore S T R W) y (ext.map ρ)
      + value S Z (responseStore S T R W) z (ext.map ρ)) :
    value S Z (responseStore S T R W) x (ext.map ρ) = expect S (evalO (opX S) ρ bra * response S Z T R W) := by
  rw [hx, value_R h hZ hT hR W hb hy hρ, value_W h hZ hT hR W hb hz hρ, ← expect_add]
  rfl
end

/-! ### The two parts of the programs -/

section
variable {dim : ℕ → ℕ} {I : ℕ → List (ℕ × ℕ) → ℚ}

theorem split_1a (l : List ℕ) : (residualT1a excitation amplitudes property hb).denote dim I l
    = sigma.a.denote dim I l + w1a.denote dim I l := by
  show (sigma.a - (es% "mi,am->ai" (property.a.oo + (es% "me,ei->mi" property.a.ov, amplitudes.a)), amplitudes.a)
    + (es% "ae,ei->ai" property.a.vv, amplitudes.a) + (es% "me,aeim->ai" property.a.ov, amplitudes.aa)
    + (es% "me,aeim->ai" property.b.ov, amplitudes.ab) + property.a.vo).denote dim I l = _
  unfold w1a
  simp only [denote_add, denote_sub, denote_neg]
  ring

theorem split_1b (l : List ℕ) : (residualT1b excitation amplitudes property hb).denote dim I l
    = sigma.b.denote dim I l + w1b.denote dim I l := by
  show (sigma.b - (es% "mi,am->ai" (property.b.oo + (es% "me,ei->mi" property.b.ov, amplitudes.b)), amplitudes.b)
    + (es% "ae,ei->ai" property.b.vv, amplitudes.b) + (es% "me,aeim->ai" property.b.ov, amplitudes.bb)
    + (es% "me,eami->ai" property.a.ov, amplitudes.ab) + property.b.vo).denote dim I l = _
  unfold w1b
  simp only [denote_add, denote_sub, denote_neg]
  ring

theorem split_2b (l : List ℕ) : (correctedT2b excitation amplitudes property xs hb).denote dim I l
    = sigma.ab.denote dim I l + w2b.denote dim I l := by
  show (sigma.ab - (es% "mi,abmj->abij" ooA, amplitudes.ab) + (es% "ae,ebij->abij" vvA, amplitudes.ab)
    - (es% "mj,abim->abij" ooB, amplitudes.ab) + (es% "be,aeij->abij" vvB, amplitudes.ab)).denote dim I l = _
  unfold w2b
  simp only [denote_add, denote_sub, denote_neg]
  ring

/-- The array before the antisymmetrisation of EOM-CCSD. -/
def plain2a (R T : Amps) (X H : Ints) : Ex :=
  let X2A := -half (es% "mi,abmj->abij" H.a.oo, R.aa)
  let X2A := X2A + half (es% "ae,ebij->abij" H.a.vv, R.aa)
  let X2A := X2A + eighth (es% "mnij,abmn->abij" H.aa.oooo, R.aa)
  let X2A := X2A + eighth (es% "abef,efij->abij" H.aa.vvvv, R.aa)
  let X2A := X2A + (es% "amie,ebmj->abij" H.aa.voov, R.aa)
  let X2A := X2A + (es% "amie,bejm->abij" H.ab.voov, R.ab)
  let X2A := X2A - half (es% "bmji,am->abij" H.aa.vooo, R.a)
  let X2A := X2A + half (es% "baje,ei->abij" H.aa.vvov, R.a)
  let X2A := X2A + half (es% "be,aeij->abij" X.a.vv, T.aa)
  let X2A := X2A - half (es% "mj,abim->abij" X.a.oo, T.aa)
  X2A
def plain2c (R T : Amps) (X H : Ints) : Ex :=
  let X2C := -half (es% "mi,abmj->abij" H.b.oo, R.bb)
  let X2C := X2C + half (es% "ae,ebij->abij" H.b.vv, R.bb)
  let X2C := X2C + eighth (es% "mnij,abmn->abij" H.bb.oooo, R.bb)
  let X2C := X2C + eighth (es% "abef,efij->abij" H.bb.vvvv, R.bb)
  let X2C := X2C + (es% "amie,ebmj->abij" H.bb.voov, R.bb)
  let X2C := X2C + (es% "maei,ebmj->abij" H.ab.ovvo, R.ab)
  let X2C := X2C - half (es% "bmji,am->abij" H.bb.vooo, R.b)
  let X2C := X2C + half (es% "baje,ei->abij" H.bb.vvov, R.b)
  let X2C := X2C + half (es% "be,aeij->abij" X.b.vv, T.bb)
  let X2C := X2C - half (es% "mj,abim->abij" X.b.oo, T.bb)
  X2C

theorem denote_twice (x : Ex) (a b i j : ℕ) :
    (x - transpose [1, 0, 2, 3] x - transpose [0, 1, 3, 2] (x - transpose [1, 0, 2, 3] x)).denote dim I [a, b, i, j]
      = exchange (x.denote dim I) a b i j := by
  have e₁ : ∀ a b i j, (transpose [1, 0, 2, 3] x).denote dim I [a, b, i, j] = x.denote dim I [b, a, i, j] :=
    fun a b i j => denote_transpose4 dim I x (p := 1) (q := 0) (r := 2) (s := 3) (by decide) [a, b, i, j]
  have e₂ : ∀ y : Ex, (transpose [0, 1, 3, 2] y).denote dim I [a, b, i, j] = y.denote dim I [a, b, j, i] :=
    fun y => denote_transpose4 dim I y (p := 0) (q := 1) (r := 3) (s := 2) (by decide) [a, b, i, j]
  rw [denote_sub, denote_sub, e₂, denote_sub, e₁, e₁]
  unfold exchange
  ring

theorem split_2a (a b i j : ℕ) : (anti (residualT2a excitation amplitudes property xs hb)).denote dim I [a, b, i, j]
    = sigma.aa.denote dim I [a, b, i, j] + (anti w2a).denote dim I [a, b, i, j] := by
  have e : sigma.aa.denote dim I [a, b, i, j] = exchange ((plain2a excitation amplitudes xs hb).denote dim I) a b i j :=
    denote_twice (plain2a excitation amplitudes xs hb) a b i j
  have e' : ∀ l, (residualT2a excitation amplitudes property xs hb).denote dim I l
      = (plain2a excitation amplitudes xs hb).denote dim I l + w2a.denote dim I l := fun l => by
    show (plain2a excitation amplitudes xs hb - half (es% "mi,abmj->abij" ooA, amplitudes.aa)
      + half (es% "ae,ebij->abij" vvA, amplitudes.aa)).denote dim I l = _
    unfold w2a
    simp only [denote_add, denote_sub, denote_neg]
    ring
  rw [e, denote_anti, denote_anti]
  unfold exchange
  simp only [e']
  ring

theorem split_2c (a b i j : ℕ) : (anti (residualT2c excitation amplitudes property xs hb)).denote dim I [a, b, i, j]
    = sigma.bb.denote dim I [a, b, i, j] + (anti w2c).denote dim I [a, b, i, j] := by
  have e : sigma.bb.denote dim I [a, b, i, j] = exchange ((plain2c excitation amplitudes xs hb).denote dim I) a b i j :=
    denote_twice (plain2c excitation amplitudes xs hb) a b i j
  have e' : ∀ l, (residualT2c excitation amplitudes property xs hb).denote dim I l
      = (plain2c excitation amplitudes xs hb).denote dim I l + w2c.denote dim I l := fun l => by
    show (plain2c excitation amplitudes xs hb - half (es% "mi,abmj->abij" ooB, amplitudes.bb)
      + half (es% "ae,ebij->abij" vvB, amplitudes.bb)).denote dim I l = _
    unfold w2c
    simp only [denote_add, denote_sub, denote_neg]
    ring
  rw [e, denote_anti, denote_anti]
  unfold exchange
  simp only [e']
  ring

theorem split_0 : (getLrccEnergy excitation property amplitudes hb).denote dim I [] + (es% "mm->" property.a.oo).denote dim I []
    + (es% "mm->" property.b.oo).denote dim I [] = e0.denote dim I [] + w0.denote dim I [] := by
  unfold getLrccEnergy e0 w0
  simp only [denote_add]
  ring
end

section
variable {S : Orbitals ι} (h : S.Proper) {Z : Fock.Integrals} (hZ : Z.Antisym) {T : Cluster} (hT : T.Antisym)
  {R : Cluster} (hR : R.Antisym) (W : OneElectron)
include h hZ hT hR

theorem value_1a {a i : ℕ} (h₁ : a < S.ua) (h₂ : i < S.na) :
    value S Z (responseStore S T R W) (residualT1a excitation amplitudes property hb) [a, i]
      = S.element (S.singleA a i) (response S Z T R W) := by
  have hρ : ExtOk (dimS S) [1, 4] (env [1, 4] [a, i]) := fun v hv => by
    simp only [List.mem_cons, List.not_mem_nil, or_false] at hv
    rcases hv with rfl | rfl <;> assumption
  refine (value_both h hZ hT hR W (by decide) check_a check_w1a hρ (split_1a _)).trans ?_
  rw [evalO_two, element_single]
  rfl

theorem value_1b {a i : ℕ} (h₁ : a < S.ub) (h₂ : i < S.nb) :
    value S Z (responseStore S T R W) (residualT1b excitation amplitudes property hb) [a, i]
      = S.element (S.singleB a i) (response S Z T R W) := by
  have hρ : ExtOk (dimS S) [3, 6] (env [3, 6] [a, i]) := fun v hv => by
    simp only [List.mem_cons, List.not_mem_nil, or_false] at hv
    rcases hv with rfl | rfl <;> assumption
  refine (value_both h hZ hT hR W (by decide) check_b check_w1b hρ (split_1b _)).trans ?_
  rw [evalO_two, element_single]
  rfl

theorem value_2a {a b i j : ℕ} (h₁ : a < S.ua) (h₂ : b < S.ua) (h₃ : i < S.na) (h₄ : j < S.na) :
    value S Z (responseStore S T R W) (anti (residualT2a excitation amplitudes property xs hb)) [a, b, i, j]
      = S.element (S.doubleAA a b i j) (response S Z T R W) := by
  have hρ : ExtOk (dimS S) [1, 5, 8, 12] (env [1, 5, 8, 12] [a, b, i, j]) := fun v hv => by
    simp only [List.mem_cons, List.not_mem_nil, or_false] at hv
    rcases hv with rfl | rfl | rfl | rfl <;> assumption
  refine (value_both h hZ hT hR W (by decide) check_aa check_w2a hρ (split_2a a b i j)).trans ?_
  rw [evalO_four, element_double]
  rfl

theorem value_2b {a b i j : ℕ} (h₁ : a < S.ua) (h₂ : b < S.ub) (h₃ : i < S.na) (h₄ : j < S.nb) :
    value S Z (responseStore S T R W) (correctedT2b excitation amplitudes property xs hb) [a, b, i, j]
      = S.element (S.doubleAB a b i j) (response S Z T R W) := by
  have hρ : ExtOk (dimS S) [1, 7, 8, 14] (env [1, 7, 8, 14] [a, b, i, j]) := fun v hv => by
    simp only [List.mem_cons, List.not_mem_nil, or_false] at hv
    rcases hv with rfl | rfl | rfl | rfl <;> assumption
  refine (value_both h hZ hT hR W (by decide) check_ab check_w2b hρ (split_2b _)).trans ?_
  rw [evalO_four, element_double]
  rfl

theorem value_2c {a b i j : ℕ} (h₁ : a < S.ub) (h₂ : b < S.ub) (h₃ : i < S.nb) (h₄ : j < S.nb) :
    value S Z (responseStore S T R W) (anti (residualT2c excitation amplitudes property xs hb)) [a, b, i, j]
      = S.element (S.doubleBB a b i j) (response S Z T R W) := by
  have hρ : ExtOk (dimS S) [3, 7, 10, 14] (env [3, 7, 10, 14] [a, b, i, j]) := fun v hv => by
    simp only [List.mem_cons, List.not_mem_nil, or_false] at hv
    rcases hv with rfl | rfl | rfl | rfl <;> assumption
  refine (value_both h hZ hT hR W (by decide) check_bb check_w2c hρ (split_2c a b i j)).trans ?_
  rw [evalO_four, element_double]
  rfl

theorem value_0 : value S Z (responseStore S T R W) (getLrccEnergy excitation property amplitudes hb) []
    + ∑ i ∈ Finset.range S.na, W.a i i + ∑ i ∈ Finset.range S.nb, W.b i i = S.element S.ref (response S Z T R W) := by
  have hρ : ExtOk (dimS S) [] (env [] []) := fun v hv => absurd hv List.not_mem_nil
  have e₁ := value_R h hZ hT hR W (x := e0) (bra := []) (by decide) check_e0 hρ
  have e₂ := value_W h hZ hT hR W (x := w0) (bra := []) (by decide) check_w0 hρ
  have e := split_0 (dim := dims S.n S.na S.nb)
    (I := elements S.na S.nb ⟨fockA S Z, fockB S Z⟩ ⟨Z.vAA, Z.vAB, Z.vBB⟩ (responseStore S T R W))
  have tA : (es% "mm->" property.a.oo).denote (dims S.n S.na S.nb)
      (elements S.na S.nb ⟨fockA S Z, fockB S Z⟩ ⟨Z.vAA, Z.vAB, Z.vBB⟩ (responseStore S T R W)) []
      = ∑ i ∈ Finset.range S.na, W.a i i := by
    show ∑ k ∈ Finset.range S.na, W.a k k * 1 = _
    simp only [mul_one]
  have tB : (es% "mm->" property.b.oo).denote (dims S.n S.na S.nb)
      (elements S.na S.nb ⟨fockA S Z, fockB S Z⟩ ⟨Z.vAA, Z.vAB, Z.vBB⟩ (responseStore S T R W)) []
      = ∑ i ∈ Finset.range S.nb, W.b i i := by
    show ∑ k ∈ Finset.range S.nb, W.b k k * 1 = _
    simp only [mul_one]
  rw [tA, tB] at e
  refine Eq.trans ?_ (e.trans ((congrArg₂ (· + ·) e₁ e₂).trans ?_))
  · rfl
  · rw [← expect_add]
    simp only [evalO, List.map_nil, List.prod_nil, one_mul]
    rfl
end

/-- If the spins have the same numbers of electrons and the same property, `update_t2b` computes what it should. -/
theorem bad_good {S : Orbitals ι} (Z : Fock.Integrals) (T R : Cluster) (W : OneElectron) (hn : S.na = S.nb) (hW : W.a = W.b)
    (a b i j : ℕ) : value S Z (responseStore S T R W) (residualT2b excitation amplitudes property xs hb) [a, b, i, j]
      = value S Z (responseStore S T R W) (correctedT2b excitation amplitudes property xs hb) [a, b, i, j] := by
  obtain ⟨n, na, nb, up, down⟩ := S
  obtain ⟨wa, wb⟩ := W
  simp only at hn hW
  subst hn hW
  rfl

end Ccpy.LrCcsd
