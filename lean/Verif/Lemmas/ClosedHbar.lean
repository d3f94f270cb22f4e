import Verif.Engine.Subst
import Verif.Engine.ClosedFirst
import Verif.Lemmas.Attachment
import Verif.Model.HbarCcsd
import Verif.Spec.ClosedShapes

/-! Programs that take the blocks of the similarity-transformed Hamiltonian of a closed shell. -/

namespace Ccpy.HbarCcsd
open Ccpy.Engine Ccpy.Tensor Ccpy.Fock

variable {ι : Type*} [LinearOrder ι]

/-- The blocks one after the other. -/
def blocks (H : Ints) : List Ex :=
  [H.a.oo, H.a.ov, H.a.vo, H.a.vv, H.b.oo, H.b.ov, H.b.vo, H.b.vv, H.aa.oooo, H.aa.ooov, H.aa.oovo, H.aa.oovv,
    H.aa.ovoo, H.aa.ovov, H.aa.ovvo, H.aa.ovvv, H.aa.vooo, H.aa.voov, H.aa.vovo, H.aa.vovv, H.aa.vvoo, H.aa.vvov,
    H.aa.vvvo, H.aa.vvvv, H.ab.oooo, H.ab.ooov, H.ab.oovo, H.ab.oovv, H.ab.ovoo, H.ab.ovov, H.ab.ovvo, H.ab.ovvv,
    H.ab.vooo, H.ab.voov, H.ab.vovo, H.ab.vovv, H.ab.vvoo, H.ab.vvov, H.ab.vvvo, H.ab.vvvv, H.bb.oooo, H.bb.ooov,
    H.bb.oovo, H.bb.oovv, H.bb.ovoo, H.bb.ovov, H.bb.ovvo, H.bb.ovvv, H.bb.vooo, H.bb.voov, H.bb.vovo, H.bb.vovv,
    H.bb.vvoo, H.bb.vvov, H.bb.vvvo, H.bb.vvvv]

/-- Names for the blocks. -/
def named : Ints where
  a := ⟨.arr 200 [0, 0], .arr 201 [0, 1], .arr 202 [1, 0], .arr 203 [1, 1]⟩
  b := ⟨.arr 204 [2, 2], .arr 205 [2, 3], .arr 206 [3, 2], .arr 207 [3, 3]⟩
  aa := ⟨.arr 208 [0, 0, 0, 0], .arr 209 [0, 0, 0, 1], .arr 210 [0, 0, 1, 0], .arr 211 [0, 0, 1, 1], .arr 212 [0, 1, 0,
    0], .arr 213 [0, 1, 0, 1], .arr 214 [0, 1, 1, 0], .arr 215 [0, 1, 1, 1], .arr 216 [1, 0, 0, 0], .arr 217 [1, 0, 0,
    1], .arr 218 [1, 0, 1, 0], .arr 219 [1, 0, 1, 1], .arr 220 [1, 1, 0, 0], .arr 221 [1, 1, 0, 1], .arr 222 [1, 1, 1,
    0], .arr 223 [1, 1, 1, 1]⟩
  ab := ⟨.arr 224 [0, 2, 0, 2], .arr 225 [0, 2, 0, 3], .arr 226 [0, 2, 1, 2], .arr 227 [0, 2, 1, 3], .arr 228 [0, 3, 0,
    2], .arr 229 [0, 3, 0, 3], .arr 230 [0, 3, 1, 2], .arr 231 [0, 3, 1, 3], .arr 232 [1, 2, 0, 2], .arr 233 [1, 2, 0,
    3], .arr 234 [1, 2, 1, 2], .arr 235 [1, 2, 1, 3], .arr 236 [1, 3, 0, 2], .arr 237 [1, 3, 0, 3], .arr 238 [1, 3, 1,
    2], .arr 239 [1, 3, 1, 3]⟩
  bb := ⟨.arr 240 [2, 2, 2, 2], .arr 241 [2, 2, 2, 3], .arr 242 [2, 2, 3, 2], .arr 243 [2, 2, 3, 3], .arr 244 [2, 3, 2,
    2], .arr 245 [2, 3, 2, 3], .arr 246 [2, 3, 3, 2], .arr 247 [2, 3, 3, 3], .arr 248 [3, 2, 2, 2], .arr 249 [3, 2, 2,
    3], .arr 250 [3, 2, 3, 2], .arr 251 [3, 2, 3, 3], .arr 252 [3, 3, 2, 2], .arr 253 [3, 3, 2, 3], .arr 254 [3, 3, 3,
    2], .arr 255 [3, 3, 3, 3]⟩

/-- Put the blocks in the places of their names. -/
def put (H : Ints) (n : ℕ) (sp : List ℕ) : Ex := if n < 200 then .arr n sp else (blocks H).getD (n - 200) (.arr n sp)

theorem put_like {dim : ℕ → ℕ} {I : ℕ → List (ℕ × ℕ) → ℚ} {H H' : Ints} (h : List.Forall₂ (Like dim I) (blocks H) (blocks H'))
    (n : ℕ) (sp : List ℕ) : Like dim I (put H n sp) (put H' n sp) := by
  unfold put
  split_ifs with hn
  · exact .refl _
  · generalize n - 200 = k
    revert k h
    generalize blocks H = l
    generalize blocks H' = l'
    intro h
    induction h with
    | nil => intro k; exact .refl _
    | cons hx hl ih =>
      intro k
      cases k with
      | zero => exact hx
      | succ k => exact ih k

/-- The blocks of both branches. -/
def hbar (rhf : Bool) : Ints := buildHbarCcsd amplitudes stored rhf

section
set_option maxRecDepth 100000
theorem closed_ab_vooo : equalC₁ (hbar true).ab.vooo [1, 4, 8, 12] (hbar false).ab.vooo [1, 4, 8, 12] = true := by decide +kernel
theorem below_ab_vooo : (belowE 11 (hbar true).ab.vooo && belowE 11 (hbar false).ab.vooo) = true := by decide +kernel
theorem axes_ab_vooo : (hbar true).ab.vooo.axes.map sigma = [1, 0, 0, 0] ∧ (hbar false).ab.vooo.axes.map sigma = [1, 0, 0, 0] :=
  ⟨rfl, rfl⟩
theorem closed_bb_oooo : equalC₁ (hbar true).bb.oooo [0, 4, 8, 12] (hbar false).bb.oooo [0, 4, 8, 12] = true := by decide +kernel
theorem below_bb_oooo : (belowE 11 (hbar true).bb.oooo && belowE 11 (hbar false).bb.oooo) = true := by decide +kernel
theorem axes_bb_oooo : (hbar true).bb.oooo.axes.map sigma = [0, 0, 0, 0] ∧ (hbar false).bb.oooo.axes.map sigma = [0, 0, 0, 0] :=
  ⟨rfl, rfl⟩
theorem closed_bb_ooov : equalC₁ (hbar true).bb.ooov [0, 4, 8, 13] (hbar false).bb.ooov [0, 4, 8, 13] = true := by decide +kernel
theorem below_bb_ooov : (belowE 11 (hbar true).bb.ooov && belowE 11 (hbar false).bb.ooov) = true := by decide +kernel
theorem axes_bb_ooov : (hbar true).bb.ooov.axes.map sigma = [0, 0, 0, 1] ∧ (hbar false).bb.ooov.axes.map sigma = [0, 0, 0, 1] :=
  ⟨rfl, rfl⟩
theorem closed_bb_vooo : equalC₁ (hbar true).bb.vooo [1, 4, 8, 12] (hbar false).bb.vooo [1, 4, 8, 12] = true := by decide +kernel
theorem below_bb_vooo : (belowE 11 (hbar true).bb.vooo && belowE 11 (hbar false).bb.vooo) = true := by decide +kernel
theorem axes_bb_vooo : (hbar true).bb.vooo.axes.map sigma = [1, 0, 0, 0] ∧ (hbar false).bb.vooo.axes.map sigma = [1, 0, 0, 0] :=
  ⟨rfl, rfl⟩
theorem closed_bb_voov : equalC₁ (hbar true).bb.voov [1, 4, 8, 13] (hbar false).bb.voov [1, 4, 8, 13] = true := by decide +kernel
theorem below_bb_voov : (belowE 11 (hbar true).bb.voov && belowE 11 (hbar false).bb.voov) = true := by decide +kernel
theorem axes_bb_voov : (hbar true).bb.voov.axes.map sigma = [1, 0, 0, 1] ∧ (hbar false).bb.voov.axes.map sigma = [1, 0, 0, 1] :=
  ⟨rfl, rfl⟩
theorem closed_bb_vvov : equalC₁ (hbar true).bb.vvov [1, 5, 8, 13] (hbar false).bb.vvov [1, 5, 8, 13] = true := by decide +kernel
theorem below_bb_vvov : (belowE 11 (hbar true).bb.vvov && belowE 11 (hbar false).bb.vvov) = true := by decide +kernel
theorem axes_bb_vvov : (hbar true).bb.vvov.axes.map sigma = [1, 1, 0, 1] ∧ (hbar false).bb.vvov.axes.map sigma = [1, 1, 0, 1] :=
  ⟨rfl, rfl⟩
theorem closed_bb_vvvv : equalC₁ (hbar true).bb.vvvv [1, 5, 9, 13] (hbar false).bb.vvvv [1, 5, 9, 13] = true := by decide +kernel
theorem below_bb_vvvv : (belowE 11 (hbar true).bb.vvvv && belowE 11 (hbar false).bb.vvvv) = true := by decide +kernel
theorem axes_bb_vvvv : (hbar true).bb.vvvv.axes.map sigma = [1, 1, 1, 1] ∧ (hbar false).bb.vvvv.axes.map sigma = [1, 1, 1, 1] :=
  ⟨rfl, rfl⟩
theorem closed_bb_vovv : equalC₁ (hbar true).bb.vovv [1, 4, 9, 13] (hbar false).bb.vovv [1, 4, 9, 13] = true := by decide +kernel
theorem below_bb_vovv : (belowE 11 (hbar true).bb.vovv && belowE 11 (hbar false).bb.vovv) = true := by decide +kernel
theorem axes_bb_vovv : (hbar true).bb.vovv.axes.map sigma = [1, 0, 1, 1] ∧ (hbar false).bb.vovv.axes.map sigma = [1, 0, 1, 1] :=
  ⟨rfl, rfl⟩
end

theorem dims_sigma (n k s : ℕ) : dims n k k (sigma s) = dims n k k s := by
  match s with
  | 0 | 1 | 2 | 3 => rfl
  | s + 4 =>
    have e : sigma (s + 4) = s + 4 := by rw [sigma_eq, if_neg (by omega), if_neg (by omega)]
    rw [e]

section
variable {S : Orbitals ι} {Z : Fock.Integrals} (hC : ClosedShell S Z) (hZ : Z.Antisym) {T : Cluster} (hT : T.Antisym)
  (hs : T.Symmetric) {amp : ℕ → List ℕ → ℚ} (ha : ∀ k, 6 ≤ k → k < 11 → amp k = T.amp k)
include hC hZ hT hs ha

theorem like_of {x y : Ex} {a b c d s₁ s₂ s₃ s₄ : ℕ} (h : equalC₁ x [a, b, c, d] y [a, b, c, d] = true)
    (hb : (belowE 11 x && belowE 11 y) = true) (hx : x.axes.map sigma = [s₁, s₂, s₃, s₄] ∧ y.axes.map sigma = [s₁, s₂, s₃, s₄])
    (hn : [a, b, c, d].Nodup) :
    Like (dims S.n S.na S.nb) (elements S.na S.nb ⟨fockA S Z, fockB S Z⟩ ⟨Z.vAA, Z.vAB, Z.vBB⟩ amp) x y := by
  have hd : ∀ s, dims S.n S.na S.nb (sigma s) = dims S.n S.na S.nb s := fun s => by rw [hC.electrons]; exact dims_sigma ..
  have hm : ∀ l : List ℕ, l.map (dims S.n S.na S.nb) = (l.map sigma).map (dims S.n S.na S.nb) := fun l => by
    rw [List.map_map]; exact List.map_congr_left fun s _ => (hd s).symm
  refine ⟨by rw [hm, hm y.axes, hx.1, hx.2], fun idx hl => ?_⟩
  have hl : idx.length = 4 := by rw [hl, ← List.length_map (f := sigma), hx.2]; rfl
  obtain ⟨i, j, k, l, rfl⟩ : ∃ i j k l, idx = [i, j, k, l] := by
    match idx, hl with
    | [i, j, k, l], _ => exact ⟨i, j, k, l, rfl⟩
  have hI : ∀ n, n < 11 → elements S.na S.nb ⟨fockA S Z, fockB S Z⟩ ⟨Z.vAA, Z.vAB, Z.vBB⟩ amp n
      = elements S.na S.nb ⟨fockA S Z, fockB S Z⟩ ⟨Z.vAA, Z.vAB, Z.vBB⟩ (store3 [T] []) n := fun n hn => by
    funext l
    match n, hn with
    | 0, _ | 1, _ | 2, _ | 3, _ | 4, _ | 5, _ =>
      match l with
      | [] | [_] | [_, _] | [_, _, _] | [_, _, _, _] | _ :: _ :: _ :: _ :: _ :: _ => rfl
    | n + 6, hn =>
      have e : store3 [T] [] (n + 6) = T.amp (n + 6) := by
        funext m
        have : n = 0 ∨ n = 1 ∨ n = 2 ∨ n = 3 ∨ n = 4 := by omega
        rcases this with rfl | rfl | rfl | rfl | rfl <;> rfl
      simp only [elements, ha (n + 6) (by omega) hn, e]
  have e := equalC₁_sound hC hZ (l := []) (T := T) (fun t ht => by rw [List.mem_singleton.1 ht]; exact hT) hs (l₃ := [])
    (fun t ht => absurd ht (by simp)) h
    (Function.update (Function.update (Function.update (Function.update (fun _ => 0) d l) c k) b j) a i)
  rw [Bool.and_eq_true] at hb
  rw [below_denote hI x hb.1, below_denote hI y hb.2]
  simp only [List.nodup_cons, List.mem_cons, List.not_mem_nil, or_false, not_or] at hn
  obtain ⟨⟨h1, h2, h3⟩, ⟨h4, h5⟩, h6, -⟩ := hn
  simpa [value, Function.update_of_ne, h1, h2, h3, h4, h5, h6, Ne.symm h1, Ne.symm h2, Ne.symm h3, Ne.symm h4, Ne.symm h5,
    Ne.symm h6] using e

theorem hbar_like : List.Forall₂ (Like (dims S.n S.na S.nb) (elements S.na S.nb ⟨fockA S Z, fockB S Z⟩ ⟨Z.vAA, Z.vAB, Z.vBB⟩ amp))
    (blocks (hbar true)) (blocks (hbar false)) := by
  have r : ∀ x : Ex, Like (dims S.n S.na S.nb) (elements S.na S.nb ⟨fockA S Z, fockB S Z⟩ ⟨Z.vAA, Z.vAB, Z.vBB⟩ amp) x x := .refl
  refine .cons (r _) ?_
  refine .cons (r _) ?_
  refine .cons (r _) ?_
  refine .cons (r _) ?_
  refine .cons (r _) ?_
  refine .cons (r _) ?_
  refine .cons (r _) ?_
  refine .cons (r _) ?_
  refine .cons (r _) ?_
  refine .cons (r _) ?_
  refine .cons (r _) ?_
  refine .cons (r _) ?_
  refine .cons (r _) ?_
  refine .cons (r _) ?_
  refine .cons (r _) ?_
  refine .cons (r _) ?_
  refine .cons (r _) ?_
  refine .cons (r _) ?_
  refine .cons (r _) ?_
  refine .cons (r _) ?_
  refine .cons (r _) ?_
  refine .cons (r _) ?_
  refine .cons (r _) ?_
  refine .cons (r _) ?_
  refine .cons (r _) ?_
  refine .cons (r _) ?_
  refine .cons (r _) ?_
  refine .cons (r _) ?_
  refine .cons (r _) ?_
  refine .cons (r _) ?_
  refine .cons (r _) ?_
  refine .cons (r _) ?_
  refine .cons (like_of hC hZ hT hs ha closed_ab_vooo below_ab_vooo axes_ab_vooo (by decide)) ?_
  refine .cons (r _) ?_
  refine .cons (r _) ?_
  refine .cons (r _) ?_
  refine .cons (r _) ?_
  refine .cons (r _) ?_
  refine .cons (r _) ?_
  refine .cons (r _) ?_
  refine .cons (like_of hC hZ hT hs ha closed_bb_oooo below_bb_oooo axes_bb_oooo (by decide)) ?_
  refine .cons (like_of hC hZ hT hs ha closed_bb_ooov below_bb_ooov axes_bb_ooov (by decide)) ?_
  refine .cons (r _) ?_
  refine .cons (r _) ?_
  refine .cons (r _) ?_
  refine .cons (r _) ?_
  refine .cons (r _) ?_
  refine .cons (r _) ?_
  refine .cons (like_of hC hZ hT hs ha closed_bb_vooo below_bb_vooo axes_bb_vooo (by decide)) ?_
  refine .cons (like_of hC hZ hT hs ha closed_bb_voov below_bb_voov axes_bb_voov (by decide)) ?_
  refine .cons (r _) ?_
  refine .cons (like_of hC hZ hT hs ha closed_bb_vovv below_bb_vovv axes_bb_vovv (by decide)) ?_
  refine .cons (r _) ?_
  refine .cons (like_of hC hZ hT hs ha closed_bb_vvov below_bb_vvov axes_bb_vvov (by decide)) ?_
  refine .cons (r _) ?_
  refine .cons (like_of hC hZ hT hs ha closed_bb_vvvv below_bb_vvvv axes_bb_vvvv (by decide)) ?_
  exact .nil

/-- A program that uses the blocks gives the same result with those of either branch. -/
theorem hbar_value (p : Ints → Ex) (hp : ∀ H, p H = foldE (put H) (p named)) (hk : (p (hbar false)).ok = true) {idx : List ℕ}
    (hl : idx.length = (p (hbar false)).axes.length) :
    value S Z amp (p (hbar true)) idx = value S Z amp (p (hbar false)) idx := by
  have e := subst_denote (put_like (hbar_like hC hZ hT hs ha)) (p named) (by rw [← hp]; exact hk) idx (by rw [← hp]; exact hl)
  rw [← hp, ← hp] at e
  exact e

end

end Ccpy.HbarCcsd
