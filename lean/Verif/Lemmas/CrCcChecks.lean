import Verif.Lemmas.LeftCcsdChecks
import Verif.Lemmas.PSpaceNames

/-! Checks for the left moments of the CR-CC(2,3) correction, and for the equality of the two programs for the transformed
Hamiltonian.  `l3a`, ..., `l3d` are the numbers `temp2 + temp3` of the kernels. -/

namespace Ccpy.CrCc
open Ccpy.Fock Ccpy.Tensor Ccpy.Engine Ccpy.HbarCcsd Ccpy.Ccsdt Ccpy.PSpace
open Ccpy.EomCcsd (excitation)

def hbar : Ints := buildHbarCcsd amplitudes stored false

/-- `(1 + L) e^{-T} H e^{T} τ` -/
noncomputable def leftOf (τ : List Op) : List Ccpy.Engine.Term :=
  [⟨false, [], fun _ => [slot τ]⟩, ⟨false, [listL 5 15], fun _ => [slot τ]⟩]

def l3a (L : Amps) (H : Ints) : Ex :=
  let x := half (es% "eiba,ecjk->abcijk" H.aa.vovv, L.aa) - half (es% "ejba,ecik->abcijk" H.aa.vovv, L.aa)
      - half (es% "ekba,ecji->abcijk" H.aa.vovv, L.aa) - half (es% "jima,bcmk->abcijk" H.aa.ooov, L.aa)
      + half (es% "kima,bcmj->abcijk" H.aa.ooov, L.aa) + half (es% "jkma,bcmi->abcijk" H.aa.ooov, L.aa)
  let y := (es% "ck,ijab->abcijk" L.a, H.aa.oovv) - (es% "ak,ijcb->abcijk" L.a, H.aa.oovv)
      - (es% "bk,ijac->abcijk" L.a, H.aa.oovv) - (es% "ci,kjab->abcijk" L.a, H.aa.oovv)
      - (es% "cj,ikab->abcijk" L.a, H.aa.oovv) + (es% "ai,kjcb->abcijk" L.a, H.aa.oovv)
      + (es% "bi,kjac->abcijk" L.a, H.aa.oovv) + (es% "aj,ikcb->abcijk" L.a, H.aa.oovv)
      + (es% "bj,ikac->abcijk" L.a, H.aa.oovv) + (es% "kc,abij->abcijk" H.a.ov, L.aa) - (es% "ka,cbij->abcijk" H.a.ov, L.aa)
      - (es% "kb,acij->abcijk" H.a.ov, L.aa) - (es% "ic,abkj->abcijk" H.a.ov, L.aa) - (es% "jc,abik->abcijk" H.a.ov, L.aa)
      + (es% "ia,cbkj->abcijk" H.a.ov, L.aa) + (es% "ib,ackj->abcijk" H.a.ov, L.aa) + (es% "ja,cbik->abcijk" H.a.ov, L.aa)
      + (es% "jb,acik->abcijk" H.a.ov, L.aa)
  x + transpose [2, 0, 1, 3, 4, 5] x + transpose [1, 2, 0, 3, 4, 5] x - transpose [0, 2, 1, 3, 4, 5] x - transpose [1, 0, 2, 3, 4, 5] x - transpose [2, 1, 0, 3, 4, 5] x + y

def l3b (L : Amps) (H : Ints) : Ex :=
  let x := (es% "aeij,ekbc->abcijk" L.aa, H.ab.vovv) + half (es% "eiba,ecjk->abcijk" H.aa.vovv, L.ab)
      - half (es% "ejba,ecik->abcijk" H.aa.vovv, L.ab) + (es% "aeik,jebc->abcijk" L.ab, H.ab.ovvv)
      - (es% "aejk,iebc->abcijk" L.ab, H.ab.ovvv) + half (es% "abmi,jkmc->abcijk" L.aa, H.ab.ooov)
      - half (es% "abmj,ikmc->abcijk" L.aa, H.ab.ooov) - (es% "jima,bcmk->abcijk" H.aa.ooov, L.ab)
      - (es% "ikam,bcjm->abcijk" H.ab.oovo, L.ab) + (es% "jkam,bcim->abcijk" H.ab.oovo, L.ab)
  let y := (es% "ai,jkbc->abcijk" L.a, H.ab.oovv) - (es% "aj,ikbc->abcijk" L.a, H.ab.oovv)
      - (es% "bi,jkac->abcijk" L.a, H.ab.oovv) + (es% "bj,ikac->abcijk" L.a, H.ab.oovv)
      + (es% "ck,ijab->abcijk" L.b, H.aa.oovv) + (es% "bcjk,ia->abcijk" L.ab, H.a.ov) - (es% "bcik,ja->abcijk" L.ab, H.a.ov)
      - (es% "acjk,ib->abcijk" L.ab, H.a.ov) + (es% "acik,jb->abcijk" L.ab, H.a.ov) + (es% "abij,kc->abcijk" L.aa, H.b.ov)
  x - transpose [1, 0, 2, 3, 4, 5] x + y

def l3c (L : Amps) (H : Ints) : Ex :=
  let x := (es% "ieab,ecjk->abcijk" H.ab.ovvv, L.bb) + half (es% "aeij,ekbc->abcijk" L.ab, H.bb.vovv)
      - half (es% "aeik,ejbc->abcijk" L.ab, H.bb.vovv) + (es% "ejab,ecik->abcijk" H.ab.vovv, L.ab)
      - (es% "ekab,ecij->abcijk" H.ab.vovv, L.ab) - half (es% "ijam,bcmk->abcijk" H.ab.oovo, L.bb)
      + half (es% "ikam,bcmj->abcijk" H.ab.oovo, L.bb) - (es% "abim,jkmc->abcijk" L.ab, H.bb.ooov)
      - (es% "abmj,ikmc->abcijk" L.ab, H.ab.ooov) + (es% "abmk,ijmc->abcijk" L.ab, H.ab.ooov)
  let y := (es% "ck,ijab->abcijk" L.b, H.ab.oovv) - (es% "bk,ijac->abcijk" L.b, H.ab.oovv)
      - (es% "cj,ikab->abcijk" L.b, H.ab.oovv) + (es% "bj,ikac->abcijk" L.b, H.ab.oovv)
      + (es% "ai,jkbc->abcijk" L.a, H.bb.oovv) + (es% "kc,abij->abcijk" H.b.ov, L.ab) - (es% "kb,acij->abcijk" H.b.ov, L.ab)
      - (es% "jc,abik->abcijk" H.b.ov, L.ab) + (es% "jb,acik->abcijk" H.b.ov, L.ab) + (es% "ia,bcjk->abcijk" H.a.ov, L.bb)
  x - transpose [0, 2, 1, 3, 4, 5] x + y

def l3d (L : Amps) (H : Ints) : Ex :=
  let x := half (es% "eiba,ecjk->abcijk" H.bb.vovv, L.bb) - half (es% "ejba,ecik->abcijk" H.bb.vovv, L.bb)
      - half (es% "ekba,ecji->abcijk" H.bb.vovv, L.bb) - half (es% "jima,bcmk->abcijk" H.bb.ooov, L.bb)
      + half (es% "kima,bcmj->abcijk" H.bb.ooov, L.bb) + half (es% "jkma,bcmi->abcijk" H.bb.ooov, L.bb)
  let y := (es% "ck,ijab->abcijk" L.b, H.bb.oovv) - (es% "ak,ijcb->abcijk" L.b, H.bb.oovv)
      - (es% "bk,ijac->abcijk" L.b, H.bb.oovv) - (es% "ci,kjab->abcijk" L.b, H.bb.oovv)
      - (es% "cj,ikab->abcijk" L.b, H.bb.oovv) + (es% "ai,kjcb->abcijk" L.b, H.bb.oovv)
      + (es% "bi,kjac->abcijk" L.b, H.bb.oovv) + (es% "aj,ikcb->abcijk" L.b, H.bb.oovv)
      + (es% "bj,ikac->abcijk" L.b, H.bb.oovv) + (es% "kc,abij->abcijk" H.b.ov, L.bb) - (es% "ka,cbij->abcijk" H.b.ov, L.bb)
      - (es% "kb,acij->abcijk" H.b.ov, L.bb) - (es% "ic,abkj->abcijk" H.b.ov, L.bb) - (es% "jc,abik->abcijk" H.b.ov, L.bb)
      + (es% "ia,cbkj->abcijk" H.b.ov, L.bb) + (es% "ib,ackj->abcijk" H.b.ov, L.bb) + (es% "ja,cbik->abcijk" H.b.ov, L.bb)
      + (es% "jb,acik->abcijk" H.b.ov, L.bb)
  x + transpose [2, 0, 1, 3, 4, 5] x + transpose [1, 2, 0, 3, 4, 5] x - transpose [0, 2, 1, 3, 4, 5] x - transpose [1, 0, 2, 3, 4, 5] x - transpose [2, 1, 0, 3, 4, 5] x + y

section
set_option maxRecDepth 100000

theorem check_l3a : check (groups tableC) (listC 0) listH (l3a excitation hbar)
    [1, 5, 9, 12, 16, 20] (leftOf [(true, 1), (true, 5), (true, 9), (false, 20), (false, 16), (false, 12)]) = true := by decide +kernel
theorem check_l3b : check (groups tableC) (listC 0) listH (l3b excitation hbar)
    [1, 5, 11, 12, 16, 22] (leftOf [(true, 1), (true, 5), (true, 11), (false, 22), (false, 16), (false, 12)]) = true := by decide +kernel
theorem check_l3c : check (groups tableC) (listC 0) listH (l3c excitation hbar)
    [1, 7, 11, 12, 18, 22] (leftOf [(true, 1), (true, 7), (true, 11), (false, 22), (false, 18), (false, 12)]) = true := by decide +kernel
theorem check_l3d : check (groups tableC) (listC 0) listH (l3d excitation hbar)
    [3, 7, 11, 14, 18, 22] (leftOf [(true, 3), (true, 7), (true, 11), (false, 22), (false, 18), (false, 14)]) = true := by decide +kernel

/-- Equal blocks. -/
noncomputable def agree (f : Ints → Ex) (xs : List Var) : Bool := same (fun _ => false) (groups table3) (f hbar) xs (f hbar2) xs

theorem agree_a_oo : agree (·.a.oo) [0, 4] = true := by decide +kernel
theorem agree_a_vv : agree (·.a.vv) [1, 5] = true := by decide +kernel
theorem agree_b_oo : agree (·.b.oo) [2, 6] = true := by decide +kernel
theorem agree_b_vv : agree (·.b.vv) [3, 7] = true := by decide +kernel
theorem agree_aa_vooo : agree (fun H => H.aa.vooo - (es% "me,aeij->amij" H.a.ov, amplitudes3.aa)) [1, 0, 4, 8] = true := by decide +kernel
theorem agree_aa_vvov : agree (·.aa.vvov) [1, 5, 0, 9] = true := by decide +kernel
theorem agree_ab_vooo : agree (fun H => H.ab.vooo - (es% "me,aeik->amik" H.b.ov, amplitudes3.ab)) [1, 2, 0, 6] = true := by decide +kernel
theorem agree_ab_ovoo : agree (fun H => H.ab.ovoo - (es% "me,ecjk->mcjk" H.a.ov, amplitudes3.ab)) [0, 3, 4, 2] = true := by decide +kernel
theorem agree_ab_vvov : agree (·.ab.vvov) [1, 3, 0, 7] = true := by decide +kernel
theorem agree_ab_vvvo : agree (·.ab.vvvo) [1, 3, 5, 2] = true := by decide +kernel
theorem agree_bb_vooo : agree (fun H => H.bb.vooo - (es% "me,aeij->amij" H.b.ov, amplitudes3.bb)) [3, 2, 6, 10] = true := by decide +kernel
theorem agree_bb_vvov : agree (·.bb.vvov) [3, 7, 2, 11] = true := by decide +kernel
theorem agree_aa_oooo : agree (·.aa.oooo) [0, 4, 8, 12] = true := by decide +kernel
theorem agree_aa_voov : agree (·.aa.voov) [1, 0, 4, 5] = true := by decide +kernel
theorem agree_aa_vvvv : agree (·.aa.vvvv) [1, 5, 9, 13] = true := by decide +kernel
theorem agree_ab_oooo : agree (·.ab.oooo) [0, 2, 4, 6] = true := by decide +kernel
theorem agree_ab_vvvv : agree (·.ab.vvvv) [1, 3, 5, 7] = true := by decide +kernel
theorem agree_ab_voov : agree (·.ab.voov) [1, 2, 0, 3] = true := by decide +kernel
theorem agree_ab_ovvo : agree (·.ab.ovvo) [0, 3, 1, 2] = true := by decide +kernel
theorem agree_ab_ovov : agree (·.ab.ovov) [0, 3, 4, 7] = true := by decide +kernel
theorem agree_ab_vovo : agree (·.ab.vovo) [1, 2, 5, 6] = true := by decide +kernel
theorem agree_bb_oooo : agree (·.bb.oooo) [2, 6, 10, 14] = true := by decide +kernel
theorem agree_bb_voov : agree (·.bb.voov) [3, 2, 6, 7] = true := by decide +kernel
theorem agree_bb_vvvv : agree (·.bb.vvvv) [3, 7, 11, 15] = true := by decide +kernel

end

end Ccpy.CrCc
