import Verif.Lemmas.CrCcChecks
import Verif.Engine.SubClusters

/-! Checks for the CCSD(T) correction.  `m3a`, ..., `m3d` are the numbers `temp1` of the kernels, `f3a`, ..., `f3d` what the
  Fock matrix adds to
`temp3`.  There is no similarity transformation. -/

namespace Ccpy.CrCc
open Ccpy.Fock Ccpy.Tensor Ccpy.Engine Ccpy.HbarCcsd Ccpy.Ccsdt Ccpy.PSpace

/-- No transformation. -/
def bare : ℕ → List Piece := fun _ => []

/-- `[H, T]` -/
noncomputable def commT (bra : List Op) : List Dterm := [⟨false, false, [slot bra], listC 0, fun _ => []⟩]

/-- `T† H τ` -/
noncomputable def undoT (τ : List Op) : List Ccpy.Engine.Term := [⟨false, [listL 0 15], fun _ => [slot τ]⟩]

def m3a (T : Amps) (H : Ints) : Ex :=
  let x := -half (es% "amij,bcmk->abcijk" H.aa.vooo, T.aa) + half (es% "amkj,bcmi->abcijk" H.aa.vooo, T.aa) + half (es%
    "amik,bcmj->abcijk" H.aa.vooo, T.aa) + half (es% "abie,ecjk->abcijk" H.aa.vvov, T.aa) - half (es% "abje,ecik->abcijk" H.aa.vvov,
    T.aa) - half (es% "abke,ecji->abcijk" H.aa.vvov, T.aa)
  x + transpose [2, 0, 1, 3, 4, 5] x + transpose [1, 2, 0, 3, 4, 5] x - transpose [0, 2, 1, 3, 4, 5] x - transpose [1, 0, 2, 3, 4,
    5] x - transpose [2, 1, 0, 3, 4, 5] x

def m3b (T : Amps) (H : Ints) : Ex :=
  let x := (es% "aeij,bcek->abcijk" T.aa, H.ab.vvvo) + half (es% "abmi,mcjk->abcijk" T.aa, H.ab.ovoo) - half (es%
    "abmj,mcik->abcijk" T.aa, H.ab.ovoo) + (es% "aeik,bcje->abcijk" T.ab, H.ab.vvov) - (es% "aejk,bcie->abcijk" T.ab, H.ab.vvov) -
    (es% "amik,bcjm->abcijk" H.ab.vooo, T.ab) + (es% "amjk,bcim->abcijk" H.ab.vooo, T.ab) + half (es% "abie,ecjk->abcijk" H.aa.vvov,
    T.ab) - half (es% "abje,ecik->abcijk" H.aa.vvov, T.ab) - (es% "amij,bcmk->abcijk" H.aa.vooo, T.ab)
  x - transpose [1, 0, 2, 3, 4, 5] x

def m3c (T : Amps) (H : Ints) : Ex :=
  let x := (es% "abie,ecjk->abcijk" H.ab.vvov, T.bb) - half (es% "amij,bcmk->abcijk" H.ab.vooo, T.bb) + half (es%
    "amik,bcmj->abcijk" H.ab.vooo, T.bb) + half (es% "aeij,cbke->abcijk" T.ab, H.bb.vvov) - half (es% "aeik,cbje->abcijk" T.ab,
    H.bb.vvov) - (es% "abim,cmkj->abcijk" T.ab, H.bb.vooo) + (es% "abej,ecik->abcijk" H.ab.vvvo, T.ab) - (es% "abek,ecij->abcijk"
    H.ab.vvvo, T.ab) - (es% "abmj,mcik->abcijk" T.ab, H.ab.ovoo) + (es% "abmk,mcij->abcijk" T.ab, H.ab.ovoo)
  x - transpose [0, 2, 1, 3, 4, 5] x

def m3d (T : Amps) (H : Ints) : Ex :=
  let x := -half (es% "amij,bcmk->abcijk" H.bb.vooo, T.bb) + half (es% "amkj,bcmi->abcijk" H.bb.vooo, T.bb) + half (es%
    "amik,bcmj->abcijk" H.bb.vooo, T.bb) + half (es% "abie,ecjk->abcijk" H.bb.vvov, T.bb) - half (es% "abje,ecik->abcijk" H.bb.vvov,
    T.bb) - half (es% "abke,ecji->abcijk" H.bb.vvov, T.bb)
  x + transpose [2, 0, 1, 3, 4, 5] x + transpose [1, 2, 0, 3, 4, 5] x - transpose [0, 2, 1, 3, 4, 5] x - transpose [1, 0, 2, 3, 4,
    5] x - transpose [2, 1, 0, 3, 4, 5] x

def f3a (T : Amps) (H : Ints) : Ex :=
  (es% "kc,abij->abcijk" H.a.ov, T.aa) - (es% "ka,cbij->abcijk" H.a.ov, T.aa) - (es% "kb,acij->abcijk" H.a.ov, T.aa) - (es%
    "ic,abkj->abcijk" H.a.ov, T.aa) - (es% "jc,abik->abcijk" H.a.ov, T.aa) + (es% "ia,cbkj->abcijk" H.a.ov, T.aa) + (es%
    "ib,ackj->abcijk" H.a.ov, T.aa) + (es% "ja,cbik->abcijk" H.a.ov, T.aa) + (es% "jb,acik->abcijk" H.a.ov, T.aa)

def f3b (T : Amps) (H : Ints) : Ex :=
  (es% "bcjk,ia->abcijk" T.ab, H.a.ov) - (es% "bcik,ja->abcijk" T.ab, H.a.ov) - (es% "acjk,ib->abcijk" T.ab, H.a.ov) + (es%
    "acik,jb->abcijk" T.ab, H.a.ov) + (es% "abij,kc->abcijk" T.aa, H.b.ov)

def f3c (T : Amps) (H : Ints) : Ex :=
  (es% "kc,abij->abcijk" H.b.ov, T.ab) - (es% "kb,acij->abcijk" H.b.ov, T.ab) - (es% "jc,abik->abcijk" H.b.ov, T.ab) + (es%
    "jb,acik->abcijk" H.b.ov, T.ab) + (es% "ia,bcjk->abcijk" H.a.ov, T.bb)

def f3d (T : Amps) (H : Ints) : Ex :=
  (es% "kc,abij->abcijk" H.b.ov, T.bb) - (es% "ka,cbij->abcijk" H.b.ov, T.bb) - (es% "kb,acij->abcijk" H.b.ov, T.bb) - (es%
    "ic,abkj->abcijk" H.b.ov, T.bb) - (es% "jc,abik->abcijk" H.b.ov, T.bb) + (es% "ia,cbkj->abcijk" H.b.ov, T.bb) + (es%
    "ib,ackj->abcijk" H.b.ov, T.bb) + (es% "ja,cbik->abcijk" H.b.ov, T.bb) + (es% "jb,acik->abcijk" H.b.ov, T.bb)

section
set_option maxRecDepth 100000

theorem check_m3a : dcheck (groups tableC) bare listH (m3a amplitudes stored) [1, 5, 9, 12, 16, 20] [] false
    (commT [(true, 12), (true, 16), (true, 20), (false, 9), (false, 5), (false, 1)]) = true := by decide +kernel
theorem check_m3b : dcheck (groups tableC) bare listH (m3b amplitudes stored) [1, 5, 11, 12, 16, 22] [] false
    (commT [(true, 12), (true, 16), (true, 22), (false, 11), (false, 5), (false, 1)]) = true := by decide +kernel
theorem check_m3c : dcheck (groups tableC) bare listH (m3c amplitudes stored) [1, 7, 11, 12, 18, 22] [] false
    (commT [(true, 12), (true, 18), (true, 22), (false, 11), (false, 7), (false, 1)]) = true := by decide +kernel
theorem check_m3d : dcheck (groups tableC) bare listH (m3d amplitudes stored) [3, 7, 11, 14, 18, 22] [] false
    (commT [(true, 14), (true, 18), (true, 22), (false, 11), (false, 7), (false, 3)]) = true := by decide +kernel
theorem check_pta : check (groups tableC) bare listH (l3a amplitudes stored) [1, 5, 9, 12, 16, 20]
    (undoT [(true, 1), (true, 5), (true, 9), (false, 20), (false, 16), (false, 12)]) = true := by decide +kernel
theorem check_ptb : check (groups tableC) bare listH (l3b amplitudes stored) [1, 5, 11, 12, 16, 22]
    (undoT [(true, 1), (true, 5), (true, 11), (false, 22), (false, 16), (false, 12)]) = true := by decide +kernel
theorem check_ptc : check (groups tableC) bare listH (l3c amplitudes stored) [1, 7, 11, 12, 18, 22]
    (undoT [(true, 1), (true, 7), (true, 11), (false, 22), (false, 18), (false, 12)]) = true := by decide +kernel
theorem check_ptd : check (groups tableC) bare listH (l3d amplitudes stored) [3, 7, 11, 14, 18, 22]
    (undoT [(true, 3), (true, 7), (true, 11), (false, 22), (false, 18), (false, 14)]) = true := by decide +kernel
theorem check_f3a : check (groups tableC) bare listFock (f3a amplitudes stored) [1, 5, 9, 12, 16, 20]
    (undoT [(true, 1), (true, 5), (true, 9), (false, 20), (false, 16), (false, 12)]) = true := by decide +kernel
theorem check_f3b : check (groups tableC) bare listFock (f3b amplitudes stored) [1, 5, 11, 12, 16, 22]
    (undoT [(true, 1), (true, 5), (true, 11), (false, 22), (false, 16), (false, 12)]) = true := by decide +kernel
theorem check_f3c : check (groups tableC) bare listFock (f3c amplitudes stored) [1, 7, 11, 12, 18, 22]
    (undoT [(true, 1), (true, 7), (true, 11), (false, 22), (false, 18), (false, 12)]) = true := by decide +kernel
theorem check_f3d : check (groups tableC) bare listFock (f3d amplitudes stored) [3, 7, 11, 14, 18, 22]
    (undoT [(true, 3), (true, 7), (true, 11), (false, 22), (false, 18), (false, 14)]) = true := by decide +kernel

end

end Ccpy.CrCc
