import Verif.Lemmas.CcsdPtChecks

/-! Checks for the energy of third order: `m2a`, `m2b`, `m2c` are the numbers `t_amp` before the division. -/

namespace Ccpy.Mp3
open Ccpy.Fock Ccpy.Tensor Ccpy.Engine Ccpy.HbarCcsd Ccpy.Ccsdt Ccpy.PSpace
open Ccpy.CrCc (bare)

noncomputable section

/-- The Hamiltonian without the Fock operator. -/
def listInteraction : List Piece :=
  app (listM 3 0 0) (app (listM 4 0 2) (app (listM 5 2 2)
    (app (listM' 4 2 0) (app (listV 3 0 0 ⟨false, 1, 4⟩) (app (listV 4 0 2 ⟨false, 1, 1⟩) (listV 5 2 2 ⟨false, 1, 4⟩))))))

/-- `[V, T]` -/
def commV (bra : List Op) : List Dterm := [⟨false, false, [slot bra], listDoubles 0, fun _ => []⟩]

/-- `H τ` -/
def plainH (τ : List Op) : List Ccpy.Engine.Term := [⟨false, [], fun _ => [slot τ]⟩]

end

def m2a (T : Amps) (H : Ints) : Ex :=
  half (es% "mnij,abmn->abij" H.aa.oooo, T.aa) + half (es% "abef,efij->abij" H.aa.vvvv, T.aa)
    + (es% "amie,ebmj->abij" H.aa.voov, T.aa) - (es% "bmie,eamj->abij" H.aa.voov, T.aa)
    - (es% "amje,ebmi->abij" H.aa.voov, T.aa) + (es% "bmje,eami->abij" H.aa.voov, T.aa)
    + (es% "amie,bejm->abij" H.ab.voov, T.ab) - (es% "bmie,aejm->abij" H.ab.voov, T.ab)
    - (es% "amje,beim->abij" H.ab.voov, T.ab) + (es% "bmje,aeim->abij" H.ab.voov, T.ab)

def m2b (T : Amps) (H : Ints) : Ex :=
  (es% "mnij,abmn->abij" H.ab.oooo, T.ab) + (es% "abef,efij->abij" H.ab.vvvv, T.ab)
    + (es% "amie,ebmj->abij" H.aa.voov, T.ab) + (es% "bmje,aeim->abij" H.bb.voov, T.ab)
    + (es% "mbej,aeim->abij" H.ab.ovvo, T.aa) + (es% "amie,bejm->abij" H.ab.voov, T.bb)
    - (es% "mbie,aemj->abij" H.ab.ovov, T.ab) - (es% "amej,ebim->abij" H.ab.vovo, T.ab)

def m2c (T : Amps) (H : Ints) : Ex :=
  half (es% "mnij,abmn->abij" H.bb.oooo, T.bb) + half (es% "abef,efij->abij" H.bb.vvvv, T.bb)
    + (es% "amie,ebmj->abij" H.bb.voov, T.bb) - (es% "bmie,eamj->abij" H.bb.voov, T.bb)
    - (es% "amje,ebmi->abij" H.bb.voov, T.bb) + (es% "bmje,eami->abij" H.bb.voov, T.bb)
    + (es% "maei,ebmj->abij" H.ab.ovvo, T.ab) - (es% "mbei,eamj->abij" H.ab.ovvo, T.ab)
    - (es% "maej,ebmi->abij" H.ab.ovvo, T.ab) + (es% "mbej,eami->abij" H.ab.ovvo, T.ab)

section
set_option maxRecDepth 100000

theorem check_m2a : dcheck (groups tableC) bare listInteraction (m2a amplitudes stored) [1, 5, 8, 12] [] false
    (commV [(true, 8), (true, 12), (false, 5), (false, 1)]) = true := by decide +kernel
theorem check_m2b : dcheck (groups tableC) bare listInteraction (m2b amplitudes stored) [1, 7, 8, 14] [] false
    (commV [(true, 8), (true, 14), (false, 7), (false, 1)]) = true := by decide +kernel
theorem check_m2c : dcheck (groups tableC) bare listInteraction (m2c amplitudes stored) [3, 7, 10, 14] [] false
    (commV [(true, 10), (true, 14), (false, 7), (false, 3)]) = true := by decide +kernel
theorem check_va : check (groups tableC) bare listH stored.aa.vvoo [1, 5, 8, 12]
    (left [(true, 8), (true, 12), (false, 5), (false, 1)]) = true := by decide +kernel
theorem check_vb : check (groups tableC) bare listH stored.ab.vvoo [1, 7, 8, 14]
    (left [(true, 8), (true, 14), (false, 7), (false, 1)]) = true := by decide +kernel
theorem check_vc : check (groups tableC) bare listH stored.bb.vvoo [3, 7, 10, 14]
    (left [(true, 10), (true, 14), (false, 7), (false, 3)]) = true := by decide +kernel
theorem check_oa : check (groups tableC) bare listH (transpose [2, 3, 0, 1] stored.aa.oovv) [1, 5, 8, 12]
    (plainH [(true, 1), (true, 5), (false, 12), (false, 8)]) = true := by decide +kernel
theorem check_ob : check (groups tableC) bare listH (transpose [2, 3, 0, 1] stored.ab.oovv) [1, 7, 8, 14]
    (plainH [(true, 1), (true, 7), (false, 14), (false, 8)]) = true := by decide +kernel
theorem check_oc : check (groups tableC) bare listH (transpose [2, 3, 0, 1] stored.bb.oovv) [3, 7, 10, 14]
    (plainH [(true, 3), (true, 7), (false, 14), (false, 10)]) = true := by decide +kernel

end

end Ccpy.Mp3
