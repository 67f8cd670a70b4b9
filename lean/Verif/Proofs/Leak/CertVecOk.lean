/-
Generated by tools/c2leak.py; do not edit.
The certificate is right.
-/
import Verif.Proofs.Leak.CertVec.Part0
import Verif.Proofs.Leak.CertVec.Part1
import Verif.Proofs.Leak.CertVec.Part2
import Verif.Proofs.Leak.CertVec.Part3
import Verif.Proofs.Leak.CertVec.Part4
import Verif.Proofs.Leak.CertVec.Part5
import Verif.Proofs.Leak.CertVec.Part6

namespace Faest.Leak

theorem certVec_ok : certVec.ok progVec = true := by
  have e : certVec.sigs = CertVec.part0 ++ CertVec.part1 ++ CertVec.part2 ++ CertVec.part3 ++ CertVec.part4 ++
    CertVec.part5 ++ CertVec.part6 := rfl
  show okAll certVec progVec certVec.sigs = true
  rw [e]
  simp only [okAll_append, CertVec.part0_ok, CertVec.part1_ok, CertVec.part2_ok, CertVec.part3_ok, CertVec.part4_ok,
    CertVec.part5_ok, CertVec.part6_ok, Bool.and_self]

end Faest.Leak
