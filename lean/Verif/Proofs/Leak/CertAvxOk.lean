/-
Generated by tools/c2leak.py; do not edit.
The certificate is right.
-/
import Verif.Proofs.Leak.CertAvx.Part0
import Verif.Proofs.Leak.CertAvx.Part1
import Verif.Proofs.Leak.CertAvx.Part2
import Verif.Proofs.Leak.CertAvx.Part3
import Verif.Proofs.Leak.CertAvx.Part4
import Verif.Proofs.Leak.CertAvx.Part5
import Verif.Proofs.Leak.CertAvx.Part6
import Verif.Proofs.Leak.CertAvx.Part7

namespace Faest.Leak

theorem certAvx_ok : certAvx.ok progAvx = true := by
  have e : certAvx.sigs = CertAvx.part0 ++ CertAvx.part1 ++ CertAvx.part2 ++ CertAvx.part3 ++ CertAvx.part4 ++
    CertAvx.part5 ++ CertAvx.part6 ++ CertAvx.part7 := rfl
  show okAll certAvx progAvx certAvx.sigs = true
  rw [e]
  simp only [okAll_append, CertAvx.part0_ok, CertAvx.part1_ok, CertAvx.part2_ok, CertAvx.part3_ok, CertAvx.part4_ok,
    CertAvx.part5_ok, CertAvx.part6_ok, CertAvx.part7_ok, Bool.and_self]

end Faest.Leak
