/-
Generated by tools/c2leak.py; do not edit.
The certificate is right.
-/
import Verif.Proofs.Leak.CertBe.Part0
import Verif.Proofs.Leak.CertBe.Part1
import Verif.Proofs.Leak.CertBe.Part2
import Verif.Proofs.Leak.CertBe.Part3
import Verif.Proofs.Leak.CertBe.Part4
import Verif.Proofs.Leak.CertBe.Part5
import Verif.Proofs.Leak.CertBe.Part6

namespace Faest.Leak

theorem certBe_ok : certBe.ok progBe = true := by
  have e : certBe.sigs = CertBe.part0 ++ CertBe.part1 ++ CertBe.part2 ++ CertBe.part3 ++ CertBe.part4 ++ CertBe.part5
    ++ CertBe.part6 := rfl
  show okAll certBe progBe certBe.sigs = true
  rw [e]
  simp only [okAll_append, CertBe.part0_ok, CertBe.part1_ok, CertBe.part2_ok, CertBe.part3_ok, CertBe.part4_ok,
    CertBe.part5_ok, CertBe.part6_ok, Bool.and_self]

end Faest.Leak
