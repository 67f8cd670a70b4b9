/-
Generated by tools/c2leak.py; do not edit.
Part 1 of the certificate is checked by evaluation in the kernel.
-/
import Verif.Model.Leak.ProgBe
import Verif.Proofs.Leak.CertBe

namespace Faest.Leak

theorem CertBe.part1_ok : okAll certBe progBe CertBe.part1 = true := by decide +kernel

end Faest.Leak
