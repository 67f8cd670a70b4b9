/-
Generated by tools/c2leak.py; do not edit.
Part 0 of the certificate is checked by evaluation in the kernel.
-/
import Verif.Model.Leak.ProgBe
import Verif.Proofs.Leak.CertBe

namespace Faest.Leak

theorem CertBe.part0_ok : okAll certBe progBe CertBe.part0 = true := by decide +kernel

end Faest.Leak
