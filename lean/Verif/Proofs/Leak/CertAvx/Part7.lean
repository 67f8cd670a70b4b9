/-
Generated by tools/c2leak.py; do not edit.
Part 7 of the certificate is checked by evaluation in the kernel.
-/
import Verif.Model.Leak.ProgAvx
import Verif.Proofs.Leak.CertAvx

namespace Faest.Leak

theorem CertAvx.part7_ok : okAll certAvx progAvx CertAvx.part7 = true := by decide +kernel

end Faest.Leak
