/-
Generated by tools/c2leak.py; do not edit.
Part 3 of the certificate is checked by evaluation in the kernel.
-/
import Verif.Model.Leak.ProgAvx
import Verif.Proofs.Leak.CertAvx

namespace Faest.Leak

theorem CertAvx.part3_ok : okAll certAvx progAvx CertAvx.part3 = true := by decide +kernel

end Faest.Leak
