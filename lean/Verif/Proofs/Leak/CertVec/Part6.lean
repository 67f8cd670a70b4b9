/-
Generated by tools/c2leak.py; do not edit.
Part 6 of the certificate is checked by evaluation in the kernel.
-/
import Verif.Model.Leak.ProgVec
import Verif.Proofs.Leak.CertVec

namespace Faest.Leak

theorem CertVec.part6_ok : okAll certVec progVec CertVec.part6 = true := by decide +kernel

end Faest.Leak
