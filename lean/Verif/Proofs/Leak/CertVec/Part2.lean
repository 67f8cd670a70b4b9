/-
Generated by tools/c2leak.py; do not edit.
Part 2 of the certificate is checked by evaluation in the kernel.
-/
import Verif.Model.Leak.ProgVec
import Verif.Proofs.Leak.CertVec

namespace Faest.Leak

theorem CertVec.part2_ok : okAll certVec progVec CertVec.part2 = true := by decide +kernel

end Faest.Leak
