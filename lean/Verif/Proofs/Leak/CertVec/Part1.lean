/-
Generated by tools/c2leak.py; do not edit.
Part 1 of the certificate is checked by evaluation in the kernel.
-/
import Verif.Model.Leak.ProgVec
import Verif.Proofs.Leak.CertVec

namespace Faest.Leak

theorem CertVec.part1_ok : okAll certVec progVec CertVec.part1 = true := by decide +kernel

end Faest.Leak
