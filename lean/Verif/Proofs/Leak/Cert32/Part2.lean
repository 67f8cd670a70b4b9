/-
Generated by tools/c2leak.py; do not edit.
Part 2 of the certificate is checked by evaluation in the kernel.
-/
import Verif.Model.Leak.Prog32
import Verif.Proofs.Leak.Cert32

namespace Faest.Leak

theorem Cert32.part2_ok : okAll cert32 prog32 Cert32.part2 = true := by decide +kernel

end Faest.Leak
