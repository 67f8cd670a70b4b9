/-
Generated by tools/c2leak.py; do not edit.
Part 1 of the certificate is checked by evaluation in the kernel.
-/
import Verif.Model.Leak.Prog32
import Verif.Proofs.Leak.Cert32

namespace Faest.Leak

theorem Cert32.part1_ok : okAll cert32 prog32 Cert32.part1 = true := by decide +kernel

end Faest.Leak
