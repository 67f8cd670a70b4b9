/-
Generated by tools/c2leak.py; do not edit.
Part 1 of the certificate is checked by evaluation in the kernel.
-/
import Verif.Model.Leak.Prog32Be
import Verif.Proofs.Leak.Cert32Be

namespace Faest.Leak

theorem Cert32Be.part1_ok : okAll cert32Be prog32Be Cert32Be.part1 = true := by decide +kernel

end Faest.Leak
