/-
Generated by tools/c2leak.py; do not edit.
Part 6 of the certificate is checked by evaluation in the kernel.
-/
import Verif.Model.Leak.Prog
import Verif.Proofs.Leak.Cert

namespace Faest.Leak

theorem Cert0.part6_ok : okAll cert prog Cert0.part6 = true := by decide +kernel

end Faest.Leak
