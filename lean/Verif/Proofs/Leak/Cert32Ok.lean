/-
Generated by tools/c2leak.py; do not edit.
The certificate is right.
-/
import Verif.Proofs.Leak.Cert32.Part0
import Verif.Proofs.Leak.Cert32.Part1
import Verif.Proofs.Leak.Cert32.Part2

namespace Faest.Leak

theorem cert32_ok : cert32.ok prog32 = true := by
  have e : cert32.sigs = Cert32.part0 ++ Cert32.part1 ++ Cert32.part2 := rfl
  show okAll cert32 prog32 cert32.sigs = true
  rw [e]
  simp only [okAll_append, Cert32.part0_ok, Cert32.part1_ok, Cert32.part2_ok, Bool.and_self]

end Faest.Leak
