/-
Generated by tools/c2leak.py; do not edit.
The certificate is right.
-/
import Verif.Proofs.Leak.Cert32Be.Part0
import Verif.Proofs.Leak.Cert32Be.Part1
import Verif.Proofs.Leak.Cert32Be.Part2

namespace Faest.Leak

theorem cert32Be_ok : cert32Be.ok prog32Be = true := by
  have e : cert32Be.sigs = Cert32Be.part0 ++ Cert32Be.part1 ++ Cert32Be.part2 := rfl
  show okAll cert32Be prog32Be cert32Be.sigs = true
  rw [e]
  simp only [okAll_append, Cert32Be.part0_ok, Cert32Be.part1_ok, Cert32Be.part2_ok, Bool.and_self]

end Faest.Leak
