/-
Generated by tools/c2leak.py; do not edit.
The certificate is right.
-/
import Verif.Proofs.Leak.Part0
import Verif.Proofs.Leak.Part1
import Verif.Proofs.Leak.Part2
import Verif.Proofs.Leak.Part3
import Verif.Proofs.Leak.Part4
import Verif.Proofs.Leak.Part5
import Verif.Proofs.Leak.Part6

namespace Faest.Leak

theorem cert_ok : cert.ok prog = true := by
  have e : cert.sigs = Cert0.part0 ++ Cert0.part1 ++ Cert0.part2 ++ Cert0.part3 ++ Cert0.part4 ++ Cert0.part5 ++
    Cert0.part6 := rfl
  show okAll cert prog cert.sigs = true
  rw [e]
  simp only [okAll_append, Cert0.part0_ok, Cert0.part1_ok, Cert0.part2_ok, Cert0.part3_ok, Cert0.part4_ok,
    Cert0.part5_ok, Cert0.part6_ok, Bool.and_self]

end Faest.Leak
