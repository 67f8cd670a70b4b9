/-
What it means that a function reveals no secret.
-/
import Verif.Model.Leak.Prog
import Verif.Model.Leak.Prog32
import Verif.Model.Leak.ProgBe
import Verif.Model.Leak.Prog32Be
import Verif.Model.Leak.ProgAvx
import Verif.Model.Leak.ProgVec
import Verif.Model.Leak.Entry

namespace Faest.Leak

/-- A call of function `f` of program `P` with these parameters: for every meaning `I` of the operators, two runs of any length which
have the same numbers as arguments, the same null pointers and the same public memory, but any secrets, have the same
trace and the same result as soon as they publish the same values. -/
def SecretFree (P : List Fn) (f : Nat) (as : List Arg) : Prop :=
  ∃ g, P[f]? = some g ∧ g.arity = as.length ∧
    ∀ (I : Interp) (fuel : Nat) (n : Nat → Int) (null : Nat → Bool) (common s1 s2 : Nat → Int → Val),
      let r1 := run P I published fuel g.body (start as n null common s1)
      let r2 := run P I published fuel g.body (start as n null common s2)
      released r1.2.tr = released r2.2.tr → r1.2.tr = r2.2.tr ∧ r1.1 = r2.1

/-- The builds: Keccak with words of 64 or of 32 bits, on little-endian and on big-endian hosts; with the AVX2 code
for four states, where the functions for one state, which are in assembler, are those of the first build
(meson.build:480-523); and with field elements as vectors of the compiler (fields.h:19-24). -/
def builds : List (List Fn) := [prog, prog32, progBe, prog32Be, progAvx, progVec]

end Faest.Leak
