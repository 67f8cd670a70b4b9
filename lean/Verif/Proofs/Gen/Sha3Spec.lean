/-
The implementations of sha3 which can be chosen meet what the layers above need.
-/
import Verif.Proofs.Gen.X4Plain
import Verif.Proofs.Gen.X4Plainbe
import Verif.Proofs.Gen.X4Simd
import Verif.Proofs.Asm.Sponge
import Verif.Proofs.A64.Sponge
import Verif.Proofs.Gen.SpongeBe

namespace Faest.GenH

def Sha3.spec1 : (v : Sha3) → SpSpec v.sponge
  | .opt64 => sponge64Spec
  | .avx2 c0 => GenX.spongeAsmSpec c0
  | .plain32 => sponge32Spec
  | .neon c0 => GenN.spongeNeonSpec c0
  | .opt64be => GenB.sponge64beSpec
  | .plain32be => sponge32beSpec

def Sha3.spec4 : (v : Sha3) → P4Spec v.four
  | .opt64 => on1Spec
  | .avx2 _ => simd256Spec
  | .plain32 => plain32Spec
  | .neon c0 => GenN.on1NeonSpec c0
  | .opt64be => GenB.on1beSpec
  | .plain32be => plain32beSpec

end Faest.GenH
