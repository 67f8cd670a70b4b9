/-
The parts of sha3 which are chosen when the library is built: the sponge of one state, as KeccakHash.c uses it, and the
functions on four states of the permutation, as the sponge of four states uses them.

The sponge of one state is sha3/KeccakSponge.inc over the permutation of one directory; its text depends on the
directory, since only sha3/opt64 has a function for many blocks at once (`SnP_FastLoop_Absorb`).

sha3/KeccakSpongetimes4.inc calls them by names made from the prefix `KeccakP1600times4`; which file defines them is
chosen when the library is built (sha3/opt64/KeccakP-1600-times4-on1.c, sha3/avx2/KeccakP-1600-times4-SIMD256.c or
sha3/plain32/KeccakP-1600-times4-on1.c).
-/
import Verif.Model.CHash

namespace Faest.C

/-- sha3/KeccakSponge.h:35-40, the part in use. -/
structure SpImpl where
  KeccakWidth1600_SpongeInitialize : SpongeC → Nat → Nat → CM (Nat × SpongeC)
  KeccakWidth1600_SpongeAbsorb : SpongeC → CPtr → Nat → CM (Nat × SpongeC)
  KeccakWidth1600_SpongeAbsorbLastFewBits : SpongeC → Byte → CM (Nat × SpongeC)
  KeccakWidth1600_SpongeSqueeze : SpongeC → CPtr → Nat → CM (Nat × SpongeC)

/-- sha3/opt64/KeccakP-1600-times4-SnP.h:28-41, sha3/avx2/KeccakP-1600-times4-SnP.h:33-48 and
sha3/plain32/KeccakP-1600-times4-SnP.h:28-41, the part in use. -/
structure P4Impl where
  KeccakP1600times4_StaticInitialize : CM Unit
  KeccakP1600times4_InitializeAll : CPtr → CM Unit
  KeccakP1600times4_AddByte : CPtr → Nat → Byte → Nat → CM Unit
  KeccakP1600times4_AddBytes : CPtr → Nat → CPtr → Nat → Nat → CM Unit
  KeccakP1600times4_PermuteAll_24rounds : CPtr → CM Unit
  KeccakP1600times4_ExtractBytes : CPtr → Nat → CPtr → Nat → Nat → CM Unit

end Faest.C
