/-
Generated by tools/c2leak.py; do not edit.
Numbers of the functions and of the global objects.
-/

namespace Faest.Leak.ProgBe.Id

@[reducible] def bswap64 : Nat := 297
@[reducible] def KeccakP1600_AddByte : Nat := 298
@[reducible] def fromWordToBytes : Nat := 299

end Faest.Leak.ProgBe.Id

namespace Faest.Leak.ProgBe.Glob


end Faest.Leak.ProgBe.Glob
