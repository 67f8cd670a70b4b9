/-
Generated by tools/c2leak.py; do not edit.
Numbers of the functions and of the global objects.
-/

namespace Faest.Leak.ProgAvx.Id

@[reducible] def KeccakP1600_AddByte : Nat := 297

end Faest.Leak.ProgAvx.Id

namespace Faest.Leak.ProgAvx.Glob

/-- sha3/avx2/KeccakP-1600-times4-SIMD256.c:704 -/
@[reducible] def KeccakF1600RoundConstants_4 : Nat := 14
/-- sha3/avx2/KeccakP-1600-times4-SIMD256.c:56 -/
@[reducible] def rho8 : Nat := 15
/-- sha3/avx2/KeccakP-1600-times4-SIMD256.c:57 -/
@[reducible] def rho56 : Nat := 16

end Faest.Leak.ProgAvx.Glob
