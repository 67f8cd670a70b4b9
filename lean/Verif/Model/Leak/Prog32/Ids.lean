/-
Generated by tools/c2leak.py; do not edit.
Numbers of the functions and of the global objects.
-/

namespace Faest.Leak.Prog32.Id

@[reducible] def KeccakP1600_Permute_Nrounds : Nat := 297
@[reducible] def KeccakP1600_AddByte : Nat := 298

end Faest.Leak.Prog32.Id

namespace Faest.Leak.Prog32.Glob

/-- sha3/plain32/KeccakP-1600-inplace32BI.c:434 -/
@[reducible] def KeccakF1600RoundConstants_int2 : Nat := 14

end Faest.Leak.Prog32.Glob
