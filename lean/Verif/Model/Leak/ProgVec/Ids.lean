/-
Generated by tools/c2leak.py; do not edit.
Numbers of the functions and of the global objects.
-/

namespace Faest.Leak.ProgVec.Id


end Faest.Leak.ProgVec.Id

namespace Faest.Leak.ProgVec.Glob


end Faest.Leak.ProgVec.Glob
