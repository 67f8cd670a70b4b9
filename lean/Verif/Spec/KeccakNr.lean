/-
FIPS 202, 3.3, Algorithm 7 for any number of rounds.
-/
import Verif.Spec.Keccak

namespace Faest.Spec.Keccak

/-- 3.3, Algorithm 7: KECCAK-p[1600, nr], the rounds `12 + 2l - nr, …, 12 + 2l - 1` with `l = 6`. -/
def keccakPn (nr : Nat) (S : Str) : Str := toStr ((List.range' (24 - nr) nr).foldl Rnd (toState S))

end Faest.Spec.Keccak
