/-
FIPS 202: the hash functions SHA3, and the coding of a suffix as a byte (B.2).
-/
import Verif.Spec.Keccak

namespace Faest.Spec.Keccak

/-- 6.1: SHA3-224. -/
def SHA3_224 (M : List Bool) : List Bool := KECCAK 448 (M ++ [false, true]) 224
/-- 6.1: SHA3-256. -/
def SHA3_256 (M : List Bool) : List Bool := KECCAK 512 (M ++ [false, true]) 256
/-- 6.1: SHA3-384. -/
def SHA3_384 (M : List Bool) : List Bool := KECCAK 768 (M ++ [false, true]) 384
/-- 6.1: SHA3-512. -/
def SHA3_512 (M : List Bool) : List Bool := KECCAK 1024 (M ++ [false, true]) 512

/-- A suffix of at most 7 bits as a byte: its bits and the first bit of the padding, the least significant bit first. -/
def suffixByte (s : List Bool) : BitVec 8 := (BitVec.ofBoolListLE (s ++ [true])).setWidth 8

end Faest.Spec.Keccak
