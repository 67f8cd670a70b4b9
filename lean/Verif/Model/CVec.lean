/-
Vectors of 256 bits as sha3/avx2/KeccakP-1600-times4-SIMD256.c uses them.

A value of type `__m256i` is four 64-bit words, the first one the least significant.  The intrinsics are the operations
which the Intel manual gives for the instructions vpxor, vpandn, vpor, vpsllq, vpsrlq, vpshufb, vpbroadcastq and vmovdqa.
The aligned accesses are undefined unless the offset in the block is a multiple of 32; the blocks themselves are taken to
begin at such an address (sha3/KeccakSpongetimes4.h declares the states with `KeccakP1600times4_statesAlignment`).
-/
import Verif.Model.CHash

namespace Faest.C

/-- `__m256i`. -/
structure V256 where
  (w0 w1 w2 w3 : BitVec 64)

namespace V256

/-- Word by word. -/
def map2 (f : BitVec 64 → BitVec 64 → BitVec 64) (a b : V256) : V256 := ⟨f a.w0 b.w0, f a.w1 b.w1, f a.w2 b.w2, f a.w3 b.w3⟩
def map (f : BitVec 64 → BitVec 64) (a : V256) : V256 := ⟨f a.w0, f a.w1, f a.w2, f a.w3⟩

/-- The 32 bytes in memory. -/
def bytes (a : V256) : List Byte := wordBytes a.w0 ++ wordBytes a.w1 ++ wordBytes a.w2 ++ wordBytes a.w3

/-- The value of 32 bytes. -/
def ofBytes (l : List Byte) : V256 :=
  ⟨Keccak.leWord (l.take 8), Keccak.leWord ((l.drop 8).take 8), Keccak.leWord ((l.drop 16).take 8), Keccak.leWord ((l.drop 24).take 8)⟩

end V256

/-- vpxor -/
def _mm256_xor_si256 (a b : V256) : V256 := a.map2 (· ^^^ ·) b
/-- vpor -/
def _mm256_or_si256 (a b : V256) : V256 := a.map2 (· ||| ·) b
/-- vpandn: the complement of the first argument -/
def _mm256_andnot_si256 (a b : V256) : V256 := a.map2 (fun x y => ~~~x &&& y) b
/-- vpsllq -/
def _mm256_slli_epi64 (a : V256) (n : Nat) : V256 := a.map (· <<< n)
/-- vpsrlq -/
def _mm256_srli_epi64 (a : V256) (n : Nat) : V256 := a.map (· >>> n)
/-- vpbroadcastq -/
def _mm256_set1_epi64x (x : BitVec 64) : V256 := ⟨x, x, x, x⟩

/-- vpshufb: in each half of 16 bytes, byte `i` of the result is the byte of that half which the low four bits of byte
`i` of `b` name, or zero if the top bit of that byte is set. -/
def _mm256_shuffle_epi8 (a b : V256) : V256 :=
  V256.ofBytes (tabP 32 fun i =>
    let c := b.bytes.getD i 0
    if c.getLsbD 7 then 0 else a.bytes.getD (16 * (i / 16) + c.toNat % 16) 0)

/-- vmovdqa from memory. -/
def _mm256_load_si256 (p : CPtr) : CM V256 := do
  lft (match p with
    | some q => if q.off % 32 = 0 then some () else none
    | none => none)
  let l ← ldN (α := Byte) p 32
  pure (V256.ofBytes l)

/-- vmovdqa to memory. -/
def _mm256_store_si256 (p : CPtr) (v : V256) : CM Unit := do
  lft (match p with
    | some q => if q.off % 32 = 0 then some () else none
    | none => none)
  stN p v.bytes

/-- A constant table of four words as a vector (sha3/avx2/KeccakP-1600-times4-SIMD256.c:46 `CONST256`).  The tables are
not declared with an alignment in the source; the model does not ask for one here. -/
def tget256 (t : List (BitVec 64)) : CM V256 :=
  lft (match t with
    | [a, b, c, d] => some ⟨a, b, c, d⟩
    | _ => none)

/-- sha3/avx2/KeccakP-1600-times4-SIMD256.c:460-478 `declareABCDE`: the 25 variables `Aba … Asu` (or `Eba … Esu`). -/
structure Lanes4 where
  (ba be bi bo bu : V256)
  (ga ge gi go gu : V256)
  (ka ke ki ko ku : V256)
  (ma me mi mo mu : V256)
  (sa se si so su : V256)

/-- The five variables `Ca … Cu`. -/
structure Par4 where
  (a e i o u : V256)

end Faest.C
