/-
Specification of the Rijndael block ciphers, after FIPS 197 (AES) and the Rijndael submission
(blocks of 192 and 256 bits).  Independent of the model: the S-box is the table of FIPS 197,
figure 7; multiplication by {02} is `xtime`.

A word is a function of the row `r < 4`, a state a function of the column `c < Nb` and the row
`r < 4`.
-/
namespace Faest.Spec

/-- FIPS 197, figure 7. -/
def sboxTable : List Nat :=
  [0x63, 0x7c, 0x77, 0x7b, 0xf2, 0x6b, 0x6f, 0xc5, 0x30, 0x01, 0x67, 0x2b, 0xfe, 0xd7, 0xab, 0x76,
   0xca, 0x82, 0xc9, 0x7d, 0xfa, 0x59, 0x47, 0xf0, 0xad, 0xd4, 0xa2, 0xaf, 0x9c, 0xa4, 0x72, 0xc0,
   0xb7, 0xfd, 0x93, 0x26, 0x36, 0x3f, 0xf7, 0xcc, 0x34, 0xa5, 0xe5, 0xf1, 0x71, 0xd8, 0x31, 0x15,
   0x04, 0xc7, 0x23, 0xc3, 0x18, 0x96, 0x05, 0x9a, 0x07, 0x12, 0x80, 0xe2, 0xeb, 0x27, 0xb2, 0x75,
   0x09, 0x83, 0x2c, 0x1a, 0x1b, 0x6e, 0x5a, 0xa0, 0x52, 0x3b, 0xd6, 0xb3, 0x29, 0xe3, 0x2f, 0x84,
   0x53, 0xd1, 0x00, 0xed, 0x20, 0xfc, 0xb1, 0x5b, 0x6a, 0xcb, 0xbe, 0x39, 0x4a, 0x4c, 0x58, 0xcf,
   0xd0, 0xef, 0xaa, 0xfb, 0x43, 0x4d, 0x33, 0x85, 0x45, 0xf9, 0x02, 0x7f, 0x50, 0x3c, 0x9f, 0xa8,
   0x51, 0xa3, 0x40, 0x8f, 0x92, 0x9d, 0x38, 0xf5, 0xbc, 0xb6, 0xda, 0x21, 0x10, 0xff, 0xf3, 0xd2,
   0xcd, 0x0c, 0x13, 0xec, 0x5f, 0x97, 0x44, 0x17, 0xc4, 0xa7, 0x7e, 0x3d, 0x64, 0x5d, 0x19, 0x73,
   0x60, 0x81, 0x4f, 0xdc, 0x22, 0x2a, 0x90, 0x88, 0x46, 0xee, 0xb8, 0x14, 0xde, 0x5e, 0x0b, 0xdb,
   0xe0, 0x32, 0x3a, 0x0a, 0x49, 0x06, 0x24, 0x5c, 0xc2, 0xd3, 0xac, 0x62, 0x91, 0x95, 0xe4, 0x79,
   0xe7, 0xc8, 0x37, 0x6d, 0x8d, 0xd5, 0x4e, 0xa9, 0x6c, 0x56, 0xf4, 0xea, 0x65, 0x7a, 0xae, 0x08,
   0xba, 0x78, 0x25, 0x2e, 0x1c, 0xa6, 0xb4, 0xc6, 0xe8, 0xdd, 0x74, 0x1f, 0x4b, 0xbd, 0x8b, 0x8a,
   0x70, 0x3e, 0xb5, 0x66, 0x48, 0x03, 0xf6, 0x0e, 0x61, 0x35, 0x57, 0xb9, 0x86, 0xc1, 0x1d, 0x9e,
   0xe1, 0xf8, 0x98, 0x11, 0x69, 0xd9, 0x8e, 0x94, 0x9b, 0x1e, 0x87, 0xe9, 0xce, 0x55, 0x28, 0xdf,
   0x8c, 0xa1, 0x89, 0x0d, 0xbf, 0xe6, 0x42, 0x68, 0x41, 0x99, 0x2d, 0x0f, 0xb0, 0x54, 0xbb, 0x16]

/-- SubByte. -/
def sbox (x : BitVec 8) : BitVec 8 := BitVec.ofNat 8 (sboxTable.getD x.toNat 0)

/-- FIPS 197, section 4.2.1: multiplication by {02}. -/
def xtime (b : BitVec 8) : BitVec 8 := (b <<< 1) ^^^ (if b.msb then 0x1b else 0)

/-- Round constants: `rcon i` is {02}^i (`Rcon[i+1]` of FIPS 197). -/
def rcon : Nat → BitVec 8
  | 0 => 1
  | i + 1 => xtime (rcon i)

/-- The word the S-boxes of key expansion are applied to at position `k`, as a function of the
previous word. `none`: no S-box at this position. -/
def ksSboxInput (Nk k : Nat) (prev : Nat → BitVec 8) : Option (Nat → BitVec 8) :=
  if k % Nk = 0 then some (fun r => prev ((r + 1) % 4))
  else if 6 < Nk ∧ k % Nk = 4 then some prev
  else none

/-- FIPS 197, section 5.2: word `k` of the expanded key. -/
def keyWord (Nk : Nat) (key : Nat → BitVec 8) (k : Nat) : Nat → BitVec 8 :=
  if _h : k < Nk ∨ Nk = 0 then fun r => key (4 * k + r)
  else
    let prev := keyWord Nk key (k - 1)
    let old := keyWord Nk key (k - Nk)
    match ksSboxInput Nk k prev with
    | some t => fun r =>
        old r ^^^ (sbox (t r) ^^^ (if k % Nk = 0 ∧ r = 0 then rcon (k / Nk - 1) else 0))
    | none => fun r => old r ^^^ prev r
termination_by k
decreasing_by all_goals omega

/-- AddRoundKey of round `i`. -/
def addRoundKey (Nb : Nat) (w : Nat → Nat → BitVec 8) (i : Nat) (s : Nat → Nat → BitVec 8) :
    Nat → Nat → BitVec 8 := fun c r => s c r ^^^ w (Nb * i + c) r

/-- SubBytes. -/
def subBytes (s : Nat → Nat → BitVec 8) : Nat → Nat → BitVec 8 := fun c r => sbox (s c r)

/-- ShiftRows offsets: 0, 1, 2, 3; for blocks of eight columns 0, 1, 3, 4. -/
def shiftOffset (Nb r : Nat) : Nat := if Nb = 8 ∧ 2 ≤ r then r + 1 else r

/-- ShiftRows. -/
def shiftRows (Nb : Nat) (s : Nat → Nat → BitVec 8) : Nat → Nat → BitVec 8 :=
  fun c r => s ((c + shiftOffset Nb r) % Nb) r

/-- MixColumns: row `r` is {02} a_r + {03} a_(r+1) + a_(r+2) + a_(r+3). -/
def mixColumns (s : Nat → Nat → BitVec 8) : Nat → Nat → BitVec 8 := fun c r =>
  xtime (s c r) ^^^ (xtime (s c ((r + 1) % 4)) ^^^ s c ((r + 1) % 4)) ^^^ s c ((r + 2) % 4)
    ^^^ s c ((r + 3) % 4)

/-- The state after round `i` (before the S-boxes of round `i + 1`). -/
def roundState (Nb : Nat) (w : Nat → Nat → BitVec 8) (s : Nat → Nat → BitVec 8) :
    Nat → (Nat → Nat → BitVec 8)
  | 0 => addRoundKey Nb w 0 s
  | i + 1 => addRoundKey Nb w (i + 1) (mixColumns (shiftRows Nb (subBytes (roundState Nb w s i))))

/-- The cipher with `Nr` rounds; the last round has no MixColumns. -/
def cipher (Nb Nr : Nat) (w : Nat → Nat → BitVec 8) (s : Nat → Nat → BitVec 8) :
    Nat → Nat → BitVec 8 :=
  addRoundKey Nb w Nr (shiftRows Nb (subBytes (roundState Nb w s (Nr - 1))))

/-- Block `b` of a byte sequence as a state with `Nb` columns. -/
def blockState (p : Nat → BitVec 8) : Nat → Nat → BitVec 8 := fun c r => p (4 * c + r)

/-- A state as a byte sequence. -/
def stateBytes (s : Nat → Nat → BitVec 8) : Nat → BitVec 8 := fun i => s (i / 4) (i % 4)

/-- Block encryption under a key of `Nk` words: bytes to bytes. -/
def encrypt (Nk Nb Nr : Nat) (key p : Nat → BitVec 8) : Nat → BitVec 8 :=
  stateBytes (cipher Nb Nr (keyWord Nk key) (blockState p))

end Faest.Spec
