/-
Generated by tools/neon2lean.py from sha3/armv8a-neon/KeccakP-1600-armv8a-neon.s. Do not edit.

The functions of that file which the library uses, with the macros LoadState, StoreState, RhoPi, ROTL64 and KeccakRound
(sha3/armv8a-neon/KeccakP-1600-armv8a-neon.s:38-234) expanded.  Where the code runs on into the next label there is a jump.
-/
import Verif.Model.A64

namespace Faest.GenN
open Faest.A64

/-- The labels. -/
inductive Lbl where
  | KeccakP1600_Initialize
  | KeccakP1600_AddByte
  | KeccakP1600_AddBytes
  | KeccakP1600_AddBytes_8LanesLoop
  | KeccakP1600_AddBytes_Lanes
  | KeccakP1600_AddBytes_LanesLoop
  | KeccakP1600_AddBytes_Bytes
  | KeccakP1600_AddBytes_BytesLoop
  | KeccakP1600_AddBytes_Exit
  | KeccakP1600_ExtractBytes
  | KeccakP1600_ExtractBytes_8LanesLoop
  | KeccakP1600_ExtractBytes_Lanes
  | KeccakP1600_ExtractBytes_LanesLoop
  | KeccakP1600_ExtractBytes_Bytes
  | KeccakP1600_ExtractBytes_BytesLoop
  | KeccakP1600_ExtractBytes_Exit
  | KeccakP1600_Permute_24rounds
  | KeccakP1600_Permute
  | KeccakP1600_Permute_RoundLoop
  | KeccakP1600_Permute_Exit

/-- sha3/armv8a-neon/KeccakP-1600-armv8a-neon.s:223 `KeccakP1600_Permute_RoundConstants24`, its place in the table of constants. -/
def KeccakP1600_Permute_RoundConstants24 : Int := 0
/-- sha3/armv8a-neon/KeccakP-1600-armv8a-neon.s:236 `KeccakP1600_Permute_RoundConstants12`, its place in the table of constants. -/
def KeccakP1600_Permute_RoundConstants12 : Int := 96
/-- sha3/armv8a-neon/KeccakP-1600-armv8a-neon.s:249 `KeccakP1600_Permute_RoundConstants0`, its place in the table of constants. -/
def KeccakP1600_Permute_RoundConstants0 : Int := 192

/-- sha3/armv8a-neon/KeccakP-1600-armv8a-neon.s:224-248. -/
def rodata : List (BitVec 64) := [
  0x0000000000000001, 0x0000000000008082, 0x800000000000808a, 0x8000000080008000,
  0x000000000000808b, 0x0000000080000001, 0x8000000080008081, 0x8000000000008009,
  0x000000000000008a, 0x0000000000000088, 0x0000000080008009, 0x000000008000000a,
  0x000000008000808b, 0x800000000000008b, 0x8000000000008089, 0x8000000000008003,
  0x8000000000008002, 0x8000000000000080, 0x000000000000800a, 0x800000008000000a,
  0x8000000080008081, 0x8000000000008080, 0x0000000080000001, 0x8000000080008008]

/-- sha3/armv8a-neon/KeccakP-1600-armv8a-neon.s:257-266 `KeccakP1600_Initialize`. -/
def c_KeccakP1600_Initialize : List (Ins Lbl) := [
  .op (.movi0 .v0),
  .op (.movi0 .v1),
  .op (.movi0 .v2),
  .op (.movi0 .v3),
  .op (.st4 .v0 .v1 .v2 .v3 (.post .x0 64)),
  .op (.st4 .v0 .v1 .v2 .v3 (.post .x0 64)),
  .op (.st4 .v0 .v1 .v2 .v3 (.post .x0 64)),
  .op (.st1 .v0 (.post .x0 8)),
  .ret]

/-- sha3/armv8a-neon/KeccakP-1600-armv8a-neon.s:275-279 `KeccakP1600_AddByte`. -/
def c_KeccakP1600_AddByte : List (Ins Lbl) := [
  .op (.ldrb .x3 (.idx .x0 .x2)),
  .op (.eorW .x3 .x3 .x1),
  .op (.strb .x3 (.idx .x0 .x2)),
  .ret]

/-- sha3/armv8a-neon/KeccakP-1600-armv8a-neon.s:288-291 `KeccakP1600_AddBytes`. -/
def c_KeccakP1600_AddBytes : List (Ins Lbl) := [
  .op (.addX .x0 .x0 .x2),
  .op (.subsW .x4 .x3 1),
  .bcc .KeccakP1600_AddBytes_Exit,
  .b .KeccakP1600_AddBytes_8LanesLoop]

/-- sha3/armv8a-neon/KeccakP-1600-armv8a-neon.s:292-302 `KeccakP1600_AddBytes_8LanesLoop`. -/
def c_KeccakP1600_AddBytes_8LanesLoop : List (Ins Lbl) := [
  .op (.subsW .x3 .x3 64),
  .bcc .KeccakP1600_AddBytes_Lanes,
  .op (.ld4 .v0 .v1 .v2 .v3 (.base .x0)),
  .op (.ld4 .v4 .v5 .v6 .v7 (.post .x1 64)),
  .op (.eor .v0 .v0 .v4),
  .op (.eor .v1 .v1 .v5),
  .op (.eor .v2 .v2 .v6),
  .op (.eor .v3 .v3 .v7),
  .op (.st4 .v0 .v1 .v2 .v3 (.post .x0 64)),
  .b .KeccakP1600_AddBytes_8LanesLoop]

/-- sha3/armv8a-neon/KeccakP-1600-armv8a-neon.s:303-304 `KeccakP1600_AddBytes_Lanes`. -/
def c_KeccakP1600_AddBytes_Lanes : List (Ins Lbl) := [
  .op (.addW .x3 .x3 64),
  .b .KeccakP1600_AddBytes_LanesLoop]

/-- sha3/armv8a-neon/KeccakP-1600-armv8a-neon.s:305-312 `KeccakP1600_AddBytes_LanesLoop`. -/
def c_KeccakP1600_AddBytes_LanesLoop : List (Ins Lbl) := [
  .op (.subsW .x3 .x3 8),
  .bcc .KeccakP1600_AddBytes_Bytes,
  .op (.ld1 .v0 (.base .x0)),
  .op (.ld1 .v4 (.post .x1 8)),
  .op (.eor8 .v0 .v0 .v4),
  .op (.st1 .v0 (.post .x0 8)),
  .b .KeccakP1600_AddBytes_LanesLoop]

/-- sha3/armv8a-neon/KeccakP-1600-armv8a-neon.s:313-314 `KeccakP1600_AddBytes_Bytes`. -/
def c_KeccakP1600_AddBytes_Bytes : List (Ins Lbl) := [
  .op (.addW .x3 .x3 8),
  .b .KeccakP1600_AddBytes_BytesLoop]

/-- sha3/armv8a-neon/KeccakP-1600-armv8a-neon.s:315-322 `KeccakP1600_AddBytes_BytesLoop`. -/
def c_KeccakP1600_AddBytes_BytesLoop : List (Ins Lbl) := [
  .op (.subsW .x3 .x3 1),
  .bcc .KeccakP1600_AddBytes_Exit,
  .op (.ldrb .x4 (.base .x0)),
  .op (.ldrb .x5 (.post .x1 1)),
  .op (.eorW .x4 .x4 .x5),
  .op (.strb .x4 (.post .x0 1)),
  .b .KeccakP1600_AddBytes_BytesLoop]

/-- sha3/armv8a-neon/KeccakP-1600-armv8a-neon.s:323-324 `KeccakP1600_AddBytes_Exit`. -/
def c_KeccakP1600_AddBytes_Exit : List (Ins Lbl) := [
  .ret]

/-- sha3/armv8a-neon/KeccakP-1600-armv8a-neon.s:405-408 `KeccakP1600_ExtractBytes`. -/
def c_KeccakP1600_ExtractBytes : List (Ins Lbl) := [
  .op (.addX .x0 .x0 .x2),
  .op (.subsW .x4 .x3 1),
  .bcc .KeccakP1600_ExtractBytes_Exit,
  .b .KeccakP1600_ExtractBytes_8LanesLoop]

/-- sha3/armv8a-neon/KeccakP-1600-armv8a-neon.s:409-414 `KeccakP1600_ExtractBytes_8LanesLoop`. -/
def c_KeccakP1600_ExtractBytes_8LanesLoop : List (Ins Lbl) := [
  .op (.subsW .x3 .x3 64),
  .bcc .KeccakP1600_ExtractBytes_Lanes,
  .op (.ld4 .v0 .v1 .v2 .v3 (.post .x0 64)),
  .op (.st4 .v0 .v1 .v2 .v3 (.post .x1 64)),
  .b .KeccakP1600_ExtractBytes_8LanesLoop]

/-- sha3/armv8a-neon/KeccakP-1600-armv8a-neon.s:415-416 `KeccakP1600_ExtractBytes_Lanes`. -/
def c_KeccakP1600_ExtractBytes_Lanes : List (Ins Lbl) := [
  .op (.addW .x3 .x3 64),
  .b .KeccakP1600_ExtractBytes_LanesLoop]

/-- sha3/armv8a-neon/KeccakP-1600-armv8a-neon.s:417-422 `KeccakP1600_ExtractBytes_LanesLoop`. -/
def c_KeccakP1600_ExtractBytes_LanesLoop : List (Ins Lbl) := [
  .op (.subsW .x3 .x3 8),
  .bcc .KeccakP1600_ExtractBytes_Bytes,
  .op (.ld1 .v0 (.post .x0 8)),
  .op (.st1 .v0 (.post .x1 8)),
  .b .KeccakP1600_ExtractBytes_LanesLoop]

/-- sha3/armv8a-neon/KeccakP-1600-armv8a-neon.s:423-424 `KeccakP1600_ExtractBytes_Bytes`. -/
def c_KeccakP1600_ExtractBytes_Bytes : List (Ins Lbl) := [
  .op (.addW .x3 .x3 8),
  .b .KeccakP1600_ExtractBytes_BytesLoop]

/-- sha3/armv8a-neon/KeccakP-1600-armv8a-neon.s:425-430 `KeccakP1600_ExtractBytes_BytesLoop`. -/
def c_KeccakP1600_ExtractBytes_BytesLoop : List (Ins Lbl) := [
  .op (.subsW .x3 .x3 1),
  .bcc .KeccakP1600_ExtractBytes_Exit,
  .op (.ldrb .x4 (.post .x0 1)),
  .op (.strb .x4 (.post .x1 1)),
  .b .KeccakP1600_ExtractBytes_BytesLoop]

/-- sha3/armv8a-neon/KeccakP-1600-armv8a-neon.s:431-432 `KeccakP1600_ExtractBytes_Exit`. -/
def c_KeccakP1600_ExtractBytes_Exit : List (Ins Lbl) := [
  .ret]

/-- sha3/armv8a-neon/KeccakP-1600-armv8a-neon.s:510-513 `KeccakP1600_Permute_24rounds`. -/
def c_KeccakP1600_Permute_24rounds : List (Ins Lbl) := [
  .op (.adr .x1 KeccakP1600_Permute_RoundConstants24),
  .op (.movI .x2 24),
  .b .KeccakP1600_Permute]

/-- sha3/armv8a-neon/KeccakP-1600-armv8a-neon.s:521-522 `KeccakP1600_Permute`. -/
def c_KeccakP1600_Permute : List (Ins Lbl) := [
  .op (.ld4 .v19 .v20 .v21 .v22 (.post .x0 64)),
  .op (.ld4 .v23 .v24 .v25 .v26 (.post .x0 64)),
  .op (.ld4 .v27 .v28 .v29 .v30 (.post .x0 64)),
  .op (.ld1 .v31 (.post .x0 8)),
  .op (.addI .x0 .x0 (-200)),
  .op (.movi0 .v16),
  .b .KeccakP1600_Permute_RoundLoop]

/-- sha3/armv8a-neon/KeccakP-1600-armv8a-neon.s:523-526 `KeccakP1600_Permute_RoundLoop`. -/
def c_KeccakP1600_Permute_RoundLoop : List (Ins Lbl) := [
  .op (.eor .v0 .v19 .v25),
  .op (.eor .v1 .v20 .v26),
  .op (.eor .v2 .v21 .v28),
  .op (.eor .v3 .v22 .v23),
  .op (.eor .v4 .v24 .v30),
  .op (.eor .v1 .v1 .v27),
  .op (.eor .v3 .v3 .v29),
  .op (.trn1 .v5 .v0 .v1),
  .op (.trn2 .v6 .v1 .v2),
  .op (.eor .v1 .v5 .v6),
  .op (.ext8 .v5 .v4 .v2),
  .op (.eor .v3 .v3 .v5),
  .op (.insV .v5 false .v0 true),
  .op (.eor .v4 .v4 .v5),
  .op (.eor .v4 .v4 .v31),
  .op (.ext8 .v2 .v1 .v1),
  .op (.insV .v4 true .v3 false),
  .op (.trn2 .v0 .v3 .v1),
  .op (.shl .v5 .v2 1),
  .op (.sri .v5 .v2 63),
  .op (.shl .v6 .v3 1),
  .op (.sri .v6 .v3 63),
  .op (.shl .v7 .v4 1),
  .op (.sri .v7 .v4 63),
  .op (.eor .v18 .v4 .v5),
  .op (.eor .v2 .v2 .v6),
  .op (.eor .v0 .v0 .v7),
  .op (.ext8 .v7 .v5 .v7),
  .op (.eor .v7 .v3 .v7),
  .op (.ext8 .v6 .v6 .v5),
  .op (.trn1 .v4 .v1 .v4),
  .op (.eor .v6 .v4 .v6),
  .op (.eor .v19 .v19 .v18),
  .op (.eor .v20 .v20 .v6),
  .op (.eor .v21 .v21 .v2),
  .op (.eor .v22 .v22 .v0),
  .op (.eor .v23 .v23 .v0),
  .op (.eor .v24 .v24 .v7),
  .op (.eor .v25 .v25 .v18),
  .op (.eor .v26 .v26 .v6),
  .op (.eor .v27 .v27 .v6),
  .op (.eor .v28 .v28 .v2),
  .op (.eor .v29 .v29 .v0),
  .op (.eor .v30 .v30 .v7),
  .op (.eor .v31 .v31 .v7),
  .op (.umov .x11 .v20 false),
  .op (.ror .x11 .x11 63),
  .op (.umov .x10 .v25 false),
  .op (.insX .v25 false .x11),
  .op (.ror .x10 .x10 61),
  .op (.umov .x11 .v22 true),
  .op (.insX .v22 true .x10),
  .op (.ror .x11 .x11 58),
  .op (.umov .x10 .v26 false),
  .op (.insX .v26 false .x11),
  .op (.ror .x10 .x10 54),
  .op (.umov .x11 .v28 false),
  .op (.insX .v28 false .x10),
  .op (.ror .x11 .x11 49),
  .op (.umov .x10 .v29 false),
  .op (.insX .v29 false .x11),
  .op (.ror .x10 .x10 43),
  .op (.umov .x11 .v22 false),
  .op (.insX .v22 false .x10),
  .op (.ror .x11 .x11 36),
  .op (.umov .x10 .v20 true),
  .op (.insX .v20 true .x11),
  .op (.ror .x10 .x10 28),
  .op (.umov .x11 .v27 false),
  .op (.insX .v27 false .x10),
  .op (.ror .x11 .x11 19),
  .op (.umov .x10 .v23 false),
  .op (.insX .v23 false .x11),
  .op (.ror .x10 .x10 9),
  .op (.umov .x11 .v28 true),
  .op (.insX .v28 true .x10),
  .op (.ror .x11 .x11 62),
  .op (.umov .x10 .v31 false),
  .op (.insX .v31 false .x11),
  .op (.ror .x10 .x10 50),
  .op (.umov .x11 .v19 true),
  .op (.insX .v19 true .x10),
  .op (.ror .x11 .x11 37),
  .op (.umov .x10 .v26 true),
  .op (.insX .v26 true .x11),
  .op (.ror .x10 .x10 23),
  .op (.umov .x11 .v30 true),
  .op (.insX .v30 true .x10),
  .op (.ror .x11 .x11 8),
  .op (.umov .x10 .v30 false),
  .op (.insX .v30 false .x11),
  .op (.ror .x10 .x10 56),
  .op (.umov .x11 .v24 true),
  .op (.insX .v24 true .x10),
  .op (.ror .x11 .x11 39),
  .op (.umov .x10 .v23 true),
  .op (.insX .v23 true .x11),
  .op (.ror .x10 .x10 21),
  .op (.umov .x11 .v21 false),
  .op (.insX .v21 false .x10),
  .op (.ror .x11 .x11 2),
  .op (.umov .x10 .v27 true),
  .op (.insX .v27 true .x11),
  .op (.ror .x10 .x10 46),
  .op (.umov .x11 .v25 true),
  .op (.insX .v25 true .x10),
  .op (.ror .x11 .x11 25),
  .op (.umov .x10 .v29 true),
  .op (.insX .v29 true .x11),
  .op (.ror .x10 .x10 3),
  .op (.umov .x11 .v24 false),
  .op (.insX .v24 false .x10),
  .op (.ror .x11 .x11 44),
  .op (.umov .x10 .v21 true),
  .op (.insX .v21 true .x11),
  .op (.ror .x10 .x10 20),
  .op (.insX .v20 false .x10),
  .op (.ext8 .v18 .v26 .v31),
  .op (.bic .v6 .v27 .v18),
  .op (.ext8 .v17 .v26 .v31),
  .op (.bic .v5 .v17 .v30),
  .op (.bic .v3 .v30 .v29),
  .op (.eor .v30 .v30 .v6),
  .op (.trn1 .v18 .v26 .v25),
  .op (.ext8 .v17 .v23 .v26),
  .op (.bic .v7 .v17 .v18),
  .op (.trn2 .v18 .v20 .v25),
  .op (.ext8 .v17 .v21 .v25),
  .op (.bic .v6 .v17 .v18),
  .op (.trn1 .v18 .v20 .v19),
  .op (.trn1 .v17 .v21 .v20),
  .op (.bic .v1 .v17 .v18),
  .op (.ext8 .v18 .v19 .v23),
  .op (.trn1 .v17 .v19 .v24),
  .op (.bic .v0 .v17 .v18),
  .op (.ext8 .v18 .v23 .v27),
  .op (.ext8 .v17 .v24 .v28),
  .op (.bic .v4 .v17 .v18),
  .op (.insV .v18 false .v27 true),
  .op (.insV .v17 false .v28 true),
  .op (.bic .v2 .v17 .v18),
  .op (.eor .v31 .v31 .v2),
  .op (.bic .v2 .v29 .v28),
  .op (.eor .v27 .v27 .v2),
  .op (.bic .v2 .v22 .v21),
  .op (.eor .v28 .v28 .v3),
  .op (.eor .v29 .v29 .v5),
  .op (.ext8 .v17 .v19 .v23),
  .op (.bic .v3 .v17 .v22),
  .op (.trn2 .v17 .v20 .v25),
  .op (.bic .v5 .v17 .v24),
  .op (.eor .v19 .v19 .v1),
  .op (.eor .v20 .v20 .v2),
  .op (.eor .v21 .v21 .v3),
  .op (.eor .v22 .v22 .v0),
  .op (.eor .v23 .v23 .v5),
  .op (.eor .v24 .v24 .v6),
  .op (.eor .v25 .v25 .v7),
  .op (.eor .v26 .v26 .v4),
  .op (.ld1 .v16 (.post .x1 8)),
  .op (.eor .v19 .v19 .v16),
  .op (.subsW .x2 .x2 1),
  .bne .KeccakP1600_Permute_RoundLoop,
  .b .KeccakP1600_Permute_Exit]

/-- sha3/armv8a-neon/KeccakP-1600-armv8a-neon.s:527-529 `KeccakP1600_Permute_Exit`. -/
def c_KeccakP1600_Permute_Exit : List (Ins Lbl) := [
  .op (.st4 .v19 .v20 .v21 .v22 (.post .x0 64)),
  .op (.st4 .v23 .v24 .v25 .v26 (.post .x0 64)),
  .op (.st4 .v27 .v28 .v29 .v30 (.post .x0 64)),
  .op (.st1 .v31 (.post .x0 8)),
  .ret]

/-- The code from a label to the next one. -/
def code : Lbl → List (Ins Lbl)
  | .KeccakP1600_Initialize => c_KeccakP1600_Initialize
  | .KeccakP1600_AddByte => c_KeccakP1600_AddByte
  | .KeccakP1600_AddBytes => c_KeccakP1600_AddBytes
  | .KeccakP1600_AddBytes_8LanesLoop => c_KeccakP1600_AddBytes_8LanesLoop
  | .KeccakP1600_AddBytes_Lanes => c_KeccakP1600_AddBytes_Lanes
  | .KeccakP1600_AddBytes_LanesLoop => c_KeccakP1600_AddBytes_LanesLoop
  | .KeccakP1600_AddBytes_Bytes => c_KeccakP1600_AddBytes_Bytes
  | .KeccakP1600_AddBytes_BytesLoop => c_KeccakP1600_AddBytes_BytesLoop
  | .KeccakP1600_AddBytes_Exit => c_KeccakP1600_AddBytes_Exit
  | .KeccakP1600_ExtractBytes => c_KeccakP1600_ExtractBytes
  | .KeccakP1600_ExtractBytes_8LanesLoop => c_KeccakP1600_ExtractBytes_8LanesLoop
  | .KeccakP1600_ExtractBytes_Lanes => c_KeccakP1600_ExtractBytes_Lanes
  | .KeccakP1600_ExtractBytes_LanesLoop => c_KeccakP1600_ExtractBytes_LanesLoop
  | .KeccakP1600_ExtractBytes_Bytes => c_KeccakP1600_ExtractBytes_Bytes
  | .KeccakP1600_ExtractBytes_BytesLoop => c_KeccakP1600_ExtractBytes_BytesLoop
  | .KeccakP1600_ExtractBytes_Exit => c_KeccakP1600_ExtractBytes_Exit
  | .KeccakP1600_Permute_24rounds => c_KeccakP1600_Permute_24rounds
  | .KeccakP1600_Permute => c_KeccakP1600_Permute
  | .KeccakP1600_Permute_RoundLoop => c_KeccakP1600_Permute_RoundLoop
  | .KeccakP1600_Permute_Exit => c_KeccakP1600_Permute_Exit

/-- The program. -/
def prog : Prog Lbl := ⟨code, rodata⟩

end Faest.GenN
