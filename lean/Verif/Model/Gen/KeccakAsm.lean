/-
Generated by tools/asm2lean.py from sha3/avx2/KeccakP-1600-AVX2.s. Do not edit.

The functions of that file which the library uses.  Where the code runs on into the next label there is a jump.
-/
import Verif.Model.Asm

namespace Faest.GenX
open Faest.Asm

/-- The labels. -/
inductive Lbl where
  | KeccakP1600_Initialize
  | KeccakP1600_AddByte
  | KeccakP1600_AddBytes
  | KeccakP1600_AddBytes_NotAlignedLoop
  | KeccakP1600_AddBytes_LaneAlignedLoop
  | KeccakP1600_AddBytes_LaneAlignedCheck
  | KeccakP1600_AddBytes_LastIncompleteLane
  | KeccakP1600_AddBytes_LastIncompleteLaneLoop
  | KeccakP1600_AddBytes_Exit
  | KeccakP1600_ExtractBytes
  | KeccakP1600_ExtractBytes_NotAlignedLoop
  | KeccakP1600_ExtractBytes_LaneAlignedLoop
  | KeccakP1600_ExtractBytes_LaneAlignedCheck
  | KeccakP1600_ExtractBytes_LastIncompleteLane
  | KeccakP1600_ExtractBytes_LastIncompleteLaneLoop
  | KeccakP1600_ExtractBytes_Exit
  | KeccakF1600
  | Loop_avx2
  | KeccakP1600_Permute_24rounds
  | KeccakF1600_FastLoop_Absorb
  | KeccakF1600_FastLoop_Absorb_Loop21Lanes
  | KeccakF1600_FastLoop_Absorb_SaveAndExit
  | KeccakF1600_FastLoop_Absorb_Exit
  | KeccakF1600_FastLoop_Absorb_Not21Lanes
  | KeccakF1600_FastLoop_Absorb_Loop17Lanes
  | KeccakF1600_FastLoop_Absorb_Not17Lanes
  | KeccakF1600_FastLoop_Absorb_LanesAddLoop

/-- sha3/avx2/KeccakP-1600-AVX2.s:1063 `rhotates_left`, its place in the table of constants. -/
def rhotates_left : Int := 0
/-- sha3/avx2/KeccakP-1600-AVX2.s:1070 `rhotates_right`, its place in the table of constants. -/
def rhotates_right : Int := 192
/-- sha3/avx2/KeccakP-1600-AVX2.s:1077 `iotas`, its place in the table of constants. -/
def iotas : Int := 384
/-- sha3/avx2/KeccakP-1600-AVX2.s:1103 `mapState`, its place in the table of constants. -/
def mapState : Int := 1152
/-- sha3/avx2/KeccakP-1600-AVX2.s:1111 `map2`, its place in the table of constants. -/
def map2 : Int := 1360
/-- sha3/avx2/KeccakP-1600-AVX2.s:1113 `map3`, its place in the table of constants. -/
def map3 : Int := 1376
/-- sha3/avx2/KeccakP-1600-AVX2.s:1115 `map4`, its place in the table of constants. -/
def map4 : Int := 1392
/-- sha3/avx2/KeccakP-1600-AVX2.s:1117 `map5`, its place in the table of constants. -/
def map5 : Int := 1408
/-- sha3/avx2/KeccakP-1600-AVX2.s:1119 `map6`, its place in the table of constants. -/
def map6 : Int := 1424
/-- sha3/avx2/KeccakP-1600-AVX2.s:1123 `mask3_21`, its place in the table of constants. -/
def mask3_21 : Int := 1440
/-- sha3/avx2/KeccakP-1600-AVX2.s:1125 `mask4_21`, its place in the table of constants. -/
def mask4_21 : Int := 1472
/-- sha3/avx2/KeccakP-1600-AVX2.s:1127 `mask5_21`, its place in the table of constants. -/
def mask5_21 : Int := 1504
/-- sha3/avx2/KeccakP-1600-AVX2.s:1129 `mask6_21`, its place in the table of constants. -/
def mask6_21 : Int := 1536
/-- sha3/avx2/KeccakP-1600-AVX2.s:1132 `mask2_17`, its place in the table of constants. -/
def mask2_17 : Int := 1568
/-- sha3/avx2/KeccakP-1600-AVX2.s:1134 `mask3_17`, its place in the table of constants. -/
def mask3_17 : Int := 1600
/-- sha3/avx2/KeccakP-1600-AVX2.s:1136 `mask4_17`, its place in the table of constants. -/
def mask4_17 : Int := 1632
/-- sha3/avx2/KeccakP-1600-AVX2.s:1138 `mask5_17`, its place in the table of constants. -/
def mask5_17 : Int := 1664
/-- sha3/avx2/KeccakP-1600-AVX2.s:1140 `mask6_17`, its place in the table of constants. -/
def mask6_17 : Int := 1696

/-- sha3/avx2/KeccakP-1600-AVX2.s:1063-1141, as words of 64 bits. -/
def rodata : List (BitVec 64) := [
  0x0000000000000003, 0x0000000000000012, 0x0000000000000024, 0x0000000000000029,
  0x0000000000000001, 0x000000000000003e, 0x000000000000001c, 0x000000000000001b,
  0x000000000000002d, 0x0000000000000006, 0x0000000000000038, 0x0000000000000027,
  0x000000000000000a, 0x000000000000003d, 0x0000000000000037, 0x0000000000000008,
  0x0000000000000002, 0x000000000000000f, 0x0000000000000019, 0x0000000000000014,
  0x000000000000002c, 0x000000000000002b, 0x0000000000000015, 0x000000000000000e,
  0x000000000000003d, 0x000000000000002e, 0x000000000000001c, 0x0000000000000017,
  0x000000000000003f, 0x0000000000000002, 0x0000000000000024, 0x0000000000000025,
  0x0000000000000013, 0x000000000000003a, 0x0000000000000008, 0x0000000000000019,
  0x0000000000000036, 0x0000000000000003, 0x0000000000000009, 0x0000000000000038,
  0x000000000000003e, 0x0000000000000031, 0x0000000000000027, 0x000000000000002c,
  0x0000000000000014, 0x0000000000000015, 0x000000000000002b, 0x0000000000000032,
  0x0000000000000001, 0x0000000000000001, 0x0000000000000001, 0x0000000000000001,
  0x0000000000008082, 0x0000000000008082, 0x0000000000008082, 0x0000000000008082,
  0x800000000000808a, 0x800000000000808a, 0x800000000000808a, 0x800000000000808a,
  0x8000000080008000, 0x8000000080008000, 0x8000000080008000, 0x8000000080008000,
  0x000000000000808b, 0x000000000000808b, 0x000000000000808b, 0x000000000000808b,
  0x0000000080000001, 0x0000000080000001, 0x0000000080000001, 0x0000000080000001,
  0x8000000080008081, 0x8000000080008081, 0x8000000080008081, 0x8000000080008081,
  0x8000000000008009, 0x8000000000008009, 0x8000000000008009, 0x8000000000008009,
  0x000000000000008a, 0x000000000000008a, 0x000000000000008a, 0x000000000000008a,
  0x0000000000000088, 0x0000000000000088, 0x0000000000000088, 0x0000000000000088,
  0x0000000080008009, 0x0000000080008009, 0x0000000080008009, 0x0000000080008009,
  0x000000008000000a, 0x000000008000000a, 0x000000008000000a, 0x000000008000000a,
  0x000000008000808b, 0x000000008000808b, 0x000000008000808b, 0x000000008000808b,
  0x800000000000008b, 0x800000000000008b, 0x800000000000008b, 0x800000000000008b,
  0x8000000000008089, 0x8000000000008089, 0x8000000000008089, 0x8000000000008089,
  0x8000000000008003, 0x8000000000008003, 0x8000000000008003, 0x8000000000008003,
  0x8000000000008002, 0x8000000000008002, 0x8000000000008002, 0x8000000000008002,
  0x8000000000000080, 0x8000000000000080, 0x8000000000000080, 0x8000000000000080,
  0x000000000000800a, 0x000000000000800a, 0x000000000000800a, 0x000000000000800a,
  0x800000008000000a, 0x800000008000000a, 0x800000008000000a, 0x800000008000000a,
  0x8000000080008081, 0x8000000080008081, 0x8000000080008081, 0x8000000080008081,
  0x8000000000008080, 0x8000000000008080, 0x8000000000008080, 0x8000000000008080,
  0x0000000080000001, 0x0000000080000001, 0x0000000080000001, 0x0000000080000001,
  0x8000000080008008, 0x8000000080008008, 0x8000000080008008, 0x8000000080008008,
  0x0000000000000000, 0x0000000000000008, 0x0000000000000010, 0x0000000000000018,
  0x0000000000000020, 0x0000000000000038, 0x00000000000000a8, 0x0000000000000050,
  0x0000000000000078, 0x00000000000000a0, 0x0000000000000028, 0x0000000000000068,
  0x00000000000000b0, 0x0000000000000098, 0x0000000000000060, 0x0000000000000040,
  0x0000000000000048, 0x0000000000000090, 0x00000000000000b8, 0x0000000000000080,
  0x0000000000000030, 0x0000000000000088, 0x0000000000000070, 0x0000000000000058,
  0x00000000000000c0, 0x0000000000000000, 0x000000a000000050, 0x0000007800000028,
  0x0000003800000080, 0x00000070000000b8, 0x000000b000000058, 0x0000009800000040,
  0x00000088000000a8, 0x0000004800000068, 0x0000006000000030, 0x000000c000000090,
  0xffffffffffffffff, 0xffffffffffffffff, 0x0000000000000000, 0xffffffffffffffff,
  0xffffffffffffffff, 0x0000000000000000, 0xffffffffffffffff, 0xffffffffffffffff,
  0x0000000000000000, 0xffffffffffffffff, 0xffffffffffffffff, 0xffffffffffffffff,
  0xffffffffffffffff, 0xffffffffffffffff, 0xffffffffffffffff, 0x0000000000000000,
  0xffffffffffffffff, 0x0000000000000000, 0xffffffffffffffff, 0xffffffffffffffff,
  0xffffffffffffffff, 0xffffffffffffffff, 0x0000000000000000, 0xffffffffffffffff,
  0xffffffffffffffff, 0x0000000000000000, 0xffffffffffffffff, 0x0000000000000000,
  0x0000000000000000, 0x0000000000000000, 0xffffffffffffffff, 0xffffffffffffffff,
  0xffffffffffffffff, 0xffffffffffffffff, 0x0000000000000000, 0x0000000000000000]

/-- sha3/avx2/KeccakP-1600-AVX2.s:34-45 `KeccakP1600_Initialize`. -/
def c_KeccakP1600_Initialize : List (Ins Lbl) := [
  .op (.vpxor (.reg .y0) .y0 .y0),
  .op (.vmovdquSt .y0 (.base 0 .rdi)),
  .op (.vmovdquSt .y0 (.base 32 .rdi)),
  .op (.vmovdquSt .y0 (.base 64 .rdi)),
  .op (.vmovdquSt .y0 (.base 96 .rdi)),
  .op (.vmovdquSt .y0 (.base 128 .rdi)),
  .op (.vmovdquSt .y0 (.base 160 .rdi)),
  .op (.movSt (.imm 0) (.base 192 .rdi)),
  .ret]

/-- sha3/avx2/KeccakP-1600-AVX2.s:64-75 `KeccakP1600_AddByte`. -/
def c_KeccakP1600_AddByte : List (Ins Lbl) := [
  .op (.mov (.reg .rdx) .rax),
  .op (.and 7 .rax),
  .op (.and32 4294967288 .rdx),
  .op (.lea (.rip mapState) .r9),
  .op (.mov (.mem (.baseIdx 0 .r9 .rdx)) .rdx),
  .op (.add (.reg .rdx) .rdi),
  .op (.add (.reg .rax) .rdi),
  .op (.xorSt1 .rsi (.base 0 .rdi)),
  .ret]

/-- sha3/avx2/KeccakP-1600-AVX2.s:94-112 `KeccakP1600_AddBytes`. -/
def c_KeccakP1600_AddBytes : List (Ins Lbl) := [
  .op (.cmp (.imm 0) .rcx),
  .jz .KeccakP1600_AddBytes_Exit,
  .op (.mov (.reg .rdx) .rax),
  .op (.and32 4294967288 .rdx),
  .op (.lea (.rip mapState) .r9),
  .op (.add (.reg .r9) .rdx),
  .op (.and 7 .rax),
  .jz .KeccakP1600_AddBytes_LaneAlignedCheck,
  .op (.mov (.imm 8) .r9),
  .op (.sub (.reg .rax) .r9),
  .op (.cmp (.reg .rcx) .r9),
  .op (.cmovae .rcx .r9),
  .op (.sub (.reg .r9) .rcx),
  .op (.add (.mem (.base 0 .rdx)) .rax),
  .op (.add (.imm 8) .rdx),
  .op (.add (.reg .rdi) .rax),
  .jmp .KeccakP1600_AddBytes_NotAlignedLoop]

/-- sha3/avx2/KeccakP-1600-AVX2.s:113-120 `KeccakP1600_AddBytes_NotAlignedLoop`. -/
def c_KeccakP1600_AddBytes_NotAlignedLoop : List (Ins Lbl) := [
  .op (.movLd1 (.base 0 .rsi) .r8),
  .op (.inc .rsi),
  .op (.xorSt1 .r8 (.base 0 .rax)),
  .op (.inc .rax),
  .op (.dec .r9),
  .jnz .KeccakP1600_AddBytes_NotAlignedLoop,
  .jmp .KeccakP1600_AddBytes_LaneAlignedCheck]

/-- sha3/avx2/KeccakP-1600-AVX2.s:121-127 `KeccakP1600_AddBytes_LaneAlignedLoop`. -/
def c_KeccakP1600_AddBytes_LaneAlignedLoop : List (Ins Lbl) := [
  .op (.mov (.mem (.base 0 .rsi)) .r8),
  .op (.add (.imm 8) .rsi),
  .op (.mov (.mem (.base 0 .rdx)) .rax),
  .op (.add (.imm 8) .rdx),
  .op (.add (.reg .rdi) .rax),
  .op (.xorSt .r8 (.base 0 .rax)),
  .jmp .KeccakP1600_AddBytes_LaneAlignedCheck]

/-- sha3/avx2/KeccakP-1600-AVX2.s:128-130 `KeccakP1600_AddBytes_LaneAlignedCheck`. -/
def c_KeccakP1600_AddBytes_LaneAlignedCheck : List (Ins Lbl) := [
  .op (.sub (.imm 8) .rcx),
  .jnc .KeccakP1600_AddBytes_LaneAlignedLoop,
  .jmp .KeccakP1600_AddBytes_LastIncompleteLane]

/-- sha3/avx2/KeccakP-1600-AVX2.s:131-135 `KeccakP1600_AddBytes_LastIncompleteLane`. -/
def c_KeccakP1600_AddBytes_LastIncompleteLane : List (Ins Lbl) := [
  .op (.add (.imm 8) .rcx),
  .jz .KeccakP1600_AddBytes_Exit,
  .op (.mov (.mem (.base 0 .rdx)) .rax),
  .op (.add (.reg .rdi) .rax),
  .jmp .KeccakP1600_AddBytes_LastIncompleteLaneLoop]

/-- sha3/avx2/KeccakP-1600-AVX2.s:136-142 `KeccakP1600_AddBytes_LastIncompleteLaneLoop`. -/
def c_KeccakP1600_AddBytes_LastIncompleteLaneLoop : List (Ins Lbl) := [
  .op (.movLd1 (.base 0 .rsi) .r8),
  .op (.inc .rsi),
  .op (.xorSt1 .r8 (.base 0 .rax)),
  .op (.inc .rax),
  .op (.dec .rcx),
  .jnz .KeccakP1600_AddBytes_LastIncompleteLaneLoop,
  .jmp .KeccakP1600_AddBytes_Exit]

/-- sha3/avx2/KeccakP-1600-AVX2.s:143-144 `KeccakP1600_AddBytes_Exit`. -/
def c_KeccakP1600_AddBytes_Exit : List (Ins Lbl) := [
  .ret]

/-- sha3/avx2/KeccakP-1600-AVX2.s:277-297 `KeccakP1600_ExtractBytes`. -/
def c_KeccakP1600_ExtractBytes : List (Ins Lbl) := [
  .push .rbx,
  .op (.cmp (.imm 0) .rcx),
  .jz .KeccakP1600_ExtractBytes_Exit,
  .op (.mov (.reg .rdx) .rax),
  .op (.and32 4294967288 .rdx),
  .op (.lea (.rip mapState) .r9),
  .op (.add (.reg .r9) .rdx),
  .op (.and 7 .rax),
  .jz .KeccakP1600_ExtractBytes_LaneAlignedCheck,
  .op (.mov (.imm 8) .rbx),
  .op (.sub (.reg .rax) .rbx),
  .op (.cmp (.reg .rcx) .rbx),
  .op (.cmovae .rcx .rbx),
  .op (.sub (.reg .rbx) .rcx),
  .op (.mov (.mem (.base 0 .rdx)) .r9),
  .op (.add (.imm 8) .rdx),
  .op (.add (.reg .rdi) .r9),
  .op (.add (.reg .rax) .r9),
  .jmp .KeccakP1600_ExtractBytes_NotAlignedLoop]

/-- sha3/avx2/KeccakP-1600-AVX2.s:298-305 `KeccakP1600_ExtractBytes_NotAlignedLoop`. -/
def c_KeccakP1600_ExtractBytes_NotAlignedLoop : List (Ins Lbl) := [
  .op (.movLd1 (.base 0 .r9) .r8),
  .op (.inc .r9),
  .op (.movSt1 .r8 (.base 0 .rsi)),
  .op (.inc .rsi),
  .op (.dec .rbx),
  .jnz .KeccakP1600_ExtractBytes_NotAlignedLoop,
  .jmp .KeccakP1600_ExtractBytes_LaneAlignedCheck]

/-- sha3/avx2/KeccakP-1600-AVX2.s:306-312 `KeccakP1600_ExtractBytes_LaneAlignedLoop`. -/
def c_KeccakP1600_ExtractBytes_LaneAlignedLoop : List (Ins Lbl) := [
  .op (.mov (.mem (.base 0 .rdx)) .rax),
  .op (.add (.imm 8) .rdx),
  .op (.add (.reg .rdi) .rax),
  .op (.mov (.mem (.base 0 .rax)) .r8),
  .op (.movSt (.reg .r8) (.base 0 .rsi)),
  .op (.add (.imm 8) .rsi),
  .jmp .KeccakP1600_ExtractBytes_LaneAlignedCheck]

/-- sha3/avx2/KeccakP-1600-AVX2.s:313-315 `KeccakP1600_ExtractBytes_LaneAlignedCheck`. -/
def c_KeccakP1600_ExtractBytes_LaneAlignedCheck : List (Ins Lbl) := [
  .op (.sub (.imm 8) .rcx),
  .jnc .KeccakP1600_ExtractBytes_LaneAlignedLoop,
  .jmp .KeccakP1600_ExtractBytes_LastIncompleteLane]

/-- sha3/avx2/KeccakP-1600-AVX2.s:316-321 `KeccakP1600_ExtractBytes_LastIncompleteLane`. -/
def c_KeccakP1600_ExtractBytes_LastIncompleteLane : List (Ins Lbl) := [
  .op (.add (.imm 8) .rcx),
  .jz .KeccakP1600_ExtractBytes_Exit,
  .op (.mov (.mem (.base 0 .rdx)) .rax),
  .op (.add (.reg .rdi) .rax),
  .op (.mov (.mem (.base 0 .rax)) .r8),
  .jmp .KeccakP1600_ExtractBytes_LastIncompleteLaneLoop]

/-- sha3/avx2/KeccakP-1600-AVX2.s:322-327 `KeccakP1600_ExtractBytes_LastIncompleteLaneLoop`. -/
def c_KeccakP1600_ExtractBytes_LastIncompleteLaneLoop : List (Ins Lbl) := [
  .op (.movSt1 .r8 (.base 0 .rsi)),
  .op (.shr 8 .r8),
  .op (.inc .rsi),
  .op (.dec .rcx),
  .jnz .KeccakP1600_ExtractBytes_LastIncompleteLaneLoop,
  .jmp .KeccakP1600_ExtractBytes_Exit]

/-- sha3/avx2/KeccakP-1600-AVX2.s:328-330 `KeccakP1600_ExtractBytes_Exit`. -/
def c_KeccakP1600_ExtractBytes_Exit : List (Ins Lbl) := [
  .pop .rbx,
  .ret]

/-- sha3/avx2/KeccakP-1600-AVX2.s:423-423 `KeccakF1600`. -/
def c_KeccakF1600 : List (Ins Lbl) := [
  .jmp .Loop_avx2]

/-- sha3/avx2/KeccakP-1600-AVX2.s:424-560 `Loop_avx2`. -/
def c_Loop_avx2 : List (Ins Lbl) := [
  .op (.vpshufd 78 .y2 .y13),
  .op (.vpxor (.reg .y3) .y5 .y12),
  .op (.vpxor (.reg .y6) .y4 .y9),
  .op (.vpxor (.reg .y1) .y12 .y12),
  .op (.vpxor (.reg .y9) .y12 .y12),
  .op (.vpermq 147 .y12 .y11),
  .op (.vpxor (.reg .y2) .y13 .y13),
  .op (.vpermq 78 .y13 .y7),
  .op (.vpsrlq 63 .y12 .y8),
  .op (.vpaddq .y12 .y12 .y9),
  .op (.vpor .y9 .y8 .y8),
  .op (.vpermq 57 .y8 .y15),
  .op (.vpxor (.reg .y11) .y8 .y14),
  .op (.vpermq 0 .y14 .y14),
  .op (.vpxor (.reg .y0) .y13 .y13),
  .op (.vpxor (.reg .y7) .y13 .y13),
  .op (.vpsrlq 63 .y13 .y7),
  .op (.vpaddq .y13 .y13 .y8),
  .op (.vpor .y7 .y8 .y8),
  .op (.vpxor (.reg .y14) .y2 .y2),
  .op (.vpxor (.reg .y14) .y0 .y0),
  .op (.vpblendd 192 .y8 .y15 .y15),
  .op (.vpblendd 3 .y13 .y11 .y11),
  .op (.vpxor (.reg .y11) .y15 .y15),
  .op (.vpsllvq (.base (-96) .r8) .y2 .y10),
  .op (.vpsrlvq (.base (-96) .r9) .y2 .y2),
  .op (.vpor .y10 .y2 .y2),
  .op (.vpxor (.reg .y15) .y3 .y3),
  .op (.vpsllvq (.base (-32) .r8) .y3 .y11),
  .op (.vpsrlvq (.base (-32) .r9) .y3 .y3),
  .op (.vpor .y11 .y3 .y3),
  .op (.vpxor (.reg .y15) .y4 .y4),
  .op (.vpsllvq (.base 0 .r8) .y4 .y12),
  .op (.vpsrlvq (.base 0 .r9) .y4 .y4),
  .op (.vpor .y12 .y4 .y4),
  .op (.vpxor (.reg .y15) .y5 .y5),
  .op (.vpsllvq (.base 32 .r8) .y5 .y13),
  .op (.vpsrlvq (.base 32 .r9) .y5 .y5),
  .op (.vpor .y13 .y5 .y5),
  .op (.vpxor (.reg .y15) .y6 .y6),
  .op (.vpermq 141 .y2 .y10),
  .op (.vpermq 141 .y3 .y11),
  .op (.vpsllvq (.base 64 .r8) .y6 .y14),
  .op (.vpsrlvq (.base 64 .r9) .y6 .y8),
  .op (.vpor .y14 .y8 .y8),
  .op (.vpxor (.reg .y15) .y1 .y1),
  .op (.vpermq 27 .y4 .y12),
  .op (.vpermq 114 .y5 .y13),
  .op (.vpsllvq (.base (-64) .r8) .y1 .y15),
  .op (.vpsrlvq (.base (-64) .r9) .y1 .y9),
  .op (.vpor .y15 .y9 .y9),
  .op (.vpsrldq8 .y8 .y14),
  .op (.vpandn .y14 .y8 .y7),
  .op (.vpblendd 12 .y13 .y9 .y3),
  .op (.vpblendd 12 .y9 .y11 .y15),
  .op (.vpblendd 12 .y11 .y10 .y5),
  .op (.vpblendd 12 .y10 .y9 .y14),
  .op (.vpblendd 48 .y11 .y3 .y3),
  .op (.vpblendd 48 .y12 .y15 .y15),
  .op (.vpblendd 48 .y9 .y5 .y5),
  .op (.vpblendd 48 .y13 .y14 .y14),
  .op (.vpblendd 192 .y12 .y3 .y3),
  .op (.vpblendd 192 .y13 .y15 .y15),
  .op (.vpblendd 192 .y13 .y5 .y5),
  .op (.vpblendd 192 .y11 .y14 .y14),
  .op (.vpandn .y15 .y3 .y3),
  .op (.vpandn .y14 .y5 .y5),
  .op (.vpblendd 12 .y9 .y12 .y6),
  .op (.vpblendd 12 .y12 .y10 .y15),
  .op (.vpxor (.reg .y10) .y3 .y3),
  .op (.vpblendd 48 .y10 .y6 .y6),
  .op (.vpblendd 48 .y11 .y15 .y15),
  .op (.vpxor (.reg .y12) .y5 .y5),
  .op (.vpblendd 192 .y11 .y6 .y6),
  .op (.vpblendd 192 .y9 .y15 .y15),
  .op (.vpandn .y15 .y6 .y6),
  .op (.vpxor (.reg .y13) .y6 .y6),
  .op (.vpermq 30 .y8 .y4),
  .op (.vpblendd 48 .y0 .y4 .y15),
  .op (.vpermq 57 .y8 .y1),
  .op (.vpblendd 192 .y0 .y1 .y1),
  .op (.vpandn .y15 .y1 .y1),
  .op (.vpblendd 12 .y12 .y11 .y2),
  .op (.vpblendd 12 .y11 .y13 .y14),
  .op (.vpblendd 48 .y13 .y2 .y2),
  .op (.vpblendd 48 .y10 .y14 .y14),
  .op (.vpblendd 192 .y10 .y2 .y2),
  .op (.vpblendd 192 .y12 .y14 .y14),
  .op (.vpandn .y14 .y2 .y2),
  .op (.vpxor (.reg .y9) .y2 .y2),
  .op (.vpermq 0 .y7 .y7),
  .op (.vpermq 27 .y3 .y3),
  .op (.vpermq 141 .y5 .y5),
  .op (.vpermq 114 .y6 .y6),
  .op (.vpblendd 12 .y10 .y13 .y4),
  .op (.vpblendd 12 .y13 .y12 .y14),
  .op (.vpblendd 48 .y12 .y4 .y4),
  .op (.vpblendd 48 .y9 .y14 .y14),
  .op (.vpblendd 192 .y9 .y4 .y4),
  .op (.vpblendd 192 .y10 .y14 .y14),
  .op (.vpandn .y14 .y4 .y4),
  .op (.vpxor (.reg .y7) .y0 .y0),
  .op (.vpxor (.reg .y8) .y1 .y1),
  .op (.vpxor (.reg .y11) .y4 .y4),
  .op (.vpxor (.mem (.base 0 .r10)) .y0 .y0),
  .op (.lea (.base 32 .r10) .r10),
  .op (.dec32 .rax),
  .jnz .Loop_avx2,
  .ret]

/-- sha3/avx2/KeccakP-1600-AVX2.s:576-601 `KeccakP1600_Permute_24rounds`. -/
def c_KeccakP1600_Permute_24rounds : List (Ins Lbl) := [
  .op (.lea (.rip (rhotates_left + 96)) .r8),
  .op (.lea (.rip (rhotates_right + 96)) .r9),
  .op (.lea (.rip iotas) .r10),
  .op (.mov32 24 .rax),
  .op (.lea (.base 96 .rdi) .rdi),
  .op .vzeroupper,
  .op (.vpbroadcastq (.base (-96) .rdi) .y0),
  .op (.vmovdqu (.base (-88) .rdi) .y1),
  .op (.vmovdqu (.base (-56) .rdi) .y2),
  .op (.vmovdqu (.base (-24) .rdi) .y3),
  .op (.vmovdqu (.base 8 .rdi) .y4),
  .op (.vmovdqu (.base 40 .rdi) .y5),
  .op (.vmovdqu (.base 72 .rdi) .y6),
  .call .KeccakF1600,
  .op (.vmovqSt .y0 (.base (-96) .rdi)),
  .op (.vmovdquSt .y1 (.base (-88) .rdi)),
  .op (.vmovdquSt .y2 (.base (-56) .rdi)),
  .op (.vmovdquSt .y3 (.base (-24) .rdi)),
  .op (.vmovdquSt .y4 (.base 8 .rdi)),
  .op (.vmovdquSt .y5 (.base 40 .rdi)),
  .op (.vmovdquSt .y6 (.base 72 .rdi)),
  .op .vzeroupper,
  .ret]

/-- sha3/avx2/KeccakP-1600-AVX2.s:700-722 `KeccakF1600_FastLoop_Absorb`. -/
def c_KeccakF1600_FastLoop_Absorb : List (Ins Lbl) := [
  .push .rbx,
  .push .r10,
  .op (.shr 3 .rcx),
  .op (.mov (.reg .rdx) .rbx),
  .op (.cmp (.reg .rsi) .rcx),
  .jc .KeccakF1600_FastLoop_Absorb_Exit,
  .op .vzeroupper,
  .op (.cmp (.imm 21) .rsi),
  .jnz .KeccakF1600_FastLoop_Absorb_Not21Lanes,
  .op (.sub (.imm 21) .rcx),
  .op (.lea (.rip (rhotates_left + 96)) .r8),
  .op (.lea (.rip (rhotates_right + 96)) .r9),
  .op (.lea (.base 96 .rdi) .rdi),
  .op (.vpbroadcastq (.base (-96) .rdi) .y0),
  .op (.vmovdqu (.base (-88) .rdi) .y1),
  .op (.vmovdqu (.base (-56) .rdi) .y2),
  .op (.vmovdqu (.base (-24) .rdi) .y3),
  .op (.vmovdqu (.base 8 .rdi) .y4),
  .op (.vmovdqu (.base 40 .rdi) .y5),
  .op (.vmovdqu (.base 72 .rdi) .y6),
  .jmp .KeccakF1600_FastLoop_Absorb_Loop21Lanes]

/-- sha3/avx2/KeccakP-1600-AVX2.s:723-763 `KeccakF1600_FastLoop_Absorb_Loop21Lanes`. -/
def c_KeccakF1600_FastLoop_Absorb_Loop21Lanes : List (Ins Lbl) := [
  .op (.vpbroadcastq (.base 0 .rdx) .y7),
  .op (.vmovdqu (.base 8 .rdx) .y8),
  .op (.vmovdqaX (.rip map2) .y15),
  .op (.vpcmpeqd .y14 .y14 .y14),
  .op (.vpgatherdq .y14 .rdx .y15 .y9),
  .op (.vmovdqa (.rip mask3_21) .y14),
  .op (.vpxor (.reg .y10) .y10 .y10),
  .op (.vmovdqaX (.rip map3) .y15),
  .op (.vpgatherdq .y14 .rdx .y15 .y10),
  .op (.vmovdqa (.rip mask4_21) .y14),
  .op (.vpxor (.reg .y11) .y11 .y11),
  .op (.vmovdqaX (.rip map4) .y15),
  .op (.vpgatherdq .y14 .rdx .y15 .y11),
  .op (.vmovdqa (.rip mask5_21) .y14),
  .op (.vpxor (.reg .y12) .y12 .y12),
  .op (.vmovdqaX (.rip map5) .y15),
  .op (.vpgatherdq .y14 .rdx .y15 .y12),
  .op (.vmovdqa (.rip mask6_21) .y14),
  .op (.vpxor (.reg .y13) .y13 .y13),
  .op (.vmovdqaX (.rip map6) .y15),
  .op (.vpgatherdq .y14 .rdx .y15 .y13),
  .op (.vpxor (.reg .y7) .y0 .y0),
  .op (.vpxor (.reg .y8) .y1 .y1),
  .op (.vpxor (.reg .y9) .y2 .y2),
  .op (.vpxor (.reg .y10) .y3 .y3),
  .op (.vpxor (.reg .y11) .y4 .y4),
  .op (.vpxor (.reg .y12) .y5 .y5),
  .op (.vpxor (.reg .y13) .y6 .y6),
  .op (.add (.imm 168) .rdx),
  .op (.lea (.rip iotas) .r10),
  .op (.mov32 24 .rax),
  .call .KeccakF1600,
  .op (.sub (.imm 21) .rcx),
  .jnc .KeccakF1600_FastLoop_Absorb_Loop21Lanes,
  .jmp .KeccakF1600_FastLoop_Absorb_SaveAndExit]

/-- sha3/avx2/KeccakP-1600-AVX2.s:764-771 `KeccakF1600_FastLoop_Absorb_SaveAndExit`. -/
def c_KeccakF1600_FastLoop_Absorb_SaveAndExit : List (Ins Lbl) := [
  .op (.vmovqSt .y0 (.base (-96) .rdi)),
  .op (.vmovdquSt .y1 (.base (-88) .rdi)),
  .op (.vmovdquSt .y2 (.base (-56) .rdi)),
  .op (.vmovdquSt .y3 (.base (-24) .rdi)),
  .op (.vmovdquSt .y4 (.base 8 .rdi)),
  .op (.vmovdquSt .y5 (.base 40 .rdi)),
  .op (.vmovdquSt .y6 (.base 72 .rdi)),
  .jmp .KeccakF1600_FastLoop_Absorb_Exit]

/-- sha3/avx2/KeccakP-1600-AVX2.s:772-778 `KeccakF1600_FastLoop_Absorb_Exit`. -/
def c_KeccakF1600_FastLoop_Absorb_Exit : List (Ins Lbl) := [
  .op .vzeroupper,
  .op (.mov (.reg .rdx) .rax),
  .op (.sub (.reg .rbx) .rax),
  .pop .r10,
  .pop .rbx,
  .ret]

/-- sha3/avx2/KeccakP-1600-AVX2.s:779-792 `KeccakF1600_FastLoop_Absorb_Not21Lanes`. -/
def c_KeccakF1600_FastLoop_Absorb_Not21Lanes : List (Ins Lbl) := [
  .op (.cmp (.imm 17) .rsi),
  .jnz .KeccakF1600_FastLoop_Absorb_Not17Lanes,
  .op (.sub (.imm 17) .rcx),
  .op (.lea (.rip (rhotates_left + 96)) .r8),
  .op (.lea (.rip (rhotates_right + 96)) .r9),
  .op (.lea (.base 96 .rdi) .rdi),
  .op (.vpbroadcastq (.base (-96) .rdi) .y0),
  .op (.vmovdqu (.base (-88) .rdi) .y1),
  .op (.vmovdqu (.base (-56) .rdi) .y2),
  .op (.vmovdqu (.base (-24) .rdi) .y3),
  .op (.vmovdqu (.base 8 .rdi) .y4),
  .op (.vmovdqu (.base 40 .rdi) .y5),
  .op (.vmovdqu (.base 72 .rdi) .y6),
  .jmp .KeccakF1600_FastLoop_Absorb_Loop17Lanes]

/-- sha3/avx2/KeccakP-1600-AVX2.s:793-835 `KeccakF1600_FastLoop_Absorb_Loop17Lanes`. -/
def c_KeccakF1600_FastLoop_Absorb_Loop17Lanes : List (Ins Lbl) := [
  .op (.vpbroadcastq (.base 0 .rdx) .y7),
  .op (.vmovdqu (.base 8 .rdx) .y8),
  .op (.vmovdqa (.rip mask2_17) .y14),
  .op (.vpxor (.reg .y9) .y9 .y9),
  .op (.vmovdqaX (.rip map2) .y15),
  .op (.vpgatherdq .y14 .rdx .y15 .y9),
  .op (.vmovdqa (.rip mask3_17) .y14),
  .op (.vpxor (.reg .y10) .y10 .y10),
  .op (.vmovdqaX (.rip map3) .y15),
  .op (.vpgatherdq .y14 .rdx .y15 .y10),
  .op (.vmovdqa (.rip mask4_17) .y14),
  .op (.vpxor (.reg .y11) .y11 .y11),
  .op (.vmovdqaX (.rip map4) .y15),
  .op (.vpgatherdq .y14 .rdx .y15 .y11),
  .op (.vmovdqa (.rip mask5_17) .y14),
  .op (.vpxor (.reg .y12) .y12 .y12),
  .op (.vmovdqaX (.rip map5) .y15),
  .op (.vpgatherdq .y14 .rdx .y15 .y12),
  .op (.vmovdqa (.rip mask6_17) .y14),
  .op (.vpxor (.reg .y13) .y13 .y13),
  .op (.vmovdqaX (.rip map6) .y15),
  .op (.vpgatherdq .y14 .rdx .y15 .y13),
  .op (.vpxor (.reg .y7) .y0 .y0),
  .op (.vpxor (.reg .y8) .y1 .y1),
  .op (.vpxor (.reg .y9) .y2 .y2),
  .op (.vpxor (.reg .y10) .y3 .y3),
  .op (.vpxor (.reg .y11) .y4 .y4),
  .op (.vpxor (.reg .y12) .y5 .y5),
  .op (.vpxor (.reg .y13) .y6 .y6),
  .op (.add (.imm 136) .rdx),
  .op (.lea (.rip iotas) .r10),
  .op (.mov32 24 .rax),
  .call .KeccakF1600,
  .op (.sub (.imm 17) .rcx),
  .jnc .KeccakF1600_FastLoop_Absorb_Loop17Lanes,
  .jmp .KeccakF1600_FastLoop_Absorb_SaveAndExit]

/-- sha3/avx2/KeccakP-1600-AVX2.s:836-838 `KeccakF1600_FastLoop_Absorb_Not17Lanes`. -/
def c_KeccakF1600_FastLoop_Absorb_Not17Lanes : List (Ins Lbl) := [
  .op (.lea (.rip mapState) .r9),
  .op (.mov (.reg .rsi) .rax),
  .jmp .KeccakF1600_FastLoop_Absorb_LanesAddLoop]

/-- sha3/avx2/KeccakP-1600-AVX2.s:839-868 `KeccakF1600_FastLoop_Absorb_LanesAddLoop`. -/
def c_KeccakF1600_FastLoop_Absorb_LanesAddLoop : List (Ins Lbl) := [
  .op (.mov (.mem (.base 0 .rdx)) .r8),
  .op (.add (.imm 8) .rdx),
  .op (.mov (.mem (.base 0 .r9)) .r10),
  .op (.add (.imm 8) .r9),
  .op (.add (.reg .rdi) .r10),
  .op (.xorSt .r8 (.base 0 .r10)),
  .op (.sub (.imm 1) .rax),
  .jnz .KeccakF1600_FastLoop_Absorb_LanesAddLoop,
  .op (.sub (.reg .rsi) .rcx),
  .push .rdi,
  .push .rsi,
  .push .rdx,
  .push .rcx,
  .call .KeccakP1600_Permute_24rounds,
  .pop .rcx,
  .pop .rdx,
  .pop .rsi,
  .pop .rdi,
  .op (.cmp (.reg .rsi) .rcx),
  .jnc .KeccakF1600_FastLoop_Absorb_Not17Lanes,
  .jmp .KeccakF1600_FastLoop_Absorb_Exit]

/-- The code from a label to the next one. -/
def code : Lbl → List (Ins Lbl)
  | .KeccakP1600_Initialize => c_KeccakP1600_Initialize
  | .KeccakP1600_AddByte => c_KeccakP1600_AddByte
  | .KeccakP1600_AddBytes => c_KeccakP1600_AddBytes
  | .KeccakP1600_AddBytes_NotAlignedLoop => c_KeccakP1600_AddBytes_NotAlignedLoop
  | .KeccakP1600_AddBytes_LaneAlignedLoop => c_KeccakP1600_AddBytes_LaneAlignedLoop
  | .KeccakP1600_AddBytes_LaneAlignedCheck => c_KeccakP1600_AddBytes_LaneAlignedCheck
  | .KeccakP1600_AddBytes_LastIncompleteLane => c_KeccakP1600_AddBytes_LastIncompleteLane
  | .KeccakP1600_AddBytes_LastIncompleteLaneLoop => c_KeccakP1600_AddBytes_LastIncompleteLaneLoop
  | .KeccakP1600_AddBytes_Exit => c_KeccakP1600_AddBytes_Exit
  | .KeccakP1600_ExtractBytes => c_KeccakP1600_ExtractBytes
  | .KeccakP1600_ExtractBytes_NotAlignedLoop => c_KeccakP1600_ExtractBytes_NotAlignedLoop
  | .KeccakP1600_ExtractBytes_LaneAlignedLoop => c_KeccakP1600_ExtractBytes_LaneAlignedLoop
  | .KeccakP1600_ExtractBytes_LaneAlignedCheck => c_KeccakP1600_ExtractBytes_LaneAlignedCheck
  | .KeccakP1600_ExtractBytes_LastIncompleteLane => c_KeccakP1600_ExtractBytes_LastIncompleteLane
  | .KeccakP1600_ExtractBytes_LastIncompleteLaneLoop => c_KeccakP1600_ExtractBytes_LastIncompleteLaneLoop
  | .KeccakP1600_ExtractBytes_Exit => c_KeccakP1600_ExtractBytes_Exit
  | .KeccakF1600 => c_KeccakF1600
  | .Loop_avx2 => c_Loop_avx2
  | .KeccakP1600_Permute_24rounds => c_KeccakP1600_Permute_24rounds
  | .KeccakF1600_FastLoop_Absorb => c_KeccakF1600_FastLoop_Absorb
  | .KeccakF1600_FastLoop_Absorb_Loop21Lanes => c_KeccakF1600_FastLoop_Absorb_Loop21Lanes
  | .KeccakF1600_FastLoop_Absorb_SaveAndExit => c_KeccakF1600_FastLoop_Absorb_SaveAndExit
  | .KeccakF1600_FastLoop_Absorb_Exit => c_KeccakF1600_FastLoop_Absorb_Exit
  | .KeccakF1600_FastLoop_Absorb_Not21Lanes => c_KeccakF1600_FastLoop_Absorb_Not21Lanes
  | .KeccakF1600_FastLoop_Absorb_Loop17Lanes => c_KeccakF1600_FastLoop_Absorb_Loop17Lanes
  | .KeccakF1600_FastLoop_Absorb_Not17Lanes => c_KeccakF1600_FastLoop_Absorb_Not17Lanes
  | .KeccakF1600_FastLoop_Absorb_LanesAddLoop => c_KeccakF1600_FastLoop_Absorb_LanesAddLoop

/-- The program. -/
def prog : Prog Lbl := ⟨code, rodata⟩

end Faest.GenX
