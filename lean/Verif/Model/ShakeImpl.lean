/-
The translated hash layer as implementation of the interface of random_oracle.h.
-/
import Verif.Model.HImpl
import Verif.Model.Gen.RandomOracle
import Verif.Model.Gen.KeccakAvx2
import Verif.Model.Gen.KeccakHash32
import Verif.Model.Gen.KeccakSpongeAsm
import Verif.Model.Gen.KeccakNeonC
import Verif.Model.Gen.KeccakBe
import Verif.Model.Gen.KeccakP32be

namespace Faest.GenH
open Faest.C

/-- sha3/opt64/KeccakP-1600-times4-on1.c: four states one after the other, each with the permutation of one state. -/
def on1 : P4Impl where
  KeccakP1600times4_StaticInitialize := GenH.KeccakP1600times4_StaticInitialize
  KeccakP1600times4_InitializeAll := GenH.KeccakP1600times4_InitializeAll
  KeccakP1600times4_AddByte := GenH.KeccakP1600times4_AddByte
  KeccakP1600times4_AddBytes := GenH.KeccakP1600times4_AddBytes
  KeccakP1600times4_PermuteAll_24rounds := GenH.KeccakP1600times4_PermuteAll_24rounds
  KeccakP1600times4_ExtractBytes := GenH.KeccakP1600times4_ExtractBytes

/-- sha3/avx2/KeccakP-1600-times4-SIMD256.c: vectors of 256 bits, four lanes in each.
`KeccakP1600times4_StaticInitialize` is an empty macro (sha3/avx2/KeccakP-1600-times4-SnP.h:33). -/
def simd256 : P4Impl where
  KeccakP1600times4_StaticInitialize := pure ()
  KeccakP1600times4_InitializeAll := GenA.KeccakP1600times4_InitializeAll
  KeccakP1600times4_AddByte := GenA.KeccakP1600times4_AddByte
  KeccakP1600times4_AddBytes := GenA.KeccakP1600times4_AddBytes
  KeccakP1600times4_PermuteAll_24rounds := GenA.KeccakP1600times4_PermuteAll_24rounds
  KeccakP1600times4_ExtractBytes := GenA.KeccakP1600times4_ExtractBytes

/-- sha3/plain32/KeccakP-1600-times4-on1.c: four states one after the other, over words of 32 bits. -/
def plain32 : P4Impl where
  KeccakP1600times4_StaticInitialize := GenP.KeccakP1600times4_StaticInitialize
  KeccakP1600times4_InitializeAll := GenP.KeccakP1600times4_InitializeAll
  KeccakP1600times4_AddByte := GenP.KeccakP1600times4_AddByte
  KeccakP1600times4_AddBytes := GenP.KeccakP1600times4_AddBytes
  KeccakP1600times4_PermuteAll_24rounds := GenP.KeccakP1600times4_PermuteAll_24rounds
  KeccakP1600times4_ExtractBytes := GenP.KeccakP1600times4_ExtractBytes

/-- sha3/opt64/KeccakP-1600-times4-on1.c over the functions of sha3/armv8a-neon/KeccakP-1600-armv8a-neon.s
(meson.build:519-523). -/
def on1Neon (c0 : A64.Cpu) : P4Impl where
  KeccakP1600times4_StaticInitialize := GenN.KeccakP1600times4_StaticInitialize
  KeccakP1600times4_InitializeAll := GenN.KeccakP1600times4_InitializeAll c0
  KeccakP1600times4_AddByte := GenN.KeccakP1600times4_AddByte
  KeccakP1600times4_AddBytes := GenN.KeccakP1600times4_AddBytes c0
  KeccakP1600times4_PermuteAll_24rounds := GenN.KeccakP1600times4_PermuteAll_24rounds c0
  KeccakP1600times4_ExtractBytes := GenN.KeccakP1600times4_ExtractBytes c0

/-- sha3/opt64/KeccakP-1600-times4-on1.c on a big-endian host. -/
def on1be : P4Impl where
  KeccakP1600times4_StaticInitialize := GenB.KeccakP1600times4_StaticInitialize
  KeccakP1600times4_InitializeAll := GenB.KeccakP1600times4_InitializeAll
  KeccakP1600times4_AddByte := GenB.KeccakP1600times4_AddByte
  KeccakP1600times4_AddBytes := GenB.KeccakP1600times4_AddBytes
  KeccakP1600times4_PermuteAll_24rounds := GenB.KeccakP1600times4_PermuteAll_24rounds
  KeccakP1600times4_ExtractBytes := GenB.KeccakP1600times4_ExtractBytes

/-- sha3/plain32/KeccakP-1600-times4-on1.c: four states one after the other, over words of 32 bits, on a
big-endian host. -/
def plain32be : P4Impl where
  KeccakP1600times4_StaticInitialize := GenPB.KeccakP1600times4_StaticInitialize
  KeccakP1600times4_InitializeAll := GenPB.KeccakP1600times4_InitializeAll
  KeccakP1600times4_AddByte := GenPB.KeccakP1600times4_AddByte
  KeccakP1600times4_AddBytes := GenPB.KeccakP1600times4_AddBytes
  KeccakP1600times4_PermuteAll_24rounds := GenPB.KeccakP1600times4_PermuteAll_24rounds
  KeccakP1600times4_ExtractBytes := GenPB.KeccakP1600times4_ExtractBytes

/-- sha3/KeccakSponge.inc over sha3/opt64/KeccakP-1600-opt64.c. -/
def sponge64 : SpImpl where
  KeccakWidth1600_SpongeInitialize := GenH.KeccakWidth1600_SpongeInitialize
  KeccakWidth1600_SpongeAbsorb := GenH.KeccakWidth1600_SpongeAbsorb
  KeccakWidth1600_SpongeAbsorbLastFewBits := GenH.KeccakWidth1600_SpongeAbsorbLastFewBits
  KeccakWidth1600_SpongeSqueeze := GenH.KeccakWidth1600_SpongeSqueeze

/-- sha3/KeccakSponge.inc over sha3/opt64/KeccakP-1600-opt64.c on a big-endian host. -/
def sponge64be : SpImpl where
  KeccakWidth1600_SpongeInitialize := GenB.KeccakWidth1600_SpongeInitialize
  KeccakWidth1600_SpongeAbsorb := GenB.KeccakWidth1600_SpongeAbsorb
  KeccakWidth1600_SpongeAbsorbLastFewBits := GenB.KeccakWidth1600_SpongeAbsorbLastFewBits
  KeccakWidth1600_SpongeSqueeze := GenB.KeccakWidth1600_SpongeSqueeze

/-- sha3/KeccakSponge.inc over sha3/plain32/KeccakP-1600-inplace32BI.c. -/
def sponge32 : SpImpl where
  KeccakWidth1600_SpongeInitialize := GenP.KeccakWidth1600_SpongeInitialize
  KeccakWidth1600_SpongeAbsorb := GenP.KeccakWidth1600_SpongeAbsorb
  KeccakWidth1600_SpongeAbsorbLastFewBits := GenP.KeccakWidth1600_SpongeAbsorbLastFewBits
  KeccakWidth1600_SpongeSqueeze := GenP.KeccakWidth1600_SpongeSqueeze

/-- sha3/KeccakSponge.inc over sha3/plain32/KeccakP-1600-inplace32BI.c on a big-endian host. -/
def sponge32be : SpImpl where
  KeccakWidth1600_SpongeInitialize := GenPB.KeccakWidth1600_SpongeInitialize
  KeccakWidth1600_SpongeAbsorb := GenPB.KeccakWidth1600_SpongeAbsorb
  KeccakWidth1600_SpongeAbsorbLastFewBits := GenPB.KeccakWidth1600_SpongeAbsorbLastFewBits
  KeccakWidth1600_SpongeSqueeze := GenPB.KeccakWidth1600_SpongeSqueeze

/-- sha3/KeccakSponge.inc over sha3/avx2/KeccakP-1600-AVX2.s; `c0` are the registers before a call. -/
def spongeAsm (c0 : Asm.Cpu) : SpImpl where
  KeccakWidth1600_SpongeInitialize := GenX.KeccakWidth1600_SpongeInitialize c0
  KeccakWidth1600_SpongeAbsorb := GenX.KeccakWidth1600_SpongeAbsorb c0
  KeccakWidth1600_SpongeAbsorbLastFewBits := GenX.KeccakWidth1600_SpongeAbsorbLastFewBits c0
  KeccakWidth1600_SpongeSqueeze := GenX.KeccakWidth1600_SpongeSqueeze c0

/-- sha3/KeccakSponge.inc over sha3/armv8a-neon/KeccakP-1600-armv8a-neon.s; `c0` are the registers before a call. -/
def spongeNeon (c0 : A64.Cpu) : SpImpl where
  KeccakWidth1600_SpongeInitialize := GenN.KeccakWidth1600_SpongeInitialize c0
  KeccakWidth1600_SpongeAbsorb := GenN.KeccakWidth1600_SpongeAbsorb c0
  KeccakWidth1600_SpongeAbsorbLastFewBits := GenN.KeccakWidth1600_SpongeAbsorbLastFewBits c0
  KeccakWidth1600_SpongeSqueeze := GenN.KeccakWidth1600_SpongeSqueeze c0

/-- The build option `SHA3` (meson_options.txt:6-11, meson.build:482-525), as far as it is modelled: all but
`s390-cpacf`.  With `avx2` and `neon` (`armv8a-neon`) the functions on one state are written in assembler; `c0` are the
registers and flags which they find when they are called, with the exception of the arguments.  `opt64be` and
`plain32be` are `opt64` and `plain32` on a big-endian host. -/
inductive Sha3 where
  | opt64
  | avx2 (c0 : Asm.Cpu)
  | plain32
  | neon (c0 : A64.Cpu)
  | opt64be
  | plain32be

def Sha3.sponge : Sha3 → SpImpl
  | .opt64 => sponge64
  | .avx2 c0 => spongeAsm c0
  | .plain32 => sponge32
  | .neon c0 => spongeNeon c0
  | .opt64be => sponge64be
  | .plain32be => sponge32be

def Sha3.four : Sha3 → P4Impl
  | .opt64 => GenH.on1
  | .avx2 _ => GenH.simd256
  | .plain32 => GenH.plain32
  | .neon c0 => GenH.on1Neon c0
  | .opt64be => GenH.on1be
  | .plain32be => GenH.plain32be

/-- random_oracle.c with hash_shake.h and sha3.  A context is a local variable: its state is a block of 200 bytes on the
stack (sha3/KeccakSponge.h:26-32 with `KeccakP1600_stateSizeInBytes`, KeccakP-1600-SnP.h of each directory), 800 bytes for
four states (sha3/KeccakSpongetimes4.h; with armv8a-neon there are 224 more behind them, which no function uses: they are
left out here), not initialised; the other members have no value.  `K1` is the sponge of one
state and `K4` the implementation of the permutation on four states. -/
def shakeImpl (K1 : SpImpl) (K4 : P4Impl) : HImpl where
  Ctx := HashC
  Ctx4 := HashC
  new := do
    let s ← alloc .stack (malloc 200 : Mem Byte)
    pure ⟨⟨s, none, none, none⟩, none, none⟩
  drop c := cfree .stack c.sponge.state
  new4 := do
    let s ← alloc .stack (malloc 800 : Mem Byte)
    pure ⟨⟨s, none, none, none⟩, none, none⟩
  drop4 c := cfree .stack c.sponge.state
  H0_init := GenH.H0_init K1
  H1_init := GenH.H1_init K1
  H2_init := GenH.H2_init K1
  H3_init := GenH.H3_init K1
  H0_update := GenH.H0_update K1
  H1_update := GenH.H1_update K1
  H2_update := GenH.H2_update K1
  H3_update := GenH.H3_update K1
  H0_final := GenH.H0_final K1
  H1_final := GenH.H1_final K1
  H2_final := GenH.H2_final K1
  H3_final := GenH.H3_final K1
  H0_x4_init := GenH.H0_x4_init K4
  H0_x4_update := GenH.H0_x4_update K4
  H0_x4_final := GenH.H0_x4_final K4

/-- The hash layer with the build option `v`. -/
def Sha3.impl (v : Sha3) : HImpl := shakeImpl v.sponge v.four

end Faest.GenH
