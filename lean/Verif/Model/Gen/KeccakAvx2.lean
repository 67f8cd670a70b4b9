/-
Generated by tools/c2hash.py from sha3/avx2/KeccakP-1600-times4-SIMD256.c and KeccakP-1600-times4-SnP.h. Do not edit.
-/
import Verif.Model.CVec

set_option linter.unusedVariables false

namespace Faest.GenA
open Faest.C

/-- sha3/avx2/KeccakP-1600-times4-SIMD256.c:56-56 -/
def rho8 : List (BitVec 64) := [
  0x0605040302010007, 0x0e0d0c0b0a09080f, 0x1615141312111017,
  0x1e1d1c1b1a19181f]

/-- sha3/avx2/KeccakP-1600-times4-SIMD256.c:57-57 -/
def rho56 : List (BitVec 64) := [
  0x0007060504030201, 0x080f0e0d0c0b0a09, 0x1017161514131211,
  0x181f1e1d1c1b1a19]

/-- sha3/avx2/KeccakP-1600-times4-SIMD256.c:704-728 -/
def KeccakF1600RoundConstants : List (BitVec 64) := [
  0x0000000000000001, 0x0000000000008082, 0x800000000000808a,
  0x8000000080008000, 0x000000000000808b, 0x0000000080000001,
  0x8000000080008081, 0x8000000000008009, 0x000000000000008a,
  0x0000000000000088, 0x0000000080008009, 0x000000008000000a,
  0x000000008000808b, 0x800000000000008b, 0x8000000000008089,
  0x8000000000008003, 0x8000000000008002, 0x8000000000000080,
  0x000000000000800a, 0x800000008000000a, 0x8000000080008081,
  0x8000000000008080, 0x0000000080000001, 0x8000000080008008]

/-- sha3/avx2/KeccakP-1600-times4-SIMD256.c:480-486 `prepareTheta`. -/
def prepareTheta (A : Lanes4) : CM Par4 := do
  let Aba : V256 := A.ba
  let Abe : V256 := A.be
  let Abi : V256 := A.bi
  let Abo : V256 := A.bo
  let Abu : V256 := A.bu
  let Aga : V256 := A.ga
  let Age : V256 := A.ge
  let Agi : V256 := A.gi
  let Ago : V256 := A.go
  let Agu : V256 := A.gu
  let Aka : V256 := A.ka
  let Ake : V256 := A.ke
  let Aki : V256 := A.ki
  let Ako : V256 := A.ko
  let Aku : V256 := A.ku
  let Ama : V256 := A.ma
  let Ame : V256 := A.me
  let Ami : V256 := A.mi
  let Amo : V256 := A.mo
  let Amu : V256 := A.mu
  let Asa : V256 := A.sa
  let Ase : V256 := A.se
  let Asi : V256 := A.si
  let Aso : V256 := A.so
  let Asu : V256 := A.su
  let Ca : V256 := _mm256_xor_si256 Aba (_mm256_xor_si256 Aga (_mm256_xor_si256 Aka (_mm256_xor_si256 Ama Asa)))
  let Ce : V256 := _mm256_xor_si256 Abe (_mm256_xor_si256 Age (_mm256_xor_si256 Ake (_mm256_xor_si256 Ame Ase)))
  let Ci : V256 := _mm256_xor_si256 Abi (_mm256_xor_si256 Agi (_mm256_xor_si256 Aki (_mm256_xor_si256 Ami Asi)))
  let Co : V256 := _mm256_xor_si256 Abo (_mm256_xor_si256 Ago (_mm256_xor_si256 Ako (_mm256_xor_si256 Amo Aso)))
  let Cu : V256 := _mm256_xor_si256 Abu (_mm256_xor_si256 Agu (_mm256_xor_si256 Aku (_mm256_xor_si256 Amu Asu)))
  pure ⟨Ca, Ce, Ci, Co, Cu⟩

/-- sha3/avx2/KeccakP-1600-times4-SIMD256.c:489-607 `thetaRhoPiChiIotaPrepareTheta`. -/
def thetaRhoPiChiIotaPrepareTheta (i : Nat) (A : Lanes4) (C : Par4) : CM (Lanes4 × Par4) := do
  let Aba : V256 := A.ba
  let Abe : V256 := A.be
  let Abi : V256 := A.bi
  let Abo : V256 := A.bo
  let Abu : V256 := A.bu
  let Aga : V256 := A.ga
  let Age : V256 := A.ge
  let Agi : V256 := A.gi
  let Ago : V256 := A.go
  let Agu : V256 := A.gu
  let Aka : V256 := A.ka
  let Ake : V256 := A.ke
  let Aki : V256 := A.ki
  let Ako : V256 := A.ko
  let Aku : V256 := A.ku
  let Ama : V256 := A.ma
  let Ame : V256 := A.me
  let Ami : V256 := A.mi
  let Amo : V256 := A.mo
  let Amu : V256 := A.mu
  let Asa : V256 := A.sa
  let Ase : V256 := A.se
  let Asi : V256 := A.si
  let Aso : V256 := A.so
  let Asu : V256 := A.su
  let Ca : V256 := C.a
  let Ce : V256 := C.e
  let Ci : V256 := C.i
  let Co : V256 := C.o
  let Cu : V256 := C.u
  let Ce1 : V256 := _mm256_or_si256 (_mm256_slli_epi64 Ce 1) (_mm256_srli_epi64 Ce 63)
  let Da : V256 := _mm256_xor_si256 Cu Ce1
  let Ci1 : V256 := _mm256_or_si256 (_mm256_slli_epi64 Ci 1) (_mm256_srli_epi64 Ci 63)
  let De : V256 := _mm256_xor_si256 Ca Ci1
  let Co1 : V256 := _mm256_or_si256 (_mm256_slli_epi64 Co 1) (_mm256_srli_epi64 Co 63)
  let Di : V256 := _mm256_xor_si256 Ce Co1
  let Cu1 : V256 := _mm256_or_si256 (_mm256_slli_epi64 Cu 1) (_mm256_srli_epi64 Cu 63)
  let Do : V256 := _mm256_xor_si256 Ci Cu1
  let Ca1 : V256 := _mm256_or_si256 (_mm256_slli_epi64 Ca 1) (_mm256_srli_epi64 Ca 63)
  let Du : V256 := _mm256_xor_si256 Co Ca1
  let Aba : V256 := _mm256_xor_si256 Aba Da
  let Bba : V256 := Aba
  let Age : V256 := _mm256_xor_si256 Age De
  let Bbe : V256 := _mm256_or_si256 (_mm256_slli_epi64 Age 44) (_mm256_srli_epi64 Age 20)
  let Aki : V256 := _mm256_xor_si256 Aki Di
  let Bbi : V256 := _mm256_or_si256 (_mm256_slli_epi64 Aki 43) (_mm256_srli_epi64 Aki 21)
  let Eba : V256 := _mm256_xor_si256 Bba (_mm256_andnot_si256 Bbe Bbi)
  let e1 ← tget64 KeccakF1600RoundConstants i
  let Eba : V256 := _mm256_xor_si256 Eba (_mm256_set1_epi64x e1)
  let Ca : V256 := Eba
  let Amo : V256 := _mm256_xor_si256 Amo Do
  let Bbo : V256 := _mm256_or_si256 (_mm256_slli_epi64 Amo 21) (_mm256_srli_epi64 Amo 43)
  let Ebe : V256 := _mm256_xor_si256 Bbe (_mm256_andnot_si256 Bbi Bbo)
  let Ce : V256 := Ebe
  let Asu : V256 := _mm256_xor_si256 Asu Du
  let Bbu : V256 := _mm256_or_si256 (_mm256_slli_epi64 Asu 14) (_mm256_srli_epi64 Asu 50)
  let Ebi : V256 := _mm256_xor_si256 Bbi (_mm256_andnot_si256 Bbo Bbu)
  let Ci : V256 := Ebi
  let Ebo : V256 := _mm256_xor_si256 Bbo (_mm256_andnot_si256 Bbu Bba)
  let Co : V256 := Ebo
  let Ebu : V256 := _mm256_xor_si256 Bbu (_mm256_andnot_si256 Bba Bbe)
  let Cu : V256 := Ebu
  let Abo : V256 := _mm256_xor_si256 Abo Do
  let Bga : V256 := _mm256_or_si256 (_mm256_slli_epi64 Abo 28) (_mm256_srli_epi64 Abo 36)
  let Agu : V256 := _mm256_xor_si256 Agu Du
  let Bge : V256 := _mm256_or_si256 (_mm256_slli_epi64 Agu 20) (_mm256_srli_epi64 Agu 44)
  let Aka : V256 := _mm256_xor_si256 Aka Da
  let Bgi : V256 := _mm256_or_si256 (_mm256_slli_epi64 Aka 3) (_mm256_srli_epi64 Aka 61)
  let Ega : V256 := _mm256_xor_si256 Bga (_mm256_andnot_si256 Bge Bgi)
  let Ca : V256 := _mm256_xor_si256 Ca Ega
  let Ame : V256 := _mm256_xor_si256 Ame De
  let Bgo : V256 := _mm256_or_si256 (_mm256_slli_epi64 Ame 45) (_mm256_srli_epi64 Ame 19)
  let Ege : V256 := _mm256_xor_si256 Bge (_mm256_andnot_si256 Bgi Bgo)
  let Ce : V256 := _mm256_xor_si256 Ce Ege
  let Asi : V256 := _mm256_xor_si256 Asi Di
  let Bgu : V256 := _mm256_or_si256 (_mm256_slli_epi64 Asi 61) (_mm256_srli_epi64 Asi 3)
  let Egi : V256 := _mm256_xor_si256 Bgi (_mm256_andnot_si256 Bgo Bgu)
  let Ci : V256 := _mm256_xor_si256 Ci Egi
  let Ego : V256 := _mm256_xor_si256 Bgo (_mm256_andnot_si256 Bgu Bga)
  let Co : V256 := _mm256_xor_si256 Co Ego
  let Egu : V256 := _mm256_xor_si256 Bgu (_mm256_andnot_si256 Bga Bge)
  let Cu : V256 := _mm256_xor_si256 Cu Egu
  let Abe : V256 := _mm256_xor_si256 Abe De
  let Bka : V256 := _mm256_or_si256 (_mm256_slli_epi64 Abe 1) (_mm256_srli_epi64 Abe 63)
  let Agi : V256 := _mm256_xor_si256 Agi Di
  let Bke : V256 := _mm256_or_si256 (_mm256_slli_epi64 Agi 6) (_mm256_srli_epi64 Agi 58)
  let Ako : V256 := _mm256_xor_si256 Ako Do
  let Bki : V256 := _mm256_or_si256 (_mm256_slli_epi64 Ako 25) (_mm256_srli_epi64 Ako 39)
  let Eka : V256 := _mm256_xor_si256 Bka (_mm256_andnot_si256 Bke Bki)
  let Ca : V256 := _mm256_xor_si256 Ca Eka
  let Amu : V256 := _mm256_xor_si256 Amu Du
  let e2 ← tget256 rho8
  let Bko : V256 := _mm256_shuffle_epi8 Amu e2
  let Eke : V256 := _mm256_xor_si256 Bke (_mm256_andnot_si256 Bki Bko)
  let Ce : V256 := _mm256_xor_si256 Ce Eke
  let Asa : V256 := _mm256_xor_si256 Asa Da
  let Bku : V256 := _mm256_or_si256 (_mm256_slli_epi64 Asa 18) (_mm256_srli_epi64 Asa 46)
  let Eki : V256 := _mm256_xor_si256 Bki (_mm256_andnot_si256 Bko Bku)
  let Ci : V256 := _mm256_xor_si256 Ci Eki
  let Eko : V256 := _mm256_xor_si256 Bko (_mm256_andnot_si256 Bku Bka)
  let Co : V256 := _mm256_xor_si256 Co Eko
  let Eku : V256 := _mm256_xor_si256 Bku (_mm256_andnot_si256 Bka Bke)
  let Cu : V256 := _mm256_xor_si256 Cu Eku
  let Abu : V256 := _mm256_xor_si256 Abu Du
  let Bma : V256 := _mm256_or_si256 (_mm256_slli_epi64 Abu 27) (_mm256_srli_epi64 Abu 37)
  let Aga : V256 := _mm256_xor_si256 Aga Da
  let Bme : V256 := _mm256_or_si256 (_mm256_slli_epi64 Aga 36) (_mm256_srli_epi64 Aga 28)
  let Ake : V256 := _mm256_xor_si256 Ake De
  let Bmi : V256 := _mm256_or_si256 (_mm256_slli_epi64 Ake 10) (_mm256_srli_epi64 Ake 54)
  let Ema : V256 := _mm256_xor_si256 Bma (_mm256_andnot_si256 Bme Bmi)
  let Ca : V256 := _mm256_xor_si256 Ca Ema
  let Ami : V256 := _mm256_xor_si256 Ami Di
  let Bmo : V256 := _mm256_or_si256 (_mm256_slli_epi64 Ami 15) (_mm256_srli_epi64 Ami 49)
  let Eme : V256 := _mm256_xor_si256 Bme (_mm256_andnot_si256 Bmi Bmo)
  let Ce : V256 := _mm256_xor_si256 Ce Eme
  let Aso : V256 := _mm256_xor_si256 Aso Do
  let e3 ← tget256 rho56
  let Bmu : V256 := _mm256_shuffle_epi8 Aso e3
  let Emi : V256 := _mm256_xor_si256 Bmi (_mm256_andnot_si256 Bmo Bmu)
  let Ci : V256 := _mm256_xor_si256 Ci Emi
  let Emo : V256 := _mm256_xor_si256 Bmo (_mm256_andnot_si256 Bmu Bma)
  let Co : V256 := _mm256_xor_si256 Co Emo
  let Emu : V256 := _mm256_xor_si256 Bmu (_mm256_andnot_si256 Bma Bme)
  let Cu : V256 := _mm256_xor_si256 Cu Emu
  let Abi : V256 := _mm256_xor_si256 Abi Di
  let Bsa : V256 := _mm256_or_si256 (_mm256_slli_epi64 Abi 62) (_mm256_srli_epi64 Abi 2)
  let Ago : V256 := _mm256_xor_si256 Ago Do
  let Bse : V256 := _mm256_or_si256 (_mm256_slli_epi64 Ago 55) (_mm256_srli_epi64 Ago 9)
  let Aku : V256 := _mm256_xor_si256 Aku Du
  let Bsi : V256 := _mm256_or_si256 (_mm256_slli_epi64 Aku 39) (_mm256_srli_epi64 Aku 25)
  let Esa : V256 := _mm256_xor_si256 Bsa (_mm256_andnot_si256 Bse Bsi)
  let Ca : V256 := _mm256_xor_si256 Ca Esa
  let Ama : V256 := _mm256_xor_si256 Ama Da
  let Bso : V256 := _mm256_or_si256 (_mm256_slli_epi64 Ama 41) (_mm256_srli_epi64 Ama 23)
  let Ese : V256 := _mm256_xor_si256 Bse (_mm256_andnot_si256 Bsi Bso)
  let Ce : V256 := _mm256_xor_si256 Ce Ese
  let Ase : V256 := _mm256_xor_si256 Ase De
  let Bsu : V256 := _mm256_or_si256 (_mm256_slli_epi64 Ase 2) (_mm256_srli_epi64 Ase 62)
  let Esi : V256 := _mm256_xor_si256 Bsi (_mm256_andnot_si256 Bso Bsu)
  let Ci : V256 := _mm256_xor_si256 Ci Esi
  let Eso : V256 := _mm256_xor_si256 Bso (_mm256_andnot_si256 Bsu Bsa)
  let Co : V256 := _mm256_xor_si256 Co Eso
  let Esu : V256 := _mm256_xor_si256 Bsu (_mm256_andnot_si256 Bsa Bse)
  let Cu : V256 := _mm256_xor_si256 Cu Esu
  pure (⟨Eba, Ebe, Ebi, Ebo, Ebu, Ega, Ege, Egi, Ego, Egu, Eka, Eke, Eki, Eko, Eku, Ema, Eme, Emi, Emo, Emu, Esa, Ese, Esi, Eso, Esu⟩, ⟨Ca, Ce, Ci, Co, Cu⟩)

/-- sha3/avx2/KeccakP-1600-times4-SIMD256.c:610-703 `thetaRhoPiChiIota`. -/
def thetaRhoPiChiIota (i : Nat) (A : Lanes4) (C : Par4) : CM Lanes4 := do
  let Aba : V256 := A.ba
  let Abe : V256 := A.be
  let Abi : V256 := A.bi
  let Abo : V256 := A.bo
  let Abu : V256 := A.bu
  let Aga : V256 := A.ga
  let Age : V256 := A.ge
  let Agi : V256 := A.gi
  let Ago : V256 := A.go
  let Agu : V256 := A.gu
  let Aka : V256 := A.ka
  let Ake : V256 := A.ke
  let Aki : V256 := A.ki
  let Ako : V256 := A.ko
  let Aku : V256 := A.ku
  let Ama : V256 := A.ma
  let Ame : V256 := A.me
  let Ami : V256 := A.mi
  let Amo : V256 := A.mo
  let Amu : V256 := A.mu
  let Asa : V256 := A.sa
  let Ase : V256 := A.se
  let Asi : V256 := A.si
  let Aso : V256 := A.so
  let Asu : V256 := A.su
  let Ca : V256 := C.a
  let Ce : V256 := C.e
  let Ci : V256 := C.i
  let Co : V256 := C.o
  let Cu : V256 := C.u
  let Ce1 : V256 := _mm256_or_si256 (_mm256_slli_epi64 Ce 1) (_mm256_srli_epi64 Ce 63)
  let Da : V256 := _mm256_xor_si256 Cu Ce1
  let Ci1 : V256 := _mm256_or_si256 (_mm256_slli_epi64 Ci 1) (_mm256_srli_epi64 Ci 63)
  let De : V256 := _mm256_xor_si256 Ca Ci1
  let Co1 : V256 := _mm256_or_si256 (_mm256_slli_epi64 Co 1) (_mm256_srli_epi64 Co 63)
  let Di : V256 := _mm256_xor_si256 Ce Co1
  let Cu1 : V256 := _mm256_or_si256 (_mm256_slli_epi64 Cu 1) (_mm256_srli_epi64 Cu 63)
  let Do : V256 := _mm256_xor_si256 Ci Cu1
  let Ca1 : V256 := _mm256_or_si256 (_mm256_slli_epi64 Ca 1) (_mm256_srli_epi64 Ca 63)
  let Du : V256 := _mm256_xor_si256 Co Ca1
  let Aba : V256 := _mm256_xor_si256 Aba Da
  let Bba : V256 := Aba
  let Age : V256 := _mm256_xor_si256 Age De
  let Bbe : V256 := _mm256_or_si256 (_mm256_slli_epi64 Age 44) (_mm256_srli_epi64 Age 20)
  let Aki : V256 := _mm256_xor_si256 Aki Di
  let Bbi : V256 := _mm256_or_si256 (_mm256_slli_epi64 Aki 43) (_mm256_srli_epi64 Aki 21)
  let Eba : V256 := _mm256_xor_si256 Bba (_mm256_andnot_si256 Bbe Bbi)
  let e1 ← tget64 KeccakF1600RoundConstants i
  let Eba : V256 := _mm256_xor_si256 Eba (_mm256_set1_epi64x e1)
  let Amo : V256 := _mm256_xor_si256 Amo Do
  let Bbo : V256 := _mm256_or_si256 (_mm256_slli_epi64 Amo 21) (_mm256_srli_epi64 Amo 43)
  let Ebe : V256 := _mm256_xor_si256 Bbe (_mm256_andnot_si256 Bbi Bbo)
  let Asu : V256 := _mm256_xor_si256 Asu Du
  let Bbu : V256 := _mm256_or_si256 (_mm256_slli_epi64 Asu 14) (_mm256_srli_epi64 Asu 50)
  let Ebi : V256 := _mm256_xor_si256 Bbi (_mm256_andnot_si256 Bbo Bbu)
  let Ebo : V256 := _mm256_xor_si256 Bbo (_mm256_andnot_si256 Bbu Bba)
  let Ebu : V256 := _mm256_xor_si256 Bbu (_mm256_andnot_si256 Bba Bbe)
  let Abo : V256 := _mm256_xor_si256 Abo Do
  let Bga : V256 := _mm256_or_si256 (_mm256_slli_epi64 Abo 28) (_mm256_srli_epi64 Abo 36)
  let Agu : V256 := _mm256_xor_si256 Agu Du
  let Bge : V256 := _mm256_or_si256 (_mm256_slli_epi64 Agu 20) (_mm256_srli_epi64 Agu 44)
  let Aka : V256 := _mm256_xor_si256 Aka Da
  let Bgi : V256 := _mm256_or_si256 (_mm256_slli_epi64 Aka 3) (_mm256_srli_epi64 Aka 61)
  let Ega : V256 := _mm256_xor_si256 Bga (_mm256_andnot_si256 Bge Bgi)
  let Ame : V256 := _mm256_xor_si256 Ame De
  let Bgo : V256 := _mm256_or_si256 (_mm256_slli_epi64 Ame 45) (_mm256_srli_epi64 Ame 19)
  let Ege : V256 := _mm256_xor_si256 Bge (_mm256_andnot_si256 Bgi Bgo)
  let Asi : V256 := _mm256_xor_si256 Asi Di
  let Bgu : V256 := _mm256_or_si256 (_mm256_slli_epi64 Asi 61) (_mm256_srli_epi64 Asi 3)
  let Egi : V256 := _mm256_xor_si256 Bgi (_mm256_andnot_si256 Bgo Bgu)
  let Ego : V256 := _mm256_xor_si256 Bgo (_mm256_andnot_si256 Bgu Bga)
  let Egu : V256 := _mm256_xor_si256 Bgu (_mm256_andnot_si256 Bga Bge)
  let Abe : V256 := _mm256_xor_si256 Abe De
  let Bka : V256 := _mm256_or_si256 (_mm256_slli_epi64 Abe 1) (_mm256_srli_epi64 Abe 63)
  let Agi : V256 := _mm256_xor_si256 Agi Di
  let Bke : V256 := _mm256_or_si256 (_mm256_slli_epi64 Agi 6) (_mm256_srli_epi64 Agi 58)
  let Ako : V256 := _mm256_xor_si256 Ako Do
  let Bki : V256 := _mm256_or_si256 (_mm256_slli_epi64 Ako 25) (_mm256_srli_epi64 Ako 39)
  let Eka : V256 := _mm256_xor_si256 Bka (_mm256_andnot_si256 Bke Bki)
  let Amu : V256 := _mm256_xor_si256 Amu Du
  let e2 ← tget256 rho8
  let Bko : V256 := _mm256_shuffle_epi8 Amu e2
  let Eke : V256 := _mm256_xor_si256 Bke (_mm256_andnot_si256 Bki Bko)
  let Asa : V256 := _mm256_xor_si256 Asa Da
  let Bku : V256 := _mm256_or_si256 (_mm256_slli_epi64 Asa 18) (_mm256_srli_epi64 Asa 46)
  let Eki : V256 := _mm256_xor_si256 Bki (_mm256_andnot_si256 Bko Bku)
  let Eko : V256 := _mm256_xor_si256 Bko (_mm256_andnot_si256 Bku Bka)
  let Eku : V256 := _mm256_xor_si256 Bku (_mm256_andnot_si256 Bka Bke)
  let Abu : V256 := _mm256_xor_si256 Abu Du
  let Bma : V256 := _mm256_or_si256 (_mm256_slli_epi64 Abu 27) (_mm256_srli_epi64 Abu 37)
  let Aga : V256 := _mm256_xor_si256 Aga Da
  let Bme : V256 := _mm256_or_si256 (_mm256_slli_epi64 Aga 36) (_mm256_srli_epi64 Aga 28)
  let Ake : V256 := _mm256_xor_si256 Ake De
  let Bmi : V256 := _mm256_or_si256 (_mm256_slli_epi64 Ake 10) (_mm256_srli_epi64 Ake 54)
  let Ema : V256 := _mm256_xor_si256 Bma (_mm256_andnot_si256 Bme Bmi)
  let Ami : V256 := _mm256_xor_si256 Ami Di
  let Bmo : V256 := _mm256_or_si256 (_mm256_slli_epi64 Ami 15) (_mm256_srli_epi64 Ami 49)
  let Eme : V256 := _mm256_xor_si256 Bme (_mm256_andnot_si256 Bmi Bmo)
  let Aso : V256 := _mm256_xor_si256 Aso Do
  let e3 ← tget256 rho56
  let Bmu : V256 := _mm256_shuffle_epi8 Aso e3
  let Emi : V256 := _mm256_xor_si256 Bmi (_mm256_andnot_si256 Bmo Bmu)
  let Emo : V256 := _mm256_xor_si256 Bmo (_mm256_andnot_si256 Bmu Bma)
  let Emu : V256 := _mm256_xor_si256 Bmu (_mm256_andnot_si256 Bma Bme)
  let Abi : V256 := _mm256_xor_si256 Abi Di
  let Bsa : V256 := _mm256_or_si256 (_mm256_slli_epi64 Abi 62) (_mm256_srli_epi64 Abi 2)
  let Ago : V256 := _mm256_xor_si256 Ago Do
  let Bse : V256 := _mm256_or_si256 (_mm256_slli_epi64 Ago 55) (_mm256_srli_epi64 Ago 9)
  let Aku : V256 := _mm256_xor_si256 Aku Du
  let Bsi : V256 := _mm256_or_si256 (_mm256_slli_epi64 Aku 39) (_mm256_srli_epi64 Aku 25)
  let Esa : V256 := _mm256_xor_si256 Bsa (_mm256_andnot_si256 Bse Bsi)
  let Ama : V256 := _mm256_xor_si256 Ama Da
  let Bso : V256 := _mm256_or_si256 (_mm256_slli_epi64 Ama 41) (_mm256_srli_epi64 Ama 23)
  let Ese : V256 := _mm256_xor_si256 Bse (_mm256_andnot_si256 Bsi Bso)
  let Ase : V256 := _mm256_xor_si256 Ase De
  let Bsu : V256 := _mm256_or_si256 (_mm256_slli_epi64 Ase 2) (_mm256_srli_epi64 Ase 62)
  let Esi : V256 := _mm256_xor_si256 Bsi (_mm256_andnot_si256 Bso Bsu)
  let Eso : V256 := _mm256_xor_si256 Bso (_mm256_andnot_si256 Bsu Bsa)
  let Esu : V256 := _mm256_xor_si256 Bsu (_mm256_andnot_si256 Bsa Bse)
  pure ⟨Eba, Ebe, Ebi, Ebo, Ebu, Ega, Ege, Egi, Ego, Egu, Eka, Eke, Eki, Eko, Eku, Ema, Eme, Emi, Emo, Emu, Esa, Ese, Esi, Eso, Esu⟩

/-- sha3/avx2/KeccakP-1600-unrolling.macros:18-44 `rounds24`. -/
def rounds24 (A : Lanes4) : CM Lanes4 := do
  let e1 ← prepareTheta A
  let C : Par4 := e1
  let e2 ← thetaRhoPiChiIotaPrepareTheta 0 A C
  let E : Lanes4 := e2.1
  let C : Par4 := e2.2
  let e3 ← thetaRhoPiChiIotaPrepareTheta 1 E C
  let A : Lanes4 := e3.1
  let C : Par4 := e3.2
  let e4 ← thetaRhoPiChiIotaPrepareTheta 2 A C
  let E : Lanes4 := e4.1
  let C : Par4 := e4.2
  let e5 ← thetaRhoPiChiIotaPrepareTheta 3 E C
  let A : Lanes4 := e5.1
  let C : Par4 := e5.2
  let e6 ← thetaRhoPiChiIotaPrepareTheta 4 A C
  let E : Lanes4 := e6.1
  let C : Par4 := e6.2
  let e7 ← thetaRhoPiChiIotaPrepareTheta 5 E C
  let A : Lanes4 := e7.1
  let C : Par4 := e7.2
  let e8 ← thetaRhoPiChiIotaPrepareTheta 6 A C
  let E : Lanes4 := e8.1
  let C : Par4 := e8.2
  let e9 ← thetaRhoPiChiIotaPrepareTheta 7 E C
  let A : Lanes4 := e9.1
  let C : Par4 := e9.2
  let e10 ← thetaRhoPiChiIotaPrepareTheta 8 A C
  let E : Lanes4 := e10.1
  let C : Par4 := e10.2
  let e11 ← thetaRhoPiChiIotaPrepareTheta 9 E C
  let A : Lanes4 := e11.1
  let C : Par4 := e11.2
  let e12 ← thetaRhoPiChiIotaPrepareTheta 10 A C
  let E : Lanes4 := e12.1
  let C : Par4 := e12.2
  let e13 ← thetaRhoPiChiIotaPrepareTheta 11 E C
  let A : Lanes4 := e13.1
  let C : Par4 := e13.2
  let e14 ← thetaRhoPiChiIotaPrepareTheta 12 A C
  let E : Lanes4 := e14.1
  let C : Par4 := e14.2
  let e15 ← thetaRhoPiChiIotaPrepareTheta 13 E C
  let A : Lanes4 := e15.1
  let C : Par4 := e15.2
  let e16 ← thetaRhoPiChiIotaPrepareTheta 14 A C
  let E : Lanes4 := e16.1
  let C : Par4 := e16.2
  let e17 ← thetaRhoPiChiIotaPrepareTheta 15 E C
  let A : Lanes4 := e17.1
  let C : Par4 := e17.2
  let e18 ← thetaRhoPiChiIotaPrepareTheta 16 A C
  let E : Lanes4 := e18.1
  let C : Par4 := e18.2
  let e19 ← thetaRhoPiChiIotaPrepareTheta 17 E C
  let A : Lanes4 := e19.1
  let C : Par4 := e19.2
  let e20 ← thetaRhoPiChiIotaPrepareTheta 18 A C
  let E : Lanes4 := e20.1
  let C : Par4 := e20.2
  let e21 ← thetaRhoPiChiIotaPrepareTheta 19 E C
  let A : Lanes4 := e21.1
  let C : Par4 := e21.2
  let e22 ← thetaRhoPiChiIotaPrepareTheta 20 A C
  let E : Lanes4 := e22.1
  let C : Par4 := e22.2
  let e23 ← thetaRhoPiChiIotaPrepareTheta 21 E C
  let A : Lanes4 := e23.1
  let C : Par4 := e23.2
  let e24 ← thetaRhoPiChiIotaPrepareTheta 22 A C
  let E : Lanes4 := e24.1
  let C : Par4 := e24.2
  let e25 ← thetaRhoPiChiIota 23 E C
  let A : Lanes4 := e25
  pure A

/-- sha3/avx2/KeccakP-1600-times4-SIMD256.c:730-756 `copyFromState`. -/
def copyFromState (state : CPtr) : CM Lanes4 := do
  let e1 ← _mm256_load_si256 state
  let Xba : V256 := e1
  let e2 ← _mm256_load_si256 (padd state 32)
  let Xbe : V256 := e2
  let e3 ← _mm256_load_si256 (padd state 64)
  let Xbi : V256 := e3
  let e4 ← _mm256_load_si256 (padd state 96)
  let Xbo : V256 := e4
  let e5 ← _mm256_load_si256 (padd state 128)
  let Xbu : V256 := e5
  let e6 ← _mm256_load_si256 (padd state 160)
  let Xga : V256 := e6
  let e7 ← _mm256_load_si256 (padd state 192)
  let Xge : V256 := e7
  let e8 ← _mm256_load_si256 (padd state 224)
  let Xgi : V256 := e8
  let e9 ← _mm256_load_si256 (padd state 256)
  let Xgo : V256 := e9
  let e10 ← _mm256_load_si256 (padd state 288)
  let Xgu : V256 := e10
  let e11 ← _mm256_load_si256 (padd state 320)
  let Xka : V256 := e11
  let e12 ← _mm256_load_si256 (padd state 352)
  let Xke : V256 := e12
  let e13 ← _mm256_load_si256 (padd state 384)
  let Xki : V256 := e13
  let e14 ← _mm256_load_si256 (padd state 416)
  let Xko : V256 := e14
  let e15 ← _mm256_load_si256 (padd state 448)
  let Xku : V256 := e15
  let e16 ← _mm256_load_si256 (padd state 480)
  let Xma : V256 := e16
  let e17 ← _mm256_load_si256 (padd state 512)
  let Xme : V256 := e17
  let e18 ← _mm256_load_si256 (padd state 544)
  let Xmi : V256 := e18
  let e19 ← _mm256_load_si256 (padd state 576)
  let Xmo : V256 := e19
  let e20 ← _mm256_load_si256 (padd state 608)
  let Xmu : V256 := e20
  let e21 ← _mm256_load_si256 (padd state 640)
  let Xsa : V256 := e21
  let e22 ← _mm256_load_si256 (padd state 672)
  let Xse : V256 := e22
  let e23 ← _mm256_load_si256 (padd state 704)
  let Xsi : V256 := e23
  let e24 ← _mm256_load_si256 (padd state 736)
  let Xso : V256 := e24
  let e25 ← _mm256_load_si256 (padd state 768)
  let Xsu : V256 := e25
  pure ⟨Xba, Xbe, Xbi, Xbo, Xbu, Xga, Xge, Xgi, Xgo, Xgu, Xka, Xke, Xki, Xko, Xku, Xma, Xme, Xmi, Xmo, Xmu, Xsa, Xse, Xsi, Xso, Xsu⟩

/-- sha3/avx2/KeccakP-1600-times4-SIMD256.c:757-783 `copyToState`. -/
def copyToState (state : CPtr) (X : Lanes4) : CM Unit := do
  let Xba : V256 := X.ba
  let Xbe : V256 := X.be
  let Xbi : V256 := X.bi
  let Xbo : V256 := X.bo
  let Xbu : V256 := X.bu
  let Xga : V256 := X.ga
  let Xge : V256 := X.ge
  let Xgi : V256 := X.gi
  let Xgo : V256 := X.go
  let Xgu : V256 := X.gu
  let Xka : V256 := X.ka
  let Xke : V256 := X.ke
  let Xki : V256 := X.ki
  let Xko : V256 := X.ko
  let Xku : V256 := X.ku
  let Xma : V256 := X.ma
  let Xme : V256 := X.me
  let Xmi : V256 := X.mi
  let Xmo : V256 := X.mo
  let Xmu : V256 := X.mu
  let Xsa : V256 := X.sa
  let Xse : V256 := X.se
  let Xsi : V256 := X.si
  let Xso : V256 := X.so
  let Xsu : V256 := X.su
  _mm256_store_si256 state Xba
  _mm256_store_si256 (padd state 32) Xbe
  _mm256_store_si256 (padd state 64) Xbi
  _mm256_store_si256 (padd state 96) Xbo
  _mm256_store_si256 (padd state 128) Xbu
  _mm256_store_si256 (padd state 160) Xga
  _mm256_store_si256 (padd state 192) Xge
  _mm256_store_si256 (padd state 224) Xgi
  _mm256_store_si256 (padd state 256) Xgo
  _mm256_store_si256 (padd state 288) Xgu
  _mm256_store_si256 (padd state 320) Xka
  _mm256_store_si256 (padd state 352) Xke
  _mm256_store_si256 (padd state 384) Xki
  _mm256_store_si256 (padd state 416) Xko
  _mm256_store_si256 (padd state 448) Xku
  _mm256_store_si256 (padd state 480) Xma
  _mm256_store_si256 (padd state 512) Xme
  _mm256_store_si256 (padd state 544) Xmi
  _mm256_store_si256 (padd state 576) Xmo
  _mm256_store_si256 (padd state 608) Xmu
  _mm256_store_si256 (padd state 640) Xsa
  _mm256_store_si256 (padd state 672) Xse
  _mm256_store_si256 (padd state 704) Xsi
  _mm256_store_si256 (padd state 736) Xso
  _mm256_store_si256 (padd state 768) Xsu
  pure ()

/-- sha3/avx2/KeccakP-1600-times4-SnP.h:35-36 `KeccakP1600times4_AddByte`. -/
def KeccakP1600times4_AddByte (states : CPtr) (instanceIndex : Nat) (byte : Byte) (offset : Nat) : CM Unit := do
  let e1 : Byte ← ld states ((((((instanceIndex * 8) % U32) + (((((offset / 8) * 4) % U32) * 8) % U32)) % U32) + (offset % 8)) % U32)
  st states ((((((instanceIndex * 8) % U32) + (((((offset / 8) * 4) % U32) * 8) % U32)) % U32) + (offset % 8)) % U32) (BitVec.ofNat 8 (e1.toNat ^^^ byte.toNat))
  pure ()

/-- sha3/avx2/KeccakP-1600-times4-SIMD256.c:90-93 `KeccakP1600times4_InitializeAll`. -/
def KeccakP1600times4_InitializeAll (states : CPtr) : CM Unit := do
  memset0 states 800
  pure ()

/-- sha3/avx2/KeccakP-1600-times4-SIMD256.c:96-129 `KeccakP1600times4_AddBytes`. -/
def KeccakP1600times4_AddBytes (states : CPtr) (instanceIndex : Nat) (data : CPtr) (offset : Nat) (length : Nat) : CM Unit := do
  let sizeLeft : Nat := length
  let lanePosition : Nat := offset / 8
  let offsetInLane : Nat := offset % 8
  let curData : CPtr := data
  let statesAsLanes : CPtr := states
  let e1 : Nat × Nat × CPtr ← (
    if (sizeLeft > 0) ∧ (offsetInLane ≠ 0) then (do
      let bytesInLane : Nat := (8 + U32 - offsetInLane) % U32
      let lane ← alloc .stack (malloc 8 : Mem Byte)
      st64 lane 0 (0 : BitVec 64)
      let e2 : Nat ← (
        if bytesInLane > sizeLeft then (do
          let bytesInLane : Nat := sizeLeft
          pure bytesInLane)
        else (do
          pure bytesInLane))
      let bytesInLane : Nat := e2
      memcpy (α := Byte) (padd lane offsetInLane) curData bytesInLane
      let e3 : BitVec 64 ← ld64 statesAsLanes (8 * ((((lanePosition * 4) % U32) + instanceIndex) % U32))
      let e4 : BitVec 64 ← ld64 lane 0
      st64 statesAsLanes (8 * ((((lanePosition * 4) % U32) + instanceIndex) % U32)) (e3 ^^^ e4)
      let sizeLeft : Nat := (sizeLeft + U32 - bytesInLane) % U32
      let lanePosition : Nat := (lanePosition + 1) % U32
      let curData : CPtr := padd curData bytesInLane
      cfree .stack lane
      pure (sizeLeft, lanePosition, curData))
    else (do
      pure (sizeLeft, lanePosition, curData)))
  let sizeLeft : Nat := e1.1
  let lanePosition : Nat := e1.2.1
  let curData : CPtr := e1.2.2
  let e5 : Nat × Nat × CPtr ← cwhile
      (fun _s1 =>
        let sizeLeft : Nat := _s1.1
        decide (sizeLeft ≥ 8))
      (fun _s1 => do
        let sizeLeft : Nat := _s1.1
        let lanePosition : Nat := _s1.2.1
        let curData : CPtr := _s1.2.2
        let lane ← alloc .stack (malloc 8 : Mem Byte)
        let e6 : BitVec 64 ← ld64 curData 0
        st64 lane 0 e6
        let e7 : BitVec 64 ← ld64 statesAsLanes (8 * ((((lanePosition * 4) % U32) + instanceIndex) % U32))
        let e8 : BitVec 64 ← ld64 lane 0
        st64 statesAsLanes (8 * ((((lanePosition * 4) % U32) + instanceIndex) % U32)) (e7 ^^^ e8)
        let sizeLeft : Nat := (sizeLeft + U32 - 8) % U32
        let lanePosition : Nat := (lanePosition + 1) % U32
        let curData : CPtr := padd curData 8
        cfree .stack lane
        pure (sizeLeft, lanePosition, curData))
      (sizeLeft, lanePosition, curData)
  let sizeLeft : Nat := e5.1
  let lanePosition : Nat := e5.2.1
  let curData : CPtr := e5.2.2
  let e9 : Unit ← (
    if sizeLeft > 0 then (do
      let lane ← alloc .stack (malloc 8 : Mem Byte)
      st64 lane 0 (0 : BitVec 64)
      memcpy (α := Byte) lane curData sizeLeft
      let e10 : BitVec 64 ← ld64 statesAsLanes (8 * ((((lanePosition * 4) % U32) + instanceIndex) % U32))
      let e11 : BitVec 64 ← ld64 lane 0
      st64 statesAsLanes (8 * ((((lanePosition * 4) % U32) + instanceIndex) % U32)) (e10 ^^^ e11)
      cfree .stack lane
      pure ())
    else (do
      pure ()))
  pure ()

/-- sha3/avx2/KeccakP-1600-times4-SIMD256.c:274-302 `KeccakP1600times4_ExtractBytes`. -/
def KeccakP1600times4_ExtractBytes (states : CPtr) (instanceIndex : Nat) (data : CPtr) (offset : Nat)
    (length : Nat) : CM Unit := do
  let sizeLeft : Nat := length
  let lanePosition : Nat := offset / 8
  let offsetInLane : Nat := offset % 8
  let curData : CPtr := data
  let statesAsLanes : CPtr := states
  let e1 : Nat × Nat × CPtr ← (
    if (sizeLeft > 0) ∧ (offsetInLane ≠ 0) then (do
      let bytesInLane : Nat := (8 + U32 - offsetInLane) % U32
      let e2 : Nat ← (
        if bytesInLane > sizeLeft then (do
          let bytesInLane : Nat := sizeLeft
          pure bytesInLane)
        else (do
          pure bytesInLane))
      let bytesInLane : Nat := e2
      memcpy (α := Byte) curData (padd (padd statesAsLanes (8 * ((((lanePosition * 4) % U32) + instanceIndex) % U32))) offsetInLane) bytesInLane
      let sizeLeft : Nat := (sizeLeft + U32 - bytesInLane) % U32
      let lanePosition : Nat := (lanePosition + 1) % U32
      let curData : CPtr := padd curData bytesInLane
      pure (sizeLeft, lanePosition, curData))
    else (do
      pure (sizeLeft, lanePosition, curData)))
  let sizeLeft : Nat := e1.1
  let lanePosition : Nat := e1.2.1
  let curData : CPtr := e1.2.2
  let e3 : Nat × Nat × CPtr ← cwhile
      (fun _s1 =>
        let sizeLeft : Nat := _s1.1
        decide (sizeLeft ≥ 8))
      (fun _s1 => do
        let sizeLeft : Nat := _s1.1
        let lanePosition : Nat := _s1.2.1
        let curData : CPtr := _s1.2.2
        let e4 : BitVec 64 ← ld64 statesAsLanes (8 * ((((lanePosition * 4) % U32) + instanceIndex) % U32))
        st64 curData 0 e4
        let sizeLeft : Nat := (sizeLeft + U32 - 8) % U32
        let lanePosition : Nat := (lanePosition + 1) % U32
        let curData : CPtr := padd curData 8
        pure (sizeLeft, lanePosition, curData))
      (sizeLeft, lanePosition, curData)
  let sizeLeft : Nat := e3.1
  let lanePosition : Nat := e3.2.1
  let curData : CPtr := e3.2.2
  let e5 : Unit ← (
    if sizeLeft > 0 then (do
      memcpy (α := Byte) curData (padd statesAsLanes (8 * ((((lanePosition * 4) % U32) + instanceIndex) % U32))) sizeLeft
      pure ())
    else (do
      pure ()))
  pure ()

/-- sha3/avx2/KeccakP-1600-times4-SIMD256.c:819-830 `KeccakP1600times4_PermuteAll_24rounds`. -/
def KeccakP1600times4_PermuteAll_24rounds (states : CPtr) : CM Unit := do
  let statesAsLanes : CPtr := states
  let e1 ← copyFromState statesAsLanes
  let A : Lanes4 := e1
  let e2 ← rounds24 A
  let A : Lanes4 := e2
  copyToState statesAsLanes A
  pure ()

end Faest.GenA
