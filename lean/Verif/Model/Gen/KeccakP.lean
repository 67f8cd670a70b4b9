/-
Generated by tools/c2hash.py from sha3/opt64/KeccakP-1600-opt64.c, its macro files and sha3/SnP-Relaned.h. Do not edit.
-/
import Verif.Model.CHash

set_option linter.unusedVariables false

namespace Faest.GenH
open Faest.C

/-- sha3/opt64/KeccakP-1600-opt64.c:57-81 -/
def KeccakF1600RoundConstants : List (BitVec 64) := [
  0x0000000000000001, 0x0000000000008082, 0x800000000000808a,
  0x8000000080008000, 0x000000000000808b, 0x0000000080000001,
  0x8000000080008081, 0x8000000000008009, 0x000000000000008a,
  0x0000000000000088, 0x0000000080008009, 0x000000008000000a,
  0x000000008000808b, 0x800000000000008b, 0x8000000000008089,
  0x8000000000008003, 0x8000000000008002, 0x8000000000000080,
  0x000000000000800a, 0x800000008000000a, 0x8000000080008081,
  0x8000000000008080, 0x0000000080000001, 0x8000000080008008]

/-- sha3/opt64/KeccakP-1600-64.macros:36-42 `prepareTheta`. -/
def prepareTheta (A : Keccak.Lanes) : CM Keccak.Par := do
  let Aba : BitVec 64 := A.ba
  let Abe : BitVec 64 := A.be
  let Abi : BitVec 64 := A.bi
  let Abo : BitVec 64 := A.bo
  let Abu : BitVec 64 := A.bu
  let Aga : BitVec 64 := A.ga
  let Age : BitVec 64 := A.ge
  let Agi : BitVec 64 := A.gi
  let Ago : BitVec 64 := A.go
  let Agu : BitVec 64 := A.gu
  let Aka : BitVec 64 := A.ka
  let Ake : BitVec 64 := A.ke
  let Aki : BitVec 64 := A.ki
  let Ako : BitVec 64 := A.ko
  let Aku : BitVec 64 := A.ku
  let Ama : BitVec 64 := A.ma
  let Ame : BitVec 64 := A.me
  let Ami : BitVec 64 := A.mi
  let Amo : BitVec 64 := A.mo
  let Amu : BitVec 64 := A.mu
  let Asa : BitVec 64 := A.sa
  let Ase : BitVec 64 := A.se
  let Asi : BitVec 64 := A.si
  let Aso : BitVec 64 := A.so
  let Asu : BitVec 64 := A.su
  let Ca : BitVec 64 := (((Aba ^^^ Aga) ^^^ Aka) ^^^ Ama) ^^^ Asa
  let Ce : BitVec 64 := (((Abe ^^^ Age) ^^^ Ake) ^^^ Ame) ^^^ Ase
  let Ci : BitVec 64 := (((Abi ^^^ Agi) ^^^ Aki) ^^^ Ami) ^^^ Asi
  let Co : BitVec 64 := (((Abo ^^^ Ago) ^^^ Ako) ^^^ Amo) ^^^ Aso
  let Cu : BitVec 64 := (((Abu ^^^ Agu) ^^^ Aku) ^^^ Amu) ^^^ Asu
  pure ⟨Ca, Ce, Ci, Co, Cu⟩

/-- sha3/opt64/KeccakP-1600-64.macros:254-367 `thetaRhoPiChiIotaPrepareTheta`. -/
def thetaRhoPiChiIotaPrepareTheta (i : Nat) (A : Keccak.Lanes) (C : Keccak.Par) : CM (Keccak.Lanes × Keccak.Par) := do
  let Aba : BitVec 64 := A.ba
  let Abe : BitVec 64 := A.be
  let Abi : BitVec 64 := A.bi
  let Abo : BitVec 64 := A.bo
  let Abu : BitVec 64 := A.bu
  let Aga : BitVec 64 := A.ga
  let Age : BitVec 64 := A.ge
  let Agi : BitVec 64 := A.gi
  let Ago : BitVec 64 := A.go
  let Agu : BitVec 64 := A.gu
  let Aka : BitVec 64 := A.ka
  let Ake : BitVec 64 := A.ke
  let Aki : BitVec 64 := A.ki
  let Ako : BitVec 64 := A.ko
  let Aku : BitVec 64 := A.ku
  let Ama : BitVec 64 := A.ma
  let Ame : BitVec 64 := A.me
  let Ami : BitVec 64 := A.mi
  let Amo : BitVec 64 := A.mo
  let Amu : BitVec 64 := A.mu
  let Asa : BitVec 64 := A.sa
  let Ase : BitVec 64 := A.se
  let Asi : BitVec 64 := A.si
  let Aso : BitVec 64 := A.so
  let Asu : BitVec 64 := A.su
  let Ca : BitVec 64 := C.a
  let Ce : BitVec 64 := C.e
  let Ci : BitVec 64 := C.i
  let Co : BitVec 64 := C.o
  let Cu : BitVec 64 := C.u
  let Da : BitVec 64 := Cu ^^^ ((Ce <<< 1) ^^^ (Ce >>> 63))
  let De : BitVec 64 := Ca ^^^ ((Ci <<< 1) ^^^ (Ci >>> 63))
  let Di : BitVec 64 := Ce ^^^ ((Co <<< 1) ^^^ (Co >>> 63))
  let Do : BitVec 64 := Ci ^^^ ((Cu <<< 1) ^^^ (Cu >>> 63))
  let Du : BitVec 64 := Co ^^^ ((Ca <<< 1) ^^^ (Ca >>> 63))
  let Aba : BitVec 64 := Aba ^^^ Da
  let Bba : BitVec 64 := Aba
  let Age : BitVec 64 := Age ^^^ De
  let Bbe : BitVec 64 := (Age <<< 44) ^^^ (Age >>> 20)
  let Aki : BitVec 64 := Aki ^^^ Di
  let Bbi : BitVec 64 := (Aki <<< 43) ^^^ (Aki >>> 21)
  let Amo : BitVec 64 := Amo ^^^ Do
  let Bbo : BitVec 64 := (Amo <<< 21) ^^^ (Amo >>> 43)
  let Asu : BitVec 64 := Asu ^^^ Du
  let Bbu : BitVec 64 := (Asu <<< 14) ^^^ (Asu >>> 50)
  let Eba : BitVec 64 := Bba ^^^ ((~~~Bbe) &&& Bbi)
  let e1 ← tget64 KeccakF1600RoundConstants i
  let Eba : BitVec 64 := Eba ^^^ e1
  let Ca : BitVec 64 := Eba
  let Ebe : BitVec 64 := Bbe ^^^ ((~~~Bbi) &&& Bbo)
  let Ce : BitVec 64 := Ebe
  let Ebi : BitVec 64 := Bbi ^^^ ((~~~Bbo) &&& Bbu)
  let Ci : BitVec 64 := Ebi
  let Ebo : BitVec 64 := Bbo ^^^ ((~~~Bbu) &&& Bba)
  let Co : BitVec 64 := Ebo
  let Ebu : BitVec 64 := Bbu ^^^ ((~~~Bba) &&& Bbe)
  let Cu : BitVec 64 := Ebu
  let Abo : BitVec 64 := Abo ^^^ Do
  let Bga : BitVec 64 := (Abo <<< 28) ^^^ (Abo >>> 36)
  let Agu : BitVec 64 := Agu ^^^ Du
  let Bge : BitVec 64 := (Agu <<< 20) ^^^ (Agu >>> 44)
  let Aka : BitVec 64 := Aka ^^^ Da
  let Bgi : BitVec 64 := (Aka <<< 3) ^^^ (Aka >>> 61)
  let Ame : BitVec 64 := Ame ^^^ De
  let Bgo : BitVec 64 := (Ame <<< 45) ^^^ (Ame >>> 19)
  let Asi : BitVec 64 := Asi ^^^ Di
  let Bgu : BitVec 64 := (Asi <<< 61) ^^^ (Asi >>> 3)
  let Ega : BitVec 64 := Bga ^^^ ((~~~Bge) &&& Bgi)
  let Ca : BitVec 64 := Ca ^^^ Ega
  let Ege : BitVec 64 := Bge ^^^ ((~~~Bgi) &&& Bgo)
  let Ce : BitVec 64 := Ce ^^^ Ege
  let Egi : BitVec 64 := Bgi ^^^ ((~~~Bgo) &&& Bgu)
  let Ci : BitVec 64 := Ci ^^^ Egi
  let Ego : BitVec 64 := Bgo ^^^ ((~~~Bgu) &&& Bga)
  let Co : BitVec 64 := Co ^^^ Ego
  let Egu : BitVec 64 := Bgu ^^^ ((~~~Bga) &&& Bge)
  let Cu : BitVec 64 := Cu ^^^ Egu
  let Abe : BitVec 64 := Abe ^^^ De
  let Bka : BitVec 64 := (Abe <<< 1) ^^^ (Abe >>> 63)
  let Agi : BitVec 64 := Agi ^^^ Di
  let Bke : BitVec 64 := (Agi <<< 6) ^^^ (Agi >>> 58)
  let Ako : BitVec 64 := Ako ^^^ Do
  let Bki : BitVec 64 := (Ako <<< 25) ^^^ (Ako >>> 39)
  let Amu : BitVec 64 := Amu ^^^ Du
  let Bko : BitVec 64 := (Amu <<< 8) ^^^ (Amu >>> 56)
  let Asa : BitVec 64 := Asa ^^^ Da
  let Bku : BitVec 64 := (Asa <<< 18) ^^^ (Asa >>> 46)
  let Eka : BitVec 64 := Bka ^^^ ((~~~Bke) &&& Bki)
  let Ca : BitVec 64 := Ca ^^^ Eka
  let Eke : BitVec 64 := Bke ^^^ ((~~~Bki) &&& Bko)
  let Ce : BitVec 64 := Ce ^^^ Eke
  let Eki : BitVec 64 := Bki ^^^ ((~~~Bko) &&& Bku)
  let Ci : BitVec 64 := Ci ^^^ Eki
  let Eko : BitVec 64 := Bko ^^^ ((~~~Bku) &&& Bka)
  let Co : BitVec 64 := Co ^^^ Eko
  let Eku : BitVec 64 := Bku ^^^ ((~~~Bka) &&& Bke)
  let Cu : BitVec 64 := Cu ^^^ Eku
  let Abu : BitVec 64 := Abu ^^^ Du
  let Bma : BitVec 64 := (Abu <<< 27) ^^^ (Abu >>> 37)
  let Aga : BitVec 64 := Aga ^^^ Da
  let Bme : BitVec 64 := (Aga <<< 36) ^^^ (Aga >>> 28)
  let Ake : BitVec 64 := Ake ^^^ De
  let Bmi : BitVec 64 := (Ake <<< 10) ^^^ (Ake >>> 54)
  let Ami : BitVec 64 := Ami ^^^ Di
  let Bmo : BitVec 64 := (Ami <<< 15) ^^^ (Ami >>> 49)
  let Aso : BitVec 64 := Aso ^^^ Do
  let Bmu : BitVec 64 := (Aso <<< 56) ^^^ (Aso >>> 8)
  let Ema : BitVec 64 := Bma ^^^ ((~~~Bme) &&& Bmi)
  let Ca : BitVec 64 := Ca ^^^ Ema
  let Eme : BitVec 64 := Bme ^^^ ((~~~Bmi) &&& Bmo)
  let Ce : BitVec 64 := Ce ^^^ Eme
  let Emi : BitVec 64 := Bmi ^^^ ((~~~Bmo) &&& Bmu)
  let Ci : BitVec 64 := Ci ^^^ Emi
  let Emo : BitVec 64 := Bmo ^^^ ((~~~Bmu) &&& Bma)
  let Co : BitVec 64 := Co ^^^ Emo
  let Emu : BitVec 64 := Bmu ^^^ ((~~~Bma) &&& Bme)
  let Cu : BitVec 64 := Cu ^^^ Emu
  let Abi : BitVec 64 := Abi ^^^ Di
  let Bsa : BitVec 64 := (Abi <<< 62) ^^^ (Abi >>> 2)
  let Ago : BitVec 64 := Ago ^^^ Do
  let Bse : BitVec 64 := (Ago <<< 55) ^^^ (Ago >>> 9)
  let Aku : BitVec 64 := Aku ^^^ Du
  let Bsi : BitVec 64 := (Aku <<< 39) ^^^ (Aku >>> 25)
  let Ama : BitVec 64 := Ama ^^^ Da
  let Bso : BitVec 64 := (Ama <<< 41) ^^^ (Ama >>> 23)
  let Ase : BitVec 64 := Ase ^^^ De
  let Bsu : BitVec 64 := (Ase <<< 2) ^^^ (Ase >>> 62)
  let Esa : BitVec 64 := Bsa ^^^ ((~~~Bse) &&& Bsi)
  let Ca : BitVec 64 := Ca ^^^ Esa
  let Ese : BitVec 64 := Bse ^^^ ((~~~Bsi) &&& Bso)
  let Ce : BitVec 64 := Ce ^^^ Ese
  let Esi : BitVec 64 := Bsi ^^^ ((~~~Bso) &&& Bsu)
  let Ci : BitVec 64 := Ci ^^^ Esi
  let Eso : BitVec 64 := Bso ^^^ ((~~~Bsu) &&& Bsa)
  let Co : BitVec 64 := Co ^^^ Eso
  let Esu : BitVec 64 := Bsu ^^^ ((~~~Bsa) &&& Bse)
  let Cu : BitVec 64 := Cu ^^^ Esu
  pure (⟨Eba, Ebe, Ebi, Ebo, Ebu, Ega, Ege, Egi, Ego, Egu, Eka, Eke, Eki, Eko, Eku, Ema, Eme, Emi, Emo, Emu, Esa, Ese, Esi, Eso, Esu⟩, ⟨Ca, Ce, Ci, Co, Cu⟩)

/-- sha3/opt64/KeccakP-1600-64.macros:370-458 `thetaRhoPiChiIota`. -/
def thetaRhoPiChiIota (i : Nat) (A : Keccak.Lanes) (C : Keccak.Par) : CM Keccak.Lanes := do
  let Aba : BitVec 64 := A.ba
  let Abe : BitVec 64 := A.be
  let Abi : BitVec 64 := A.bi
  let Abo : BitVec 64 := A.bo
  let Abu : BitVec 64 := A.bu
  let Aga : BitVec 64 := A.ga
  let Age : BitVec 64 := A.ge
  let Agi : BitVec 64 := A.gi
  let Ago : BitVec 64 := A.go
  let Agu : BitVec 64 := A.gu
  let Aka : BitVec 64 := A.ka
  let Ake : BitVec 64 := A.ke
  let Aki : BitVec 64 := A.ki
  let Ako : BitVec 64 := A.ko
  let Aku : BitVec 64 := A.ku
  let Ama : BitVec 64 := A.ma
  let Ame : BitVec 64 := A.me
  let Ami : BitVec 64 := A.mi
  let Amo : BitVec 64 := A.mo
  let Amu : BitVec 64 := A.mu
  let Asa : BitVec 64 := A.sa
  let Ase : BitVec 64 := A.se
  let Asi : BitVec 64 := A.si
  let Aso : BitVec 64 := A.so
  let Asu : BitVec 64 := A.su
  let Ca : BitVec 64 := C.a
  let Ce : BitVec 64 := C.e
  let Ci : BitVec 64 := C.i
  let Co : BitVec 64 := C.o
  let Cu : BitVec 64 := C.u
  let Da : BitVec 64 := Cu ^^^ ((Ce <<< 1) ^^^ (Ce >>> 63))
  let De : BitVec 64 := Ca ^^^ ((Ci <<< 1) ^^^ (Ci >>> 63))
  let Di : BitVec 64 := Ce ^^^ ((Co <<< 1) ^^^ (Co >>> 63))
  let Do : BitVec 64 := Ci ^^^ ((Cu <<< 1) ^^^ (Cu >>> 63))
  let Du : BitVec 64 := Co ^^^ ((Ca <<< 1) ^^^ (Ca >>> 63))
  let Aba : BitVec 64 := Aba ^^^ Da
  let Bba : BitVec 64 := Aba
  let Age : BitVec 64 := Age ^^^ De
  let Bbe : BitVec 64 := (Age <<< 44) ^^^ (Age >>> 20)
  let Aki : BitVec 64 := Aki ^^^ Di
  let Bbi : BitVec 64 := (Aki <<< 43) ^^^ (Aki >>> 21)
  let Amo : BitVec 64 := Amo ^^^ Do
  let Bbo : BitVec 64 := (Amo <<< 21) ^^^ (Amo >>> 43)
  let Asu : BitVec 64 := Asu ^^^ Du
  let Bbu : BitVec 64 := (Asu <<< 14) ^^^ (Asu >>> 50)
  let Eba : BitVec 64 := Bba ^^^ ((~~~Bbe) &&& Bbi)
  let e1 ← tget64 KeccakF1600RoundConstants i
  let Eba : BitVec 64 := Eba ^^^ e1
  let Ebe : BitVec 64 := Bbe ^^^ ((~~~Bbi) &&& Bbo)
  let Ebi : BitVec 64 := Bbi ^^^ ((~~~Bbo) &&& Bbu)
  let Ebo : BitVec 64 := Bbo ^^^ ((~~~Bbu) &&& Bba)
  let Ebu : BitVec 64 := Bbu ^^^ ((~~~Bba) &&& Bbe)
  let Abo : BitVec 64 := Abo ^^^ Do
  let Bga : BitVec 64 := (Abo <<< 28) ^^^ (Abo >>> 36)
  let Agu : BitVec 64 := Agu ^^^ Du
  let Bge : BitVec 64 := (Agu <<< 20) ^^^ (Agu >>> 44)
  let Aka : BitVec 64 := Aka ^^^ Da
  let Bgi : BitVec 64 := (Aka <<< 3) ^^^ (Aka >>> 61)
  let Ame : BitVec 64 := Ame ^^^ De
  let Bgo : BitVec 64 := (Ame <<< 45) ^^^ (Ame >>> 19)
  let Asi : BitVec 64 := Asi ^^^ Di
  let Bgu : BitVec 64 := (Asi <<< 61) ^^^ (Asi >>> 3)
  let Ega : BitVec 64 := Bga ^^^ ((~~~Bge) &&& Bgi)
  let Ege : BitVec 64 := Bge ^^^ ((~~~Bgi) &&& Bgo)
  let Egi : BitVec 64 := Bgi ^^^ ((~~~Bgo) &&& Bgu)
  let Ego : BitVec 64 := Bgo ^^^ ((~~~Bgu) &&& Bga)
  let Egu : BitVec 64 := Bgu ^^^ ((~~~Bga) &&& Bge)
  let Abe : BitVec 64 := Abe ^^^ De
  let Bka : BitVec 64 := (Abe <<< 1) ^^^ (Abe >>> 63)
  let Agi : BitVec 64 := Agi ^^^ Di
  let Bke : BitVec 64 := (Agi <<< 6) ^^^ (Agi >>> 58)
  let Ako : BitVec 64 := Ako ^^^ Do
  let Bki : BitVec 64 := (Ako <<< 25) ^^^ (Ako >>> 39)
  let Amu : BitVec 64 := Amu ^^^ Du
  let Bko : BitVec 64 := (Amu <<< 8) ^^^ (Amu >>> 56)
  let Asa : BitVec 64 := Asa ^^^ Da
  let Bku : BitVec 64 := (Asa <<< 18) ^^^ (Asa >>> 46)
  let Eka : BitVec 64 := Bka ^^^ ((~~~Bke) &&& Bki)
  let Eke : BitVec 64 := Bke ^^^ ((~~~Bki) &&& Bko)
  let Eki : BitVec 64 := Bki ^^^ ((~~~Bko) &&& Bku)
  let Eko : BitVec 64 := Bko ^^^ ((~~~Bku) &&& Bka)
  let Eku : BitVec 64 := Bku ^^^ ((~~~Bka) &&& Bke)
  let Abu : BitVec 64 := Abu ^^^ Du
  let Bma : BitVec 64 := (Abu <<< 27) ^^^ (Abu >>> 37)
  let Aga : BitVec 64 := Aga ^^^ Da
  let Bme : BitVec 64 := (Aga <<< 36) ^^^ (Aga >>> 28)
  let Ake : BitVec 64 := Ake ^^^ De
  let Bmi : BitVec 64 := (Ake <<< 10) ^^^ (Ake >>> 54)
  let Ami : BitVec 64 := Ami ^^^ Di
  let Bmo : BitVec 64 := (Ami <<< 15) ^^^ (Ami >>> 49)
  let Aso : BitVec 64 := Aso ^^^ Do
  let Bmu : BitVec 64 := (Aso <<< 56) ^^^ (Aso >>> 8)
  let Ema : BitVec 64 := Bma ^^^ ((~~~Bme) &&& Bmi)
  let Eme : BitVec 64 := Bme ^^^ ((~~~Bmi) &&& Bmo)
  let Emi : BitVec 64 := Bmi ^^^ ((~~~Bmo) &&& Bmu)
  let Emo : BitVec 64 := Bmo ^^^ ((~~~Bmu) &&& Bma)
  let Emu : BitVec 64 := Bmu ^^^ ((~~~Bma) &&& Bme)
  let Abi : BitVec 64 := Abi ^^^ Di
  let Bsa : BitVec 64 := (Abi <<< 62) ^^^ (Abi >>> 2)
  let Ago : BitVec 64 := Ago ^^^ Do
  let Bse : BitVec 64 := (Ago <<< 55) ^^^ (Ago >>> 9)
  let Aku : BitVec 64 := Aku ^^^ Du
  let Bsi : BitVec 64 := (Aku <<< 39) ^^^ (Aku >>> 25)
  let Ama : BitVec 64 := Ama ^^^ Da
  let Bso : BitVec 64 := (Ama <<< 41) ^^^ (Ama >>> 23)
  let Ase : BitVec 64 := Ase ^^^ De
  let Bsu : BitVec 64 := (Ase <<< 2) ^^^ (Ase >>> 62)
  let Esa : BitVec 64 := Bsa ^^^ ((~~~Bse) &&& Bsi)
  let Ese : BitVec 64 := Bse ^^^ ((~~~Bsi) &&& Bso)
  let Esi : BitVec 64 := Bsi ^^^ ((~~~Bso) &&& Bsu)
  let Eso : BitVec 64 := Bso ^^^ ((~~~Bsu) &&& Bsa)
  let Esu : BitVec 64 := Bsu ^^^ ((~~~Bsa) &&& Bse)
  pure ⟨Eba, Ebe, Ebi, Ebo, Ebu, Ega, Ege, Egi, Ego, Egu, Eka, Eke, Eki, Eko, Eku, Ema, Eme, Emi, Emo, Emu, Esa, Ese, Esi, Eso, Esu⟩

/-- sha3/opt64/KeccakP-1600-unrolling.macros:18-44 `rounds24`. -/
def rounds24 (A : Keccak.Lanes) : CM Keccak.Lanes := do
  let e1 ← prepareTheta A
  let C : Keccak.Par := e1
  let e2 ← thetaRhoPiChiIotaPrepareTheta 0 A C
  let E : Keccak.Lanes := e2.1
  let C : Keccak.Par := e2.2
  let e3 ← thetaRhoPiChiIotaPrepareTheta 1 E C
  let A : Keccak.Lanes := e3.1
  let C : Keccak.Par := e3.2
  let e4 ← thetaRhoPiChiIotaPrepareTheta 2 A C
  let E : Keccak.Lanes := e4.1
  let C : Keccak.Par := e4.2
  let e5 ← thetaRhoPiChiIotaPrepareTheta 3 E C
  let A : Keccak.Lanes := e5.1
  let C : Keccak.Par := e5.2
  let e6 ← thetaRhoPiChiIotaPrepareTheta 4 A C
  let E : Keccak.Lanes := e6.1
  let C : Keccak.Par := e6.2
  let e7 ← thetaRhoPiChiIotaPrepareTheta 5 E C
  let A : Keccak.Lanes := e7.1
  let C : Keccak.Par := e7.2
  let e8 ← thetaRhoPiChiIotaPrepareTheta 6 A C
  let E : Keccak.Lanes := e8.1
  let C : Keccak.Par := e8.2
  let e9 ← thetaRhoPiChiIotaPrepareTheta 7 E C
  let A : Keccak.Lanes := e9.1
  let C : Keccak.Par := e9.2
  let e10 ← thetaRhoPiChiIotaPrepareTheta 8 A C
  let E : Keccak.Lanes := e10.1
  let C : Keccak.Par := e10.2
  let e11 ← thetaRhoPiChiIotaPrepareTheta 9 E C
  let A : Keccak.Lanes := e11.1
  let C : Keccak.Par := e11.2
  let e12 ← thetaRhoPiChiIotaPrepareTheta 10 A C
  let E : Keccak.Lanes := e12.1
  let C : Keccak.Par := e12.2
  let e13 ← thetaRhoPiChiIotaPrepareTheta 11 E C
  let A : Keccak.Lanes := e13.1
  let C : Keccak.Par := e13.2
  let e14 ← thetaRhoPiChiIotaPrepareTheta 12 A C
  let E : Keccak.Lanes := e14.1
  let C : Keccak.Par := e14.2
  let e15 ← thetaRhoPiChiIotaPrepareTheta 13 E C
  let A : Keccak.Lanes := e15.1
  let C : Keccak.Par := e15.2
  let e16 ← thetaRhoPiChiIotaPrepareTheta 14 A C
  let E : Keccak.Lanes := e16.1
  let C : Keccak.Par := e16.2
  let e17 ← thetaRhoPiChiIotaPrepareTheta 15 E C
  let A : Keccak.Lanes := e17.1
  let C : Keccak.Par := e17.2
  let e18 ← thetaRhoPiChiIotaPrepareTheta 16 A C
  let E : Keccak.Lanes := e18.1
  let C : Keccak.Par := e18.2
  let e19 ← thetaRhoPiChiIotaPrepareTheta 17 E C
  let A : Keccak.Lanes := e19.1
  let C : Keccak.Par := e19.2
  let e20 ← thetaRhoPiChiIotaPrepareTheta 18 A C
  let E : Keccak.Lanes := e20.1
  let C : Keccak.Par := e20.2
  let e21 ← thetaRhoPiChiIotaPrepareTheta 19 E C
  let A : Keccak.Lanes := e21.1
  let C : Keccak.Par := e21.2
  let e22 ← thetaRhoPiChiIotaPrepareTheta 20 A C
  let E : Keccak.Lanes := e22.1
  let C : Keccak.Par := e22.2
  let e23 ← thetaRhoPiChiIotaPrepareTheta 21 E C
  let A : Keccak.Lanes := e23.1
  let C : Keccak.Par := e23.2
  let e24 ← thetaRhoPiChiIotaPrepareTheta 22 A C
  let E : Keccak.Lanes := e24.1
  let C : Keccak.Par := e24.2
  let e25 ← thetaRhoPiChiIota 23 E C
  let A : Keccak.Lanes := e25
  pure A

/-- sha3/opt64/KeccakP-1600-64.macros:461-487 `copyFromState`. -/
def copyFromState (state : CPtr) : CM Keccak.Lanes := do
  let e1 : BitVec 64 ← ld64 state 0
  let Xba : BitVec 64 := e1
  let e2 : BitVec 64 ← ld64 state 8
  let Xbe : BitVec 64 := e2
  let e3 : BitVec 64 ← ld64 state 16
  let Xbi : BitVec 64 := e3
  let e4 : BitVec 64 ← ld64 state 24
  let Xbo : BitVec 64 := e4
  let e5 : BitVec 64 ← ld64 state 32
  let Xbu : BitVec 64 := e5
  let e6 : BitVec 64 ← ld64 state 40
  let Xga : BitVec 64 := e6
  let e7 : BitVec 64 ← ld64 state 48
  let Xge : BitVec 64 := e7
  let e8 : BitVec 64 ← ld64 state 56
  let Xgi : BitVec 64 := e8
  let e9 : BitVec 64 ← ld64 state 64
  let Xgo : BitVec 64 := e9
  let e10 : BitVec 64 ← ld64 state 72
  let Xgu : BitVec 64 := e10
  let e11 : BitVec 64 ← ld64 state 80
  let Xka : BitVec 64 := e11
  let e12 : BitVec 64 ← ld64 state 88
  let Xke : BitVec 64 := e12
  let e13 : BitVec 64 ← ld64 state 96
  let Xki : BitVec 64 := e13
  let e14 : BitVec 64 ← ld64 state 104
  let Xko : BitVec 64 := e14
  let e15 : BitVec 64 ← ld64 state 112
  let Xku : BitVec 64 := e15
  let e16 : BitVec 64 ← ld64 state 120
  let Xma : BitVec 64 := e16
  let e17 : BitVec 64 ← ld64 state 128
  let Xme : BitVec 64 := e17
  let e18 : BitVec 64 ← ld64 state 136
  let Xmi : BitVec 64 := e18
  let e19 : BitVec 64 ← ld64 state 144
  let Xmo : BitVec 64 := e19
  let e20 : BitVec 64 ← ld64 state 152
  let Xmu : BitVec 64 := e20
  let e21 : BitVec 64 ← ld64 state 160
  let Xsa : BitVec 64 := e21
  let e22 : BitVec 64 ← ld64 state 168
  let Xse : BitVec 64 := e22
  let e23 : BitVec 64 ← ld64 state 176
  let Xsi : BitVec 64 := e23
  let e24 : BitVec 64 ← ld64 state 184
  let Xso : BitVec 64 := e24
  let e25 : BitVec 64 ← ld64 state 192
  let Xsu : BitVec 64 := e25
  pure ⟨Xba, Xbe, Xbi, Xbo, Xbu, Xga, Xge, Xgi, Xgo, Xgu, Xka, Xke, Xki, Xko, Xku, Xma, Xme, Xmi, Xmo, Xmu, Xsa, Xse, Xsi, Xso, Xsu⟩

/-- sha3/opt64/KeccakP-1600-64.macros:488-514 `copyToState`. -/
def copyToState (state : CPtr) (X : Keccak.Lanes) : CM Unit := do
  let Xba : BitVec 64 := X.ba
  let Xbe : BitVec 64 := X.be
  let Xbi : BitVec 64 := X.bi
  let Xbo : BitVec 64 := X.bo
  let Xbu : BitVec 64 := X.bu
  let Xga : BitVec 64 := X.ga
  let Xge : BitVec 64 := X.ge
  let Xgi : BitVec 64 := X.gi
  let Xgo : BitVec 64 := X.go
  let Xgu : BitVec 64 := X.gu
  let Xka : BitVec 64 := X.ka
  let Xke : BitVec 64 := X.ke
  let Xki : BitVec 64 := X.ki
  let Xko : BitVec 64 := X.ko
  let Xku : BitVec 64 := X.ku
  let Xma : BitVec 64 := X.ma
  let Xme : BitVec 64 := X.me
  let Xmi : BitVec 64 := X.mi
  let Xmo : BitVec 64 := X.mo
  let Xmu : BitVec 64 := X.mu
  let Xsa : BitVec 64 := X.sa
  let Xse : BitVec 64 := X.se
  let Xsi : BitVec 64 := X.si
  let Xso : BitVec 64 := X.so
  let Xsu : BitVec 64 := X.su
  st64 state 0 Xba
  st64 state 8 Xbe
  st64 state 16 Xbi
  st64 state 24 Xbo
  st64 state 32 Xbu
  st64 state 40 Xga
  st64 state 48 Xge
  st64 state 56 Xgi
  st64 state 64 Xgo
  st64 state 72 Xgu
  st64 state 80 Xka
  st64 state 88 Xke
  st64 state 96 Xki
  st64 state 104 Xko
  st64 state 112 Xku
  st64 state 120 Xma
  st64 state 128 Xme
  st64 state 136 Xmi
  st64 state 144 Xmo
  st64 state 152 Xmu
  st64 state 160 Xsa
  st64 state 168 Xse
  st64 state 176 Xsi
  st64 state 184 Xso
  st64 state 192 Xsu
  pure ()

/-- sha3/opt64/KeccakP-1600-64.macros:542-734 `addInput`. -/
def addInput (X : Keccak.Lanes) (input : CPtr) (laneCount : Nat) : CM Keccak.Lanes := do
  let Xba : BitVec 64 := X.ba
  let Xbe : BitVec 64 := X.be
  let Xbi : BitVec 64 := X.bi
  let Xbo : BitVec 64 := X.bo
  let Xbu : BitVec 64 := X.bu
  let Xga : BitVec 64 := X.ga
  let Xge : BitVec 64 := X.ge
  let Xgi : BitVec 64 := X.gi
  let Xgo : BitVec 64 := X.go
  let Xgu : BitVec 64 := X.gu
  let Xka : BitVec 64 := X.ka
  let Xke : BitVec 64 := X.ke
  let Xki : BitVec 64 := X.ki
  let Xko : BitVec 64 := X.ko
  let Xku : BitVec 64 := X.ku
  let Xma : BitVec 64 := X.ma
  let Xme : BitVec 64 := X.me
  let Xmi : BitVec 64 := X.mi
  let Xmo : BitVec 64 := X.mo
  let Xmu : BitVec 64 := X.mu
  let Xsa : BitVec 64 := X.sa
  let Xse : BitVec 64 := X.se
  let Xsi : BitVec 64 := X.si
  let Xso : BitVec 64 := X.so
  let Xsu : BitVec 64 := X.su
  let e1 : BitVec 64 × BitVec 64 × BitVec 64 × BitVec 64 × BitVec 64 × BitVec 64 × BitVec 64 × BitVec 64 × BitVec 64 × BitVec 64 × BitVec 64 × BitVec 64 × BitVec 64 × BitVec 64 × BitVec 64 × BitVec 64 × BitVec 64 × BitVec 64 × BitVec 64 × BitVec 64 × BitVec 64 × BitVec 64 × BitVec 64 × BitVec 64 × BitVec 64 ← (
    if laneCount = 21 then (do
      let e2 : BitVec 64 ← ld64 input 0
      let Xba : BitVec 64 := Xba ^^^ e2
      let e3 : BitVec 64 ← ld64 input 8
      let Xbe : BitVec 64 := Xbe ^^^ e3
      let e4 : BitVec 64 ← ld64 input 16
      let Xbi : BitVec 64 := Xbi ^^^ e4
      let e5 : BitVec 64 ← ld64 input 24
      let Xbo : BitVec 64 := Xbo ^^^ e5
      let e6 : BitVec 64 ← ld64 input 32
      let Xbu : BitVec 64 := Xbu ^^^ e6
      let e7 : BitVec 64 ← ld64 input 40
      let Xga : BitVec 64 := Xga ^^^ e7
      let e8 : BitVec 64 ← ld64 input 48
      let Xge : BitVec 64 := Xge ^^^ e8
      let e9 : BitVec 64 ← ld64 input 56
      let Xgi : BitVec 64 := Xgi ^^^ e9
      let e10 : BitVec 64 ← ld64 input 64
      let Xgo : BitVec 64 := Xgo ^^^ e10
      let e11 : BitVec 64 ← ld64 input 72
      let Xgu : BitVec 64 := Xgu ^^^ e11
      let e12 : BitVec 64 ← ld64 input 80
      let Xka : BitVec 64 := Xka ^^^ e12
      let e13 : BitVec 64 ← ld64 input 88
      let Xke : BitVec 64 := Xke ^^^ e13
      let e14 : BitVec 64 ← ld64 input 96
      let Xki : BitVec 64 := Xki ^^^ e14
      let e15 : BitVec 64 ← ld64 input 104
      let Xko : BitVec 64 := Xko ^^^ e15
      let e16 : BitVec 64 ← ld64 input 112
      let Xku : BitVec 64 := Xku ^^^ e16
      let e17 : BitVec 64 ← ld64 input 120
      let Xma : BitVec 64 := Xma ^^^ e17
      let e18 : BitVec 64 ← ld64 input 128
      let Xme : BitVec 64 := Xme ^^^ e18
      let e19 : BitVec 64 ← ld64 input 136
      let Xmi : BitVec 64 := Xmi ^^^ e19
      let e20 : BitVec 64 ← ld64 input 144
      let Xmo : BitVec 64 := Xmo ^^^ e20
      let e21 : BitVec 64 ← ld64 input 152
      let Xmu : BitVec 64 := Xmu ^^^ e21
      let e22 : BitVec 64 ← ld64 input 160
      let Xsa : BitVec 64 := Xsa ^^^ e22
      pure (Xba, Xbe, Xbi, Xbo, Xbu, Xga, Xge, Xgi, Xgo, Xgu, Xka, Xke, Xki, Xko, Xku, Xma, Xme, Xmi, Xmo, Xmu, Xsa, Xse, Xsi, Xso, Xsu))
    else (do
      let e23 : BitVec 64 × BitVec 64 × BitVec 64 × BitVec 64 × BitVec 64 × BitVec 64 × BitVec 64 × BitVec 64 × BitVec 64 × BitVec 64 × BitVec 64 × BitVec 64 × BitVec 64 × BitVec 64 × BitVec 64 × BitVec 64 × BitVec 64 × BitVec 64 × BitVec 64 × BitVec 64 × BitVec 64 × BitVec 64 × BitVec 64 × BitVec 64 × BitVec 64 ← (
        if laneCount < 16 then (do
          let e24 : BitVec 64 × BitVec 64 × BitVec 64 × BitVec 64 × BitVec 64 × BitVec 64 × BitVec 64 × BitVec 64 × BitVec 64 × BitVec 64 × BitVec 64 × BitVec 64 × BitVec 64 × BitVec 64 × BitVec 64 ← (
            if laneCount < 8 then (do
              let e25 : BitVec 64 × BitVec 64 × BitVec 64 × BitVec 64 × BitVec 64 × BitVec 64 × BitVec 64 ← (
                if laneCount < 4 then (do
                  let e26 : BitVec 64 × BitVec 64 × BitVec 64 ← (
                    if laneCount < 2 then (do
                      let e27 : BitVec 64 ← (
                        if laneCount < 1 then (do
                          pure Xba)
                        else (do
                          let e28 : BitVec 64 ← ld64 input 0
                          let Xba : BitVec 64 := Xba ^^^ e28
                          pure Xba))
                      let Xba : BitVec 64 := e27
                      pure (Xba, Xbe, Xbi))
                    else (do
                      let e29 : BitVec 64 ← ld64 input 0
                      let Xba : BitVec 64 := Xba ^^^ e29
                      let e30 : BitVec 64 ← ld64 input 8
                      let Xbe : BitVec 64 := Xbe ^^^ e30
                      let e31 : BitVec 64 ← (
                        if laneCount < 3 then (do
                          pure Xbi)
                        else (do
                          let e32 : BitVec 64 ← ld64 input 16
                          let Xbi : BitVec 64 := Xbi ^^^ e32
                          pure Xbi))
                      let Xbi : BitVec 64 := e31
                      pure (Xba, Xbe, Xbi)))
                  let Xba : BitVec 64 := e26.1
                  let Xbe : BitVec 64 := e26.2.1
                  let Xbi : BitVec 64 := e26.2.2
                  pure (Xba, Xbe, Xbi, Xbo, Xbu, Xga, Xge))
                else (do
                  let e33 : BitVec 64 ← ld64 input 0
                  let Xba : BitVec 64 := Xba ^^^ e33
                  let e34 : BitVec 64 ← ld64 input 8
                  let Xbe : BitVec 64 := Xbe ^^^ e34
                  let e35 : BitVec 64 ← ld64 input 16
                  let Xbi : BitVec 64 := Xbi ^^^ e35
                  let e36 : BitVec 64 ← ld64 input 24
                  let Xbo : BitVec 64 := Xbo ^^^ e36
                  let e37 : BitVec 64 × BitVec 64 × BitVec 64 ← (
                    if laneCount < 6 then (do
                      let e38 : BitVec 64 ← (
                        if laneCount < 5 then (do
                          pure Xbu)
                        else (do
                          let e39 : BitVec 64 ← ld64 input 32
                          let Xbu : BitVec 64 := Xbu ^^^ e39
                          pure Xbu))
                      let Xbu : BitVec 64 := e38
                      pure (Xbu, Xga, Xge))
                    else (do
                      let e40 : BitVec 64 ← ld64 input 32
                      let Xbu : BitVec 64 := Xbu ^^^ e40
                      let e41 : BitVec 64 ← ld64 input 40
                      let Xga : BitVec 64 := Xga ^^^ e41
                      let e42 : BitVec 64 ← (
                        if laneCount < 7 then (do
                          pure Xge)
                        else (do
                          let e43 : BitVec 64 ← ld64 input 48
                          let Xge : BitVec 64 := Xge ^^^ e43
                          pure Xge))
                      let Xge : BitVec 64 := e42
                      pure (Xbu, Xga, Xge)))
                  let Xbu : BitVec 64 := e37.1
                  let Xga : BitVec 64 := e37.2.1
                  let Xge : BitVec 64 := e37.2.2
                  pure (Xba, Xbe, Xbi, Xbo, Xbu, Xga, Xge)))
              let Xba : BitVec 64 := e25.1
              let Xbe : BitVec 64 := e25.2.1
              let Xbi : BitVec 64 := e25.2.2.1
              let Xbo : BitVec 64 := e25.2.2.2.1
              let Xbu : BitVec 64 := e25.2.2.2.2.1
              let Xga : BitVec 64 := e25.2.2.2.2.2.1
              let Xge : BitVec 64 := e25.2.2.2.2.2.2
              pure (Xba, Xbe, Xbi, Xbo, Xbu, Xga, Xge, Xgi, Xgo, Xgu, Xka, Xke, Xki, Xko, Xku))
            else (do
              let e44 : BitVec 64 ← ld64 input 0
              let Xba : BitVec 64 := Xba ^^^ e44
              let e45 : BitVec 64 ← ld64 input 8
              let Xbe : BitVec 64 := Xbe ^^^ e45
              let e46 : BitVec 64 ← ld64 input 16
              let Xbi : BitVec 64 := Xbi ^^^ e46
              let e47 : BitVec 64 ← ld64 input 24
              let Xbo : BitVec 64 := Xbo ^^^ e47
              let e48 : BitVec 64 ← ld64 input 32
              let Xbu : BitVec 64 := Xbu ^^^ e48
              let e49 : BitVec 64 ← ld64 input 40
              let Xga : BitVec 64 := Xga ^^^ e49
              let e50 : BitVec 64 ← ld64 input 48
              let Xge : BitVec 64 := Xge ^^^ e50
              let e51 : BitVec 64 ← ld64 input 56
              let Xgi : BitVec 64 := Xgi ^^^ e51
              let e52 : BitVec 64 × BitVec 64 × BitVec 64 × BitVec 64 × BitVec 64 × BitVec 64 × BitVec 64 ← (
                if laneCount < 12 then (do
                  let e53 : BitVec 64 × BitVec 64 × BitVec 64 ← (
                    if laneCount < 10 then (do
                      let e54 : BitVec 64 ← (
                        if laneCount < 9 then (do
                          pure Xgo)
                        else (do
                          let e55 : BitVec 64 ← ld64 input 64
                          let Xgo : BitVec 64 := Xgo ^^^ e55
                          pure Xgo))
                      let Xgo : BitVec 64 := e54
                      pure (Xgo, Xgu, Xka))
                    else (do
                      let e56 : BitVec 64 ← ld64 input 64
                      let Xgo : BitVec 64 := Xgo ^^^ e56
                      let e57 : BitVec 64 ← ld64 input 72
                      let Xgu : BitVec 64 := Xgu ^^^ e57
                      let e58 : BitVec 64 ← (
                        if laneCount < 11 then (do
                          pure Xka)
                        else (do
                          let e59 : BitVec 64 ← ld64 input 80
                          let Xka : BitVec 64 := Xka ^^^ e59
                          pure Xka))
                      let Xka : BitVec 64 := e58
                      pure (Xgo, Xgu, Xka)))
                  let Xgo : BitVec 64 := e53.1
                  let Xgu : BitVec 64 := e53.2.1
                  let Xka : BitVec 64 := e53.2.2
                  pure (Xgo, Xgu, Xka, Xke, Xki, Xko, Xku))
                else (do
                  let e60 : BitVec 64 ← ld64 input 64
                  let Xgo : BitVec 64 := Xgo ^^^ e60
                  let e61 : BitVec 64 ← ld64 input 72
                  let Xgu : BitVec 64 := Xgu ^^^ e61
                  let e62 : BitVec 64 ← ld64 input 80
                  let Xka : BitVec 64 := Xka ^^^ e62
                  let e63 : BitVec 64 ← ld64 input 88
                  let Xke : BitVec 64 := Xke ^^^ e63
                  let e64 : BitVec 64 × BitVec 64 × BitVec 64 ← (
                    if laneCount < 14 then (do
                      let e65 : BitVec 64 ← (
                        if laneCount < 13 then (do
                          pure Xki)
                        else (do
                          let e66 : BitVec 64 ← ld64 input 96
                          let Xki : BitVec 64 := Xki ^^^ e66
                          pure Xki))
                      let Xki : BitVec 64 := e65
                      pure (Xki, Xko, Xku))
                    else (do
                      let e67 : BitVec 64 ← ld64 input 96
                      let Xki : BitVec 64 := Xki ^^^ e67
                      let e68 : BitVec 64 ← ld64 input 104
                      let Xko : BitVec 64 := Xko ^^^ e68
                      let e69 : BitVec 64 ← (
                        if laneCount < 15 then (do
                          pure Xku)
                        else (do
                          let e70 : BitVec 64 ← ld64 input 112
                          let Xku : BitVec 64 := Xku ^^^ e70
                          pure Xku))
                      let Xku : BitVec 64 := e69
                      pure (Xki, Xko, Xku)))
                  let Xki : BitVec 64 := e64.1
                  let Xko : BitVec 64 := e64.2.1
                  let Xku : BitVec 64 := e64.2.2
                  pure (Xgo, Xgu, Xka, Xke, Xki, Xko, Xku)))
              let Xgo : BitVec 64 := e52.1
              let Xgu : BitVec 64 := e52.2.1
              let Xka : BitVec 64 := e52.2.2.1
              let Xke : BitVec 64 := e52.2.2.2.1
              let Xki : BitVec 64 := e52.2.2.2.2.1
              let Xko : BitVec 64 := e52.2.2.2.2.2.1
              let Xku : BitVec 64 := e52.2.2.2.2.2.2
              pure (Xba, Xbe, Xbi, Xbo, Xbu, Xga, Xge, Xgi, Xgo, Xgu, Xka, Xke, Xki, Xko, Xku)))
          let Xba : BitVec 64 := e24.1
          let Xbe : BitVec 64 := e24.2.1
          let Xbi : BitVec 64 := e24.2.2.1
          let Xbo : BitVec 64 := e24.2.2.2.1
          let Xbu : BitVec 64 := e24.2.2.2.2.1
          let Xga : BitVec 64 := e24.2.2.2.2.2.1
          let Xge : BitVec 64 := e24.2.2.2.2.2.2.1
          let Xgi : BitVec 64 := e24.2.2.2.2.2.2.2.1
          let Xgo : BitVec 64 := e24.2.2.2.2.2.2.2.2.1
          let Xgu : BitVec 64 := e24.2.2.2.2.2.2.2.2.2.1
          let Xka : BitVec 64 := e24.2.2.2.2.2.2.2.2.2.2.1
          let Xke : BitVec 64 := e24.2.2.2.2.2.2.2.2.2.2.2.1
          let Xki : BitVec 64 := e24.2.2.2.2.2.2.2.2.2.2.2.2.1
          let Xko : BitVec 64 := e24.2.2.2.2.2.2.2.2.2.2.2.2.2.1
          let Xku : BitVec 64 := e24.2.2.2.2.2.2.2.2.2.2.2.2.2.2
          pure (Xba, Xbe, Xbi, Xbo, Xbu, Xga, Xge, Xgi, Xgo, Xgu, Xka, Xke, Xki, Xko, Xku, Xma, Xme, Xmi, Xmo, Xmu, Xsa, Xse, Xsi, Xso, Xsu))
        else (do
          let e71 : BitVec 64 ← ld64 input 0
          let Xba : BitVec 64 := Xba ^^^ e71
          let e72 : BitVec 64 ← ld64 input 8
          let Xbe : BitVec 64 := Xbe ^^^ e72
          let e73 : BitVec 64 ← ld64 input 16
          let Xbi : BitVec 64 := Xbi ^^^ e73
          let e74 : BitVec 64 ← ld64 input 24
          let Xbo : BitVec 64 := Xbo ^^^ e74
          let e75 : BitVec 64 ← ld64 input 32
          let Xbu : BitVec 64 := Xbu ^^^ e75
          let e76 : BitVec 64 ← ld64 input 40
          let Xga : BitVec 64 := Xga ^^^ e76
          let e77 : BitVec 64 ← ld64 input 48
          let Xge : BitVec 64 := Xge ^^^ e77
          let e78 : BitVec 64 ← ld64 input 56
          let Xgi : BitVec 64 := Xgi ^^^ e78
          let e79 : BitVec 64 ← ld64 input 64
          let Xgo : BitVec 64 := Xgo ^^^ e79
          let e80 : BitVec 64 ← ld64 input 72
          let Xgu : BitVec 64 := Xgu ^^^ e80
          let e81 : BitVec 64 ← ld64 input 80
          let Xka : BitVec 64 := Xka ^^^ e81
          let e82 : BitVec 64 ← ld64 input 88
          let Xke : BitVec 64 := Xke ^^^ e82
          let e83 : BitVec 64 ← ld64 input 96
          let Xki : BitVec 64 := Xki ^^^ e83
          let e84 : BitVec 64 ← ld64 input 104
          let Xko : BitVec 64 := Xko ^^^ e84
          let e85 : BitVec 64 ← ld64 input 112
          let Xku : BitVec 64 := Xku ^^^ e85
          let e86 : BitVec 64 ← ld64 input 120
          let Xma : BitVec 64 := Xma ^^^ e86
          let e87 : BitVec 64 × BitVec 64 × BitVec 64 × BitVec 64 × BitVec 64 × BitVec 64 × BitVec 64 × BitVec 64 × BitVec 64 ← (
            if laneCount < 24 then (do
              let e88 : BitVec 64 × BitVec 64 × BitVec 64 × BitVec 64 × BitVec 64 × BitVec 64 × BitVec 64 ← (
                if laneCount < 20 then (do
                  let e89 : BitVec 64 × BitVec 64 × BitVec 64 ← (
                    if laneCount < 18 then (do
                      let e90 : BitVec 64 ← (
                        if laneCount < 17 then (do
                          pure Xme)
                        else (do
                          let e91 : BitVec 64 ← ld64 input 128
                          let Xme : BitVec 64 := Xme ^^^ e91
                          pure Xme))
                      let Xme : BitVec 64 := e90
                      pure (Xme, Xmi, Xmo))
                    else (do
                      let e92 : BitVec 64 ← ld64 input 128
                      let Xme : BitVec 64 := Xme ^^^ e92
                      let e93 : BitVec 64 ← ld64 input 136
                      let Xmi : BitVec 64 := Xmi ^^^ e93
                      let e94 : BitVec 64 ← (
                        if laneCount < 19 then (do
                          pure Xmo)
                        else (do
                          let e95 : BitVec 64 ← ld64 input 144
                          let Xmo : BitVec 64 := Xmo ^^^ e95
                          pure Xmo))
                      let Xmo : BitVec 64 := e94
                      pure (Xme, Xmi, Xmo)))
                  let Xme : BitVec 64 := e89.1
                  let Xmi : BitVec 64 := e89.2.1
                  let Xmo : BitVec 64 := e89.2.2
                  pure (Xme, Xmi, Xmo, Xmu, Xsa, Xse, Xsi))
                else (do
                  let e96 : BitVec 64 ← ld64 input 128
                  let Xme : BitVec 64 := Xme ^^^ e96
                  let e97 : BitVec 64 ← ld64 input 136
                  let Xmi : BitVec 64 := Xmi ^^^ e97
                  let e98 : BitVec 64 ← ld64 input 144
                  let Xmo : BitVec 64 := Xmo ^^^ e98
                  let e99 : BitVec 64 ← ld64 input 152
                  let Xmu : BitVec 64 := Xmu ^^^ e99
                  let e100 : BitVec 64 × BitVec 64 × BitVec 64 ← (
                    if laneCount < 22 then (do
                      let e101 : BitVec 64 ← (
                        if laneCount < 21 then (do
                          pure Xsa)
                        else (do
                          let e102 : BitVec 64 ← ld64 input 160
                          let Xsa : BitVec 64 := Xsa ^^^ e102
                          pure Xsa))
                      let Xsa : BitVec 64 := e101
                      pure (Xsa, Xse, Xsi))
                    else (do
                      let e103 : BitVec 64 ← ld64 input 160
                      let Xsa : BitVec 64 := Xsa ^^^ e103
                      let e104 : BitVec 64 ← ld64 input 168
                      let Xse : BitVec 64 := Xse ^^^ e104
                      let e105 : BitVec 64 ← (
                        if laneCount < 23 then (do
                          pure Xsi)
                        else (do
                          let e106 : BitVec 64 ← ld64 input 176
                          let Xsi : BitVec 64 := Xsi ^^^ e106
                          pure Xsi))
                      let Xsi : BitVec 64 := e105
                      pure (Xsa, Xse, Xsi)))
                  let Xsa : BitVec 64 := e100.1
                  let Xse : BitVec 64 := e100.2.1
                  let Xsi : BitVec 64 := e100.2.2
                  pure (Xme, Xmi, Xmo, Xmu, Xsa, Xse, Xsi)))
              let Xme : BitVec 64 := e88.1
              let Xmi : BitVec 64 := e88.2.1
              let Xmo : BitVec 64 := e88.2.2.1
              let Xmu : BitVec 64 := e88.2.2.2.1
              let Xsa : BitVec 64 := e88.2.2.2.2.1
              let Xse : BitVec 64 := e88.2.2.2.2.2.1
              let Xsi : BitVec 64 := e88.2.2.2.2.2.2
              pure (Xme, Xmi, Xmo, Xmu, Xsa, Xse, Xsi, Xso, Xsu))
            else (do
              let e107 : BitVec 64 ← ld64 input 128
              let Xme : BitVec 64 := Xme ^^^ e107
              let e108 : BitVec 64 ← ld64 input 136
              let Xmi : BitVec 64 := Xmi ^^^ e108
              let e109 : BitVec 64 ← ld64 input 144
              let Xmo : BitVec 64 := Xmo ^^^ e109
              let e110 : BitVec 64 ← ld64 input 152
              let Xmu : BitVec 64 := Xmu ^^^ e110
              let e111 : BitVec 64 ← ld64 input 160
              let Xsa : BitVec 64 := Xsa ^^^ e111
              let e112 : BitVec 64 ← ld64 input 168
              let Xse : BitVec 64 := Xse ^^^ e112
              let e113 : BitVec 64 ← ld64 input 176
              let Xsi : BitVec 64 := Xsi ^^^ e113
              let e114 : BitVec 64 ← ld64 input 184
              let Xso : BitVec 64 := Xso ^^^ e114
              let e115 : BitVec 64 ← (
                if laneCount < 25 then (do
                  pure Xsu)
                else (do
                  let e116 : BitVec 64 ← ld64 input 192
                  let Xsu : BitVec 64 := Xsu ^^^ e116
                  pure Xsu))
              let Xsu : BitVec 64 := e115
              pure (Xme, Xmi, Xmo, Xmu, Xsa, Xse, Xsi, Xso, Xsu)))
          let Xme : BitVec 64 := e87.1
          let Xmi : BitVec 64 := e87.2.1
          let Xmo : BitVec 64 := e87.2.2.1
          let Xmu : BitVec 64 := e87.2.2.2.1
          let Xsa : BitVec 64 := e87.2.2.2.2.1
          let Xse : BitVec 64 := e87.2.2.2.2.2.1
          let Xsi : BitVec 64 := e87.2.2.2.2.2.2.1
          let Xso : BitVec 64 := e87.2.2.2.2.2.2.2.1
          let Xsu : BitVec 64 := e87.2.2.2.2.2.2.2.2
          pure (Xba, Xbe, Xbi, Xbo, Xbu, Xga, Xge, Xgi, Xgo, Xgu, Xka, Xke, Xki, Xko, Xku, Xma, Xme, Xmi, Xmo, Xmu, Xsa, Xse, Xsi, Xso, Xsu)))
      let Xba : BitVec 64 := e23.1
      let Xbe : BitVec 64 := e23.2.1
      let Xbi : BitVec 64 := e23.2.2.1
      let Xbo : BitVec 64 := e23.2.2.2.1
      let Xbu : BitVec 64 := e23.2.2.2.2.1
      let Xga : BitVec 64 := e23.2.2.2.2.2.1
      let Xge : BitVec 64 := e23.2.2.2.2.2.2.1
      let Xgi : BitVec 64 := e23.2.2.2.2.2.2.2.1
      let Xgo : BitVec 64 := e23.2.2.2.2.2.2.2.2.1
      let Xgu : BitVec 64 := e23.2.2.2.2.2.2.2.2.2.1
      let Xka : BitVec 64 := e23.2.2.2.2.2.2.2.2.2.2.1
      let Xke : BitVec 64 := e23.2.2.2.2.2.2.2.2.2.2.2.1
      let Xki : BitVec 64 := e23.2.2.2.2.2.2.2.2.2.2.2.2.1
      let Xko : BitVec 64 := e23.2.2.2.2.2.2.2.2.2.2.2.2.2.1
      let Xku : BitVec 64 := e23.2.2.2.2.2.2.2.2.2.2.2.2.2.2.1
      let Xma : BitVec 64 := e23.2.2.2.2.2.2.2.2.2.2.2.2.2.2.2.1
      let Xme : BitVec 64 := e23.2.2.2.2.2.2.2.2.2.2.2.2.2.2.2.2.1
      let Xmi : BitVec 64 := e23.2.2.2.2.2.2.2.2.2.2.2.2.2.2.2.2.2.1
      let Xmo : BitVec 64 := e23.2.2.2.2.2.2.2.2.2.2.2.2.2.2.2.2.2.2.1
      let Xmu : BitVec 64 := e23.2.2.2.2.2.2.2.2.2.2.2.2.2.2.2.2.2.2.2.1
      let Xsa : BitVec 64 := e23.2.2.2.2.2.2.2.2.2.2.2.2.2.2.2.2.2.2.2.2.1
      let Xse : BitVec 64 := e23.2.2.2.2.2.2.2.2.2.2.2.2.2.2.2.2.2.2.2.2.2.1
      let Xsi : BitVec 64 := e23.2.2.2.2.2.2.2.2.2.2.2.2.2.2.2.2.2.2.2.2.2.2.1
      let Xso : BitVec 64 := e23.2.2.2.2.2.2.2.2.2.2.2.2.2.2.2.2.2.2.2.2.2.2.2.1
      let Xsu : BitVec 64 := e23.2.2.2.2.2.2.2.2.2.2.2.2.2.2.2.2.2.2.2.2.2.2.2.2
      pure (Xba, Xbe, Xbi, Xbo, Xbu, Xga, Xge, Xgi, Xgo, Xgu, Xka, Xke, Xki, Xko, Xku, Xma, Xme, Xmi, Xmo, Xmu, Xsa, Xse, Xsi, Xso, Xsu)))
  let Xba : BitVec 64 := e1.1
  let Xbe : BitVec 64 := e1.2.1
  let Xbi : BitVec 64 := e1.2.2.1
  let Xbo : BitVec 64 := e1.2.2.2.1
  let Xbu : BitVec 64 := e1.2.2.2.2.1
  let Xga : BitVec 64 := e1.2.2.2.2.2.1
  let Xge : BitVec 64 := e1.2.2.2.2.2.2.1
  let Xgi : BitVec 64 := e1.2.2.2.2.2.2.2.1
  let Xgo : BitVec 64 := e1.2.2.2.2.2.2.2.2.1
  let Xgu : BitVec 64 := e1.2.2.2.2.2.2.2.2.2.1
  let Xka : BitVec 64 := e1.2.2.2.2.2.2.2.2.2.2.1
  let Xke : BitVec 64 := e1.2.2.2.2.2.2.2.2.2.2.2.1
  let Xki : BitVec 64 := e1.2.2.2.2.2.2.2.2.2.2.2.2.1
  let Xko : BitVec 64 := e1.2.2.2.2.2.2.2.2.2.2.2.2.2.1
  let Xku : BitVec 64 := e1.2.2.2.2.2.2.2.2.2.2.2.2.2.2.1
  let Xma : BitVec 64 := e1.2.2.2.2.2.2.2.2.2.2.2.2.2.2.2.1
  let Xme : BitVec 64 := e1.2.2.2.2.2.2.2.2.2.2.2.2.2.2.2.2.1
  let Xmi : BitVec 64 := e1.2.2.2.2.2.2.2.2.2.2.2.2.2.2.2.2.2.1
  let Xmo : BitVec 64 := e1.2.2.2.2.2.2.2.2.2.2.2.2.2.2.2.2.2.2.1
  let Xmu : BitVec 64 := e1.2.2.2.2.2.2.2.2.2.2.2.2.2.2.2.2.2.2.2.1
  let Xsa : BitVec 64 := e1.2.2.2.2.2.2.2.2.2.2.2.2.2.2.2.2.2.2.2.2.1
  let Xse : BitVec 64 := e1.2.2.2.2.2.2.2.2.2.2.2.2.2.2.2.2.2.2.2.2.2.1
  let Xsi : BitVec 64 := e1.2.2.2.2.2.2.2.2.2.2.2.2.2.2.2.2.2.2.2.2.2.2.1
  let Xso : BitVec 64 := e1.2.2.2.2.2.2.2.2.2.2.2.2.2.2.2.2.2.2.2.2.2.2.2.1
  let Xsu : BitVec 64 := e1.2.2.2.2.2.2.2.2.2.2.2.2.2.2.2.2.2.2.2.2.2.2.2.2
  pure ⟨Xba, Xbe, Xbi, Xbo, Xbu, Xga, Xge, Xgi, Xgo, Xgu, Xka, Xke, Xki, Xko, Xku, Xma, Xme, Xmi, Xmo, Xmu, Xsa, Xse, Xsi, Xso, Xsu⟩

/-- sha3/opt64/KeccakP-1600-opt64.c:85-96 `KeccakP1600_Initialize`. -/
def KeccakP1600_Initialize (state : CPtr) : CM Unit := do
  memset0 state 200
  pure ()

/-- sha3/opt64/KeccakP-1600-opt64.c:100-120 `KeccakP1600_AddBytesInLane`. -/
def KeccakP1600_AddBytesInLane (state : CPtr) (lanePosition : Nat) (data : CPtr) (offset : Nat) (length : Nat) : CM Unit := do
  let lane ← alloc .stack (malloc 8 : Mem Byte)
  if length = 0 then (do
    cfree .stack lane
    pure ())
  else (do
    let e1 : Unit ← (
      if length = 1 then (do
        let e2 : Byte ← ld data 0
        st64 lane 0 (BitVec.setWidth 64 e2)
        pure ())
      else (do
        st64 lane 0 (0 : BitVec 64)
        memcpy (α := Byte) lane data length
        pure ()))
    let e3 : BitVec 64 ← ld64 lane 0
    let e4 ← w64shl e3 ((offset * 8) % U32)
    st64 lane 0 e4
    let e5 : BitVec 64 ← ld64 state (8 * lanePosition)
    let e6 : BitVec 64 ← ld64 lane 0
    st64 state (8 * lanePosition) (e5 ^^^ e6)
    cfree .stack lane
    pure ())

/-- sha3/opt64/KeccakP-1600-opt64.c:124-178 `KeccakP1600_AddLanes`. -/
def KeccakP1600_AddLanes (state : CPtr) (data : CPtr) (laneCount : Nat) : CM Unit := do
  let i : Nat := 0
  let e1 : Nat ← cwhile
      (fun _s1 =>
        let i : Nat := _s1
        decide (((i + 8) % U32) ≤ laneCount))
      (fun _s1 => do
        let i : Nat := _s1
        let e2 : BitVec 64 ← ld64 state (8 * ((i + 0) % U32))
        let e3 : BitVec 64 ← ld64 data (8 * ((i + 0) % U32))
        st64 state (8 * ((i + 0) % U32)) (e2 ^^^ e3)
        let e4 : BitVec 64 ← ld64 state (8 * ((i + 1) % U32))
        let e5 : BitVec 64 ← ld64 data (8 * ((i + 1) % U32))
        st64 state (8 * ((i + 1) % U32)) (e4 ^^^ e5)
        let e6 : BitVec 64 ← ld64 state (8 * ((i + 2) % U32))
        let e7 : BitVec 64 ← ld64 data (8 * ((i + 2) % U32))
        st64 state (8 * ((i + 2) % U32)) (e6 ^^^ e7)
        let e8 : BitVec 64 ← ld64 state (8 * ((i + 3) % U32))
        let e9 : BitVec 64 ← ld64 data (8 * ((i + 3) % U32))
        st64 state (8 * ((i + 3) % U32)) (e8 ^^^ e9)
        let e10 : BitVec 64 ← ld64 state (8 * ((i + 4) % U32))
        let e11 : BitVec 64 ← ld64 data (8 * ((i + 4) % U32))
        st64 state (8 * ((i + 4) % U32)) (e10 ^^^ e11)
        let e12 : BitVec 64 ← ld64 state (8 * ((i + 5) % U32))
        let e13 : BitVec 64 ← ld64 data (8 * ((i + 5) % U32))
        st64 state (8 * ((i + 5) % U32)) (e12 ^^^ e13)
        let e14 : BitVec 64 ← ld64 state (8 * ((i + 6) % U32))
        let e15 : BitVec 64 ← ld64 data (8 * ((i + 6) % U32))
        st64 state (8 * ((i + 6) % U32)) (e14 ^^^ e15)
        let e16 : BitVec 64 ← ld64 state (8 * ((i + 7) % U32))
        let e17 : BitVec 64 ← ld64 data (8 * ((i + 7) % U32))
        st64 state (8 * ((i + 7) % U32)) (e16 ^^^ e17)
        let i : Nat := (i + 8) % U32
        pure i)
      i
  let i : Nat := e1
  let e18 : Nat ← cwhile
      (fun _s1 =>
        let i : Nat := _s1
        decide (((i + 4) % U32) ≤ laneCount))
      (fun _s1 => do
        let i : Nat := _s1
        let e19 : BitVec 64 ← ld64 state (8 * ((i + 0) % U32))
        let e20 : BitVec 64 ← ld64 data (8 * ((i + 0) % U32))
        st64 state (8 * ((i + 0) % U32)) (e19 ^^^ e20)
        let e21 : BitVec 64 ← ld64 state (8 * ((i + 1) % U32))
        let e22 : BitVec 64 ← ld64 data (8 * ((i + 1) % U32))
        st64 state (8 * ((i + 1) % U32)) (e21 ^^^ e22)
        let e23 : BitVec 64 ← ld64 state (8 * ((i + 2) % U32))
        let e24 : BitVec 64 ← ld64 data (8 * ((i + 2) % U32))
        st64 state (8 * ((i + 2) % U32)) (e23 ^^^ e24)
        let e25 : BitVec 64 ← ld64 state (8 * ((i + 3) % U32))
        let e26 : BitVec 64 ← ld64 data (8 * ((i + 3) % U32))
        st64 state (8 * ((i + 3) % U32)) (e25 ^^^ e26)
        let i : Nat := (i + 4) % U32
        pure i)
      i
  let i : Nat := e18
  let e27 : Nat ← cwhile
      (fun _s1 =>
        let i : Nat := _s1
        decide (((i + 2) % U32) ≤ laneCount))
      (fun _s1 => do
        let i : Nat := _s1
        let e28 : BitVec 64 ← ld64 state (8 * ((i + 0) % U32))
        let e29 : BitVec 64 ← ld64 data (8 * ((i + 0) % U32))
        st64 state (8 * ((i + 0) % U32)) (e28 ^^^ e29)
        let e30 : BitVec 64 ← ld64 state (8 * ((i + 1) % U32))
        let e31 : BitVec 64 ← ld64 data (8 * ((i + 1) % U32))
        st64 state (8 * ((i + 1) % U32)) (e30 ^^^ e31)
        let i : Nat := (i + 2) % U32
        pure i)
      i
  let i : Nat := e27
  let e32 : Unit ← (
    if i < laneCount then (do
      let e33 : BitVec 64 ← ld64 state (8 * ((i + 0) % U32))
      let e34 : BitVec 64 ← ld64 data (8 * ((i + 0) % U32))
      st64 state (8 * ((i + 0) % U32)) (e33 ^^^ e34)
      pure ())
    else (do
      pure ()))
  pure ()

/-- sha3/opt64/KeccakP-1600-opt64.c:193-196 `KeccakP1600_AddBytes`. -/
def KeccakP1600_AddBytes (state : CPtr) (data : CPtr) (offset : Nat) (length : Nat) : CM Unit := do
  let e1 : Unit ← (
    if offset = 0 then (do
      KeccakP1600_AddLanes state data (length / 8)
      KeccakP1600_AddBytesInLane state (length / 8) (padd data (((length / 8) * 8) % U32)) 0 (length % 8)
      pure ())
    else (do
      let _sizeLeft : Nat := length
      let _lanePosition : Nat := offset / 8
      let _offsetInLane : Nat := offset % 8
      let _curData : CPtr := data
      let e2 : Nat × Nat × Nat × CPtr ← cwhile
          (fun _s1 =>
            let _sizeLeft : Nat := _s1.1
            decide (_sizeLeft > 0))
          (fun _s1 => do
            let _sizeLeft : Nat := _s1.1
            let _lanePosition : Nat := _s1.2.1
            let _offsetInLane : Nat := _s1.2.2.1
            let _curData : CPtr := _s1.2.2.2
            let _bytesInLane : Nat := (8 + U32 - _offsetInLane) % U32
            let e3 : Nat ← (
              if _bytesInLane > _sizeLeft then (do
                let _bytesInLane : Nat := _sizeLeft
                pure _bytesInLane)
              else (do
                pure _bytesInLane))
            let _bytesInLane : Nat := e3
            KeccakP1600_AddBytesInLane state _lanePosition _curData _offsetInLane _bytesInLane
            let _sizeLeft : Nat := (_sizeLeft + U32 - _bytesInLane) % U32
            let _lanePosition : Nat := (_lanePosition + 1) % U32
            let _offsetInLane : Nat := 0
            let _curData : CPtr := padd _curData _bytesInLane
            pure (_sizeLeft, _lanePosition, _offsetInLane, _curData))
          (_sizeLeft, _lanePosition, _offsetInLane, _curData)
      let _sizeLeft : Nat := e2.1
      let _lanePosition : Nat := e2.2.1
      let _offsetInLane : Nat := e2.2.2.1
      let _curData : CPtr := e2.2.2.2
      pure ()))
  pure ()

/-- sha3/opt64/KeccakP-1600-opt64.c:342-353 `KeccakP1600_Permute_24rounds`. -/
def KeccakP1600_Permute_24rounds (state : CPtr) : CM Unit := do
  let stateAsLanes : CPtr := state
  let e1 ← copyFromState stateAsLanes
  let A : Keccak.Lanes := e1
  let e2 ← rounds24 A
  let A : Keccak.Lanes := e2
  copyToState stateAsLanes A
  pure ()

/-- sha3/opt64/KeccakP-1600-opt64.c:372-393 `KeccakP1600_ExtractBytesInLane`. -/
def KeccakP1600_ExtractBytesInLane (state : CPtr) (lanePosition : Nat) (data : CPtr) (offset : Nat)
    (length : Nat) : CM Unit := do
  let e1 : BitVec 64 ← ld64 state (8 * lanePosition)
  let lane : BitVec 64 := e1
  let lane1 ← alloc .stack (malloc 8 : Mem Byte)
  st64 lane1 0 lane
  memcpy (α := Byte) data (padd lane1 offset) length
  cfree .stack lane1
  pure ()

/-- sha3/opt64/KeccakP-1600-opt64.c:407-437 `KeccakP1600_ExtractLanes`. -/
def KeccakP1600_ExtractLanes (state : CPtr) (data : CPtr) (laneCount : Nat) : CM Unit := do
  memcpy (α := Byte) data state ((laneCount * 8) % U32)
  pure ()

/-- sha3/opt64/KeccakP-1600-opt64.c:441-444 `KeccakP1600_ExtractBytes`. -/
def KeccakP1600_ExtractBytes (state : CPtr) (data : CPtr) (offset : Nat) (length : Nat) : CM Unit := do
  let e1 : Unit ← (
    if offset = 0 then (do
      KeccakP1600_ExtractLanes state data (length / 8)
      KeccakP1600_ExtractBytesInLane state (length / 8) (padd data (((length / 8) * 8) % U32)) 0 (length % 8)
      pure ())
    else (do
      let _sizeLeft : Nat := length
      let _lanePosition : Nat := offset / 8
      let _offsetInLane : Nat := offset % 8
      let _curData : CPtr := data
      let e2 : Nat × Nat × Nat × CPtr ← cwhile
          (fun _s1 =>
            let _sizeLeft : Nat := _s1.1
            decide (_sizeLeft > 0))
          (fun _s1 => do
            let _sizeLeft : Nat := _s1.1
            let _lanePosition : Nat := _s1.2.1
            let _offsetInLane : Nat := _s1.2.2.1
            let _curData : CPtr := _s1.2.2.2
            let _bytesInLane : Nat := (8 + U32 - _offsetInLane) % U32
            let e3 : Nat ← (
              if _bytesInLane > _sizeLeft then (do
                let _bytesInLane : Nat := _sizeLeft
                pure _bytesInLane)
              else (do
                pure _bytesInLane))
            let _bytesInLane : Nat := e3
            KeccakP1600_ExtractBytesInLane state _lanePosition _curData _offsetInLane _bytesInLane
            let _sizeLeft : Nat := (_sizeLeft + U32 - _bytesInLane) % U32
            let _lanePosition : Nat := (_lanePosition + 1) % U32
            let _offsetInLane : Nat := 0
            let _curData : CPtr := padd _curData _bytesInLane
            pure (_sizeLeft, _lanePosition, _offsetInLane, _curData))
          (_sizeLeft, _lanePosition, _offsetInLane, _curData)
      let _sizeLeft : Nat := e2.1
      let _lanePosition : Nat := e2.2.1
      let _offsetInLane : Nat := e2.2.2.1
      let _curData : CPtr := e2.2.2.2
      pure ()))
  pure ()

/-- sha3/opt64/KeccakP-1600-opt64.c:523-542 `KeccakF1600_FastLoop_Absorb`. -/
def KeccakF1600_FastLoop_Absorb (state : CPtr) (laneCount : Nat) (data : CPtr) (dataByteLen : Nat) : CM Nat := do
  let originalDataByteLen : Nat := dataByteLen
  let stateAsLanes : CPtr := state
  let inDataAsLanes : CPtr := data
  let e1 ← copyFromState stateAsLanes
  let A : Keccak.Lanes := e1
  let e2 : Nat × Keccak.Lanes × CPtr ← cwhile
      (fun _s1 =>
        let dataByteLen : Nat := _s1.1
        decide (dataByteLen ≥ ((laneCount * 8) % U32)))
      (fun _s1 => do
        let dataByteLen : Nat := _s1.1
        let A : Keccak.Lanes := _s1.2.1
        let inDataAsLanes : CPtr := _s1.2.2
        let e3 ← addInput A inDataAsLanes laneCount
        let A : Keccak.Lanes := e3
        let e4 ← rounds24 A
        let A : Keccak.Lanes := e4
        let inDataAsLanes : CPtr := padd inDataAsLanes (8 * laneCount)
        let dataByteLen : Nat := (dataByteLen + U64 - ((laneCount * 8) % U32)) % U64
        pure (dataByteLen, A, inDataAsLanes))
      (dataByteLen, A, inDataAsLanes)
  let dataByteLen : Nat := e2.1
  let A : Keccak.Lanes := e2.2.1
  let inDataAsLanes : CPtr := e2.2.2
  copyToState stateAsLanes A
  pure ((originalDataByteLen + U64 - dataByteLen) % U64)

end Faest.GenH
