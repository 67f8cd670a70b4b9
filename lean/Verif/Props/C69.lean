/-
C69: the functions of sha3/opt64 on one state on a big-endian host, sha3/opt64/KeccakP-1600-opt64.c.

The state is 200 bytes anywhere in a block and holds a string of 1600 bits as 25 words with the most significant byte first
(`HoldsBe`).
-/
import Verif.Proofs.Gen.TopBe
import Verif.Props.C67

set_option linter.unusedSimpArgs false

namespace Faest.Props
open Faest.C Faest.Keccak
open Spec (byteFn)
open Spec.Keccak (Str Around keccakP bitsOf HoldsBe absorbBlock)

section
variable (H : C.Heap) (hf : ∀ i, H.next ≤ i → H.cells i = none)

include hf in
/-- **C69, `KeccakP1600_Initialize`.** Whatever the 200 bytes were: they hold 1600 zeros. -/
theorem C69_initialize {kd : Kind} {b w : Nat} {m : Mem Byte} (hb : H.cells b = some ⟨kd, .bytes m⟩) (hm : w + 200 ≤ m.length) :
    ∃ H' m', GenB.KeccakP1600_Initialize (some ⟨b, w⟩) H = some ((), H') ∧
      H'.cells = upd H.cells b (some ⟨kd, .bytes m'⟩) ∧ HoldsBe m' w (fun _ => false) ∧ Around w m m' := by
  obtain ⟨D, hD⟩ := C.sat_exists H hf
  obtain ⟨F, rfl⟩ := split1 hD hb
  obtain ⟨H', h1, h2⟩ := GenX.run_top hD (GenB.init_runs (kd := kd) (b := b) (m := m) (F := F) hm)
  exact ⟨H', _, h1, h2, GenB.HoldsBe.of hm (by funext i; simp [bitsB]), GenN.around_st hm⟩

include hf in
/-- **C69, `KeccakP1600_Permute_24rounds`.** KECCAK-p[1600, 24] of FIPS 202. -/
theorem C69_permute {kd : Kind} {b w : Nat} {m : Mem Byte} {S : Str} (hb : H.cells b = some ⟨kd, .bytes m⟩) (hS : HoldsBe m w S) :
    ∃ H' m', GenB.KeccakP1600_Permute_24rounds (some ⟨b, w⟩) H = some ((), H') ∧
      H'.cells = upd H.cells b (some ⟨kd, .bytes m'⟩) ∧ HoldsBe m' w (keccakP S) ∧ Around w m m' := by
  have hh := GenB.HoldsBe.eq hS
  have hm := hh.le (by decide)
  obtain ⟨D, hD⟩ := C.sat_exists H hf
  obtain ⟨F, rfl⟩ := split1 hD hb
  have h := GenB.permute_runs (kd := kd) (b := b) (B := bytesS S) (F := F) hm
  rw [GenH.st_self hh] at h
  obtain ⟨H', h1, h2⟩ := GenX.run_top hD h
  exact ⟨H', _, h1, h2, GenB.HoldsBe.of hm (by rw [bitsB_keccakB, bitsB_bytesS]), GenN.around_st hm⟩

include hf in
/-- **C69, `KeccakP1600_AddByte`.** -/
theorem C69_addByte {kd : Kind} {b w : Nat} {m : Mem Byte} {S : Str} {x : Byte} {off : Nat} (hb : H.cells b = some ⟨kd, .bytes m⟩)
    (hS : HoldsBe m w S) (ho : off < 200) :
    ∃ H' m', GenB.KeccakP1600_AddByte (some ⟨b, w⟩) x off H = some ((), H') ∧
      H'.cells = upd H.cells b (some ⟨kd, .bytes m'⟩) ∧
      HoldsBe m' w (fun j => S j ^^ (decide (8 * off ≤ j.val) && (bitsOf [x]).getD (j.val - 8 * off) false)) ∧ Around w m m' := by
  have hh := GenB.HoldsBe.eq hS
  have hm := hh.le (by decide)
  obtain ⟨D, hD⟩ := C.sat_exists H hf
  obtain ⟨F, rfl⟩ := split1 hD hb
  have h := GenB.addByte_runs (kd := kd) (b := b) (B := bytesS S) (F := F) (c := x) hm ho
  rw [GenH.st_self hh] at h
  obtain ⟨H', h1, h2⟩ := GenX.run_top hD h
  refine ⟨H', _, h1, h2, GenB.HoldsBe.of hm ?_, GenN.around_st hm⟩
  rw [← bits_xor]
  refine congrArg bitsB (xorB_congr fun i hi => ?_)
  have : i = 0 := by have : i < 1 := hi; omega
  subst this
  rfl

include hf in
/-- **C69, `KeccakP1600_AddBytes`.** The bytes `l` (possibly none), read from another block, are added from byte `off` of
the string on.  A whole state of 200 bytes is excluded, see `C69_whole_state`. -/
theorem C69_addBytes {kd : Kind} {b w : Nat} {m : Mem Byte} {S : Str} {p : CPtr} {l : List Byte} {off : Nat}
    (hb : H.cells b = some ⟨kd, .bytes m⟩) (hS : HoldsBe m w S) (hp : BytesAt H p l) (ha : Apart p b) (ho : off + l.length ≤ 200)
    (h200 : off = 0 → l.length < 200) :
    ∃ H' m', GenB.KeccakP1600_AddBytes (some ⟨b, w⟩) p off l.length H = some ((), H') ∧
      H'.cells = upd H.cells b (some ⟨kd, .bytes m'⟩) ∧
      HoldsBe m' w (fun j => S j ^^ (decide (8 * off ≤ j.val) && (bitsOf l).getD (j.val - 8 * off) false)) ∧ Around w m m' := by
  have hh := GenB.HoldsBe.eq hS
  have hm := hh.le (by decide)
  obtain ⟨D, hD⟩ := C.sat_exists H hf
  obtain ⟨F, rfl⟩ := split1 hD hb
  have h := GenB.addBytes_runs (kd := kd) (b := b) (B := bytesS S) (F := F) hm
    (RdAt.view (RdAt.rest (hp.rdAt hD) ha)) (has_ofList_le l le_rfl) ho h200
  rw [GenH.st_self hh] at h
  obtain ⟨H', h1, h2⟩ := GenX.run_top hD h
  exact ⟨H', _, h1, h2, GenB.HoldsBe.of hm (bits_xor S off l), GenN.around_st hm⟩

include hf in
/-- **C69, `KeccakP1600_ExtractBytes`.** `n` bytes from byte `off` of the string on are stored at `q`; nothing else
changes. -/
theorem C69_extractBytes {kd : Kind} {b w : Nat} {m : Mem Byte} {S : Str} {q : Ptr} {off n : Nat}
    (hb : H.cells b = some ⟨kd, .bytes m⟩) (hS : HoldsBe m w S) (hq : Room H q n) (ha : q.blk ≠ b) (ho : off + n ≤ 200)
    (h200 : off = 0 → n < 200) :
    ∃ H' l, GenB.KeccakP1600_ExtractBytes (some ⟨b, w⟩) (some q) off n H = some ((), H') ∧
      H'.cells = store H.cells q l ∧ l.length = n ∧ bitsOf l = ((List.ofFn S).drop (8 * off)).take (8 * n) := by
  have hh := GenB.HoldsBe.eq hS
  have hm := hh.le (by decide)
  obtain ⟨D, hD⟩ := C.sat_exists H hf
  obtain ⟨F, rfl⟩ := split1 hD hb
  have hv := hq.valid hD ha
  have h := GenB.extractBytes_runs (kd := kd) (b := b) (B := bytesS S) (F := F) hm hv ho h200
  rw [GenH.st_self hh] at h
  obtain ⟨_, H', D', h1, h2, rfl, rfl⟩ := h H hD
  have h2 : Sat H' (up (bl kd b m + F) q (tabP n fun j => bytesS S (off + j))) := by
    have hn : ND (bl kd b m + F) := hD.nodup
    exact (up_frame hn hv).symm ▸ h2
  exact ⟨H', _, h1, cells_up hD h2 (by rw [tabP_length]; exact hv.right), tabP_length _ _, bits_out S ho⟩

include hf in
/-- **C69, `KeccakF1600_FastLoop_Absorb`.** For the lane counts in use (17 and 21) and data of any length: all whole blocks
of the data are absorbed (FIPS 202, Algorithm 8, step 6) and the number of bytes in them is returned. -/
theorem C69_absorb {kd : Kind} {b w : Nat} {m : Mem Byte} {S : Str} {p : CPtr} {l : List Byte} {c : Nat} (hc : c = 17 ∨ c = 21)
    (hb : H.cells b = some ⟨kd, .bytes m⟩) (hS : HoldsBe m w S) (hp : BytesAt H p l) (ha : Apart p b) (hl : l.length < 2 ^ 64) :
    ∃ H' m', GenB.KeccakF1600_FastLoop_Absorb (some ⟨b, w⟩) c p l.length H = some (8 * c * (l.length / (8 * c)), H') ∧
      H'.cells = upd H.cells b (some ⟨kd, .bytes m'⟩) ∧
      HoldsBe m' w ((List.range (l.length / (8 * c))).foldl (absorbBlock keccakP (64 * c) (bitsOf l)) S) ∧ Around w m m' := by
  have hh := GenB.HoldsBe.eq hS
  have hm := hh.le (by decide)
  obtain ⟨D, hD⟩ := C.sat_exists H hf
  obtain ⟨F, rfl⟩ := split1 hD hb
  have h := GenB.fastAbsorb_runs (kd := kd) (b := b) (B := bytesS S) (F := F) hc hm
    (RdAt.view (RdAt.rest (hp.rdAt hD) ha)) (has_ofList_le l le_rfl) hl
  rw [GenH.st_self hh] at h
  have e : l.length - l.length % (8 * c) = 8 * c * (l.length / (8 * c)) := by have := Nat.div_add_mod l.length (8 * c); omega
  rw [e] at h
  obtain ⟨H', h1, h2⟩ := GenX.run_top hD h
  refine ⟨H', _, h1, h2, GenB.HoldsBe.of hm ?_, GenN.around_st hm⟩
  obtain ⟨B, h3, h4⟩ := absorb_from (r := 8 * c) (by omega) l (bytesS S) (l.length / (8 * c)) (Nat.mul_div_le _ _)
  rw [bitsB_bytesS, show 8 * (8 * c) = 64 * c by omega] at h4
  have e2 : tabP (8 * c * (l.length / (8 * c))) (byteFn l) = l.take (8 * c * (l.length / (8 * c))) := by
    have hle : 8 * c * (l.length / (8 * c)) ≤ l.length := Nat.mul_div_le _ _
    refine List.ext_getElem? fun i => ?_
    rw [tabP_getElem?, List.getElem?_take]
    by_cases hi : i < 8 * c * (l.length / (8 * c))
    · rw [if_pos hi, if_pos hi, List.getElem?_eq_getElem (by omega)]
      simp [byteFn, show i < l.length by omega]
    · rw [if_neg hi, if_neg hi]
  rw [h4, e2, h3]

end

/-- **A whole state.** `KeccakP1600_AddBytes` from position 0 on with 200 bytes reads and writes a 26th lane behind the
state: `KeccakP1600_AddBytesInLane` has no test for the length 0 on a big-endian host (KeccakP-1600-opt64.c:100-120; the
version for little-endian hosts has one, :104-105).  With a state which ends with its block the call is undefined.  The sponge adds at most
168 bytes. -/
theorem C69_whole_state (H : C.Heap) (hf : ∀ i, H.next ≤ i → H.cells i = none) {kd : Kind} {b : Nat} {m : Mem Byte} {S : Str}
    {p : CPtr} {l : List Byte} (hb : H.cells b = some ⟨kd, .bytes m⟩) (hm : m.length = 200) (hS : HoldsBe m 0 S) (hp : BytesAt H p l)
    (ha : Apart p b) (h2 : l.length = 200) :
    GenB.KeccakP1600_AddBytes (some ⟨b, 0⟩) p 0 l.length H = none := by
  have hh := GenB.HoldsBe.eq hS
  obtain ⟨D, hD⟩ := C.sat_exists H hf
  obtain ⟨F, rfl⟩ := split1 hD hb
  have h := GenB.addLanes_runs (kd := kd) (b := b) (B := bytesS S) (F := F) (c := 25) (by omega : 0 + 200 ≤ m.length)
    (RdAt.view (RdAt.rest (hp.rdAt hD) ha)) (has_ofList_le l le_rfl) (by omega) (by omega)
  rw [GenH.st_self hh] at h
  obtain ⟨H', h1, hc⟩ := GenX.run_top hD h
  have hb' : H'.cells b = some ⟨kd, .bytes (GenH.St m 0 (GenB.rv (xorB (bytesS S) 0 (8 * 25) (byteFn l))))⟩ := by
    rw [hc]; simp [upd]
  have hlane : ∀ q, GenB.KeccakP1600_AddBytesInLane (some ⟨b, 0⟩) 25 q 0 0 H' = none := by
    intro q
    have hld : ld64be (some ⟨b, 0⟩) (8 * 25) H' = none := by
      have e1 : blk (α := Byte) ⟨b, 0 + 8 * 25⟩ H' = some (GenH.St m 0 (GenB.rv (xorB (bytesS S) 0 (8 * 25) (byteFn l))), H') := by
        unfold blk; rw [hb']; rfl
      have e2 : ldN (α := Byte) (padd (some ⟨b, 0⟩) (8 * 25)) 8 H' = none := by
        show ((blk (α := Byte) ⟨b, 0 + 8 * 25⟩ H') >>= fun p => lft (rdN p.1 (0 + 8 * 25) 8) p.2) = none
        rw [e1]
        show (lft (rdN _ _ 8) : CM _) H' = none
        have e3 : rdN (GenH.St m 0 (GenB.rv (xorB (bytesS S) 0 (8 * 25) (byteFn l)))) (0 + 8 * 25) 8 = none := by
          unfold rdN
          rw [if_neg (by rw [GenH.st_len (by omega), hm]; decide)]
        rw [e3]
        rfl
      show (ldN (α := Byte) (padd (some ⟨b, 0⟩) (8 * 25)) 8 H' >>= _) = none
      rw [e2]
      rfl
    unfold GenB.KeccakP1600_AddBytesInLane cwhile
    dsimp only
    rw [cwhileF_end (by rfl), pure_bind]
    show (ld64be (some ⟨b, 0⟩) (8 * 25) H' >>= _) = none
    rw [hld]
    rfl
  rw [h2]
  unfold GenB.KeccakP1600_AddBytes
  rw [if_pos rfl]
  show ((GenB.KeccakP1600_AddLanes (some ⟨b, 0⟩) p 25 H >>= _) >>= _) = none
  rw [h1]
  show ((GenB.KeccakP1600_AddBytesInLane (some ⟨b, 0⟩) 25 _ 0 0 H' >>= _) >>= _) = none
  rw [hlane]
  rfl

/-! ### The hypotheses can be met -/

private def d69 : List Byte := (List.range 300).map (BitVec.ofNat 8)

private def B69 : Nat → Byte := fun i => BitVec.ofNat 8 i

/-- Block 0 has room for four states, the third is in use; block 2 is a single state. -/
private def m69 : Mem Byte := GenH.St (malloc (4 * 200)) 400 (GenB.rv B69)

private def s69 : Mem Byte := GenH.St (malloc 200) 0 (GenB.rv B69)

private def H69 : C.Heap :=
  ⟨3, fun i => if i = 0 then some ⟨.stack, .bytes m69⟩
    else if i = 1 then some ⟨.caller, .bytes (ofList d69)⟩
    else if i = 2 then some ⟨.stack, .bytes s69⟩ else none⟩

private theorem H69_fresh : ∀ i, H69.next ≤ i → H69.cells i = none := by
  intro i hi
  have : 3 ≤ i := hi
  show (if i = 0 then _ else _) = none
  rw [if_neg (by omega), if_neg (by omega), if_neg (by omega)]

private theorem malloc_len69 (n : Nat) : (malloc (α := Byte) n).length = n := by simp [malloc]

private theorem m69_len : m69.length = 4 * 200 := by
  unfold m69
  rw [GenH.st_len (by rw [malloc_len69]; decide), malloc_len69]

private theorem s69_len : s69.length = 200 := by
  unfold s69
  rw [GenH.st_len (by rw [malloc_len69]), malloc_len69]

private theorem m69_holds : HoldsBe m69 400 (bitsB B69) := GenB.HoldsBe.of (by rw [malloc_len69]; decide) rfl

private theorem s69_holds : HoldsBe s69 0 (bitsB B69) := GenB.HoldsBe.of (by rw [malloc_len69]) rfl

private theorem d69_len : d69.length = 300 := by simp [d69]

private theorem d69_at (o n : Nat) (h : o + n ≤ 300) : BytesAt H69 (some ⟨1, o⟩) ((d69.drop o).take n) := by
  refine ⟨1, o, .caller, ofList d69, rfl, rfl, ?_, fun i hi => ?_⟩
  · simp [ofList, d69_len]; omega
  · have hi : i < n ∧ i < 300 - o := by simpa [d69_len] using hi
    simp [ofList, List.getElem?_eq_getElem (show o + i < d69.length by rw [d69_len]; omega)]

private theorem H69_apart {o b : Nat} (hb : 1 ≠ b) : Apart (some ⟨1, o⟩) b := by
  rintro q hq; obtain rfl := Option.some.inj hq; exact hb

/-- The first byte of the string is the eighth in memory. -/
example : s69[7]? = some (some (B69 0)) := GenH.cell_eq (GenH.st_has (by rw [malloc_len69]) (GenB.rv B69) 7 (by decide))

example := C69_initialize H69 H69_fresh (b := 0) (w := 600) rfl (by rw [m69_len])
example := C69_permute H69 H69_fresh (b := 0) rfl m69_holds
example := C69_addByte H69 H69_fresh (b := 0) (x := 0x1f) (off := 77) rfl m69_holds (by omega)
example := C69_addBytes H69 H69_fresh (b := 0) (off := 7) rfl m69_holds (d69_at 10 187 (by omega)) (H69_apart (by decide))
  (by rw [List.length_take, List.length_drop, d69_len]; omega) (by decide)
example := C69_extractBytes H69 H69_fresh (b := 0) (q := ⟨1, 0⟩) (off := 5) (n := 100) rfl m69_holds
  ⟨.caller, ofList d69, rfl, by simp [ofList, d69_len]⟩ (by decide) (by omega) (by decide)
example := C69_absorb H69 H69_fresh (b := 0) (c := 17) (Or.inl rfl) rfl m69_holds (d69_at 1 290 (by omega)) (H69_apart (by decide))
  (by rw [List.length_take, List.length_drop, d69_len]; omega)
example := C69_whole_state H69 H69_fresh (b := 2) rfl s69_len s69_holds (d69_at 1 200 (by omega)) (H69_apart (by decide))
  (by rw [List.length_take, List.length_drop, d69_len]; omega)

end Faest.Props
