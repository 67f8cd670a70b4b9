/-
C67: the functions on one state in assembler for ARM, sha3/armv8a-neon/KeccakP-1600-armv8a-neon.s.

The state is 200 bytes anywhere in a block (the code for four states calls the functions at the offsets 0, 200, 400 and
600 of one block) and holds a string of 1600 bits in the order of FIPS 202 (`HoldsAt`).  `c0` are the registers, flags and
vector registers which the function finds, with the exception of its arguments.
-/
import Verif.Proofs.A64.Top
import Verif.Props.C65

set_option linter.unusedSimpArgs false

namespace Faest.Props
open Faest.C Faest.Keccak
open Spec (byteFn)
open Spec.Keccak (Str Around keccakP bitsOf)

section
variable (c0 : A64.Cpu) (H : C.Heap) (hf : ∀ i, H.next ≤ i → H.cells i = none)

include hf in
/-- **C67, `KeccakP1600_Initialize`.** Whatever the 200 bytes were: they hold 1600 zeros. -/
theorem C67_initialize {kd : Kind} {b w : Nat} {m : Mem Byte} (hb : H.cells b = some ⟨kd, .bytes m⟩) (hm : w + 200 ≤ m.length) :
    ∃ H' m', GenN.KeccakP1600_Initialize c0 (some ⟨b, w⟩) H = some ((), H') ∧
      H'.cells = upd H.cells b (some ⟨kd, .bytes m'⟩) ∧ Spec.Keccak.HoldsAt m' w (fun _ => false) ∧ Around w m m' := by
  obtain ⟨D, hD⟩ := C.sat_exists H hf
  obtain ⟨F, rfl⟩ := split1 hD hb
  obtain ⟨H', h1, h2⟩ := GenX.run_top hD (GenN.init_runs (c0 := c0) (kd := kd) (b := b) (m := m) (F := F) hm)
  exact ⟨H', _, h1, h2, GenN.HoldsAt.of hm (by funext i; simp [bitsB]), GenN.around_st hm⟩

include hf in
/-- **C67, `KeccakP1600_Permute_24rounds`.** KECCAK-p[1600, 24] of FIPS 202. -/
theorem C67_permute {kd : Kind} {b w : Nat} {m : Mem Byte} {S : Str} (hb : H.cells b = some ⟨kd, .bytes m⟩) (hS : Spec.Keccak.HoldsAt m w S) :
    ∃ H' m', GenN.KeccakP1600_Permute_24rounds c0 (some ⟨b, w⟩) H = some ((), H') ∧
      H'.cells = upd H.cells b (some ⟨kd, .bytes m'⟩) ∧ Spec.Keccak.HoldsAt m' w (keccakP S) ∧ Around w m m' := by
  have hh := GenN.HoldsAt.eq hS
  have hm := hh.le (by decide)
  obtain ⟨D, hD⟩ := C.sat_exists H hf
  obtain ⟨F, rfl⟩ := split1 hD hb
  have h := GenN.permute_runs (c0 := c0) (kd := kd) (b := b) (B := bytesS S) (F := F) hm
  rw [GenH.st_self hh] at h
  obtain ⟨H', h1, h2⟩ := GenX.run_top hD h
  exact ⟨H', _, h1, h2, GenN.HoldsAt.of hm (by rw [bitsB_keccakB, bitsB_bytesS]), GenN.around_st hm⟩

include hf in
/-- **C67, `KeccakP1600_AddByte`.** -/
theorem C67_addByte {kd : Kind} {b w : Nat} {m : Mem Byte} {S : Str} {x : Byte} {off : Nat} (hb : H.cells b = some ⟨kd, .bytes m⟩)
    (hS : Spec.Keccak.HoldsAt m w S) (ho : off < 200) :
    ∃ H' m', GenN.KeccakP1600_AddByte c0 (some ⟨b, w⟩) x off H = some ((), H') ∧
      H'.cells = upd H.cells b (some ⟨kd, .bytes m'⟩) ∧
      Spec.Keccak.HoldsAt m' w (fun j => S j ^^ (decide (8 * off ≤ j.val) && (bitsOf [x]).getD (j.val - 8 * off) false)) ∧ Around w m m' := by
  have hh := GenN.HoldsAt.eq hS
  have hm := hh.le (by decide)
  obtain ⟨D, hD⟩ := C.sat_exists H hf
  obtain ⟨F, rfl⟩ := split1 hD hb
  have h := GenN.addByte_runs (c0 := c0) (kd := kd) (b := b) (B := bytesS S) (F := F) (x := x) hm ho
  rw [GenH.st_self hh] at h
  obtain ⟨H', h1, h2⟩ := GenX.run_top hD h
  refine ⟨H', _, h1, h2, GenN.HoldsAt.of hm ?_, GenN.around_st hm⟩
  rw [← bits_xor]
  refine congrArg bitsB (xorB_congr fun i hi => ?_)
  have : i = 0 := by have : i < 1 := hi; omega
  subst this
  rfl

include hf in
/-- **C67, `KeccakP1600_AddBytes`.** The bytes `l` (possibly none), read from another block, are added from byte `off` of
the string on. -/
theorem C67_addBytes {kd : Kind} {b w : Nat} {m : Mem Byte} {S : Str} {p : CPtr} {l : List Byte} {off : Nat}
    (hb : H.cells b = some ⟨kd, .bytes m⟩) (hS : Spec.Keccak.HoldsAt m w S) (hp : BytesAt H p l) (ha : Apart p b) (ho : off + l.length ≤ 200) :
    ∃ H' m', GenN.KeccakP1600_AddBytes c0 (some ⟨b, w⟩) p off l.length H = some ((), H') ∧
      H'.cells = upd H.cells b (some ⟨kd, .bytes m'⟩) ∧
      Spec.Keccak.HoldsAt m' w (fun j => S j ^^ (decide (8 * off ≤ j.val) && (bitsOf l).getD (j.val - 8 * off) false)) ∧ Around w m m' := by
  have hh := GenN.HoldsAt.eq hS
  have hm := hh.le (by decide)
  obtain ⟨D, hD⟩ := C.sat_exists H hf
  obtain ⟨F, rfl⟩ := split1 hD hb
  have h := GenN.addBytes_runs (c0 := c0) (kd := kd) (b := b) (B := bytesS S) (F := F) hm
    (RdAt.view (RdAt.rest (hp.rdAt hD) ha)) (has_ofList_le l le_rfl) ho
  rw [GenH.st_self hh] at h
  obtain ⟨H', h1, h2⟩ := GenX.run_top hD h
  exact ⟨H', _, h1, h2, GenN.HoldsAt.of hm (bits_xor S off l), GenN.around_st hm⟩

include hf in
/-- **C67, `KeccakP1600_ExtractBytes`.** `n` bytes from byte `off` of the string on are stored at `q`; nothing else
changes. -/
theorem C67_extractBytes {kd : Kind} {b w : Nat} {m : Mem Byte} {S : Str} {q : Ptr} {off n : Nat}
    (hb : H.cells b = some ⟨kd, .bytes m⟩) (hS : Spec.Keccak.HoldsAt m w S) (hq : Room H q n) (ha : q.blk ≠ b) (ho : off + n ≤ 200) :
    ∃ H' l, GenN.KeccakP1600_ExtractBytes c0 (some ⟨b, w⟩) (some q) off n H = some ((), H') ∧
      H'.cells = store H.cells q l ∧ l.length = n ∧ bitsOf l = ((List.ofFn S).drop (8 * off)).take (8 * n) := by
  have hh := GenN.HoldsAt.eq hS
  have hm := hh.le (by decide)
  obtain ⟨D, hD⟩ := C.sat_exists H hf
  obtain ⟨F, rfl⟩ := split1 hD hb
  have hv := hq.valid hD ha
  have h := GenN.extractBytes_runs (c0 := c0) (kd := kd) (b := b) (B := bytesS S) (F := F) hm hv ho
  rw [GenH.st_self hh] at h
  obtain ⟨_, H', D', h1, h2, rfl, rfl⟩ := h H hD
  have h2 : Sat H' (up (bl kd b m + F) q (tabP n fun j => bytesS S (off + j))) := by
    have hn : ND (bl kd b m + F) := hD.nodup
    exact (up_frame hn hv).symm ▸ h2
  exact ⟨H', _, h1, cells_up hD h2 (by rw [tabP_length]; exact hv.right), tabP_length _ _, bits_out S ho⟩

end

/-- **The upper half of a register.** The calling convention (AAPCS64, 6.8.2) says nothing about bits 32 to 63 of the
register of an `unsigned int`.  `KeccakP1600_AddByte` reads all 64 bits of its argument `offset`
(KeccakP-1600-armv8a-neon.s:276): with `offset = 0` and bit 32 set in the register it reads outside of the state. -/
theorem C67_upper_bits (c0 : A64.Cpu) (H : C.Heap) {b : Nat} {x : Byte} {kd : Kind} {m : Mem Byte} (hb : H.cells b = some ⟨kd, .bytes m⟩)
    (hm : m.length ≤ 4294967296) :
    GenN.prog.callC .KeccakP1600_AddByte c0 (.ptr b 0) (.low x) (.num 0x100000000) c0.x3 H = none := by
  have hld : Asm.ld1 (.ptr b 4294967296) H = none := by
    rw [Asm.ld1_ptr (by decide)]
    have h1 : blk (α := Byte) ⟨b, 4294967296⟩ H = some (m, H) := by
      unfold blk; rw [hb]; rfl
    have h2 : (lft (rd m 4294967296) : CM Byte) H = none := by
      unfold rd
      rw [List.getElem?_eq_none hm]
      rfl
    unfold ld
    rw [Asm.lft_some, pure_bind]
    show (blk (α := Byte) ⟨b, 4294967296⟩ H >>= _) = none
    rw [h1]
    exact h2
  unfold A64.Prog.callC
  show ((GenN.prog.run GenN.c_KeccakP1600_AddByte _) >>= _) H = none
  unfold GenN.c_KeccakP1600_AddByte
  simp only [A64.run_op, A64.Op.exec, A64.Cpu.adr, A64.Cpu.get, Asm.lft_some, pure_bind, bind_assoc, Asm.Val.add, Asm.Val.off,
    show ((0 : Int) + (4294967296 : BitVec 64).toInt) = 4294967296 from by decide]
  show (Asm.ld1 (.ptr b 4294967296) H >>= _) = none
  rw [hld]
  rfl

/-! ### The hypotheses can be met -/

private def d67 : List Byte := (List.range 300).map (BitVec.ofNat 8)

/-- Block 0 has room for four states; the third is in use. -/
private def m67 : Mem Byte := GenH.St (malloc (4 * 200)) 400 (fun i => BitVec.ofNat 8 i)

private def H67 : C.Heap :=
  ⟨2, fun i => if i = 0 then some ⟨.stack, .bytes m67⟩
    else if i = 1 then some ⟨.caller, .bytes (ofList d67)⟩ else none⟩

private theorem H67_fresh : ∀ i, H67.next ≤ i → H67.cells i = none := by
  intro i hi
  have : 2 ≤ i := hi
  show (if i = 0 then _ else _) = none
  rw [if_neg (by omega), if_neg (by omega)]

private theorem malloc_len (n : Nat) : (malloc (α := Byte) n).length = n := by simp [malloc]

private theorem m67_len : m67.length = 4 * 200 := by
  unfold m67
  rw [GenH.st_len (by rw [malloc_len]; decide), malloc_len]

private theorem m67_holds : Spec.Keccak.HoldsAt m67 400 (bitsB fun i => BitVec.ofNat 8 i) := GenN.HoldsAt.of (by rw [malloc_len]; decide) rfl

private theorem d67_len : d67.length = 300 := by simp [d67]

private theorem d67_at (o n : Nat) (h : o + n ≤ 300) : BytesAt H67 (some ⟨1, o⟩) ((d67.drop o).take n) := by
  refine ⟨1, o, .caller, ofList d67, rfl, rfl, ?_, fun i hi => ?_⟩
  · simp [ofList, d67_len]; omega
  · have hi : i < n ∧ i < 300 - o := by simpa [d67_len] using hi
    simp [ofList, List.getElem?_eq_getElem (show o + i < d67.length by rw [d67_len]; omega)]

private theorem H67_apart {o : Nat} : Apart (some ⟨1, o⟩) 0 := by
  rintro q hq; obtain rfl := Option.some.inj hq; exact (by decide : (1 : Nat) ≠ 0)

example := C67_initialize .zero H67 H67_fresh (b := 0) (w := 600) rfl (by rw [m67_len])
example := C67_permute .zero H67 H67_fresh (b := 0) rfl m67_holds
example := C67_addByte .zero H67 H67_fresh (b := 0) (x := 0x1f) (off := 77) rfl m67_holds (by omega)

/-- 187 bytes: two groups of eight lanes, seven lanes, three bytes. -/
example := C67_addBytes .zero H67 H67_fresh (b := 0) (off := 7) rfl m67_holds (d67_at 10 187 (by omega)) H67_apart
  (by rw [List.length_take, List.length_drop, d67_len]; omega)
example := C67_extractBytes .zero H67 H67_fresh (b := 0) (q := ⟨1, 0⟩) (off := 5) (n := 100) rfl m67_holds
  ⟨.caller, ofList d67, rfl, by simp [ofList, d67_len]⟩ (by decide) (by omega)

example : GenN.prog.callC .KeccakP1600_AddByte .zero (.ptr 0 0) (.low 6) (.num 0x100000000) A64.Cpu.zero.x3 H67 = none :=
  C67_upper_bits .zero H67 (b := 0) rfl (by rw [m67_len]; decide)

end Faest.Props
