/-
C65: the functions on one state in assembler, sha3/avx2/KeccakP-1600-AVX2.s.

The memory of a state holds a string of 1600 bits (`Holds`: the words of the lanes are in an order of the code's own).
`c0` are the registers, flags and vector registers which the function finds, with the exception of its arguments.  A call
which did not leave `rbx` as it was, or returned with something on the stack, or used an aligned load at another address
would be undefined (`Asm.Prog.callC`, `Asm.Prog.run`, `Asm.Op.exec`).
-/
import Verif.Proofs.Asm.Top

set_option linter.unusedSimpArgs false

namespace Faest.Props
open Faest.C Faest.Keccak
open Spec (byteFn)
open Spec.Keccak (Str Holds keccakP bitsOf absorbBlock)

section
variable (c0 : Asm.Cpu) (H : C.Heap) (hf : ∀ i, H.next ≤ i → H.cells i = none)

include hf in
/-- **C65, `KeccakP1600_Initialize`.** Whatever the 200 bytes were: they hold 1600 zeros. -/
theorem C65_initialize {kd : Kind} {b : Nat} {m : Mem Byte} (hb : H.cells b = some ⟨kd, .bytes m⟩) (hm : m.length = 200) :
    ∃ H' m', GenX.KeccakP1600_Initialize c0 (some ⟨b, 0⟩) H = some ((), H') ∧
      H'.cells = upd H.cells b (some ⟨kd, .bytes m'⟩) ∧ Holds m' (fun _ => false) := by
  obtain ⟨D, hD⟩ := C.sat_exists H hf
  obtain ⟨F, rfl⟩ := split1 hD hb
  have h := GenX.init_runs (c0 := c0) (kd := kd) (b := b) (m := m) (F := F) (by omega)
  rw [GenH.st_M1 hm] at h
  obtain ⟨H', h1, h2⟩ := GenX.run_top hD h
  exact ⟨H', _, h1, h2, GenX.Holds.of (by funext i; simp [bitsB])⟩

include hf in
/-- **C65, `KeccakP1600_Permute_24rounds`.** KECCAK-p[1600, 24] of FIPS 202. -/
theorem C65_permute {kd : Kind} {b : Nat} {m : Mem Byte} {S : Str} (hb : H.cells b = some ⟨kd, .bytes m⟩) (hS : Holds m S) :
    ∃ H' m', GenX.KeccakP1600_Permute_24rounds c0 (some ⟨b, 0⟩) H = some ((), H') ∧
      H'.cells = upd H.cells b (some ⟨kd, .bytes m'⟩) ∧ Holds m' (keccakP S) := by
  obtain rfl := GenX.Holds.eq hS
  obtain ⟨D, hD⟩ := C.sat_exists H hf
  obtain ⟨F, rfl⟩ := split1 hD hb
  have h := GenX.permute_runs (c0 := c0) (kd := kd) (b := b) (m := GenH.M1 (Asm.av (bytesS S))) (B := bytesS S) (F := F) (by rw [GenH.M1_len])
  rw [GenH.st_M1 (GenH.M1_len _), GenH.st_M1 (GenH.M1_len _)] at h
  obtain ⟨H', h1, h2⟩ := GenX.run_top hD h
  exact ⟨H', _, h1, h2, GenX.Holds.of (by rw [bitsB_keccakB, bitsB_bytesS])⟩

theorem bits_xor (S : Str) (off : Nat) (l : List Byte) :
    bitsB (xorB (bytesS S) off l.length (byteFn l)) = fun j => S j ^^ (decide (8 * off ≤ j.val) && (bitsOf l).getD (j.val - 8 * off) false) := by
  funext j
  have hj := congrFun (bitsB_bytesS S) j
  unfold bitsB at hj ⊢
  unfold xorB
  by_cases h1 : off ≤ j.val / 8 ∧ j.val / 8 < off + l.length
  · rw [if_pos h1, BitVec.getLsbD_xor, hj, decide_eq_true (by omega), Bool.true_and, bitsOf_getD,
      show (j.val - 8 * off) / 8 = j.val / 8 - off by omega, show (j.val - 8 * off) % 8 = j.val % 8 by omega]
    rfl
  · rw [if_neg h1, hj]
    by_cases h2 : 8 * off ≤ j.val
    · rw [decide_eq_true h2, Bool.true_and, bitsOf_getD, List.getD_eq_getElem?_getD, List.getElem?_eq_none (by omega)]
      simp
    · rw [decide_eq_false h2]; simp

theorem bits_out (S : Str) {off n : Nat} (ho : off + n ≤ 200) :
    bitsOf (tabP n fun j => bytesS S (off + j)) = ((List.ofFn S).drop (8 * off)).take (8 * n) := by
  refine List.ext_getElem? fun i => ?_
  by_cases hi : i < 8 * n
  · have e := bitsOf_getD (tabP n fun j => bytesS S (off + j)) i
    rw [List.getD_eq_getElem?_getD, List.getElem?_eq_getElem (by rw [bitsOf_length, tabP_length]; exact hi)] at e
    rw [List.getElem?_eq_getElem (by rw [bitsOf_length, tabP_length]; exact hi), show (bitsOf (tabP n fun j => bytesS S (off + j)))[i]'_ = _ from e,
      List.getElem?_take, if_pos hi, List.getElem?_drop, List.getElem?_ofFn, dif_pos (by omega), GenH.tabP_getD _ (by omega),
      bytesS_bit _ _ _ (by omega) (by omega)]
    exact congrArg (fun x => some (S x)) (Fin.ext (by show 8 * (off + i / 8) + i % 8 = 8 * off + i; omega))
  · rw [List.getElem?_eq_none (by rw [bitsOf_length, tabP_length]; omega), List.getElem?_take, if_neg hi]

include hf in
/-- **C65, `KeccakP1600_AddByte`.** -/
theorem C65_addByte {kd : Kind} {b : Nat} {m : Mem Byte} {S : Str} {x : Byte} {off : Nat} (hb : H.cells b = some ⟨kd, .bytes m⟩)
    (hS : Holds m S) (ho : off < 200) :
    ∃ H' m', GenX.KeccakP1600_AddByte c0 (some ⟨b, 0⟩) x off H = some ((), H') ∧
      H'.cells = upd H.cells b (some ⟨kd, .bytes m'⟩) ∧
      Holds m' (fun j => S j ^^ (decide (8 * off ≤ j.val) && (bitsOf [x]).getD (j.val - 8 * off) false)) := by
  obtain rfl := GenX.Holds.eq hS
  obtain ⟨D, hD⟩ := C.sat_exists H hf
  obtain ⟨F, rfl⟩ := split1 hD hb
  have h := GenX.addByte_runs (c0 := c0) (kd := kd) (b := b) (m := GenH.M1 (Asm.av (bytesS S))) (B := bytesS S) (F := F) (x := x)
    (by rw [GenH.M1_len]) ho
  rw [GenH.st_M1 (GenH.M1_len _), GenH.st_M1 (GenH.M1_len _)] at h
  obtain ⟨H', h1, h2⟩ := GenX.run_top hD h
  refine ⟨H', _, h1, h2, GenX.Holds.of ?_⟩
  rw [← bits_xor]
  refine congrArg bitsB (xorB_congr fun i hi => ?_)
  have : i = 0 := by have : i < 1 := hi; omega
  subst this
  rfl

include hf in
/-- **C65, `KeccakP1600_AddBytes`.** The bytes `l` (possibly none), read from anywhere outside of the state, are added from
byte `off` of the string on. -/
theorem C65_addBytes {kd : Kind} {b : Nat} {m : Mem Byte} {S : Str} {p : CPtr} {l : List Byte} {off : Nat}
    (hb : H.cells b = some ⟨kd, .bytes m⟩) (hS : Holds m S) (hp : BytesAt H p l) (ha : Apart p b) (ho : off + l.length ≤ 200) :
    ∃ H' m', GenX.KeccakP1600_AddBytes c0 (some ⟨b, 0⟩) p off l.length H = some ((), H') ∧
      H'.cells = upd H.cells b (some ⟨kd, .bytes m'⟩) ∧
      Holds m' (fun j => S j ^^ (decide (8 * off ≤ j.val) && (bitsOf l).getD (j.val - 8 * off) false)) := by
  obtain rfl := GenX.Holds.eq hS
  obtain ⟨D, hD⟩ := C.sat_exists H hf
  obtain ⟨F, rfl⟩ := split1 hD hb
  have h := GenX.addBytes_runs (c0 := c0) (kd := kd) (b := b) (m := GenH.M1 (Asm.av (bytesS S))) (B := bytesS S) (F := F)
    (by rw [GenH.M1_len]) (RdAt.view (RdAt.rest (hp.rdAt hD) ha)) (has_ofList_le l le_rfl) ho
  rw [GenH.st_M1 (GenH.M1_len _), GenH.st_M1 (GenH.M1_len _)] at h
  obtain ⟨H', h1, h2⟩ := GenX.run_top hD h
  exact ⟨H', _, h1, h2, GenX.Holds.of (bits_xor S off l)⟩

include hf in
/-- **C65, `KeccakP1600_ExtractBytes`.** `n` bytes from byte `off` of the string on are stored at `q`; nothing else
changes. -/
theorem C65_extractBytes {kd : Kind} {b : Nat} {m : Mem Byte} {S : Str} {q : Ptr} {off n : Nat}
    (hb : H.cells b = some ⟨kd, .bytes m⟩) (hS : Holds m S) (hq : Room H q n) (ha : q.blk ≠ b) (ho : off + n ≤ 200) :
    ∃ H' l, GenX.KeccakP1600_ExtractBytes c0 (some ⟨b, 0⟩) (some q) off n H = some ((), H') ∧
      H'.cells = store H.cells q l ∧ l.length = n ∧ bitsOf l = ((List.ofFn S).drop (8 * off)).take (8 * n) := by
  obtain rfl := GenX.Holds.eq hS
  obtain ⟨D, hD⟩ := C.sat_exists H hf
  obtain ⟨F, rfl⟩ := split1 hD hb
  have hv := hq.valid hD ha
  have h := GenX.extractBytes_runs (c0 := c0) (kd := kd) (b := b) (m := GenH.M1 (Asm.av (bytesS S))) (B := bytesS S) (F := F)
    (by rw [GenH.M1_len]) hv ho
  rw [GenH.st_M1 (GenH.M1_len _)] at h
  obtain ⟨_, H', D', h1, h2, rfl, rfl⟩ := h H hD
  have h2 : Sat H' (up (bl kd b (GenH.M1 (Asm.av (bytesS S))) + F) q (tabP n fun j => bytesS S (off + j))) := by
    have hn : ND (bl kd b (GenH.M1 (Asm.av (bytesS S))) + F) := hD.nodup
    exact (up_frame hn hv).symm ▸ h2
  refine ⟨H', _, h1, cells_up hD h2 (by rw [tabP_length]; exact hv.right), tabP_length _ _, bits_out S ho⟩

include hf in
/-- **C65, `KeccakF1600_FastLoop_Absorb`.** For the lane counts in use (17 and 21) and data of any length: all whole blocks
of the data are absorbed (FIPS 202, Algorithm 8, step 6) and the number of bytes in them is returned. -/
theorem C65_absorb {kd : Kind} {b : Nat} {m : Mem Byte} {S : Str} {p : CPtr} {l : List Byte} {c : Nat} (hc : c = 17 ∨ c = 21)
    (hb : H.cells b = some ⟨kd, .bytes m⟩) (hS : Holds m S) (hp : BytesAt H p l) (ha : Apart p b) (hl : l.length < 2 ^ 64) :
    ∃ H' m', GenX.KeccakF1600_FastLoop_Absorb c0 (some ⟨b, 0⟩) c p l.length H = some (8 * c * (l.length / (8 * c)), H') ∧
      H'.cells = upd H.cells b (some ⟨kd, .bytes m'⟩) ∧
      Holds m' ((List.range (l.length / (8 * c))).foldl (absorbBlock keccakP (64 * c) (bitsOf l)) S) := by
  obtain rfl := GenX.Holds.eq hS
  obtain ⟨D, hD⟩ := C.sat_exists H hf
  obtain ⟨F, rfl⟩ := split1 hD hb
  have h := GenX.fastAbsorb_runs (c0 := c0) (kd := kd) (b := b) (m := GenH.M1 (Asm.av (bytesS S))) (B := bytesS S) (F := F) hc
    (by rw [GenH.M1_len]) (RdAt.view (RdAt.rest (hp.rdAt hD) ha)) (has_ofList_le l le_rfl) hl
  rw [GenH.st_M1 (GenH.M1_len _), GenH.st_M1 (GenH.M1_len _)] at h
  have e : l.length - l.length % (8 * c) = 8 * c * (l.length / (8 * c)) := by have := Nat.div_add_mod l.length (8 * c); omega
  rw [e] at h
  obtain ⟨H', h1, h2⟩ := GenX.run_top hD h
  refine ⟨H', _, h1, h2, GenX.Holds.of ?_⟩
  obtain ⟨B, h3, h4⟩ := absorb_from (r := 8 * c) (by omega) l (bytesS S) (l.length / (8 * c)) (Nat.mul_div_le _ _)
  rw [bitsB_bytesS, show 8 * (8 * c) = 64 * c by omega] at h4
  rw [h4]
  have e2 : tabP (8 * c * (l.length / (8 * c))) (byteFn l) = l.take (8 * c * (l.length / (8 * c))) := by
    have hle : 8 * c * (l.length / (8 * c)) ≤ l.length := Nat.mul_div_le _ _
    refine List.ext_getElem? fun i => ?_
    rw [tabP_getElem?, List.getElem?_take]
    by_cases hi : i < 8 * c * (l.length / (8 * c))
    · rw [if_pos hi, if_pos hi, List.getElem?_eq_getElem (by omega)]
      simp [byteFn, show i < l.length by omega]
    · rw [if_neg hi, if_neg hi]
  rw [e2, h3]

end

/-- **The upper half of a register.** The calling convention says nothing about bits 32 to 63 of the register of an
`unsigned int`.  `KeccakP1600_AddBytes` reads all 64 bits of its argument `length` (KeccakP-1600-AVX2.s:97,129): with
`length = 0` and bit 32 set in the register it reads data which is not there. -/
theorem C65_upper_bits (c0 : Asm.Cpu) (H : C.Heap) {b q : Nat} {kd : Kind} (hq : H.cells q = some ⟨kd, .bytes []⟩) :
    GenX.prog.callC .KeccakP1600_AddBytes c0 (.ptr b 0) (.ptr q 0) (Asm.argN 0) (.num 0x100000000) H = none := by
  have hld : Asm.ld8 GenX.rodata (.ptr q 0) H = none := by
    show ((blk (α := Byte) ⟨q, 0⟩ >>= fun m => lft (rdN m 0 8)) >>= fun l => pure (leWord l)) H = none
    have h1 : blk (α := Byte) ⟨q, 0⟩ H = some ([], H) := by
      unfold blk; rw [hq]; rfl
    have h2 : (blk (α := Byte) ⟨q, 0⟩ >>= fun m => lft (rdN m 0 8)) H = none := by
      show (blk (α := Byte) ⟨q, 0⟩ H >>= fun p => lft (rdN p.1 0 8) p.2) = none
      rw [h1]; rfl
    show ((blk (α := Byte) ⟨q, 0⟩ >>= fun m => lft (rdN m 0 8)) H >>= fun p => pure (f := CM) (leWord p.1) p.2) = none
    rw [h2]; rfl
  have hb : ∀ (β : Type) (g : BitVec 64 → CM β), (Asm.ld8 GenX.rodata (.ptr q 0) >>= g) H = none := by
    intro β g
    show (Asm.ld8 GenX.rodata (.ptr q 0) H >>= fun p => g p.1 p.2) = none
    rw [hld]; rfl
  unfold Asm.Prog.callC
  show ((GenX.prog.run GenX.c_KeccakP1600_AddBytes [] _) >>= _) H = none
  unfold GenX.c_KeccakP1600_AddBytes Asm.argN
  simp only [Asm.run_op, Asm.Op.exec, Asm.Src.val, Asm.Cpu.adr, Asm.Cpu.get, Asm.Cpu.set, Asm.Cpu.flags, Asm.lft_some, pure_bind, bind_assoc, Asm.subV]
  rw [Asm.run_jz (b := false) _ rfl, if_neg (by simp)]
  simp only [Asm.run_op, Asm.Op.exec, Asm.Src.val, Asm.Cpu.adr, Asm.Cpu.get, Asm.Cpu.set, Asm.Cpu.flags, Asm.lft_some, pure_bind, bind_assoc, Asm.Val.isNum,
    Asm.addV, Asm.Val.add, Asm.Val.off, Option.map_some]
  rw [Asm.run_jz (b := true) _ rfl, if_pos rfl]
  show ((GenX.prog.run GenX.c_KeccakP1600_AddBytes_LaneAlignedCheck [] _) >>= _) H = none
  unfold GenX.c_KeccakP1600_AddBytes_LaneAlignedCheck
  simp only [Asm.run_op, Asm.Op.exec, Asm.Src.val, Asm.Cpu.adr, Asm.Cpu.get, Asm.Cpu.set, Asm.Cpu.flags, Asm.lft_some, pure_bind, bind_assoc, Asm.subV]
  rw [Asm.run_jnc (b := false) _ rfl, if_neg (by simp)]
  show ((GenX.prog.run GenX.c_KeccakP1600_AddBytes_LaneAlignedLoop [] _) >>= _) H = none
  unfold GenX.c_KeccakP1600_AddBytes_LaneAlignedLoop
  simp only [Asm.run_op, Asm.Op.exec, Asm.Src.val, Asm.Cpu.adr, Asm.Cpu.get, Asm.Val.off, Asm.lft_some, pure_bind, bind_assoc, Asm.prog_rodata, Int.add_zero]
  exact hb _ _

/-! ### The hypotheses can be met -/

private def d65 : List Byte := (List.range 300).map (BitVec.ofNat 8)

private def H65 : C.Heap :=
  ⟨3, fun i => if i = 0 then some ⟨.stack, .bytes (GenH.M1 (Asm.av fun i => BitVec.ofNat 8 i))⟩
    else if i = 1 then some ⟨.caller, .bytes (ofList d65)⟩
    else if i = 2 then some ⟨.caller, .bytes []⟩ else none⟩

private theorem H65_fresh : ∀ i, H65.next ≤ i → H65.cells i = none := by
  intro i hi
  have : 3 ≤ i := hi
  show (if i = 0 then _ else _) = none
  rw [if_neg (by omega), if_neg (by omega), if_neg (by omega)]

private theorem H65_holds : Holds (GenH.M1 (Asm.av fun i => BitVec.ofNat 8 i)) (bitsB fun i => BitVec.ofNat 8 i) := GenX.holds_M1 _

private theorem d65_len : d65.length = 300 := by simp [d65]

private theorem d65_at (o n : Nat) (h : o + n ≤ 300) : BytesAt H65 (some ⟨1, o⟩) ((d65.drop o).take n) := by
  refine ⟨1, o, .caller, ofList d65, rfl, rfl, ?_, fun i hi => ?_⟩
  · simp [ofList, d65_len]; omega
  · have hi : i < n ∧ i < 300 - o := by simpa [d65_len] using hi
    simp [ofList, List.getElem?_eq_getElem (show o + i < d65.length by rw [d65_len]; omega)]

private theorem H65_apart {o : Nat} : Apart (some ⟨1, o⟩) 0 := by
  rintro q hq; obtain rfl := Option.some.inj hq; exact (by decide : (1 : Nat) ≠ 0)

private theorem d65_take (o n : Nat) (h : o + n ≤ 300) : ((d65.drop o).take n).length = n := by
  rw [List.length_take, List.length_drop, d65_len]; omega

example := C65_initialize .zero H65 H65_fresh (b := 0) rfl (GenH.M1_len _)
example := C65_permute .zero H65 H65_fresh (b := 0) rfl H65_holds
example := C65_addByte .zero H65 H65_fresh (b := 0) (x := 0x1f) (off := 77) rfl H65_holds (by omega)
example := C65_addBytes .zero H65 H65_fresh (b := 0) (off := 7) rfl H65_holds (d65_at 10 190 (by omega)) H65_apart
  (by rw [d65_take _ _ (by omega)]; omega)
example := C65_extractBytes .zero H65 H65_fresh (b := 0) (q := ⟨1, 0⟩) (off := 5) (n := 100) rfl H65_holds
  ⟨.caller, ofList d65, rfl, by simp [ofList, d65_len]⟩ (by decide) (by omega)

/-- Two blocks of 136 bytes out of 290 bytes. -/
example : ∃ H' m', GenX.KeccakF1600_FastLoop_Absorb .zero (some ⟨0, 0⟩) 17 (some ⟨1, 10⟩) 290 H65 = some (272, H') ∧
    H'.cells = upd H65.cells 0 (some ⟨.stack, .bytes m'⟩) ∧
    Holds m' ((List.range 2).foldl (absorbBlock keccakP 1088 (bitsOf ((d65.drop 10).take 290))) (bitsB fun i => BitVec.ofNat 8 i)) := by
  have h := C65_absorb .zero H65 H65_fresh (.inl rfl) (b := 0) rfl H65_holds (d65_at 10 290 (by omega)) H65_apart
    (by rw [d65_take _ _ (by omega)]; omega)
  rw [d65_take _ _ (by omega)] at h
  exact h

example : GenX.prog.callC .KeccakP1600_AddBytes .zero (.ptr 0 0) (.ptr 2 0) (Asm.argN 0) (.num 0x100000000) H65 = none :=
  C65_upper_bits .zero H65 (q := 2) rfl

end Faest.Props
