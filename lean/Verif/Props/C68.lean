/-
C68: the addresses and branches of the ARM assembler code for one Keccak state do not depend on secrets.
-/
import Verif.Model.NeonC
import Verif.Proofs.A64.Leak

namespace Faest.Props
open Faest.C Faest.A64 Faest.GenN
open Faest.Asm (Val Ev argP argN bind_some)

private theorem top {f : Lbl} {a : A} (hf : keccakTypes f = some a) {c c' : Cpu} (hc : ARel a c c') {n n' : Nat} {H H' : Heap}
    {r r' : (Cpu × List Ev) × Heap} (h : prog.trace n (prog.code f) c [] H = some r)
    (h' : prog.trace n' (prog.code f) c' [] H' = some r') : r.1.2 = r'.1.2 :=
  trace_sound keccak_typed n n' _ _ _ _ _ _ _ _ _ (keccak_typed f a hf) hc h h'

/-- **C68, the traces are those of the runs**: a call which returns has a trace. -/
theorem C68_shows (f : Lbl) (c : Cpu) (x0 x1 x2 x3 : Val) (H : Heap) {r : Unit × Heap}
    (h : prog.callC f c x0 x1 x2 x3 H = some r) : ∃ t, prog.Shows f c x0 x1 x2 x3 H t := by
  obtain ⟨p, hp, _⟩ := bind_some h
  obtain ⟨n, t, ht⟩ := (Prog.trace_iff _ _ _ _).1 hp
  exact ⟨t, n, _, ht, rfl⟩

/-- **C68, KeccakP1600_Initialize**: the trace depends on nothing but the address of the state. -/
theorem C68_initialize (c c' : Cpu) (H H' : Heap) (state : CPtr) (a1 a2 a3 b1 b2 b3 : Val) {t t' : List Ev}
    (h : prog.Shows .KeccakP1600_Initialize c (argP state) a1 a2 a3 H t)
    (h' : prog.Shows .KeccakP1600_Initialize c' (argP state) b1 b2 b3 H' t') : t = t' := by
  obtain ⟨n, r, h, rfl⟩ := h
  obtain ⟨n', r', h', rfl⟩ := h'
  refine top rfl ⟨fun r hr => ?_, fun e => ?_, fun e => ?_⟩ h h'
  · cases r <;> first | rfl | cases hr
  · cases e
  · cases e

/-- **C68, KeccakP1600_AddByte**: on the address of the state and the position, not on the byte. -/
theorem C68_addByte (c c' : Cpu) (H H' : Heap) (state : CPtr) (x x' : Byte) (offset : Nat) (a3 b3 : Val) {t t' : List Ev}
    (h : prog.Shows .KeccakP1600_AddByte c (argP state) (.low x) (argN offset) a3 H t)
    (h' : prog.Shows .KeccakP1600_AddByte c' (argP state) (.low x') (argN offset) b3 H' t') : t = t' := by
  obtain ⟨n, r, h, rfl⟩ := h
  obtain ⟨n', r', h', rfl⟩ := h'
  refine top rfl ⟨fun r hr => ?_, fun e => ?_, fun e => ?_⟩ h h'
  · cases r <;> first | rfl | cases hr
  · cases e
  · cases e

/-- **C68, KeccakP1600_AddBytes**: on the arguments, not on the state and the data. -/
theorem C68_addBytes (c c' : Cpu) (H H' : Heap) (state data : CPtr) (offset length : Nat) {t t' : List Ev}
    (h : prog.Shows .KeccakP1600_AddBytes c (argP state) (argP data) (argN offset) (argN length) H t)
    (h' : prog.Shows .KeccakP1600_AddBytes c' (argP state) (argP data) (argN offset) (argN length) H' t') : t = t' := by
  obtain ⟨n, r, h, rfl⟩ := h
  obtain ⟨n', r', h', rfl⟩ := h'
  refine top rfl ⟨fun r hr => ?_, fun e => ?_, fun e => ?_⟩ h h'
  · cases r <;> first | rfl | cases hr
  · cases e
  · cases e

/-- **C68, KeccakP1600_ExtractBytes**: on the arguments, not on the state. -/
theorem C68_extractBytes (c c' : Cpu) (H H' : Heap) (state data : CPtr) (offset length : Nat) {t t' : List Ev}
    (h : prog.Shows .KeccakP1600_ExtractBytes c (argP state) (argP data) (argN offset) (argN length) H t)
    (h' : prog.Shows .KeccakP1600_ExtractBytes c' (argP state) (argP data) (argN offset) (argN length) H' t') : t = t' := by
  obtain ⟨n, r, h, rfl⟩ := h
  obtain ⟨n', r', h', rfl⟩ := h'
  refine top rfl ⟨fun r hr => ?_, fun e => ?_, fun e => ?_⟩ h h'
  · cases r <;> first | rfl | cases hr
  · cases e
  · cases e

/-- **C68, KeccakP1600_Permute_24rounds**: on the address of the state. -/
theorem C68_permute (c c' : Cpu) (H H' : Heap) (state : CPtr) (a1 a2 a3 b1 b2 b3 : Val) {t t' : List Ev}
    (h : prog.Shows .KeccakP1600_Permute_24rounds c (argP state) a1 a2 a3 H t)
    (h' : prog.Shows .KeccakP1600_Permute_24rounds c' (argP state) b1 b2 b3 H' t') : t = t' := by
  obtain ⟨n, r, h, rfl⟩ := h
  obtain ⟨n', r', h', rfl⟩ := h'
  refine top rfl ⟨fun r hr => ?_, fun e => ?_, fun e => ?_⟩ h h'
  · cases r <;> first | rfl | cases hr
  · cases e
  · cases e

/-! ### The hypotheses can be met -/

/-- A state of 200 bytes `x` and data of 100 bytes `y`. -/
private def H68 (x y : Byte) : Heap :=
  ⟨2, fun i => if i = 0 then some ⟨.stack, .bytes (ofList (List.replicate 200 x))⟩
    else if i = 1 then some ⟨.caller, .bytes (ofList (List.replicate 100 y))⟩ else none⟩

private def tr (P : Prog Lbl) (n : Nat) (f : Lbl) (a b c d : Val) (H : Heap) : Option (List Ev) :=
  (P.trace n (P.code f) { Cpu.zero with x0 := a, x1 := b, x2 := c, x3 := d } [] H).map fun r => r.1.2

/-- A load and a store of one byte. -/
example : tr prog 20 .KeccakP1600_AddByte (.ptr 0 0) (.low 5) (argN 13) (argN 0) (H68 1 2) =
    some [.ld (some (.ptr 0 13)) 1, .st (some (.ptr 0 13)) 1] := by decide +kernel

/-- Another byte and another state: the same trace. -/
example : tr prog 20 .KeccakP1600_AddByte (.ptr 0 0) (.low 9) (argN 13) (argN 0) (H68 7 8) =
    tr prog 20 .KeccakP1600_AddByte (.ptr 0 0) (.low 5) (argN 13) (argN 0) (H68 1 2) := by decide +kernel

/-- Complete runs over 75 bytes from byte 3 on: 64 bytes, one lane, three bytes. -/
example : (tr prog 300 .KeccakP1600_AddBytes (.ptr 0 0) (.ptr 1 0) (argN 3) (argN 75) (H68 1 2)).map List.length = some 24 := by
  decide +kernel

/-- Code which looks up a byte at a place read from the state. -/
private def lookup : Prog Lbl := ⟨fun _ => [.op (.ldrb .x3 (.base .x0)), .op (.addX .x4 .x0 .x3), .op (.ldrb .x5 (.base .x4)), .ret], []⟩

/-- Code which branches on a byte of the state. -/
private def branch : Prog Lbl := ⟨fun
  | .KeccakP1600_AddBytes_Exit => [.ret]
  | _ => [.op (.ldrb .x3 (.base .x0)), .op (.subsW .x3 .x3 1), .bne .KeccakP1600_AddBytes_Exit, .ret], []⟩

-- such code shows the secret
example : tr lookup 20 .KeccakP1600_AddBytes (.ptr 0 0) (.ptr 1 0) (argN 0) (argN 0) (H68 1 2) ≠
    tr lookup 20 .KeccakP1600_AddBytes (.ptr 0 0) (.ptr 1 0) (argN 0) (argN 0) (H68 2 2) := by decide +kernel
example : tr branch 20 .KeccakP1600_AddBytes (.ptr 0 0) (.ptr 1 0) (argN 0) (argN 0) (H68 1 2) ≠
    tr branch 20 .KeccakP1600_AddBytes (.ptr 0 0) (.ptr 1 0) (argN 0) (argN 0) (H68 2 2) := by decide +kernel

end Faest.Props
