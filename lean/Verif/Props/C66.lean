/-
C66: the addresses and branches of the assembler code for one Keccak state do not depend on secrets.
-/
import Verif.Model.AsmC
import Verif.Proofs.Asm.LeakTypes

namespace Faest.Props
open Faest.C Faest.Asm Faest.GenX

/-- Everything but the rdi register is secret. -/
private theorem rel1 (c c' : Cpu) (x a1 a2 a3 b1 b2 b3 : Val) :
    ARel (.pr [.rdi] []) { c with rdi := x, rsi := a1, rdx := a2, rcx := a3 }
      { c' with rdi := x, rsi := b1, rdx := b2, rcx := b3 } where
  reg r := by cases r <;> trivial
  vec v hv := by cases v <;> cases hv
  zf h := by cases h
  cf h := by cases h

private theorem rel2 (c c' : Cpu) (x z a1 a3 b1 b3 : Val) :
    ARel (.pr [.rdi, .rdx] []) { c with rdi := x, rsi := a1, rdx := z, rcx := a3 }
      { c' with rdi := x, rsi := b1, rdx := z, rcx := b3 } where
  reg r := by cases r <;> trivial
  vec v hv := by cases v <;> cases hv
  zf h := by cases h
  cf h := by cases h

private theorem rel4 (c c' : Cpu) (x y z w : Val) :
    ARel (.pr [.rdi, .rsi, .rdx, .rcx] []) { c with rdi := x, rsi := y, rdx := z, rcx := w }
      { c' with rdi := x, rsi := y, rdx := z, rcx := w } where
  reg r := by cases r <;> trivial
  vec v hv := by cases v <;> cases hv
  zf h := by cases h
  cf h := by cases h

private theorem top (bot : A) {f : Lbl} {t : LTy} (hf : keccakTypes .main f = some t) (hs : t.stk = []) (ho : t.out = bot)
    {c c' : Cpu} (hc : ARel t.inp c c') {n n' : Nat} {H H' : Heap} {r r' : (Cpu × List Ev) × Heap}
    (h : prog.trace n (prog.code f) [] c [] H = some r) (h' : prog.trace n' (prog.code f) [] c' [] H' = some r') :
    r.1.2 = r'.1.2 ∧ ARel bot r.1.1 r'.1.1 := by
  refine trace_sound keccak_typed n n' .main _ _ _ _ _ _ _ _ _ _ _ _ _ (keccak_typed .main f t hf) hc ?_ h h'
  rw [hs, ho]
  exact .nil fun _ _ h => h

/-- **C66, the traces are those of the runs**: a call which returns has a trace. -/
theorem C66_shows (f : Lbl) (c : Cpu) (rdi rsi rdx rcx : Val) (H : Heap) {r : Cpu × Heap}
    (h : prog.callC f c rdi rsi rdx rcx H = some r) : ∃ t, prog.Shows f c rdi rsi rdx rcx H t := by
  obtain ⟨p, hp, _⟩ := bind_some h
  obtain ⟨n, t, ht⟩ := (Prog.trace_iff _ _ _ _ _).1 hp
  exact ⟨t, n, _, ht, rfl⟩

/-- **C66, KeccakP1600_Initialize**: the trace depends on nothing but the address of the state. -/
theorem C66_initialize (c c' : Cpu) (H H' : Heap) (state : CPtr) (a1 a2 a3 b1 b2 b3 : Val) {t t' : List Ev}
    (h : prog.Shows .KeccakP1600_Initialize c (argP state) a1 a2 a3 H t)
    (h' : prog.Shows .KeccakP1600_Initialize c' (argP state) b1 b2 b3 H' t') : t = t' := by
  obtain ⟨n, r, h, rfl⟩ := h
  obtain ⟨n', r', h', rfl⟩ := h'
  exact (top .none rfl rfl rfl (rel1 c c' _ _ _ _ _ _ _) h h').1

/-- **C66, KeccakP1600_AddByte**: on the address of the state and the position, not on the byte. -/
theorem C66_addByte (c c' : Cpu) (H H' : Heap) (state : CPtr) (x x' : Byte) (offset : Nat) (a3 b3 : Val) {t t' : List Ev}
    (h : prog.Shows .KeccakP1600_AddByte c (argP state) (.low x) (argN offset) a3 H t)
    (h' : prog.Shows .KeccakP1600_AddByte c' (argP state) (.low x') (argN offset) b3 H' t') : t = t' := by
  obtain ⟨n, r, h, rfl⟩ := h
  obtain ⟨n', r', h', rfl⟩ := h'
  exact (top .none rfl rfl rfl (rel2 c c' _ _ _ _ _ _) h h').1

/-- **C66, KeccakP1600_AddBytes**: on the arguments, not on the state and the data. -/
theorem C66_addBytes (c c' : Cpu) (H H' : Heap) (state data : CPtr) (offset length : Nat) {t t' : List Ev}
    (h : prog.Shows .KeccakP1600_AddBytes c (argP state) (argP data) (argN offset) (argN length) H t)
    (h' : prog.Shows .KeccakP1600_AddBytes c' (argP state) (argP data) (argN offset) (argN length) H' t') : t = t' := by
  obtain ⟨n, r, h, rfl⟩ := h
  obtain ⟨n', r', h', rfl⟩ := h'
  exact (top .none rfl rfl rfl (rel4 c c' _ _ _ _) h h').1

/-- **C66, KeccakP1600_ExtractBytes**: on the arguments, not on the state. -/
theorem C66_extractBytes (c c' : Cpu) (H H' : Heap) (state data : CPtr) (offset length : Nat) {t t' : List Ev}
    (h : prog.Shows .KeccakP1600_ExtractBytes c (argP state) (argP data) (argN offset) (argN length) H t)
    (h' : prog.Shows .KeccakP1600_ExtractBytes c' (argP state) (argP data) (argN offset) (argN length) H' t') : t = t' := by
  obtain ⟨n, r, h, rfl⟩ := h
  obtain ⟨n', r', h', rfl⟩ := h'
  exact (top .none rfl rfl rfl (rel4 c c' _ _ _ _) h h').1

/-- **C66, KeccakP1600_Permute_24rounds**: on the address of the state. -/
theorem C66_permute (c c' : Cpu) (H H' : Heap) (state : CPtr) (a1 a2 a3 b1 b2 b3 : Val) {t t' : List Ev}
    (h : prog.Shows .KeccakP1600_Permute_24rounds c (argP state) a1 a2 a3 H t)
    (h' : prog.Shows .KeccakP1600_Permute_24rounds c' (argP state) b1 b2 b3 H' t') : t = t' := by
  obtain ⟨n, r, h, rfl⟩ := h
  obtain ⟨n', r', h', rfl⟩ := h'
  exact (top .none rfl rfl rfl (rel1 c c' _ _ _ _ _ _ _) h h').1

/-- **C66, KeccakF1600_FastLoop_Absorb**: on the arguments, not on the state and the data. -/
theorem C66_absorb (c c' : Cpu) (H H' : Heap) (state data : CPtr) (lanes length : Nat) {t t' : List Ev}
    (h : prog.Shows .KeccakF1600_FastLoop_Absorb c (argP state) (argN lanes) (argP data) (argN length) H t)
    (h' : prog.Shows .KeccakF1600_FastLoop_Absorb c' (argP state) (argN lanes) (argP data) (argN length) H' t') : t = t' := by
  obtain ⟨n, r, h, rfl⟩ := h
  obtain ⟨n', r', h', rfl⟩ := h'
  exact (top (.pr [.rax] []) rfl rfl rfl (rel4 c c' _ _ _ _) h h').1

/-- **C66, KeccakF1600_FastLoop_Absorb**: so is the result. -/
theorem C66_absorb_result (c c' : Cpu) (H H' : Heap) (state data : CPtr) (lanes length : Nat) {r r' : Nat × Heap}
    (h : KeccakF1600_FastLoop_Absorb c state lanes data length H = some r)
    (h' : KeccakF1600_FastLoop_Absorb c' state lanes data length H' = some r') : r.1 = r'.1 := by
  obtain ⟨p, hp, h⟩ := bind_some h
  obtain ⟨p', hp', h'⟩ := bind_some h'
  obtain ⟨x, hx, h⟩ := bind_some h
  obtain ⟨x', hx', h'⟩ := bind_some h'
  rw [pure_some h, pure_some h']
  obtain ⟨q, hq, hp⟩ := bind_some hp
  obtain ⟨q', hq', hp'⟩ := bind_some hp'
  obtain ⟨_, _, hp⟩ := bind_some hp
  obtain ⟨_, _, hp'⟩ := bind_some hp'
  obtain ⟨n, t, ht⟩ := (Prog.trace_iff _ _ _ _ _).1 hq
  obtain ⟨n', t', ht'⟩ := (Prog.trace_iff _ _ _ _ _).1 hq'
  have e : q.1.rax = q'.1.rax := (top (.pr [.rax] []) rfl rfl rfl (rel4 c c' _ _ _ _) ht ht').2.reg .rax
  have hx := lft_some' hx
  have hx' := lft_some' hx'
  rw [pure_some hp, e] at hx
  rw [pure_some hp', hx] at hx'
  rw [Option.some.inj hx']

/-! ### The hypotheses can be met -/

/-- A state of 200 bytes `x` and data of 100 bytes `y`. -/
private def H66 (x y : Byte) : Heap :=
  ⟨2, fun i => if i = 0 then some ⟨.stack, .bytes (ofList (List.replicate 200 x))⟩
    else if i = 1 then some ⟨.caller, .bytes (ofList (List.replicate 100 y))⟩ else none⟩

private def tr (P : Prog Lbl) (n : Nat) (f : Lbl) (a b c d : Val) (H : Heap) : Option (List Ev) :=
  (P.trace n (P.code f) [] { Cpu.zero with rdi := a, rsi := b, rdx := c, rcx := d } [] H).map fun r => r.1.2

/-- Byte 13 is in lane 1, which is the second word of the state in memory: a load of the place, a load and a store. -/
example : tr prog 20 .KeccakP1600_AddByte (.ptr 0 0) (.low 5) (argN 13) (argN 0) (H66 1 2) =
    some [.ld (some (.rod 1160)) 8, .ld (some (.ptr 0 13)) 1, .st (some (.ptr 0 13)) 1] := by decide +kernel

/-- Another byte and another state: the same trace. -/
example : tr prog 20 .KeccakP1600_AddByte (.ptr 0 0) (.low 9) (argN 13) (argN 0) (H66 7 8) =
    tr prog 20 .KeccakP1600_AddByte (.ptr 0 0) (.low 5) (argN 13) (argN 0) (H66 1 2) := by decide +kernel

/-- Complete runs over 21 bytes from byte 3 on have 35 events: five bytes and two lanes. -/
example : (tr prog 300 .KeccakP1600_AddBytes (.ptr 0 0) (.ptr 1 0) (argN 3) (argN 21) (H66 1 2)).map List.length = some 35 := by
  decide +kernel

/-- Code which looks up a byte at a place read from the state. -/
private def lookup : Prog Lbl := ⟨fun _ => [.op (.mov (.mem (.base 0 .rdi)) .rax), .op (.and 31 .rax),
  .op (.add (.reg .rdi) .rax), .op (.mov (.mem (.base 0 .rax)) .rcx), .ret], []⟩

/-- Code which branches on a byte of the state. -/
private def branch : Prog Lbl := ⟨fun
  | .KeccakP1600_AddBytes_Exit => [.ret]
  | _ => [.op (.mov (.mem (.base 0 .rdi)) .rax), .op (.and 1 .rax), .jz .KeccakP1600_AddBytes_Exit, .ret], []⟩

-- such code shows the secret
example : tr lookup 20 .KeccakP1600_AddBytes (.ptr 0 0) (.ptr 1 0) (argN 0) (argN 0) (H66 1 2) ≠
    tr lookup 20 .KeccakP1600_AddBytes (.ptr 0 0) (.ptr 1 0) (argN 0) (argN 0) (H66 2 2) := by decide +kernel
example : tr branch 20 .KeccakP1600_AddBytes (.ptr 0 0) (.ptr 1 0) (argN 0) (argN 0) (H66 1 2) ≠
    tr branch 20 .KeccakP1600_AddBytes (.ptr 0 0) (.ptr 1 0) (argN 0) (argN 0) (H66 2 2) := by decide +kernel

end Faest.Props
