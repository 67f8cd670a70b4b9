/-
Runs of programs, and the 24 rounds of sha3/avx2/KeccakP-1600-AVX2.s.
-/
import Verif.Proofs.Asm.Round

namespace Faest.Asm
open Faest.C Faest.GenX Faest.Keccak

section
variable {L : Type} {P : Prog L} {st : List (Slot L)} {c : Cpu} {is : List (Ins L)}

theorem run_op (o : Op) : P.run (.op o :: is) st c = o.exec P.rodata c >>= P.run is st := by
  rw [Prog.run]

theorem run_jmp (l : L) : P.run (.jmp l :: is) st c = P.run (P.code l) st c := by
  rw [Prog.run]

theorem run_push (r : Reg) : P.run (.push r :: is) st c = P.run is (.val (c.get r) :: st) c := by
  rw [Prog.run]

theorem run_pop (r : Reg) (x : Val) : P.run (.pop r :: is) (.val x :: st) c = P.run is st (c.set x r) := by
  rw [Prog.run]

theorem run_call (l : L) : P.run (.call l :: is) st c = P.run (P.code l) (.ret is :: st) c := by
  rw [Prog.run]

theorem run_ret (k : List (Ins L)) : P.run (.ret :: is) (.ret k :: st) c = P.run k st c := by
  rw [Prog.run]

theorem run_retC : P.run (.ret :: is) [] c = pure c := by
  rw [Prog.run]

theorem run_jz {b : Bool} (l : L) (h : c.zf = some b) :
    P.run (.jz l :: is) st c = if b then P.run (P.code l) st c else P.run is st c := by
  rw [Prog.run, h]; rfl

theorem run_jnz {b : Bool} (l : L) (h : c.zf = some b) :
    P.run (.jnz l :: is) st c = if b then P.run is st c else P.run (P.code l) st c := by
  rw [Prog.run, h]; rfl

theorem run_jc {b : Bool} (l : L) (h : c.cf = some b) :
    P.run (.jc l :: is) st c = if b then P.run (P.code l) st c else P.run is st c := by
  rw [Prog.run, h]; rfl

theorem run_jnc {b : Bool} (l : L) (h : c.cf = some b) :
    P.run (.jnc l :: is) st c = if b then P.run is st c else P.run (P.code l) st c := by
  rw [Prog.run, h]; rfl

theorem run_ops (l : List Op) : P.run (l.map .op ++ is) st c = ops P.rodata l c >>= P.run is st := by
  induction l generalizing c with
  | nil => simp [ops]
  | cons o l ih =>
    rw [List.map_cons, List.cons_append, run_op, ops, bind_assoc]
    exact congrArg _ (funext fun c => ih)

end

/-- The registers which the rounds leave alone. -/
structure Same (c c' : Cpu) : Prop where
  rbx : c'.rbx = c.rbx
  rcx : c'.rcx = c.rcx
  rdx : c'.rdx = c.rdx
  rsi : c'.rsi = c.rsi
  rdi : c'.rdi = c.rdi
  r8 : c'.r8 = c.r8
  r9 : c'.r9 = c.r9

theorem loop_code : c_Loop_avx2 = roundOps.map .op ++
    [.op (.lea (.base 32 .r10) .r10), .op (.dec32 .rax), .jnz .Loop_avx2, .ret] := rfl

theorem dec_cnt (k : Fin 24) : ((BitVec.ofNat 64 (k.val + 1)).setWidth 32 - 1 : BitVec 32).setWidth 64 = BitVec.ofNat 64 k.val ∧
    (((BitVec.ofNat 64 (k.val + 1)).setWidth 32 - 1 : BitVec 32) == 0) = decide (k.val = 0) := by
  revert k; decide

/-- One time through the loop. -/
theorem iter_run {i : Nat} {c : Cpu} {A : Lanes} (k : Fin 24) (st : List (Slot Lbl)) (hi : i + (k.val + 1) = 24)
    (hv : VS c.v (GenP.rndN i A)) (h8 : c.r8 = .rod 96) (h9 : c.r9 = .rod 288) (h10 : c.r10 = .rod (384 + 32 * (i : Int)))
    (ha : c.rax = .num (BitVec.ofNat 64 (k.val + 1))) :
    ∃ v', VS v' (GenP.rndN (i + 1) A) ∧ prog.run c_Loop_avx2 st c = prog.run [.jnz .Loop_avx2, .ret] st
      ⟨.num (BitVec.ofNat 64 k.val), c.rbx, c.rcx, c.rdx, c.rsi, c.rdi, c.r8, c.r9, .rod (384 + 32 * (i : Int) + 32),
        some (decide (k.val = 0)), c.cf, v'⟩ := by
  obtain ⟨v', e, hv'⟩ := round_ops ⟨i, by omega⟩ hv h8 h9 h10
  rw [← GenP.rndN_succ] at hv'
  refine ⟨v', hv', ?_⟩
  rw [loop_code, run_ops]
  show ops rodata roundOps c >>= _ = _
  rw [e, pure_bind, run_op]
  simp only [Op.exec, Cpu.adr, Cpu.get, h10, Val.off, lft_some, pure_bind, Cpu.set, run_op, ha, Val.isNum, Cpu.flags,
    (dec_cnt k).1, (dec_cnt k).2]

/-- The loop, from round `i` on. -/
theorem loop_run (k : Nat) : ∀ {i : Nat} {c : Cpu} {A : Lanes} (is : List (Ins Lbl)) (st : List (Slot Lbl)), i + (k + 1) = 24 →
    VS c.v (GenP.rndN i A) → c.r8 = .rod 96 → c.r9 = .rod 288 → c.r10 = .rod (384 + 32 * (i : Int)) →
    c.rax = .num (BitVec.ofNat 64 (k + 1)) →
    ∃ c', prog.run c_Loop_avx2 (.ret is :: st) c = prog.run is st c' ∧ VS c'.v (Keccak.rounds24 A) ∧ Same c c' := by
  induction k with
  | zero =>
    intro i c A is st hi hv h8 h9 h10 ha
    obtain ⟨v', hv', e⟩ := iter_run ⟨0, by omega⟩ (.ret is :: st) hi hv h8 h9 h10 ha
    rw [show i + 1 = 24 by omega, GenP.rndN_24] at hv'
    rw [run_jnz (b := true) _ rfl, if_pos rfl, run_ret] at e
    exact ⟨_, e, hv', rfl, rfl, rfl, rfl, rfl, rfl, rfl⟩
  | succ k ih =>
    intro i c A is st hi hv h8 h9 h10 ha
    obtain ⟨v', hv', e⟩ := iter_run ⟨k + 1, by omega⟩ (.ret is :: st) hi hv h8 h9 h10 ha
    obtain ⟨c', e1, h1, h2⟩ := ih (i := i + 1) (A := A)
      (c := ⟨.num (BitVec.ofNat 64 (k + 1)), c.rbx, c.rcx, c.rdx, c.rsi, c.rdi, c.r8, c.r9, .rod (384 + 32 * (i : Int) + 32),
        some false, c.cf, v'⟩) is st (by omega) hv' h8 h9 (by push_cast; ring_nf) rfl
    refine ⟨c', ?_, h1, ⟨h2.rbx, h2.rcx, h2.rdx, h2.rsi, h2.rdi, h2.r8, h2.r9⟩⟩
    rw [← e1, e, run_jnz (b := false) _ (by simp), if_neg (by decide)]
    rw [show decide ((⟨k + 1, by omega⟩ : Fin 24).val = 0) = false by simp]
    rfl

/-- sha3/avx2/KeccakP-1600-AVX2.s:423-561 `__KeccakF1600`, called with the registers set up. -/
theorem f1600_run {c : Cpu} {A : Lanes} (is : List (Ins Lbl)) (st : List (Slot Lbl)) (hv : VS c.v A) (h8 : c.r8 = .rod 96)
    (h9 : c.r9 = .rod 288) (h10 : c.r10 = .rod 384) (ha : c.rax = .num 24) :
    ∃ c', prog.run (.call .KeccakF1600 :: is) st c = prog.run is st c' ∧ VS c'.v (Keccak.rounds24 A) ∧ Same c c' := by
  rw [run_call]
  show ∃ c', prog.run c_KeccakF1600 _ _ = _ ∧ _
  unfold c_KeccakF1600
  rw [run_jmp]
  exact loop_run 23 is st rfl hv h8 h9 (by rw [h10]; rfl) ha

end Faest.Asm
