/-
The state functions of sha3/avx2/KeccakP-1600-AVX2.s.
-/
import Verif.Proofs.Asm.State

set_option linter.unusedSimpArgs false

namespace Faest.Asm
open Faest.C Faest.GenX Faest.Keccak
open Faest.GenH (pk pk_packL St st_len st_has st_st st_congr st_self has_from)

theorem prog_rodata : prog.rodata = rodata := rfl
theorem prog_code (l : Lbl) : prog.code l = code l := rfl

/-! ### Words -/

theorem byte_setByte (v : Val) (x : Byte) : (v.setByte x).byte = some x := by
  cases v with
  | num y =>
    refine congrArg some ?_
    apply BitVec.eq_of_getLsbD_eq
    intro i hi
    simp [hi]
  | _ => rfl

theorem and7 (x : Nat) : BitVec.ofNat 64 x &&& 7 = BitVec.ofNat 64 (x % 8) := by
  apply BitVec.eq_of_toNat_eq
  rw [BitVec.toNat_and, BitVec.toNat_ofNat, BitVec.toNat_ofNat, show (7 : BitVec 64).toNat = 2 ^ 3 - 1 from rfl,
    Nat.and_two_pow_sub_one_eq_mod]
  omega

theorem andF8 (x : Nat) (h : x < 2 ^ 32) :
    (((BitVec.ofNat 64 x).setWidth 32 &&& 4294967288 : BitVec 32)).setWidth 64 = BitVec.ofNat 64 (8 * (x / 8)) := by
  apply BitVec.eq_of_getLsbD_eq
  intro i hi
  have hc : (4294967288 : BitVec 32).getLsbD i = decide (3 ≤ i ∧ i < 32) := by
    by_cases h32 : i < 32
    · have : ∀ i : Fin 32, (4294967288 : BitVec 32).getLsbD i.val = decide (3 ≤ i.val ∧ i.val < 32) := by decide
      exact this ⟨i, h32⟩
    · rw [BitVec.getLsbD_of_ge _ _ (by omega)]; simp [h32]
  have hx : 32 ≤ i → x.testBit i = false := fun h1 =>
    Nat.testBit_lt_two_pow (lt_of_lt_of_le h (Nat.pow_le_pow_right (by omega) h1))
  rw [show 8 * (x / 8) = (x >>> 3) <<< 3 by rw [Nat.shiftRight_eq_div_pow, Nat.shiftLeft_eq]; omega]
  simp only [BitVec.getLsbD_setWidth, BitVec.getLsbD_and, BitVec.getLsbD_ofNat, hc, hi, Nat.testBit_shiftLeft,
    Nat.testBit_shiftRight, decide_true, Bool.true_and]
  by_cases h3 : 3 ≤ i
  · rw [show 3 + (i - 3) = i by omega]
    by_cases h32 : i < 32
    · simp [h3, h32]
    · simp [h3, h32, hx (by omega)]
  · simp [h3]

theorem ofNat_beq {x : Nat} (h : x < 2 ^ 64) : (BitVec.ofNat 64 x == 0) = decide (x = 0) := by
  rw [Bool.eq_iff_iff, beq_iff_eq, decide_eq_true_eq, ← BitVec.toNat_inj, BitVec.toNat_ofNat, Nat.mod_eq_of_lt h]
  rfl

theorem ofNat_toInt {x : Nat} (h : x < 2 ^ 63) : (BitVec.ofNat 64 x).toInt = (x : Int) := by
  rw [BitVec.toInt_eq_toNat_of_lt (by rw [BitVec.toNat_ofNat]; omega), BitVec.toNat_ofNat, Nat.mod_eq_of_lt (by omega)]

theorem dec_num {k : Nat} (h : k < 2 ^ 63) :
    incV (.num (BitVec.ofNat 64 (k + 1))) (-1) = some (.num (BitVec.ofNat 64 k), some (decide (k = 0))) := by
  have : BitVec.ofNat 64 (k + 1) + BitVec.ofInt 64 (-1) = BitVec.ofNat 64 k := by
    apply BitVec.eq_of_toNat_eq
    rw [BitVec.toNat_add, BitVec.toNat_ofNat, BitVec.toNat_ofNat, show (BitVec.ofInt 64 (-1)).toNat = 2 ^ 64 - 1 from rfl]
    omega
  simp only [incV]
  rw [this, ofNat_beq (by omega)]

theorem sub_num {x y : Nat} (hx : x < 2 ^ 64) (h : y ≤ x) :
    subV (.num (BitVec.ofNat 64 x)) (.num (BitVec.ofNat 64 y))
      = some (.num (BitVec.ofNat 64 (x - y)), some (decide (x = y)), some false) := by
  simp only [subV]
  have e1 : BitVec.ofNat 64 x - BitVec.ofNat 64 y = BitVec.ofNat 64 (x - y) := by
    apply BitVec.eq_of_toNat_eq
    rw [BitVec.toNat_sub, BitVec.toNat_ofNat, BitVec.toNat_ofNat, BitVec.toNat_ofNat]
    omega
  have e2 : (BitVec.ofNat 64 x == BitVec.ofNat 64 y) = decide (x = y) := by
    rw [Bool.eq_iff_iff, beq_iff_eq, decide_eq_true_eq, ← BitVec.toNat_inj, BitVec.toNat_ofNat, BitVec.toNat_ofNat]
    omega
  rw [e1, e2]
  congr 4
  rw [decide_eq_false_iff_not, BitVec.toNat_ofNat, BitVec.toNat_ofNat]
  omega

/-- The flags of a comparison. -/
theorem cmp_num {x y : Nat} (hx : x < 2 ^ 64) (hy : y < 2 ^ 64) :
    subV (.num (BitVec.ofNat 64 x)) (.num (BitVec.ofNat 64 y))
      = some (.num (BitVec.ofNat 64 x - BitVec.ofNat 64 y), some (decide (x = y)), some (decide (x < y))) := by
  simp only [subV]
  have e2 : (BitVec.ofNat 64 x == BitVec.ofNat 64 y) = decide (x = y) := by
    rw [Bool.eq_iff_iff, beq_iff_eq, decide_eq_true_eq, ← BitVec.toNat_inj, BitVec.toNat_ofNat, BitVec.toNat_ofNat]
    omega
  rw [e2]
  congr 4
  rw [BitVec.toNat_ofNat, BitVec.toNat_ofNat, Nat.mod_eq_of_lt hx, Nat.mod_eq_of_lt hy]

theorem add_num {x y : Nat} (h : x + y < 2 ^ 64) :
    addV (.num (BitVec.ofNat 64 x)) (.num (BitVec.ofNat 64 y))
      = some (.num (BitVec.ofNat 64 (x + y)), some (decide (x + y = 0)), some false) := by
  simp only [addV]
  rw [← BitVec.ofNat_add, ofNat_beq h]
  congr 4
  rw [decide_eq_false_iff_not, BitVec.toNat_ofNat, BitVec.toNat_ofNat]
  omega

/-! ### KeccakP1600_AddByte -/

section
variable {kd : Kind} {b : Nat} {m : Mem Byte} {B : Nat → Byte} {F : Blocks}

/-- The post-condition of the functions without value. -/
def Post (c : Cpu) (E : Blocks) : Cpu → Blocks → Prop := fun c' D' => c'.rbx = c.rbx ∧ D' = E

theorem xorB_one (B : Nat → Byte) (i : Nat) (x : Byte) : upd B i (B i ^^^ x) = xorB B i 1 fun _ => x := by
  funext t
  unfold upd xorB
  by_cases e : t = i
  · rw [if_pos e, if_pos (by omega), e]
  · rw [if_neg e, if_neg (by omega)]

theorem addByte_run {c : Cpu} {x : Byte} {i : Nat} (hl : 200 ≤ m.length) (hi : i < 200) (h1 : c.rdi = .ptr b 0) (h2 : c.rsi.byte = some x)
    (h3 : c.rdx = argN i) :
    T (bl kd b (St m 0 (av B)) + F) (prog.run c_KeccakP1600_AddByte [] c)
      (Post c (bl kd b (St m 0 (av (xorB B i 1 fun _ => x))) + F)) := by
  unfold c_KeccakP1600_AddByte argN at *
  have hm := mp_lt (k := i / 8) (by omega)
  simp only [run_op, Op.exec, Src.val, Cpu.adr, Cpu.get, Cpu.set, Cpu.flags, lft_some, pure_bind, bind_assoc, h3, h1, h2, Val.isNum,
    and7, andF8 i (by omega), Val.add, Val.off, ofNat_toInt (show 8 * (i / 8) < 2 ^ 63 by omega), Option.bind_some, prog_rodata,
    mapState]
  rw [map_ld (k := i / 8) (by omega) (by omega)]
  simp only [pure_bind, addV, Val.add, Val.off, map_int (show i / 8 < 25 by omega), ofNat_toInt (show i % 8 < 2 ^ 63 by omega),
    Option.map_some, lft_some, run_retC]
  refine t_ld1s hl hi (by unfold bp; omega) ?_
  refine t_st1s hl hi (by unfold bp; omega) ?_
  refine t_pbind (t_pure ⟨rfl, ?_⟩)
  rw [xorB_one]

/-! ### KeccakP1600_AddBytes -/

theorem xorB_upd (B d : Nat → Byte) (off t : Nat) :
    upd (xorB B off t d) (off + t) (xorB B off t d (off + t) ^^^ d t) = xorB B off (t + 1) d := by
  funext i
  unfold upd xorB
  by_cases e : i = off + t
  · subst e
    rw [if_pos rfl, if_neg (by omega), if_pos (by omega), show off + t - off = t by omega]
  · rw [if_neg e]
    by_cases e2 : off ≤ i ∧ i < off + t
    · rw [if_pos e2, if_pos (by omega)]
    · rw [if_neg e2, if_neg (by omega)]

theorem xorB_updL (B d : Nat → Byte) (off t : Nat) (h : (off + t) % 8 = 0) :
    updL (xorB B off t d) ((off + t) / 8) (packL (xorB B off t d) ((off + t) / 8) ^^^ pk d t) = xorB B off (t + 8) d := by
  funext i
  unfold updL
  by_cases e : i / 8 = (off + t) / 8
  · rw [if_pos e, laneByte_xor, laneByte_packL _ _ _ (by omega)]
    have : laneByte (pk d t) (i % 8) = d (t + i % 8) := by
      unfold pk
      rw [laneByte_leWord _ _ (by omega), List.getD_eq_getElem?_getD, tabP_getElem?, if_pos (by omega)]
      rfl
    rw [this]
    unfold xorB
    rw [if_neg (by omega), if_pos (by omega), show i - off = t + i % 8 by omega, show 8 * ((off + t) / 8) + i % 8 = i by omega]
  · rw [if_neg e]
    unfold xorB
    by_cases e2 : off ≤ i ∧ i < off + t
    · rw [if_pos e2, if_pos (by omega)]
    · rw [if_neg e2, if_neg (by omega)]

theorem bp_succ {i : Nat} (h : i % 8 < 7) : bp (i + 1) = bp i + 1 := by
  unfold bp
  rw [show (i + 1) / 8 = i / 8 by omega]
  omega

theorem bp_lane {i : Nat} (h : i % 8 = 0) : bp i = 8 * mp (i / 8) := by
  unfold bp; omega

section
variable {qb qo n off : Nat} {μ : Mem Byte} {d : Nat → Byte}

theorem ab_na (hl : 200 ≤ m.length) (hv : View F (some ⟨qb, qo⟩) μ) (hd : Has μ 0 n d) (hn : off + n ≤ 200) {Q : Cpu → Blocks → Prop}
    (k : Nat) : ∀ {c : Cpu} {t : Nat}, c.rax = .ptr b (bp (off + t)) → c.rsi = .ptr qb (qo + t) → c.r9 = argN (k + 1) →
    (off + t) % 8 + (k + 1) ≤ 8 → t + (k + 1) ≤ n →
    (∀ c' : Cpu, c'.rbx = c.rbx → c'.rcx = c.rcx → c'.rdx = c.rdx → c'.rdi = c.rdi → c'.rsi = .ptr qb (qo + (t + (k + 1) : Nat)) →
      T (bl kd b (St m 0 (av (xorB B off (t + (k + 1)) d))) + F) (prog.run c_KeccakP1600_AddBytes_LaneAlignedCheck [] c') Q) →
    T (bl kd b (St m 0 (av (xorB B off t d))) + F) (prog.run c_KeccakP1600_AddBytes_NotAlignedLoop [] c) Q := by
  induction k with
  | zero =>
    intro c t h1 h2 h3 h4 h5 hk
    unfold c_KeccakP1600_AddBytes_NotAlignedLoop argN at *
    simp only [run_op, Op.exec, Cpu.adr, Cpu.get, Cpu.set, Cpu.flags, lft_some, pure_bind, bind_assoc, h1, h2, h3, Val.off, incV,
      Option.map_some, byte_setByte]
    refine t_ld1d (i := t) hv.there hd (by omega) (by omega) ?_
    refine t_ld1s (i := off + t) hl (by omega) (by omega) ?_
    refine t_st1s (i := off + t) hl (by omega) (by omega) ?_
    rw [run_jnz (b := true) _ rfl, if_pos rfl, run_jmp, xorB_upd]
    refine hk _ rfl rfl rfl rfl ?_
    simp only [Val.ptr.injEq, true_and]; push_cast; ring
  | succ k ih =>
    intro c t h1 h2 h3 h4 h5 hk
    unfold c_KeccakP1600_AddBytes_NotAlignedLoop argN at *
    simp only [run_op, Op.exec, Cpu.adr, Cpu.get, Cpu.set, Cpu.flags, lft_some, pure_bind, bind_assoc, h1, h2, h3, Val.off,
      dec_num (show k + 1 < 2 ^ 63 by omega), byte_setByte]
    simp only [incV, Val.off, Option.map_some, lft_some, pure_bind]
    refine t_ld1d (i := t) hv.there hd (by omega) (by omega) ?_
    refine t_ld1s (i := off + t) hl (by omega) (by omega) ?_
    refine t_st1s (i := off + t) hl (by omega) (by omega) ?_
    rw [run_jnz (b := false) _ rfl, if_neg (by simp), xorB_upd]
    refine ih (t := t + 1) ?_ ?_ rfl (by omega) (by omega) ?_
    · simp only [Val.ptr.injEq, true_and]
      rw [← Nat.add_assoc, bp_succ (by omega)]; rfl
    · simp only [Val.ptr.injEq, true_and]; push_cast; ring
    · intro c' e1 e2 e3 e4 e5
      rw [show t + 1 + (k + 1) = t + (k + 1 + 1) by omega] at *
      exact hk c' e1 e2 e3 e4 e5

theorem ab_last (hl : 200 ≤ m.length) (hv : View F (some ⟨qb, qo⟩) μ) (hd : Has μ 0 n d) (hn : off + n ≤ 200) (k : Nat) :
    ∀ {c : Cpu} {t : Nat}, c.rax = .ptr b (bp (off + t)) → c.rsi = .ptr qb (qo + t) → c.rcx = argN (k + 1) →
    (off + t) % 8 + (k + 1) ≤ 8 → t + (k + 1) = n →
    T (bl kd b (St m 0 (av (xorB B off t d))) + F) (prog.run c_KeccakP1600_AddBytes_LastIncompleteLaneLoop [] c)
      (Post c (bl kd b (St m 0 (av (xorB B off n d))) + F)) := by
  induction k with
  | zero =>
    intro c t h1 h2 h3 h4 h5
    unfold c_KeccakP1600_AddBytes_LastIncompleteLaneLoop argN at *
    simp only [run_op, Op.exec, Cpu.adr, Cpu.get, Cpu.set, Cpu.flags, lft_some, pure_bind, bind_assoc, h1, h2, h3, Val.off, incV,
      Option.map_some, byte_setByte]
    refine t_ld1d (i := t) hv.there hd (by omega) (by omega) ?_
    refine t_ld1s (i := off + t) hl (by omega) (by omega) ?_
    refine t_st1s (i := off + t) hl (by omega) (by omega) ?_
    rw [run_jnz (b := true) _ rfl, if_pos rfl, run_jmp, xorB_upd, show t + 1 = n by omega]
    show T _ (prog.run c_KeccakP1600_AddBytes_Exit _ _) _
    unfold c_KeccakP1600_AddBytes_Exit
    rw [run_retC]
    exact t_pure ⟨rfl, rfl⟩
  | succ k ih =>
    intro c t h1 h2 h3 h4 h5
    unfold c_KeccakP1600_AddBytes_LastIncompleteLaneLoop argN at *
    simp only [run_op, Op.exec, Cpu.adr, Cpu.get, Cpu.set, Cpu.flags, lft_some, pure_bind, bind_assoc, h1, h2, h3, Val.off,
      dec_num (show k + 1 < 2 ^ 63 by omega), byte_setByte]
    simp only [incV, Val.off, Option.map_some, lft_some, pure_bind]
    refine t_ld1d (i := t) hv.there hd (by omega) (by omega) ?_
    refine t_ld1s (i := off + t) hl (by omega) (by omega) ?_
    refine t_st1s (i := off + t) hl (by omega) (by omega) ?_
    rw [run_jnz (b := false) _ rfl, if_neg (by simp), xorB_upd]
    refine t_mono (ih (t := t + 1) ?_ ?_ rfl (by omega) (by omega)) fun _ _ h => h
    · simp only [Val.ptr.injEq, true_and]
      rw [← Nat.add_assoc, bp_succ (by omega)]; rfl
    · simp only [Val.ptr.injEq, true_and]; push_cast; ring

/-- From a place where a lane begins. -/
theorem ab_lanes (hl : 200 ≤ m.length) (hv : View F (some ⟨qb, qo⟩) μ) (hd : Has μ 0 n d) (hn : off + n ≤ 200) (k : Nat) :
    ∀ {c : Cpu} {t r : Nat}, c.rdi = .ptr b 0 → (r ≠ 0 → c.rdx = .rod (1152 + (off + t))) → c.rsi = .ptr qb (qo + t) → c.rcx = argN r →
    ((off + t) % 8 = 0 ∨ r = 0) → t + r = n → r / 8 = k →
    T (bl kd b (St m 0 (av (xorB B off t d))) + F) (prog.run c_KeccakP1600_AddBytes_LaneAlignedCheck [] c)
      (Post c (bl kd b (St m 0 (av (xorB B off n d))) + F)) := by
  induction k with
  | zero =>
    intro c t r h0 h1 h2 h3 h4 h5 hr
    unfold c_KeccakP1600_AddBytes_LaneAlignedCheck argN at *
    simp only [run_op, Op.exec, Src.val, Cpu.adr, Cpu.get, Cpu.set, Cpu.flags, lft_some, pure_bind, bind_assoc, h3,
      show (8 : BitVec 64) = BitVec.ofNat 64 8 from rfl, cmp_num (show r < 2 ^ 64 by omega) (show 8 < 2 ^ 64 by decide)]
    rw [run_jnc (b := true) _ (congrArg some (decide_eq_true (by omega))), if_pos rfl, run_jmp]
    show T _ (prog.run c_KeccakP1600_AddBytes_LastIncompleteLane _ _) _
    unfold c_KeccakP1600_AddBytes_LastIncompleteLane
    simp only [run_op, Op.exec, Src.val, Cpu.adr, Cpu.get, Cpu.set, Cpu.flags, lft_some, pure_bind, bind_assoc, addV, h0, Val.off,
      BitVec.sub_add_cancel, show (8 : BitVec 64) = BitVec.ofNat 64 8 from rfl, ofNat_beq (show r < 2 ^ 64 by omega)]
    rcases Nat.eq_zero_or_pos r with e | e
    · rw [run_jz (b := true) _ (congrArg some (decide_eq_true e)), if_pos rfl]
      show T _ (prog.run c_KeccakP1600_AddBytes_Exit _ _) _
      unfold c_KeccakP1600_AddBytes_Exit
      rw [run_retC, show n = t by omega]
      exact t_pure ⟨rfl, rfl⟩
    · rw [run_jz (b := false) _ (congrArg some (decide_eq_false (by omega))), if_neg (by simp)]
      have h1 := h1 (by omega)
      simp only [run_op, Op.exec, Src.val, Cpu.adr, Cpu.get, Cpu.set, Cpu.flags, lft_some, pure_bind, bind_assoc, addV, h0, h1, Val.off,
        prog_rodata]
      rw [map_ld (k := (off + t) / 8) (by omega) (by omega), pure_bind]
      simp only [addV, Val.add, Val.off, map_int (show (off + t) / 8 < 25 by omega), Option.map_some, lft_some, pure_bind, run_jmp]
      obtain ⟨r, rfl⟩ : ∃ r', r = r' + 1 := ⟨r - 1, by omega⟩
      refine t_mono (ab_last hl hv hd hn r (t := t) ?_ h2 rfl (by omega) h5) fun _ _ h => h
      simp only [Val.ptr.injEq, true_and]
      rw [bp_lane (by omega)]; omega
  | succ k ih =>
    intro c t r h0 h1 h2 h3 h4 h5 hr
    have h1 := h1 (by omega)
    unfold c_KeccakP1600_AddBytes_LaneAlignedCheck argN at *
    simp only [run_op, Op.exec, Src.val, Cpu.adr, Cpu.get, Cpu.set, Cpu.flags, lft_some, pure_bind, bind_assoc, h3,
      show (8 : BitVec 64) = BitVec.ofNat 64 8 from rfl, sub_num (show r < 2 ^ 64 by omega) (show 8 ≤ r by omega)]
    rw [run_jnc (b := false) _ rfl, if_neg (by simp)]
    show T _ (prog.run c_KeccakP1600_AddBytes_LaneAlignedLoop _ _) _
    unfold c_KeccakP1600_AddBytes_LaneAlignedLoop
    simp only [run_op, Op.exec, Src.val, Cpu.adr, Cpu.get, Cpu.set, Cpu.flags, lft_some, pure_bind, bind_assoc, h0, h1, h2, Val.off, addV,
      Val.add, Option.map_some, prog_rodata, Int.add_zero]
    refine t_ld8d (i := t) hv.there hd (by omega) (by omega) ?_
    rw [map_ld (k := (off + t) / 8) (by omega) (by omega), pure_bind]
    simp only [Val.isNum, lft_some, pure_bind, map_int (show (off + t) / 8 < 25 by omega)]
    refine t_ld8s (i := (off + t) / 8) hl (by omega) (by omega) ?_
    refine t_st8s (i := (off + t) / 8) hl (by omega) (by omega) ?_
    rw [run_jmp, xorB_updL _ _ _ _ (by omega)]
    refine t_mono (ih (t := t + 8) (r := r - 8) rfl (fun _ => ?_) ?_ rfl (by omega) (by omega) (by omega)) fun _ _ h => h
    · simp only [Val.rod.injEq]; push_cast; ring
    · simp only [Val.ptr.injEq, true_and]; push_cast; ring

/-- The code after the number of bytes up to the next lane is known. -/
def ab_rest : List (Ins Lbl) := [
  .op (.sub (.reg .r9) .rcx),
  .op (.add (.mem (.base 0 .rdx)) .rax),
  .op (.add (.imm 8) .rdx),
  .op (.add (.reg .rdi) .rax),
  .jmp .KeccakP1600_AddBytes_NotAlignedLoop]

theorem addBytes_run (hl : 200 ≤ m.length) (hv : View F (some ⟨qb, qo⟩) μ) (hd : Has μ 0 n d) (hn : off + n ≤ 200) {c : Cpu}
    (h0 : c.rdi = .ptr b 0) (h1 : c.rsi = .ptr qb qo) (h2 : c.rdx = argN off) (h3 : c.rcx = argN n) :
    T (bl kd b (St m 0 (av B)) + F) (prog.run c_KeccakP1600_AddBytes [] c)
      (Post c (bl kd b (St m 0 (av (xorB B off n d))) + F)) := by
  unfold c_KeccakP1600_AddBytes argN at *
  simp only [run_op, Op.exec, Src.val, Cpu.adr, Cpu.get, Cpu.set, Cpu.flags, lft_some, pure_bind, bind_assoc, h3,
      show (0 : BitVec 64) = BitVec.ofNat 64 0 from rfl, cmp_num (show n < 2 ^ 64 by omega) (show 0 < 2 ^ 64 by decide)]
  rcases Nat.eq_zero_or_pos n with e | e
  · subst e
    rw [run_jz (b := true) _ rfl, if_pos rfl]
    show T _ (prog.run c_KeccakP1600_AddBytes_Exit _ _) _
    unfold c_KeccakP1600_AddBytes_Exit
    rw [run_retC, xorB_zero]
    exact t_pure ⟨rfl, rfl⟩
  rw [run_jz (b := false) _ (congrArg some (decide_eq_false (by omega))), if_neg (by simp)]
  simp only [run_op, Op.exec, Src.val, Cpu.adr, Cpu.get, Cpu.set, Cpu.flags, lft_some, pure_bind, bind_assoc, h2, Val.isNum, andF8 off (by omega),
    addV, Val.add, Val.off, ofNat_toInt (show 8 * (off / 8) < 2 ^ 63 by omega), Option.map_some, and7, ofNat_beq (show off % 8 < 2 ^ 64 by omega)]
  by_cases e8 : off % 8 = 0
  · rw [run_jz (b := true) _ (congrArg some (decide_eq_true e8)), if_pos rfl]
    have := ab_lanes (B := B) (kd := kd) (b := b) hl hv hd hn (n / 8) (t := 0) (r := n)
      (c := ⟨.num (BitVec.ofNat 64 (off % 8)), c.rbx, argN n, .rod (mapState + (8 * (off / 8) : Nat)), c.rsi, c.rdi, c.r8, .rod mapState, c.r10,
        some (decide (off % 8 = 0)), some false, c.v⟩) h0 (fun _ => by
        simp only [Val.rod.injEq, mapState]; omega) (by simp [h1]) rfl (by omega) (by omega) rfl
    rw [xorB_zero] at this
    exact t_mono this fun _ _ h => h
  · rw [run_jz (b := false) _ (congrArg some (decide_eq_false e8)), if_neg (by simp)]
    have hm := mp_lt (k := off / 8) (by omega)
    obtain ⟨k, hk⟩ : ∃ k, min (8 - off % 8) n = k + 1 := ⟨min (8 - off % 8) n - 1, by omega⟩
    have key : ∀ c1 : Cpu, c1.rax = argN (off % 8) → c1.rdx = .rod (mapState + (8 * (off / 8) : Nat)) → c1.rcx = argN n → c1.r9 = argN (k + 1) →
        c1.rdi = c.rdi → c1.rsi = c.rsi → c1.rbx = c.rbx → T (bl kd b (St m 0 (av B)) + F) (prog.run ab_rest [] c1) (Post c (bl kd b (St m 0 (av (xorB B off n d))) + F)) := by
      intro c1 a1 a2 a3 a4 a5 a6 a7
      unfold argN ab_rest at *
      simp only [run_op, Op.exec, Src.val, Cpu.adr, Cpu.get, Cpu.set, Cpu.flags, lft_some, pure_bind, bind_assoc, prog_rodata, a1, a2, a3, a4, a5, h0,
        sub_num (show n < 2 ^ 64 by omega) (show k + 1 ≤ n by omega), Val.off, mapState]
      rw [map_ld (k := off / 8) (by omega) (by omega), pure_bind]
      simp only [add_num (show off % 8 + 8 * mp (off / 8) < 2 ^ 64 by omega), lft_some, pure_bind]
      simp only [lft_some, pure_bind, addV, Val.add, Val.off, Option.map_some,
        ofNat_toInt (show off % 8 + 8 * mp (off / 8) < 2 ^ 63 by omega), run_jmp]
      rw [← xorB_zero B off d]
      refine ab_na hl hv hd hn k (t := 0) ?_ ?_ rfl (by omega) (by omega) ?_
      · simp only [Val.ptr.injEq, true_and, Nat.add_zero]; unfold bp; omega
      · simp [a6, h1]
      · intro c' e1 e2 e3 e4 e5
        rw [xorB_zero, Nat.zero_add]
        rw [Nat.zero_add] at e5
        refine t_mono (ab_lanes hl hv hd hn _ (r := n - (k + 1)) (c := c') (t := k + 1) e4 (fun _ => ?_) e5 e2 (by omega) (by omega) rfl)
          fun _ _ h => ⟨h.1.trans (e1.trans a7), h.2⟩
        rw [e3]
        simp only [Val.rod.injEq]
        rw [show (8 : BitVec 64).toInt = 8 from rfl]
        omega
    change T _ (prog.run (.op _ :: .op _ :: .op _ :: .op _ :: ab_rest) [] _) _
    generalize ab_rest = rest at key ⊢
    simp only [run_op, Op.exec, Src.val, Cpu.adr, Cpu.get, Cpu.set, Cpu.flags, lft_some, pure_bind, bind_assoc, prog_rodata,
      show (8 : BitVec 64) = BitVec.ofNat 64 8 from rfl, sub_num (show 8 < 2 ^ 64 by decide) (show off % 8 ≤ 8 by omega), h3,
      cmp_num (show 8 - off % 8 < 2 ^ 64 by omega) (show n < 2 ^ 64 by omega)]
    by_cases e9 : 8 - off % 8 < n
    · simp only [decide_eq_true e9, if_true, lft_some, pure_bind]
      refine key _ ?_ ?_ ?_ ?_ ?_ ?_ ?_ <;> try rfl
      simp only [argN]
      rw [show 8 - off % 8 = k + 1 by omega]
    · simp only [decide_eq_false e9, if_false, lft_some, pure_bind, Bool.false_eq_true, Cpu.set, Cpu.get]
      refine key _ ?_ ?_ ?_ ?_ ?_ ?_ ?_ <;> try rfl
      simp only [argN]
      rw [show n = k + 1 by omega]

end

/-! ### KeccakP1600_ExtractBytes -/

section
variable {δ : Type} {Q : δ → Blocks → Prop} {A : Blocks} {q : Ptr} {N : Nat}

theorem st8_stN {b : Nat} {o : Int} {x : BitVec 64} (h : 0 ≤ o) : st8 x (.ptr b o) = stN (some ⟨b, o.toNat⟩) (wordBytes x) := by
  rw [st8_ptr h]; rfl

theorem st1_stN {b : Nat} {o : Int} {x : Byte} (h : 0 ≤ o) : st1 x (.ptr b o) = stN (some ⟨b, o.toNat⟩) [x] := by
  rw [st1_ptr h]
  unfold st stN
  refine congrArg _ (funext fun q => congrArg _ (funext fun m => ?_))
  have : wr m (q.off + 0) x = wrN m q.off [x] := by
    rw [Nat.add_zero]
    by_cases h : q.off < m.length
    · rw [wr_one h, wrN_W (by simp; omega)]
    · unfold wr wrN
      rw [if_neg h, if_neg (by simp; omega)]
  rw [this]

/-- The next bytes of the output. -/
theorem t_upn {n k : Nat} {o : Int} {G : Nat → Byte} {l : List Byte} {g : Unit → CM δ} (hv : Valid F q N) (hN : n + k ≤ N)
    (ho : o = (q.off : Int) + n) (hx : l = tabP k fun j => G (n + j)) (h : T (A + up F q (tabP (n + k) G)) (g ()) Q) :
    T (A + up F q (tabP n G)) (stN (some ⟨q.blk, o.toNat⟩) l >>= g) Q := by
  subst ho hx
  rw [show ((q.off : Int) + n).toNat = q.off + n by omega]
  refine t_nd fun hnd => ?_
  have hF : ND F := ND.of_up hnd.right
  have hv2 : Valid (up F q (tabP n G)) ⟨q.blk, q.off + n⟩ k :=
    (hv.sub (a := n) (k := k) hN).up (by rw [tabP_length]; exact hv.mono (by omega)) hF
  refine t_up (by rw [tabP_length]; exact hv2.right) ?_
  rw [up_frame hnd hv2]
  have e := up_append (F := F) (q := q) (l := tabP n G) (l' := tabP k fun j => G (n + j))
    (by rw [tabP_length, tabP_length]; exact hv.mono hN) hF
  rw [tabP_length, ← tabP_add] at e
  rw [e]
  exact h

theorem t_st1u {n : Nat} {o : Int} {G : Nat → Byte} {x : Byte} {g : Unit → CM δ} (hv : Valid F q N) (hN : n + 1 ≤ N)
    (ho : o = (q.off : Int) + n) (hx : x = G n) (h : T (A + up F q (tabP (n + 1) G)) (g ()) Q) :
    T (A + up F q (tabP n G)) (st1 x (.ptr q.blk o) >>= g) Q := by
  rw [st1_stN (by omega)]
  exact t_upn hv hN ho (by rw [hx]; rfl) h

theorem t_st8u {n : Nat} {o : Int} {G : Nat → Byte} {x : BitVec 64} {g : Unit → CM δ} (hv : Valid F q N) (hN : n + 8 ≤ N)
    (ho : o = (q.off : Int) + n) (hx : x = pk G n) (h : T (A + up F q (tabP (n + 8) G)) (g ()) Q) :
    T (A + up F q (tabP n G)) (st8 x (.ptr q.blk o) >>= g) Q := by
  rw [st8_stN (by omega)]
  exact t_upn hv hN ho (by rw [hx, GenH.wordBytes_pk]) h

end

section
variable {q : Ptr} {n off : Nat}

/-- The bytes which are given out. -/
def outB (B : Nat → Byte) (off : Nat) : Nat → Byte := fun j => B (off + j)

theorem pk_out (B : Nat → Byte) {off t : Nat} (h : (off + t) % 8 = 0) : packL B ((off + t) / 8) = pk (outB B off) t := by
  unfold packL pk outB
  refine congrArg leWord (tabP_congr fun j hj => ?_)
  rw [show 8 * ((off + t) / 8) + j = off + (t + j) by omega]

theorem ex_na (hl : 200 ≤ m.length) (hv : Valid F q n) (hn : off + n ≤ 200) {Q : Cpu → Blocks → Prop} {st : List (Slot Lbl)}
    (k : Nat) : ∀ {c : Cpu} {t : Nat}, c.r9 = .ptr b (bp (off + t)) → c.rsi = .ptr q.blk (q.off + t) → c.rbx = argN (k + 1) →
    (off + t) % 8 + (k + 1) ≤ 8 → t + (k + 1) ≤ n →
    (∀ c' : Cpu, c'.rcx = c.rcx → c'.rdx = c.rdx → c'.rdi = c.rdi → c'.rsi = .ptr q.blk (q.off + (t + (k + 1) : Nat)) →
      T (bl kd b (St m 0 (av B)) + up F q (tabP (t + (k + 1)) (outB B off))) (prog.run c_KeccakP1600_ExtractBytes_LaneAlignedCheck st c') Q) →
    T (bl kd b (St m 0 (av B)) + up F q (tabP t (outB B off))) (prog.run c_KeccakP1600_ExtractBytes_NotAlignedLoop st c) Q := by
  induction k with
  | zero =>
    intro c t h1 h2 h3 h4 h5 hk
    unfold c_KeccakP1600_ExtractBytes_NotAlignedLoop argN at *
    simp only [run_op, Op.exec, Cpu.adr, Cpu.get, Cpu.set, Cpu.flags, lft_some, pure_bind, bind_assoc, h1, h2, h3, Val.off, incV,
      Option.map_some, byte_setByte]
    refine t_ld1s (i := off + t) hl (by omega) (by omega) ?_
    refine t_st1u hv (by omega) (by omega) rfl ?_
    rw [run_jnz (b := true) _ rfl, if_pos rfl, run_jmp]
    refine hk _ rfl rfl rfl ?_
    simp only [Val.ptr.injEq, true_and]; push_cast; ring
  | succ k ih =>
    intro c t h1 h2 h3 h4 h5 hk
    unfold c_KeccakP1600_ExtractBytes_NotAlignedLoop argN at *
    simp only [run_op, Op.exec, Cpu.adr, Cpu.get, Cpu.set, Cpu.flags, lft_some, pure_bind, bind_assoc, h1, h2, h3, Val.off,
      dec_num (show k + 1 < 2 ^ 63 by omega), byte_setByte]
    simp only [incV, Val.off, Option.map_some, lft_some, pure_bind]
    refine t_ld1s (i := off + t) hl (by omega) (by omega) ?_
    refine t_st1u hv (by omega) (by omega) rfl ?_
    rw [run_jnz (b := false) _ rfl, if_neg (by simp)]
    refine ih (t := t + 1) ?_ ?_ rfl (by omega) (by omega) ?_
    · simp only [Val.ptr.injEq, true_and]
      rw [← Nat.add_assoc, bp_succ (by omega)]; rfl
    · simp only [Val.ptr.injEq, true_and]; push_cast; ring
    · intro c' e2 e3 e4 e5
      rw [show t + 1 + (k + 1) = t + (k + 1 + 1) by omega] at *
      exact hk c' e2 e3 e4 e5

theorem ex_exit {D : Blocks} {r : Val} {c : Cpu} {E : Blocks} (h : D = E) :
    T D (prog.run c_KeccakP1600_ExtractBytes_Exit [.val r] c) fun c' D' => c'.rbx = r ∧ D' = E := by
  unfold c_KeccakP1600_ExtractBytes_Exit
  rw [run_pop, run_retC]
  exact t_pure ⟨rfl, h⟩

theorem ex_last (hv : Valid F q n) {r : Val} {x : BitVec 64} (hx : ∀ j, j < 8 → 8 * ((off + n) / 8) + j < off + n → laneByte x j = B (8 * ((off + n) / 8) + j))
    (k : Nat) :
    ∀ {c : Cpu} {t : Nat}, c.r8 = .num (x >>> (8 * ((off + t) % 8))) → c.rsi = .ptr q.blk (q.off + t) → c.rcx = argN (k + 1) →
    (off + t) / 8 = (off + n) / 8 → t + (k + 1) = n →
    T (bl kd b (St m 0 (av B)) + up F q (tabP t (outB B off))) (prog.run c_KeccakP1600_ExtractBytes_LastIncompleteLaneLoop [.val r] c)
      fun c' D' => c'.rbx = r ∧ D' = bl kd b (St m 0 (av B)) + up F q (tabP n (outB B off)) := by
  have hb : ∀ t, (off + t) / 8 = (off + n) / 8 → t < n →
      (x >>> (8 * ((off + t) % 8))).setWidth 8 = outB B off t := by
    intro t h1 h2
    have := hx ((off + t) % 8) (by omega) (by omega)
    unfold outB
    rw [show off + t = 8 * ((off + n) / 8) + (off + t) % 8 by omega, ← this]
    rw [show (8 * ((off + n) / 8) + (off + t) % 8) % 8 = (off + t) % 8 by omega]
    rfl
  induction k with
  | zero =>
    intro c t h1 h2 h3 h4 h5
    unfold c_KeccakP1600_ExtractBytes_LastIncompleteLaneLoop argN at *
    simp only [run_op, Op.exec, Cpu.adr, Cpu.get, Cpu.set, Cpu.flags, lft_some, pure_bind, bind_assoc, h1, h2, h3, Val.off, incV,
      Option.map_some, Val.byte, Val.isNum]
    refine t_st1u hv (by omega) (by omega) (hb t h4 (by omega)) ?_
    rw [run_jnz (b := true) _ rfl, if_pos rfl, run_jmp]
    exact ex_exit (by rw [show t + 1 = n by omega])
  | succ k ih =>
    intro c t h1 h2 h3 h4 h5
    unfold c_KeccakP1600_ExtractBytes_LastIncompleteLaneLoop argN at *
    simp only [run_op, Op.exec, Cpu.adr, Cpu.get, Cpu.set, Cpu.flags, lft_some, pure_bind, bind_assoc, h1, h2, h3, Val.off,
      dec_num (show k + 1 < 2 ^ 63 by omega), Val.byte, Val.isNum]
    simp only [incV, Val.off, Option.map_some, lft_some, pure_bind]
    refine t_st1u hv (by omega) (by omega) (hb t h4 (by omega)) ?_
    rw [run_jnz (b := false) _ rfl, if_neg (by simp)]
    refine ih (t := t + 1) ?_ ?_ rfl (by omega) (by omega)
    · simp only [Val.num.injEq]
      rw [← BitVec.shiftRight_add]
      congr 1
      omega
    · simp only [Val.ptr.injEq, true_and]; push_cast; ring

/-- From a place where a lane begins. -/
theorem ex_lanes (hl : 200 ≤ m.length) (hv : Valid F q n) (hn : off + n ≤ 200) {r0 : Val} (k : Nat) :
    ∀ {c : Cpu} {t r : Nat}, c.rdi = .ptr b 0 → (r ≠ 0 → c.rdx = .rod (1152 + (off + t))) → c.rsi = .ptr q.blk (q.off + t) → c.rcx = argN r →
    ((off + t) % 8 = 0 ∨ r = 0) → t + r = n → r / 8 = k →
    T (bl kd b (St m 0 (av B)) + up F q (tabP t (outB B off))) (prog.run c_KeccakP1600_ExtractBytes_LaneAlignedCheck [.val r0] c)
      fun c' D' => c'.rbx = r0 ∧ D' = bl kd b (St m 0 (av B)) + up F q (tabP n (outB B off)) := by
  induction k with
  | zero =>
    intro c t r h0 h1 h2 h3 h4 h5 hr
    unfold c_KeccakP1600_ExtractBytes_LaneAlignedCheck argN at *
    simp only [run_op, Op.exec, Src.val, Cpu.adr, Cpu.get, Cpu.set, Cpu.flags, lft_some, pure_bind, bind_assoc, h3,
      show (8 : BitVec 64) = BitVec.ofNat 64 8 from rfl, cmp_num (show r < 2 ^ 64 by omega) (show 8 < 2 ^ 64 by decide)]
    rw [run_jnc (b := true) _ (congrArg some (decide_eq_true (by omega))), if_pos rfl, run_jmp]
    show T _ (prog.run c_KeccakP1600_ExtractBytes_LastIncompleteLane _ _) _
    unfold c_KeccakP1600_ExtractBytes_LastIncompleteLane
    simp only [run_op, Op.exec, Src.val, Cpu.adr, Cpu.get, Cpu.set, Cpu.flags, lft_some, pure_bind, bind_assoc, addV, h0, Val.off,
      BitVec.sub_add_cancel, show (8 : BitVec 64) = BitVec.ofNat 64 8 from rfl, ofNat_beq (show r < 2 ^ 64 by omega)]
    rcases Nat.eq_zero_or_pos r with e | e
    · rw [run_jz (b := true) _ (congrArg some (decide_eq_true e)), if_pos rfl]
      exact ex_exit (by rw [show n = t by omega])
    · rw [run_jz (b := false) _ (congrArg some (decide_eq_false (by omega))), if_neg (by simp)]
      have h1 := h1 (by omega)
      simp only [run_op, Op.exec, Src.val, Cpu.adr, Cpu.get, Cpu.set, Cpu.flags, lft_some, pure_bind, bind_assoc, addV, h0, h1, Val.off,
        prog_rodata]
      rw [map_ld (k := (off + t) / 8) (by omega) (by omega), pure_bind]
      simp only [addV, Val.add, Val.off, map_int (show (off + t) / 8 < 25 by omega), Option.map_some, lft_some, pure_bind, run_jmp]
      obtain ⟨r, rfl⟩ : ∃ r', r = r' + 1 := ⟨r - 1, by omega⟩
      refine t_ld8s (i := (off + t) / 8) hl (by omega) (by omega) ?_
      refine ex_last hv (x := packL B ((off + t) / 8)) ?_ r (t := t) ?_ h2 rfl (by omega) h5
      · intro j hj _
        rw [laneByte_packL _ _ _ hj, show (off + t) / 8 = (off + n) / 8 by omega]
      · simp only [Val.num.injEq]
        rw [show (off + t) % 8 = 0 by omega]
        rfl
  | succ k ih =>
    intro c t r h0 h1 h2 h3 h4 h5 hr
    have h1 := h1 (by omega)
    unfold c_KeccakP1600_ExtractBytes_LaneAlignedCheck argN at *
    simp only [run_op, Op.exec, Src.val, Cpu.adr, Cpu.get, Cpu.set, Cpu.flags, lft_some, pure_bind, bind_assoc, h3,
      show (8 : BitVec 64) = BitVec.ofNat 64 8 from rfl, sub_num (show r < 2 ^ 64 by omega) (show 8 ≤ r by omega)]
    rw [run_jnc (b := false) _ rfl, if_neg (by simp)]
    show T _ (prog.run c_KeccakP1600_ExtractBytes_LaneAlignedLoop _ _) _
    unfold c_KeccakP1600_ExtractBytes_LaneAlignedLoop
    simp only [run_op, Op.exec, Src.val, Cpu.adr, Cpu.get, Cpu.set, Cpu.flags, lft_some, pure_bind, bind_assoc, h0, h1, h2, Val.off, addV,
      Val.add, Option.map_some, prog_rodata, Int.add_zero, Val.isNum]
    rw [map_ld (k := (off + t) / 8) (by omega) (by omega), pure_bind]
    simp only [Val.isNum, lft_some, pure_bind, map_int (show (off + t) / 8 < 25 by omega)]
    refine t_ld8s (i := (off + t) / 8) hl (by omega) (by omega) ?_
    refine t_st8u hv (by omega) rfl (pk_out B (by omega)) ?_
    rw [run_jmp]
    refine ih (t := t + 8) (r := r - 8) rfl (fun _ => ?_) ?_ rfl (by omega) (by omega) (by omega)
    · simp only [Val.rod.injEq]; push_cast; ring
    · simp only [Val.ptr.injEq, true_and]; push_cast; ring

/-- The code after the number of bytes up to the next lane is known. -/
def ex_rest : List (Ins Lbl) := [
  .op (.sub (.reg .rbx) .rcx),
  .op (.mov (.mem (.base 0 .rdx)) .r9),
  .op (.add (.imm 8) .rdx),
  .op (.add (.reg .rdi) .r9),
  .op (.add (.reg .rax) .r9),
  .jmp .KeccakP1600_ExtractBytes_NotAlignedLoop]

theorem extractBytes_run (hl : 200 ≤ m.length) (hv : Valid F q n) (hn : off + n ≤ 200) {c : Cpu}
    (h0 : c.rdi = .ptr b 0) (h1 : c.rsi = .ptr q.blk q.off) (h2 : c.rdx = argN off) (h3 : c.rcx = argN n) :
    T (bl kd b (St m 0 (av B)) + F) (prog.run c_KeccakP1600_ExtractBytes [] c)
      (Post c (bl kd b (St m 0 (av B)) + up F q (tabP n fun j => B (off + j)))) := by
  show T _ _ fun (c' : Cpu) D' => c'.rbx = c.rbx ∧ D' = bl kd b (St m 0 (av B)) + up F q (tabP n (outB B off))
  have h00 : bl kd b (St m 0 (av B)) + F = bl kd b (St m 0 (av B)) + up F q (tabP 0 (outB B off)) := by
    rw [show tabP 0 (outB B off) = [] from rfl, up_nil]
  rw [h00]
  unfold c_KeccakP1600_ExtractBytes argN at *
  rw [run_push]
  simp only [run_op, Op.exec, Src.val, Cpu.adr, Cpu.get, Cpu.set, Cpu.flags, lft_some, pure_bind, bind_assoc, h3,
      show (0 : BitVec 64) = BitVec.ofNat 64 0 from rfl, cmp_num (show n < 2 ^ 64 by omega) (show 0 < 2 ^ 64 by decide)]
  rcases Nat.eq_zero_or_pos n with e | e
  · subst e
    rw [run_jz (b := true) _ rfl, if_pos rfl]
    exact ex_exit rfl
  rw [run_jz (b := false) _ (congrArg some (decide_eq_false (by omega))), if_neg (by simp)]
  simp only [run_op, Op.exec, Src.val, Cpu.adr, Cpu.get, Cpu.set, Cpu.flags, lft_some, pure_bind, bind_assoc, h2, Val.isNum, andF8 off (by omega),
    addV, Val.add, Val.off, ofNat_toInt (show 8 * (off / 8) < 2 ^ 63 by omega), Option.map_some, and7, ofNat_beq (show off % 8 < 2 ^ 64 by omega)]
  by_cases e8 : off % 8 = 0
  · rw [run_jz (b := true) _ (congrArg some (decide_eq_true e8)), if_pos rfl]
    refine ex_lanes hl hv hn (n / 8) (t := 0) (r := n) h0 (fun _ => ?_) ?_ rfl (by omega) (by omega) rfl
    · simp only [Val.rod.injEq, mapState]; omega
    · simp [h1]
  · rw [run_jz (b := false) _ (congrArg some (decide_eq_false e8)), if_neg (by simp)]
    have hm := mp_lt (k := off / 8) (by omega)
    obtain ⟨k, hk⟩ : ∃ k, min (8 - off % 8) n = k + 1 := ⟨min (8 - off % 8) n - 1, by omega⟩
    have key : ∀ c1 : Cpu, c1.rax = argN (off % 8) → c1.rdx = .rod (mapState + (8 * (off / 8) : Nat)) → c1.rcx = argN n → c1.rbx = argN (k + 1) →
        c1.rdi = c.rdi → c1.rsi = c.rsi → T (bl kd b (St m 0 (av B)) + up F q (tabP 0 (outB B off))) (prog.run ex_rest [.val c.rbx] c1)
          fun c' D' => c'.rbx = c.rbx ∧ D' = bl kd b (St m 0 (av B)) + up F q (tabP n (outB B off)) := by
      intro c1 a1 a2 a3 a4 a5 a6
      unfold argN ex_rest at *
      simp only [run_op, Op.exec, Src.val, Cpu.adr, Cpu.get, Cpu.set, Cpu.flags, lft_some, pure_bind, bind_assoc, prog_rodata, a1, a2, a3, a4, a5, h0,
        sub_num (show n < 2 ^ 64 by omega) (show k + 1 ≤ n by omega), Val.off, mapState]
      rw [map_ld (k := off / 8) (by omega) (by omega), pure_bind]
      simp only [lft_some, pure_bind, addV, Val.add, Val.off, Option.map_some, map_int (show off / 8 < 25 by omega),
        ofNat_toInt (show off % 8 < 2 ^ 63 by omega), run_jmp]
      refine ex_na hl hv hn k (t := 0) ?_ ?_ rfl (by omega) (by omega) ?_
      · simp only [Val.ptr.injEq, true_and, Nat.add_zero]; unfold bp; omega
      · simp [a6, h1]
      · intro c' e2 e3 e4 e5
        rw [Nat.zero_add] at e5 ⊢
        refine ex_lanes hl hv hn _ (r := n - (k + 1)) (t := k + 1) e4 (fun _ => ?_) e5 e2 (by omega) (by omega) rfl
        rw [e3]
        simp only [Val.rod.injEq]
        rw [show (8 : BitVec 64).toInt = 8 from rfl]
        omega
    change T _ (prog.run (.op _ :: .op _ :: .op _ :: .op _ :: ex_rest) [_] _) _
    generalize ex_rest = rest at key ⊢
    simp only [run_op, Op.exec, Src.val, Cpu.adr, Cpu.get, Cpu.set, Cpu.flags, lft_some, pure_bind, bind_assoc, prog_rodata,
      show (8 : BitVec 64) = BitVec.ofNat 64 8 from rfl, sub_num (show 8 < 2 ^ 64 by decide) (show off % 8 ≤ 8 by omega), h3,
      cmp_num (show 8 - off % 8 < 2 ^ 64 by omega) (show n < 2 ^ 64 by omega)]
    by_cases e9 : 8 - off % 8 < n
    · simp only [decide_eq_true e9, if_true, lft_some, pure_bind]
      refine key _ ?_ ?_ ?_ ?_ ?_ ?_ <;> try rfl
      simp only [argN]
      rw [show 8 - off % 8 = k + 1 by omega]
    · simp only [decide_eq_false e9, if_false, lft_some, pure_bind, Bool.false_eq_true, Cpu.set, Cpu.get]
      refine key _ ?_ ?_ ?_ ?_ ?_ ?_ <;> try rfl
      simp only [argN]
      rw [show n = k + 1 by omega]

end

end

end Faest.Asm
