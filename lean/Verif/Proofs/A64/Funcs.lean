/-
The functions of sha3/armv8a-neon/KeccakP-1600-armv8a-neon.s on the 200 bytes of a state, which may be anywhere in a block.
The lanes are in their usual order.
-/
import Verif.Proofs.A64.Round
import Verif.Proofs.Asm.Absorb
import Verif.Proofs.Asm.Perm

set_option linter.unusedSimpArgs false

namespace Faest.A64
open Faest.C Faest.GenN Faest.Keccak
open Faest.Asm (lft_some Val argN ofNat_toInt ofNat_beq ld1_ptr ld8_ptr st8_stN st1_stN t_ld1d t_ld8d t_st1u t_st8u outB packL_zero)
open Faest.GenH (pk pk_packL St st_len st_has st_st st_congr st_self has_from wordBytes_pk wordBytes_length)

section
variable {L : Type} {P : Prog L} {c : Cpu} {is : List (Ins L)}

theorem run_op (o : Op) : P.run (.op o :: is) c = o.exec P.rodata c >>= P.run is := by
  rw [Prog.run]

theorem run_b (l : L) : P.run (.b l :: is) c = P.run (P.code l) c := by
  rw [Prog.run]

theorem run_ret : P.run (.ret :: is) c = pure c := by
  rw [Prog.run]

theorem run_bcc {k : Bool} (l : L) (h : c.cf = some k) :
    P.run (.bcc l :: is) c = if k then P.run is c else P.run (P.code l) c := by
  rw [Prog.run, h]; rfl

theorem run_bne {z : Bool} (l : L) (h : c.zf = some z) :
    P.run (.bne l :: is) c = if z then P.run is c else P.run (P.code l) c := by
  rw [Prog.run, h]; rfl

theorem run_ops (l : List Op) : P.run (l.map .op ++ is) c = ops P.rodata l c >>= P.run is := by
  induction l generalizing c with
  | nil => simp [ops]
  | cons o l ih =>
    rw [List.map_cons, List.cons_append, run_op, ops, bind_assoc]
    exact congrArg _ (funext fun c => ih)

end

theorem prog_rodata : prog.rodata = rodata := rfl

/-! ### The rounds -/

theorem dec_cnt (k : Fin 24) : ((BitVec.ofNat 64 (k.val + 1)).setWidth 32 - 1 : BitVec 32).setWidth 64 = BitVec.ofNat 64 k.val ∧
    (((BitVec.ofNat 64 (k.val + 1)).setWidth 32 - 1 : BitVec 32) == 0) = decide (k.val = 0) := by
  revert k; decide

/-- One time through the loop. -/
theorem iter_run {i : Nat} {c : Cpu} {A : Lanes} (k : Fin 24) (hi : i + (k.val + 1) = 24)
    (hv : VS c.v (GenP.rndN i A)) (h1 : c.x1 = .rod (8 * (i : Int))) (h16 : c.v.v16.w1 = 0) (h2 : c.x2 = .num (BitVec.ofNat 64 (k.val + 1))) :
    ∃ c', VS c'.v (GenP.rndN (i + 1) A) ∧ c'.v.v16.w1 = 0 ∧ c'.x0 = c.x0 ∧ c'.x1 = .rod (8 * ((i + 1 : Nat) : Int)) ∧
      c'.x2 = .num (BitVec.ofNat 64 k.val) ∧ c'.zf = some (decide (k.val = 0)) ∧
      prog.run c_KeccakP1600_Permute_RoundLoop c =
        prog.run [.bne .KeccakP1600_Permute_RoundLoop, .b .KeccakP1600_Permute_Exit] c' := by
  obtain ⟨v', x10, x11, e, hv', h16'⟩ := round_ops ⟨i, by omega⟩ hv h1 h16
  rw [← GenP.rndN_succ] at hv'
  rw [loop_code, run_ops]
  show ∃ c', _ ∧ _ ∧ _ ∧ _ ∧ _ ∧ _ ∧ ops rodata roundOps c >>= _ = _
  rw [e, pure_bind, run_op]
  simp only [Op.exec, Cpu.get, h2, Val.isNum, lft_some, pure_bind, Cpu.set, (dec_cnt k).1, (dec_cnt k).2]
  refine ⟨_, ?_, ?_, ?_, ?_, ?_, ?_, rfl⟩
  · exact hv'
  · exact h16'
  · rfl
  · simp only [Val.rod.injEq]; push_cast; ring
  · rfl
  · rfl

/-- The loop, from round `i` on. -/
theorem loop_run (k : Nat) : ∀ {i : Nat} {c : Cpu} {A : Lanes}, i + (k + 1) = 24 →
    VS c.v (GenP.rndN i A) → c.x1 = .rod (8 * (i : Int)) → c.v.v16.w1 = 0 → c.x2 = .num (BitVec.ofNat 64 (k + 1)) →
    ∃ c', prog.run c_KeccakP1600_Permute_RoundLoop c = prog.run c_KeccakP1600_Permute_Exit c' ∧ VS c'.v (Keccak.rounds24 A) ∧ c'.x0 = c.x0 := by
  induction k with
  | zero =>
    intro i c A hi hv h1 h16 h2
    obtain ⟨c', a1, a2, a3, a4, a5, a6, e⟩ := iter_run ⟨0, by omega⟩ hi hv h1 h16 h2
    rw [show i + 1 = 24 by omega, GenP.rndN_24] at a1
    rw [run_bne _ a6, if_pos (by simp), run_b] at e
    exact ⟨_, e, a1, a3⟩
  | succ k ih =>
    intro i c A hi hv h1 h16 h2
    obtain ⟨c', a1, a2, a3, a4, a5, a6, e⟩ := iter_run ⟨k + 1, by omega⟩ hi hv h1 h16 h2
    obtain ⟨c'', e1, b1, b2⟩ := ih (i := i + 1) (A := A) (by omega) a1 a4 a2 a5
    rw [run_bne _ a6, if_neg (by simp)] at e
    exact ⟨c'', by rw [e]; exact e1, b1, by rw [b2, a3]⟩

/-! ### Memory -/

section
variable {δ : Type} {D F : Blocks} {Q : δ → Blocks → Prop} {kd : Kind} {b w : Nat} {m : Mem Byte} {B : Nat → Byte}

/-- Eight bytes of the state. -/
theorem t_ld8s {T' : List (BitVec 64)} {i : Nat} {o : Int} {g : BitVec 64 → CM δ} {E : Blocks} (hl : w + 200 ≤ m.length) (hi : i + 8 ≤ 200)
    (ho : o = (w : Int) + i) (k : T (bl kd b (St m w B) + E) (g (pk B i)) Q) :
    T (bl kd b (St m w B) + E) (Asm.ld8 T' (.ptr b o) >>= g) Q := by
  refine t_ld8d (qo := w) (n := 200) (μ := (St m w B).drop w) View.here ?_ hi ho k
  intro j hj
  rw [Nat.zero_add, rd_drop]
  exact st_has hl B j hj

/-- A byte of the state. -/
theorem t_ld1s {i : Nat} {o : Int} {g : Byte → CM δ} {E : Blocks} (hl : w + 200 ≤ m.length) (hi : i < 200) (ho : o = (w : Int) + i)
    (k : T (bl kd b (St m w B) + E) (g (B i)) Q) : T (bl kd b (St m w B) + E) (Asm.ld1 (.ptr b o) >>= g) Q := by
  refine t_ld1d (qo := w) (n := 200) (μ := (St m w B).drop w) View.here ?_ hi ho k
  intro j hj
  rw [Nat.zero_add, rd_drop]
  exact st_has hl B j hj

theorem st_put {i : Nat} {xs : List Byte} {B' : Nat → Byte} (hl : w + 200 ≤ m.length) (hi : i + xs.length ≤ 200)
    (h1 : ∀ j, j < xs.length → xs[j]? = some (B' (i + j))) (h2 : ∀ t, t < 200 → ¬ (i ≤ t ∧ t < i + xs.length) → B' t = B t) :
    W (St m w B) (w + i) xs = St m w B' := by
  have h0 := st_len hl B
  have h3 : w + i + xs.length ≤ (St m w B).length := by rw [h0]; omega
  refine mem_ext (by rw [length_W h3, h0, st_len hl]) fun t ht => ?_
  have h4 : ∀ B : Nat → Byte, w + (tabP 200 B).length ≤ m.length := fun B => by rw [tabP_length]; exact hl
  rw [getElem?_W h3]
  unfold St
  rw [getElem?_W (h4 B), getElem?_W (h4 B'), tabP_length, tabP_length]
  by_cases c1 : w ≤ t ∧ t < w + 200
  · simp only [if_pos c1, tabP_getElem?, if_pos (show t - w < 200 by omega)]
    by_cases c2 : w + i ≤ t ∧ t < w + i + xs.length
    · rw [if_pos c2, h1 _ (by omega), show i + (t - (w + i)) = t - w by omega]
    · rw [if_neg c2, h2 (t - w) (by omega) (by omega)]
  · rw [if_neg (by omega), if_neg c1, if_neg c1]

theorem t_puts {i : Nat} {o : Int} {xs : List Byte} {B' : Nat → Byte} {g : Unit → CM δ} (hl : w + 200 ≤ m.length) (hi : i + xs.length ≤ 200)
    (ho : o = (w : Int) + i) (h1 : ∀ j, j < xs.length → xs[j]? = some (B' (i + j))) (h2 : ∀ t, t < 200 → ¬ (i ≤ t ∧ t < i + xs.length) → B' t = B t)
    (k : T (bl kd b (St m w B') + F) (g ()) Q) : T (bl kd b (St m w B) + F) (stN (some ⟨b, o.toNat⟩) xs >>= g) Q := by
  subst ho
  rw [show ((w : Int) + i).toNat = w + i by omega]
  refine t_stN rfl ?_ k
  rw [wrN_W (by rw [st_len hl]; omega), st_put hl hi h1 h2]

/-- The next eight bytes of the sum. -/
theorem t_st8x {off t : Nat} {o : Int} {d : Nat → Byte} {x : BitVec 64} {g : Unit → CM δ} (hl : w + 200 ≤ m.length) (hi : off + t + 8 ≤ 200)
    (ho : o = (w : Int) + (off + t : Nat)) (hx : x = pk B (off + t) ^^^ pk d t) (k : T (bl kd b (St m w (xorB B off (t + 8) d)) + F) (g ()) Q) :
    T (bl kd b (St m w (xorB B off t d)) + F) (Asm.st8 x (.ptr b o) >>= g) Q := by
  rw [st8_stN (by omega)]
  refine t_puts hl (by rw [wordBytes_length]; exact hi) ho ?_ ?_ k
  · intro j hj
    rw [wordBytes_length] at hj
    have hp : ∀ (G : Nat → Byte) (o : Nat), laneByte (pk G o) j = G (o + j) := fun G o => by
      unfold pk
      rw [laneByte_leWord _ _ (by omega), List.getD_eq_getElem?_getD, tabP_getElem?, if_pos (by omega)]
      rfl
    show (tabP 8 fun j => laneByte x j)[j]? = _
    rw [tabP_getElem?, if_pos hj, hx, laneByte_xor, hp, hp]
    unfold xorB
    rw [if_pos (by omega), show off + t + j - off = t + j by omega]
  · intro s hs hne
    rw [wordBytes_length] at hne
    unfold xorB
    by_cases e : off ≤ s ∧ s < off + t
    · rw [if_pos e, if_pos (by omega)]
    · rw [if_neg e, if_neg (by omega)]

theorem t_st1x {off t : Nat} {o : Int} {d : Nat → Byte} {x : Byte} {g : Unit → CM δ} (hl : w + 200 ≤ m.length) (hi : off + t + 1 ≤ 200)
    (ho : o = (w : Int) + (off + t : Nat)) (hx : x = B (off + t) ^^^ d t) (k : T (bl kd b (St m w (xorB B off (t + 1) d)) + F) (g ()) Q) :
    T (bl kd b (St m w (xorB B off t d)) + F) (Asm.st1 x (.ptr b o) >>= g) Q := by
  rw [st1_stN (by omega)]
  refine t_puts hl (by simpa using hi) ho ?_ ?_ k
  · intro j hj
    obtain rfl : j = 0 := by simpa using hj
    rw [hx]
    unfold xorB
    rw [if_pos (by omega), show off + t + 0 - off = t by omega]
    rfl
  · intro s hs hne
    rw [List.length_singleton] at hne
    unfold xorB
    by_cases e : off ≤ s ∧ s < off + t
    · rw [if_pos e, if_pos (by omega)]
    · rw [if_neg e, if_neg (by omega)]

/-- Bytes which were not yet changed. -/
theorem pk_xorB (B d : Nat → Byte) (off t i : Nat) (h : off + t ≤ i) : pk (xorB B off t d) i = pk B i := by
  unfold pk
  refine congrArg leWord (tabP_congr fun j hj => ?_)
  unfold xorB
  rw [if_neg (by omega)]

theorem xorB_at (B d : Nat → Byte) (off t : Nat) : xorB B off t d (off + t) = B (off + t) := by
  unfold xorB
  rw [if_neg (by omega)]

/-- The next lane of a window. -/
theorem t_st8n {p : Nat} {o : Int} {x : BitVec 64} {g : Unit → CM δ} (hl : w + 200 ≤ m.length) (hp : p + 1 ≤ 25)
    (ho : o = (w : Int) + 8 * (p : Int)) (hx : x = packL B p) (k : T (bl kd b (W m w (tabP (8 * (p + 1)) B)) + F) (g ()) Q) :
    T (bl kd b (W m w (tabP (8 * p) B)) + F) (Asm.st8 x (.ptr b o) >>= g) Q := by
  subst ho
  rw [st8_stN (by omega), show ((w : Int) + 8 * (p : Int)).toNat = w + 8 * p by omega]
  refine t_stN rfl ?_ k
  have := wrN_W_append (m := m) (o := w) (xs := tabP (8 * p) B) (ys := wordBytes x) (by
    rw [wordBytes_length, tabP_length]; omega)
  rw [tabP_length] at this
  rw [this, show 8 * (p + 1) = 8 * p + 8 by omega, tabP_add, hx, ← pk_packL, wordBytes_pk]

end

/-! ### The functions -/

theorem sub32 {r : Nat} {k : BitVec 32} (hr : r < 2 ^ 32) (h : k.toNat ≤ r) :
    ((BitVec.ofNat 64 r).setWidth 32 - k : BitVec 32).setWidth 64 = BitVec.ofNat 64 (r - k.toNat) := by
  apply BitVec.eq_of_toNat_eq
  rw [BitVec.toNat_setWidth, BitVec.toNat_sub, BitVec.toNat_setWidth, BitVec.toNat_ofNat, BitVec.toNat_ofNat]
  omega

theorem back32 {r : Nat} {k : BitVec 32} (hr : r < 2 ^ 32) :
    ((((BitVec.ofNat 64 r).setWidth 32 - k : BitVec 32).setWidth 64).setWidth 32 + k : BitVec 32).setWidth 64 = BitVec.ofNat 64 r := by
  have e : ((((BitVec.ofNat 64 r).setWidth 32 - k : BitVec 32).setWidth 64).setWidth 32 : BitVec 32) = (BitVec.ofNat 64 r).setWidth 32 - k := by
    apply BitVec.eq_of_toNat_eq
    rw [BitVec.toNat_setWidth, BitVec.toNat_setWidth]
    omega
  rw [e, BitVec.sub_add_cancel]
  apply BitVec.eq_of_toNat_eq
  rw [BitVec.toNat_setWidth, BitVec.toNat_setWidth, BitVec.toNat_ofNat]
  omega

theorem low32 {r : Nat} (hr : r < 2 ^ 32) : ((BitVec.ofNat 64 r).setWidth 32 : BitVec 32).toNat = r := by
  rw [BitVec.toNat_setWidth, BitVec.toNat_ofNat]
  omega

/-- `subs` and `b.cc`: at least `k` are left. -/
theorem run_subs_ge {L : Type} {P : Prog L} {c : Cpu} {is : List (Ins L)} {d s : Reg} {r : Nat} {k : BitVec 32} {l : L}
    (hs : c.get s = argN r) (hr : r < 2 ^ 32) (h : k.toNat ≤ r) :
    P.run (.op (.subsW d s k) :: .bcc l :: is) c = P.run is { c.set (argN (r - k.toNat)) d with
      zf := some ((BitVec.ofNat 64 r).setWidth 32 - k == 0), cf := some true } := by
  rw [run_op]
  simp only [Op.exec, hs, argN, Val.isNum, lft_some, pure_bind, sub32 hr h, low32 hr, decide_eq_true h]
  rw [run_bcc _ rfl, if_pos rfl]

/-- `subs` and `b.cc`: less than `k` are left. -/
theorem run_subs_lt {L : Type} {P : Prog L} {c : Cpu} {is : List (Ins L)} {d s : Reg} {r : Nat} {k : BitVec 32} {l : L}
    (hs : c.get s = argN r) (hr : r < 2 ^ 32) (h : r < k.toNat) :
    P.run (.op (.subsW d s k) :: .bcc l :: is) c = P.run (P.code l) { c.set (.num (((BitVec.ofNat 64 r).setWidth 32 - k : BitVec 32).setWidth 64)) d with
      zf := some ((BitVec.ofNat 64 r).setWidth 32 - k == 0), cf := some false } := by
  rw [run_op]
  simp only [Op.exec, hs, argN, Val.isNum, lft_some, pure_bind, low32 hr, decide_eq_false (show ¬ k.toNat ≤ r by omega)]
  rw [run_bcc _ rfl, if_neg (by simp)]

theorem eorV_num {x y : Byte} : eorV (.num (x.setWidth 64)) (.num (y.setWidth 64)) = some (.num ((x ^^^ y).setWidth 64)) := by
  simp only [eorV, Option.some.injEq, Val.num.injEq]
  apply BitVec.eq_of_getLsbD_eq
  intro i hi
  simp

theorem pk_outB (B : Nat → Byte) (off t : Nat) : pk B (off + t) = pk (outB B off) t := by
  unfold pk outB
  exact congrArg leWord (tabP_congr fun j _ => by rw [Nat.add_assoc])

theorem eorV_low {x y : Byte} : eorV (.num (x.setWidth 64)) (.low y) = some (.low (x ^^^ y)) := by
  simp [eorV, Val.byte]

section
variable {kd : Kind} {b w : Nat} {m : Mem Byte} {B : Nat → Byte} {F : Blocks}

/-- The post-condition: only the memory matters. -/
def Post (E : Blocks) : Cpu → Blocks → Prop := fun _ D' => D' = E

/-- sha3/armv8a-neon/KeccakP-1600-armv8a-neon.s:257-266 -/
theorem init_run {c : Cpu} (hl : w + 200 ≤ m.length) (h0 : c.x0 = .ptr b w) :
    T (bl kd b m + F) (prog.run c_KeccakP1600_Initialize c) (Post (bl kd b (St m w fun _ => 0) + F)) := by
  unfold c_KeccakP1600_Initialize
  simp only [run_op, Op.exec, Cpu.adr, Cpu.bump, Cpu.get, Cpu.set, Cpu.setV, VFile.get, VFile.set, lft_some, pure_bind, bind_assoc, h0,
    Val.off, Asm.st8o, Option.map_some, run_ret]
  have h00 : bl kd b m + F = bl kd b (W m w (tabP (8 * 0) fun _ => 0)) + F := by
    rw [show tabP (8 * 0) (fun _ => (0 : Byte)) = [] from rfl, W_nil]
  rw [h00]
  iterate 25 refine t_st8n hl (by omega) (by push_cast; omega) (packL_zero _).symm ?_
  exact t_pure rfl

/-- The 24 rounds. -/
theorem t_loop {D : Blocks} {Q : Cpu → Blocks → Prop} {c : Cpu} {A : Lanes} (hv : VS c.v A) (h1 : c.x1 = .rod 0) (h16 : c.v.v16.w1 = 0)
    (h2 : c.x2 = .num 24) (k : ∀ c', VS c'.v (Keccak.rounds24 A) → c'.x0 = c.x0 → T D (prog.run c_KeccakP1600_Permute_Exit c') Q) :
    T D (prog.run c_KeccakP1600_Permute_RoundLoop c) Q := by
  obtain ⟨c', e, hv', h0⟩ := loop_run 23 (i := 0) (A := A) (by omega) hv h1 h16 h2
  rw [e]
  exact k c' hv' h0

/-- sha3/armv8a-neon/KeccakP-1600-armv8a-neon.s:527-529 -/
theorem exit_run {c : Cpu} (hl : w + 200 ≤ m.length) (hv : VS c.v (lanesOf (packL B))) (h0 : c.x0 = .ptr b w) :
    T (bl kd b m + F) (prog.run c_KeccakP1600_Permute_Exit c) (Post (bl kd b (St m w B) + F)) := by
  obtain ⟨h19, h20, h21, h22, h23, h24, h25, h26, h27, h28, h29, h30, h31⟩ := hv
  unfold c_KeccakP1600_Permute_Exit
  simp only [run_op, Op.exec, Cpu.adr, Cpu.bump, Cpu.get, Cpu.set, Cpu.setV, VFile.get, VFile.set, lft_some, pure_bind, bind_assoc, h0,
    Val.off, Asm.st8o, Option.map_some, run_ret, h19, h20, h21, h22, h23, h24, h25, h26, h27, h28, h29, h30, h31]
  have h00 : bl kd b m + F = bl kd b (W m w (tabP (8 * 0) B)) + F := by
    rw [show tabP (8 * 0) B = [] from rfl, W_nil]
  rw [h00]
  refine t_st8n (p := 0) hl (by omega) (by push_cast; omega) rfl ?_
  refine t_st8n (p := 1) hl (by omega) (by push_cast; omega) rfl ?_
  refine t_st8n (p := 2) hl (by omega) (by push_cast; omega) rfl ?_
  refine t_st8n (p := 3) hl (by omega) (by push_cast; omega) rfl ?_
  refine t_st8n (p := 4) hl (by omega) (by push_cast; omega) rfl ?_
  refine t_st8n (p := 5) hl (by omega) (by push_cast; omega) rfl ?_
  refine t_st8n (p := 6) hl (by omega) (by push_cast; omega) rfl ?_
  refine t_st8n (p := 7) hl (by omega) (by push_cast; omega) rfl ?_
  refine t_st8n (p := 8) hl (by omega) (by push_cast; omega) rfl ?_
  refine t_st8n (p := 9) hl (by omega) (by push_cast; omega) rfl ?_
  refine t_st8n (p := 10) hl (by omega) (by push_cast; omega) rfl ?_
  refine t_st8n (p := 11) hl (by omega) (by push_cast; omega) rfl ?_
  refine t_st8n (p := 12) hl (by omega) (by push_cast; omega) rfl ?_
  refine t_st8n (p := 13) hl (by omega) (by push_cast; omega) rfl ?_
  refine t_st8n (p := 14) hl (by omega) (by push_cast; omega) rfl ?_
  refine t_st8n (p := 15) hl (by omega) (by push_cast; omega) rfl ?_
  refine t_st8n (p := 16) hl (by omega) (by push_cast; omega) rfl ?_
  refine t_st8n (p := 17) hl (by omega) (by push_cast; omega) rfl ?_
  refine t_st8n (p := 18) hl (by omega) (by push_cast; omega) rfl ?_
  refine t_st8n (p := 19) hl (by omega) (by push_cast; omega) rfl ?_
  refine t_st8n (p := 20) hl (by omega) (by push_cast; omega) rfl ?_
  refine t_st8n (p := 21) hl (by omega) (by push_cast; omega) rfl ?_
  refine t_st8n (p := 22) hl (by omega) (by push_cast; omega) rfl ?_
  refine t_st8n (p := 23) hl (by omega) (by push_cast; omega) rfl ?_
  refine t_st8n (p := 24) hl (by omega) (by push_cast; omega) rfl ?_
  exact t_pure rfl

/-- sha3/armv8a-neon/KeccakP-1600-armv8a-neon.s:508-529 -/
theorem permute_run {c : Cpu} (hl : w + 200 ≤ m.length) (h0 : c.x0 = .ptr b w) :
    T (bl kd b (St m w B) + F) (prog.run c_KeccakP1600_Permute_24rounds c) (Post (bl kd b (St m w (keccakB B)) + F)) := by
  unfold c_KeccakP1600_Permute_24rounds
  simp only [run_op, Op.exec, Cpu.set, pure_bind, run_b]
  show T _ (prog.run c_KeccakP1600_Permute _) _
  unfold c_KeccakP1600_Permute
  simp only [run_op, Op.exec, Cpu.adr, Cpu.bump, Cpu.get, Cpu.set, Cpu.setV, VFile.get, VFile.set, lft_some, pure_bind, bind_assoc, h0,
    Val.off, Asm.ld8o, Option.map_some, run_b]
  refine t_ld8s (i := 8 * 0) hl (by omega) (by push_cast; omega) ?_
  refine t_ld8s (i := 8 * 1) hl (by omega) (by push_cast; omega) ?_
  refine t_ld8s (i := 8 * 2) hl (by omega) (by push_cast; omega) ?_
  refine t_ld8s (i := 8 * 3) hl (by omega) (by push_cast; omega) ?_
  refine t_ld8s (i := 8 * 4) hl (by omega) (by push_cast; omega) ?_
  refine t_ld8s (i := 8 * 5) hl (by omega) (by push_cast; omega) ?_
  refine t_ld8s (i := 8 * 6) hl (by omega) (by push_cast; omega) ?_
  refine t_ld8s (i := 8 * 7) hl (by omega) (by push_cast; omega) ?_
  refine t_ld8s (i := 8 * 8) hl (by omega) (by push_cast; omega) ?_
  refine t_ld8s (i := 8 * 9) hl (by omega) (by push_cast; omega) ?_
  refine t_ld8s (i := 8 * 10) hl (by omega) (by push_cast; omega) ?_
  refine t_ld8s (i := 8 * 11) hl (by omega) (by push_cast; omega) ?_
  refine t_ld8s (i := 8 * 12) hl (by omega) (by push_cast; omega) ?_
  refine t_ld8s (i := 8 * 13) hl (by omega) (by push_cast; omega) ?_
  refine t_ld8s (i := 8 * 14) hl (by omega) (by push_cast; omega) ?_
  refine t_ld8s (i := 8 * 15) hl (by omega) (by push_cast; omega) ?_
  refine t_ld8s (i := 8 * 16) hl (by omega) (by push_cast; omega) ?_
  refine t_ld8s (i := 8 * 17) hl (by omega) (by push_cast; omega) ?_
  refine t_ld8s (i := 8 * 18) hl (by omega) (by push_cast; omega) ?_
  refine t_ld8s (i := 8 * 19) hl (by omega) (by push_cast; omega) ?_
  refine t_ld8s (i := 8 * 20) hl (by omega) (by push_cast; omega) ?_
  refine t_ld8s (i := 8 * 21) hl (by omega) (by push_cast; omega) ?_
  refine t_ld8s (i := 8 * 22) hl (by omega) (by push_cast; omega) ?_
  refine t_ld8s (i := 8 * 23) hl (by omega) (by push_cast; omega) ?_
  refine t_ld8s (i := 8 * 24) hl (by omega) (by push_cast; omega) ?_
  simp only [pk_packL]
  refine t_loop (A := lanesOf (packL B)) (by constructor <;> rfl) rfl rfl rfl ?_
  intro c' hv h0'
  dsimp only at h0'
  rw [show (w : Int) + (64 : Nat) + (64 : Nat) + (64 : Nat) + (8 : Nat) + -200 = w by omega] at h0'
  rw [Keccak.rounds24_eq] at hv
  have h := exit_run (kd := kd) (F := F) (m := St m w B) (B := keccakB B) (by rw [st_len hl]; exact hl) hv h0'
  rwa [st_st hl] at h

/-- sha3/armv8a-neon/KeccakP-1600-armv8a-neon.s:275-279 -/
theorem addByte_run {c : Cpu} {x : Byte} {i : Nat} (hl : w + 200 ≤ m.length) (hi : i < 200) (h0 : c.x0 = .ptr b w) (h1 : c.x1 = .low x)
    (h2 : c.x2 = argN i) :
    T (bl kd b (St m w B) + F) (prog.run c_KeccakP1600_AddByte c) (Post (bl kd b (St m w (xorB B i 1 fun _ => x)) + F)) := by
  unfold c_KeccakP1600_AddByte argN at *
  simp only [run_op, Op.exec, Cpu.adr, Cpu.bump, Cpu.get, Cpu.set, lft_some, pure_bind, bind_assoc, h0, h1, h2, Val.add, Val.off,
    ofNat_toInt (show i < 2 ^ 63 by omega), run_ret]
  refine t_ld1s hl hi rfl ?_
  simp only [eorV_low, lft_some, pure_bind, Val.byte]
  have h00 : St m w B = St m w (xorB B i 0 fun _ => x) := st_congr fun t _ => by unfold xorB; rw [if_neg (by omega)]
  rw [h00]
  exact t_st1x (t := 0) hl (by omega) rfl rfl (t_pure rfl)

section
variable {qb qo n off : Nat} {μ : Mem Byte} {d : Nat → Byte}

/-- sha3/armv8a-neon/KeccakP-1600-armv8a-neon.s:315-324 -/
theorem ab_bytes (hl : w + 200 ≤ m.length) (hv : View F (some ⟨qb, qo⟩) μ) (hd : Has μ 0 n d) (hn : off + n ≤ 200) (r : Nat) :
    ∀ {c : Cpu} {t : Nat}, c.x0 = .ptr b (w + (off + t : Nat)) → c.x1 = .ptr qb (qo + t) → c.x3 = argN r → t + r = n →
    T (bl kd b (St m w (xorB B off t d)) + F) (prog.run c_KeccakP1600_AddBytes_BytesLoop c) (Post (bl kd b (St m w (xorB B off n d)) + F)) := by
  induction r with
  | zero =>
    intro c t h0 h1 h3 ht
    unfold c_KeccakP1600_AddBytes_BytesLoop
    rw [run_subs_lt (c := c) (s := .x3) (k := 1) h3 (by decide) (by decide)]
    show T _ (prog.run [.ret] _) _
    rw [run_ret, show n = t by omega]
    exact t_pure rfl
  | succ r ih =>
    intro c t h0 h1 h3 ht
    unfold c_KeccakP1600_AddBytes_BytesLoop
    rw [run_subs_ge (c := c) (s := .x3) (k := 1) h3 (by omega) (by simp)]
    simp only [run_op, Op.exec, Cpu.adr, Cpu.bump, Cpu.get, Cpu.set, lft_some, pure_bind, bind_assoc, h0, h1, Val.off, Option.map_some]
    refine t_ld1s hl (by omega) rfl ?_
    refine t_ld1d (hv.there) hd (i := t) (by omega) rfl ?_
    simp only [eorV_num, lft_some, pure_bind, Val.byte, xorB_at]
    refine t_st1x hl (by omega) rfl (by simp) ?_
    rw [run_b]
    refine ih (t := t + 1) ?_ ?_ rfl (by omega)
    · simp only [Val.ptr.injEq, true_and]; push_cast; ring
    · simp only [Val.ptr.injEq, true_and]; push_cast; ring

/-- sha3/armv8a-neon/KeccakP-1600-armv8a-neon.s:305-324 -/
theorem ab_lanes (hl : w + 200 ≤ m.length) (hv : View F (some ⟨qb, qo⟩) μ) (hd : Has μ 0 n d) (hn : off + n ≤ 200) (k : Nat) :
    ∀ {c : Cpu} {t r : Nat}, c.x0 = .ptr b (w + (off + t : Nat)) → c.x1 = .ptr qb (qo + t) → c.x3 = argN r → t + r = n → r / 8 = k →
    T (bl kd b (St m w (xorB B off t d)) + F) (prog.run c_KeccakP1600_AddBytes_LanesLoop c) (Post (bl kd b (St m w (xorB B off n d)) + F)) := by
  induction k with
  | zero =>
    intro c t r h0 h1 h3 ht hk
    unfold c_KeccakP1600_AddBytes_LanesLoop
    rw [run_subs_lt (c := c) (s := .x3) (k := 8) h3 (by omega) (show r < 8 by omega)]
    show T _ (prog.run c_KeccakP1600_AddBytes_Bytes _) _
    unfold c_KeccakP1600_AddBytes_Bytes
    simp only [run_op, Op.exec, Cpu.get, Cpu.set, Val.isNum, lft_some, pure_bind, back32 (show r < 2 ^ 32 by omega), run_b]
    exact ab_bytes hl hv hd hn r h0 h1 rfl ht
  | succ k ih =>
    intro c t r h0 h1 h3 ht hk
    unfold c_KeccakP1600_AddBytes_LanesLoop
    rw [run_subs_ge (c := c) (s := .x3) (k := 8) h3 (by omega) (show 8 ≤ r by omega)]
    simp only [run_op, Op.exec, Cpu.adr, Cpu.bump, Cpu.get, Cpu.set, Cpu.setV, VFile.get, VFile.set, lft_some, pure_bind, bind_assoc, h0, h1,
      Val.off, Option.map_some]
    refine t_ld8s hl (i := off + t) (by omega) rfl ?_
    refine t_ld8d (hv.there) hd (i := t) (by omega) rfl ?_
    refine t_st8x hl (by omega) rfl (by rw [pk_xorB _ _ _ _ _ (by omega)]) ?_
    rw [run_b]
    refine ih (t := t + 8) (r := r - 8) ?_ ?_ rfl (by omega) (by omega)
    · simp only [Val.ptr.injEq, true_and]; push_cast; ring
    · simp only [Val.ptr.injEq, true_and]; push_cast; ring

/-- sha3/armv8a-neon/KeccakP-1600-armv8a-neon.s:292-324 -/
theorem ab_8lanes (hl : w + 200 ≤ m.length) (hv : View F (some ⟨qb, qo⟩) μ) (hd : Has μ 0 n d) (hn : off + n ≤ 200) (k : Nat) :
    ∀ {c : Cpu} {t r : Nat}, c.x0 = .ptr b (w + (off + t : Nat)) → c.x1 = .ptr qb (qo + t) → c.x3 = argN r → t + r = n → r / 64 = k →
    T (bl kd b (St m w (xorB B off t d)) + F) (prog.run c_KeccakP1600_AddBytes_8LanesLoop c) (Post (bl kd b (St m w (xorB B off n d)) + F)) := by
  induction k with
  | zero =>
    intro c t r h0 h1 h3 ht hk
    unfold c_KeccakP1600_AddBytes_8LanesLoop
    rw [run_subs_lt (c := c) (s := .x3) (k := 64) h3 (by omega) (show r < 64 by omega)]
    show T _ (prog.run c_KeccakP1600_AddBytes_Lanes _) _
    unfold c_KeccakP1600_AddBytes_Lanes
    simp only [run_op, Op.exec, Cpu.get, Cpu.set, Val.isNum, lft_some, pure_bind, back32 (show r < 2 ^ 32 by omega), run_b]
    exact ab_lanes hl hv hd hn _ h0 h1 rfl ht rfl
  | succ k ih =>
    intro c t r h0 h1 h3 ht hk
    unfold c_KeccakP1600_AddBytes_8LanesLoop
    rw [run_subs_ge (c := c) (s := .x3) (k := 64) h3 (by omega) (show 64 ≤ r by omega)]
    simp only [run_op, Op.exec, Cpu.adr, Cpu.bump, Cpu.get, Cpu.set, Cpu.setV, VFile.get, VFile.set, lft_some, pure_bind, bind_assoc, h0, h1,
      Val.off, Option.map_some, Asm.ld8o, Asm.st8o, V128.map2]
    refine t_ld8s hl (i := off + t + 0) (by omega) (by push_cast; ring) ?_
    refine t_ld8s hl (i := off + t + 8) (by omega) (by push_cast; ring) ?_
    refine t_ld8s hl (i := off + t + 16) (by omega) (by push_cast; ring) ?_
    refine t_ld8s hl (i := off + t + 24) (by omega) (by push_cast; ring) ?_
    refine t_ld8s hl (i := off + t + 32) (by omega) (by push_cast; ring) ?_
    refine t_ld8s hl (i := off + t + 40) (by omega) (by push_cast; ring) ?_
    refine t_ld8s hl (i := off + t + 48) (by omega) (by push_cast; ring) ?_
    refine t_ld8s hl (i := off + t + 56) (by omega) (by push_cast; ring) ?_
    refine t_ld8d (hv.there) hd (i := t + 0) (by omega) (by push_cast; ring) ?_
    refine t_ld8d (hv.there) hd (i := t + 8) (by omega) (by push_cast; ring) ?_
    refine t_ld8d (hv.there) hd (i := t + 16) (by omega) (by push_cast; ring) ?_
    refine t_ld8d (hv.there) hd (i := t + 24) (by omega) (by push_cast; ring) ?_
    refine t_ld8d (hv.there) hd (i := t + 32) (by omega) (by push_cast; ring) ?_
    refine t_ld8d (hv.there) hd (i := t + 40) (by omega) (by push_cast; ring) ?_
    refine t_ld8d (hv.there) hd (i := t + 48) (by omega) (by push_cast; ring) ?_
    refine t_ld8d (hv.there) hd (i := t + 56) (by omega) (by push_cast; ring) ?_
    refine t_st8x (t := t + 0) hl (by omega) (by push_cast; ring) (by rw [pk_xorB _ _ _ _ _ (by omega)]; rfl) ?_
    refine t_st8x (t := t + 8) hl (by omega) (by push_cast; ring) (by rw [pk_xorB _ _ _ _ _ (by omega)]; rfl) ?_
    refine t_st8x (t := t + 16) hl (by omega) (by push_cast; ring) (by rw [pk_xorB _ _ _ _ _ (by omega)]; rfl) ?_
    refine t_st8x (t := t + 24) hl (by omega) (by push_cast; ring) (by rw [pk_xorB _ _ _ _ _ (by omega)]; rfl) ?_
    refine t_st8x (t := t + 32) hl (by omega) (by push_cast; ring) (by rw [pk_xorB _ _ _ _ _ (by omega)]; rfl) ?_
    refine t_st8x (t := t + 40) hl (by omega) (by push_cast; ring) (by rw [pk_xorB _ _ _ _ _ (by omega)]; rfl) ?_
    refine t_st8x (t := t + 48) hl (by omega) (by push_cast; ring) (by rw [pk_xorB _ _ _ _ _ (by omega)]; rfl) ?_
    refine t_st8x (t := t + 56) hl (by omega) (by push_cast; ring) (by rw [pk_xorB _ _ _ _ _ (by omega)]; rfl) ?_
    rw [run_b]
    refine ih (t := t + 64) (r := r - 64) ?_ ?_ rfl (by omega) (by omega)
    · simp only [Val.ptr.injEq, true_and]; push_cast; ring
    · simp only [Val.ptr.injEq, true_and]; push_cast; ring

/-- sha3/armv8a-neon/KeccakP-1600-armv8a-neon.s:288-324 -/
theorem addBytes_run (hl : w + 200 ≤ m.length) (hv : View F (some ⟨qb, qo⟩) μ) (hd : Has μ 0 n d) (hn : off + n ≤ 200) {c : Cpu}
    (h0 : c.x0 = .ptr b w) (h1 : c.x1 = .ptr qb qo) (h2 : c.x2 = argN off) (h3 : c.x3 = argN n) :
    T (bl kd b (St m w B) + F) (prog.run c_KeccakP1600_AddBytes c) (Post (bl kd b (St m w (xorB B off n d)) + F)) := by
  have h00 : St m w B = St m w (xorB B off 0 d) := st_congr fun t _ => by unfold xorB; rw [if_neg (by omega)]
  rw [h00]
  unfold c_KeccakP1600_AddBytes at *
  rw [run_op]
  simp only [Op.exec, Cpu.get, Cpu.set, lft_some, pure_bind, h0, h2, argN, Val.add, Val.off, ofNat_toInt (show off < 2 ^ 63 by omega)]
  generalize hc : Cpu.mk (Val.ptr b ((w : Int) + off)) _ _ _ _ _ _ _ _ _ _ = c1
  have g0 : c1.x0 = .ptr b ((w : Int) + off) := by rw [← hc]
  have g1 : c1.x1 = .ptr qb qo := by rw [← hc]; exact h1
  have g3 : c1.x3 = argN n := by rw [← hc]; exact h3
  rcases Nat.eq_zero_or_pos n with e | e
  · subst e
    rw [run_subs_lt (c := c1) (s := .x3) (k := 1) g3 (by decide) (by decide)]
    show T _ (prog.run [.ret] _) _
    rw [run_ret]
    exact t_pure rfl
  · rw [run_subs_ge (c := c1) (s := .x3) (k := 1) g3 (by omega) (show 1 ≤ n from e), run_b]
    refine ab_8lanes hl hv hd hn _ (t := 0) (r := n) g0 ?_ g3 (by omega) rfl
    simp [Cpu.set, g1]

end

section
variable {q : Ptr} {n off : Nat}

/-- sha3/armv8a-neon/KeccakP-1600-armv8a-neon.s:425-432 -/
theorem ex_bytes (hl : w + 200 ≤ m.length) (hv : Valid F q n) (hn : off + n ≤ 200) (r : Nat) :
    ∀ {c : Cpu} {t : Nat}, c.x0 = .ptr b (w + (off + t : Nat)) → c.x1 = .ptr q.blk (q.off + t) → c.x3 = argN r → t + r = n →
    T (bl kd b (St m w B) + up F q (tabP t (outB B off))) (prog.run c_KeccakP1600_ExtractBytes_BytesLoop c)
      (Post (bl kd b (St m w B) + up F q (tabP n (outB B off)))) := by
  induction r with
  | zero =>
    intro c t h0 h1 h3 ht
    unfold c_KeccakP1600_ExtractBytes_BytesLoop
    rw [run_subs_lt (c := c) (s := .x3) (k := 1) h3 (by decide) (by decide)]
    show T _ (prog.run [.ret] _) _
    rw [run_ret, show n = t by omega]
    exact t_pure rfl
  | succ r ih =>
    intro c t h0 h1 h3 ht
    unfold c_KeccakP1600_ExtractBytes_BytesLoop
    rw [run_subs_ge (c := c) (s := .x3) (k := 1) h3 (by omega) (by simp)]
    simp only [run_op, Op.exec, Cpu.adr, Cpu.bump, Cpu.get, Cpu.set, lft_some, pure_bind, bind_assoc, h0, h1, Val.off, Option.map_some]
    refine t_ld1s hl (by omega) rfl ?_
    simp only [lft_some, pure_bind, Val.byte]
    refine t_st1u hv (by omega) rfl (by simp [outB]) ?_
    rw [run_b]
    refine ih (t := t + 1) ?_ ?_ rfl (by omega)
    · simp only [Val.ptr.injEq, true_and]; push_cast; ring
    · simp only [Val.ptr.injEq, true_and]; push_cast; ring

/-- sha3/armv8a-neon/KeccakP-1600-armv8a-neon.s:417-432 -/
theorem ex_lanes (hl : w + 200 ≤ m.length) (hv : Valid F q n) (hn : off + n ≤ 200) (k : Nat) :
    ∀ {c : Cpu} {t r : Nat}, c.x0 = .ptr b (w + (off + t : Nat)) → c.x1 = .ptr q.blk (q.off + t) → c.x3 = argN r → t + r = n → r / 8 = k →
    T (bl kd b (St m w B) + up F q (tabP t (outB B off))) (prog.run c_KeccakP1600_ExtractBytes_LanesLoop c)
      (Post (bl kd b (St m w B) + up F q (tabP n (outB B off)))) := by
  induction k with
  | zero =>
    intro c t r h0 h1 h3 ht hk
    unfold c_KeccakP1600_ExtractBytes_LanesLoop
    rw [run_subs_lt (c := c) (s := .x3) (k := 8) h3 (by omega) (show r < 8 by omega)]
    show T _ (prog.run c_KeccakP1600_ExtractBytes_Bytes _) _
    unfold c_KeccakP1600_ExtractBytes_Bytes
    simp only [run_op, Op.exec, Cpu.get, Cpu.set, Val.isNum, lft_some, pure_bind, back32 (show r < 2 ^ 32 by omega), run_b]
    exact ex_bytes hl hv hn r h0 h1 rfl ht
  | succ k ih =>
    intro c t r h0 h1 h3 ht hk
    unfold c_KeccakP1600_ExtractBytes_LanesLoop
    rw [run_subs_ge (c := c) (s := .x3) (k := 8) h3 (by omega) (show 8 ≤ r by omega)]
    simp only [run_op, Op.exec, Cpu.adr, Cpu.bump, Cpu.get, Cpu.set, Cpu.setV, VFile.get, VFile.set, lft_some, pure_bind, bind_assoc, h0, h1,
      Val.off, Option.map_some]
    refine t_ld8s hl (i := off + t) (by omega) rfl ?_
    refine t_st8u hv (by omega) rfl (pk_outB B off t) ?_
    rw [run_b]
    refine ih (t := t + 8) (r := r - 8) ?_ ?_ rfl (by omega) (by omega)
    · simp only [Val.ptr.injEq, true_and]; push_cast; ring
    · simp only [Val.ptr.injEq, true_and]; push_cast; ring

/-- sha3/armv8a-neon/KeccakP-1600-armv8a-neon.s:409-432 -/
theorem ex_8lanes (hl : w + 200 ≤ m.length) (hv : Valid F q n) (hn : off + n ≤ 200) (k : Nat) :
    ∀ {c : Cpu} {t r : Nat}, c.x0 = .ptr b (w + (off + t : Nat)) → c.x1 = .ptr q.blk (q.off + t) → c.x3 = argN r → t + r = n → r / 64 = k →
    T (bl kd b (St m w B) + up F q (tabP t (outB B off))) (prog.run c_KeccakP1600_ExtractBytes_8LanesLoop c)
      (Post (bl kd b (St m w B) + up F q (tabP n (outB B off)))) := by
  induction k with
  | zero =>
    intro c t r h0 h1 h3 ht hk
    unfold c_KeccakP1600_ExtractBytes_8LanesLoop
    rw [run_subs_lt (c := c) (s := .x3) (k := 64) h3 (by omega) (show r < 64 by omega)]
    show T _ (prog.run c_KeccakP1600_ExtractBytes_Lanes _) _
    unfold c_KeccakP1600_ExtractBytes_Lanes
    simp only [run_op, Op.exec, Cpu.get, Cpu.set, Val.isNum, lft_some, pure_bind, back32 (show r < 2 ^ 32 by omega), run_b]
    exact ex_lanes hl hv hn _ h0 h1 rfl ht rfl
  | succ k ih =>
    intro c t r h0 h1 h3 ht hk
    unfold c_KeccakP1600_ExtractBytes_8LanesLoop
    rw [run_subs_ge (c := c) (s := .x3) (k := 64) h3 (by omega) (show 64 ≤ r by omega)]
    simp only [run_op, Op.exec, Cpu.adr, Cpu.bump, Cpu.get, Cpu.set, Cpu.setV, VFile.get, VFile.set, lft_some, pure_bind, bind_assoc, h0, h1,
      Val.off, Option.map_some, Asm.ld8o, Asm.st8o]
    refine t_ld8s hl (i := off + (t + 0)) (by omega) (by push_cast; ring) ?_
    refine t_ld8s hl (i := off + (t + 8)) (by omega) (by push_cast; ring) ?_
    refine t_ld8s hl (i := off + (t + 16)) (by omega) (by push_cast; ring) ?_
    refine t_ld8s hl (i := off + (t + 24)) (by omega) (by push_cast; ring) ?_
    refine t_ld8s hl (i := off + (t + 32)) (by omega) (by push_cast; ring) ?_
    refine t_ld8s hl (i := off + (t + 40)) (by omega) (by push_cast; ring) ?_
    refine t_ld8s hl (i := off + (t + 48)) (by omega) (by push_cast; ring) ?_
    refine t_ld8s hl (i := off + (t + 56)) (by omega) (by push_cast; ring) ?_
    refine t_st8u hv (n := t + 0) (by omega) (by push_cast; ring) (pk_outB B off _) ?_
    refine t_st8u hv (n := t + 8) (by omega) (by push_cast; ring) (pk_outB B off _) ?_
    refine t_st8u hv (n := t + 16) (by omega) (by push_cast; ring) (pk_outB B off _) ?_
    refine t_st8u hv (n := t + 24) (by omega) (by push_cast; ring) (pk_outB B off _) ?_
    refine t_st8u hv (n := t + 32) (by omega) (by push_cast; ring) (pk_outB B off _) ?_
    refine t_st8u hv (n := t + 40) (by omega) (by push_cast; ring) (pk_outB B off _) ?_
    refine t_st8u hv (n := t + 48) (by omega) (by push_cast; ring) (pk_outB B off _) ?_
    refine t_st8u hv (n := t + 56) (by omega) (by push_cast; ring) (pk_outB B off _) ?_
    rw [run_b]
    refine ih (t := t + 64) (r := r - 64) ?_ ?_ rfl (by omega) (by omega)
    · simp only [Val.ptr.injEq, true_and]; push_cast; ring
    · simp only [Val.ptr.injEq, true_and]; push_cast; ring

/-- sha3/armv8a-neon/KeccakP-1600-armv8a-neon.s:405-432 -/
theorem extractBytes_run (hl : w + 200 ≤ m.length) (hv : Valid F q n) (hn : off + n ≤ 200) {c : Cpu}
    (h0 : c.x0 = .ptr b w) (h1 : c.x1 = .ptr q.blk q.off) (h2 : c.x2 = argN off) (h3 : c.x3 = argN n) :
    T (bl kd b (St m w B) + F) (prog.run c_KeccakP1600_ExtractBytes c) (Post (bl kd b (St m w B) + up F q (tabP n fun j => B (off + j)))) := by
  show T _ _ (Post (bl kd b (St m w B) + up F q (tabP n (outB B off))))
  have h00 : bl kd b (St m w B) + F = bl kd b (St m w B) + up F q (tabP 0 (outB B off)) := by
    rw [show tabP 0 (outB B off) = [] from rfl, up_nil]
  rw [h00]
  unfold c_KeccakP1600_ExtractBytes at *
  rw [run_op]
  simp only [Op.exec, Cpu.get, Cpu.set, lft_some, pure_bind, h0, h2, argN, Val.add, Val.off, ofNat_toInt (show off < 2 ^ 63 by omega)]
  generalize hc : Cpu.mk (Val.ptr b ((w : Int) + off)) _ _ _ _ _ _ _ _ _ _ = c1
  have g0 : c1.x0 = .ptr b ((w : Int) + off) := by rw [← hc]
  have g1 : c1.x1 = .ptr q.blk q.off := by rw [← hc]; exact h1
  have g3 : c1.x3 = argN n := by rw [← hc]; exact h3
  rcases Nat.eq_zero_or_pos n with e | e
  · subst e
    rw [run_subs_lt (c := c1) (s := .x3) (k := 1) g3 (by decide) (by decide)]
    show T _ (prog.run [.ret] _) _
    rw [run_ret]
    exact t_pure rfl
  · rw [run_subs_ge (c := c1) (s := .x3) (k := 1) g3 (by omega) (show 1 ≤ n from e), run_b]
    refine ex_8lanes hl hv hn _ (t := 0) (r := n) g0 ?_ g3 (by omega) rfl
    simp [Cpu.set, g1]

end

end

end Faest.A64
