/-
The lifted constraint values depend linearly on the lifted witness and the lifted constant 1; on the
witness bits themselves they are the embedded bytes.
-/
import Verif.Proofs.EncConstr

namespace Faest
open Spec

variable {n : Nat}

/-! ### Linearity -/

theorem liftKey_lin {W Nwd : Nat} {x y z : Nat → BF n} {d : BF n} (h : ∀ i, z i = x i + d * y i) (k i : Nat) :
    liftKey (· + ·) W Nwd z k i = liftKey (· + ·) W Nwd x k i + d * liftKey (· + ·) W Nwd y k i := by
  induction k using Nat.strong_induction_on with
  | _ k ih =>
    rw [liftKey.eq_1 _ _ _ z k, liftKey.eq_1 _ _ _ x k, liftKey.eq_1 _ _ _ y k]
    by_cases h1 : k < Nwd ∨ Nwd = 0
    · rw [dif_pos h1, dif_pos h1, dif_pos h1, h]
    · rw [dif_neg h1, dif_neg h1, dif_neg h1]
      split
      · rw [h]
      · rw [ih (k - Nwd) (by omega), ih (k - 1) (by omega)]
        ring

theorem keyCell_lin {W Nwd : Nat} {x y z : Nat → BF n} {d : BF n} (h : ∀ i, z i = x i + d * y i) (p : Nat) :
    keyCell (· + ·) W Nwd z p = keyCell (· + ·) W Nwd x p + d * keyCell (· + ·) W Nwd y p :=
  liftKey_lin h _ _

theorem bc_lin {x y z : Nat → BF n} {d : BF n} (h : ∀ i, z i = x i + d * y i) :
    BF.bc z = BF.bc x + d * BF.bc y := by
  rw [← BF.bc_mul, ← BF.bc_add]
  congr 1
  funext i
  exact h i

theorem byteL_lin {x y z : Nat → BF n} {d : BF n} (h : ∀ i, z i = x i + d * y i) (b : Nat) :
    byteL z b = byteL x b + d * byteL y b := bc_lin fun _ => h _

theorem invAffL_lin {x y z : Nat → BF n} {a b c d : BF n} (h : ∀ i, z i = x i + d * y i)
    (ho : c = a + d * b) (i : Nat) : invAffL c z i = invAffL a x i + d * invAffL b y i := by
  unfold invAffL
  rw [h, h, h]
  split
  · rw [ho]; ring
  · ring

theorem ksS_lin {Nwd : Nat} {x y z : Nat → BF n} {d : BF n} (h : ∀ i, z i = x i + d * y i) (p : Nat) :
    ksS Nwd z p = ksS Nwd x p + d * ksS Nwd y p := bc_lin fun _ => keyCell_lin h _

theorem ksSd_lin {Nwd : Nat} {x y z : Nat → BF n} {a b c d : BF n} (h : ∀ i, z i = x i + d * y i)
    (ho : c = a + d * b) (p : Nat) : ksSd Nwd c z p = ksSd Nwd a x p + d * ksSd Nwd b y p := by
  refine bc_lin fun i => invAffL_lin (fun i => ?_) ho i
  unfold ksOutL
  rw [h, liftKey_lin h, ho]
  ring

theorem encS_lin {Nb : Nat} {two three : BF n} {I I1 I2 K K1 K2 X X1 X2 : Nat → BF n} {d : BF n}
    (hI : ∀ i, I i = I1 i + d * I2 i) (hK : ∀ i, K i = K1 i + d * K2 i) (hX : ∀ i, X i = X1 i + d * X2 i)
    (p : Nat) :
    encS Nb two three I K X p = encS Nb two three I1 K1 X1 p + d * encS Nb two three I2 K2 X2 p := by
  unfold encS mixL
  split
  · rw [hI, hK]; ring
  · beta_reduce
    rw [hX, hX, hX, hX, hK]; ring

theorem encSd_lin {Nb R : Nat} {a b c : BF n} {x x1 x2 o o1 o2 k k1 k2 : Nat → BF n} {d : BF n}
    (ho : c = a + d * b)
    (hx : ∀ i, x i = x1 i + d * x2 i) (hO : ∀ i, o i = o1 i + d * o2 i) (hk : ∀ i, k i = k1 i + d * k2 i)
    (p : Nat) :
    encSd Nb R c x o k p = encSd Nb R a x1 o1 k1 p + d * encSd Nb R b x2 o2 k2 p := by
  refine bc_lin fun i => invAffL_lin (fun i => ?_) ho i
  unfold encOut
  split
  · rw [hx]
  · rw [hO, hk]; ring

theorem conIn_lin {P : Params} {I : Nat → Byte} {x y z : Nat → BF n} {a b c d : BF n}
    (h : ∀ i, z i = x i + d * y i) (ho : c = a + d * b) (p : Nat) :
    conIn P I c z p = conIn P I a x p + d * conIn P I b y p := by
  unfold conIn
  split
  · refine encS_lin (byteL_lin h) (byteL_lin fun i => ?_) (fun i => byteL_lin h _) p
    rw [ho]; ring
  · split
    · exact ksS_lin h p
    · refine encS_lin (fun i => ?_) (byteL_lin (keyCell_lin h)) (byteL_lin fun i => h _) _
      rw [ho]; ring

theorem conOut_lin {P : Params} {I O : Nat → Byte} {x y z : Nat → BF n} {a b c d : BF n}
    (h : ∀ i, z i = x i + d * y i) (ho : c = a + d * b) (p : Nat) :
    conOut P I O c z p = conOut P I O a x p + d * conOut P I O b y p := by
  unfold conOut
  split
  · refine encSd_lin ho (fun i => h _) (fun i => ?_) (fun i => ?_) p
    · rw [ho, h]; ring
    · rw [ho]; ring
  · split
    · exact ksSd_lin h ho p
    · refine encSd_lin ho (fun i => h _) (fun i => ?_) (keyCell_lin h) _
      rw [ho]; ring

/-! ### On bits -/

theorem bitOf_byte {w : Nat → Byte} {b i : Nat} (hi : i < 8) : bitOf w (8 * b + i) = (w b).getLsbD i := by
  unfold bitOf
  rw [show (8 * b + i) / 8 = b by omega, show (8 * b + i) % 8 = i by omega]

theorem bc_congr {f g : Nat → BF n} (h : ∀ i, i < 8 → f i = g i) : BF.bc f = BF.bc g := by
  unfold BF.bc
  exact Finset.sum_congr rfl fun i hi => by rw [h i (Finset.mem_range.1 hi)]

theorem bc_bits {f : Nat → BF n} {x : Byte} (h : ∀ i, i < 8 → f i = BF.bitF n (x.getLsbD i)) :
    BF.bc f = BF.emb n x := bc_congr h

theorem byteL_bits (w : Nat → Byte) (b : Nat) : byteL (bitsL n w) b = BF.emb n (w b) := by
  refine bc_bits fun i hi => ?_
  unfold bitsL
  rw [bitOf_byte hi]

theorem invAffineByte_bit : ∀ (x : Byte) (i : Fin 8), (invAffineByte x).getLsbD i.1 =
    (x.getLsbD ((i.1 + 7) % 8) ^^ x.getLsbD ((i.1 + 5) % 8) ^^ x.getLsbD ((i.1 + 2) % 8)
      ^^ decide (i.1 = 0 ∨ i.1 = 2)) := by
  decide +kernel

theorem invAffL_bits {f : Nat → BF n} {x : Byte} (h : ∀ i, i < 8 → f i = BF.bitF n (x.getLsbD i)) :
    BF.bc (invAffL 1 f) = BF.emb n (invAffineByte x) := by
  refine bc_bits fun i hi => ?_
  have := invAffineByte_bit x ⟨i, hi⟩
  simp only at this
  rw [this, BF.bitF_xor, BF.bitF_xor, BF.bitF_xor]
  unfold invAffL
  rw [h _ (by omega), h _ (by omega), h _ (by omega)]
  congr 1
  unfold BF.bitF
  by_cases hc : i = 0 ∨ i = 2
  · rw [if_pos hc, decide_eq_true hc, if_pos rfl]
  · rw [if_neg hc, decide_eq_false hc, if_neg (by simp)]

theorem bitF_xor_byte (x y : Byte) (i : Nat) :
    BF.bitF n ((x ^^^ y).getLsbD i) = BF.bitF n (x.getLsbD i) + BF.bitF n (y.getLsbD i) := by
  rw [BitVec.getLsbD_xor, BF.bitF_xor]

theorem liftKey_bits {Nwd : Nat} (w : Nat → Byte) (k : Nat) {c i : Nat} (hc : c < 4) (hi : i < 8) :
    liftKey (· + ·) 32 Nwd (bitsL n w) k (8 * c + i)
      = BF.bitF n ((liftKey (· ^^^ ·) 4 Nwd w k c).getLsbD i) := by
  induction k using Nat.strong_induction_on with
  | _ k ih =>
    rw [liftKey.eq_1 _ _ _ w k, liftKey.eq_1 _ _ _ (bitsL n w) k]
    by_cases h1 : k < Nwd ∨ Nwd = 0
    · rw [dif_pos h1, dif_pos h1]
      unfold bitsL
      rw [show 32 * k + (8 * c + i) = 8 * (4 * k + c) + i by omega, bitOf_byte hi]
    · rw [dif_neg h1, dif_neg h1]
      split
      · unfold bitsL
        rw [show ∀ a, 32 * a + (8 * c + i) = 8 * (4 * a + c) + i by intro a; omega, bitOf_byte hi]
      · rw [ih (k - Nwd) (by omega), ih (k - 1) (by omega), bitF_xor_byte]

theorem keyCell_bits {Nwd : Nat} (w : Nat → Byte) (b : Nat) {i : Nat} (hi : i < 8) :
    keyCell (· + ·) 32 Nwd (bitsL n w) (8 * b + i)
      = BF.bitF n ((keyCell (· ^^^ ·) 4 Nwd w b).getLsbD i) := by
  unfold keyCell
  rw [show (8 * b + i) / 32 = b / 4 by omega, show (8 * b + i) % 32 = 8 * (b % 4) + i by omega]
  exact liftKey_bits w _ (Nat.mod_lt _ (by decide)) hi

theorem ksS_bits (Nwd : Nat) (w : Nat → Byte) (p : Nat) :
    ksS Nwd (bitsL n w) p = BF.emb n (ksSB Nwd w p) := bc_bits fun _ hi => keyCell_bits w _ hi

theorem ksSd_bits (Nwd : Nat) (w : Nat → Byte) (p : Nat) :
    ksSd Nwd 1 (bitsL n w) p = BF.emb n (invAffineByte (ksOutB Nwd w p)) := by
  refine invAffL_bits fun i hi => ?_
  unfold ksOutL ksOutB
  rw [liftKey_bits w _ (Nat.mod_lt _ (by decide)) hi, bitF_xor_byte, bitF_xor_byte, one_mul]
  unfold bitsL
  rw [show 32 * Nwd + 8 * p + i = 8 * (4 * Nwd + p) + i by omega, bitOf_byte hi]

theorem encSd_bits (Nb R : Nat) {x o k : Nat → BF n} {X O K : Nat → Byte}
    (hx : ∀ b i, i < 8 → x (8 * b + i) = BF.bitF n ((X b).getLsbD i))
    (ho : ∀ b i, i < 8 → o (8 * b + i) = BF.bitF n ((O b).getLsbD i))
    (hk : ∀ b i, i < 8 → k (8 * b + i) = BF.bitF n ((K b).getLsbD i)) (p : Nat) :
    encSd Nb R 1 x o k p = BF.emb n (invAffineByte (encOutB Nb R X O K p)) := by
  refine invAffL_bits fun i hi => ?_
  unfold encOutB encOut
  split
  · rw [hx _ _ hi, Nat.one_mul, Nat.add_zero]
  · rw [ho _ _ hi, hk _ _ hi, bitF_xor_byte, Nat.one_mul, Nat.one_mul, Nat.add_zero, Nat.add_zero]

end Faest
