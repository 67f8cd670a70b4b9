/-
The S-box constraints hold for a byte string exactly if it is the extended witness of a key accepted
by the one-way function.
-/
import Verif.Proofs.Witness

namespace Faest
open Spec (ksStep liftKey keyCell ksS ksSd ksSB ksOutB encS encSd encOutB byteL emKey
  conCount conIn conOut bitsL keyWord roundState shiftRows mixColumns midState stateBytes blockState
  sbox shiftOffset icol srcIdx mixL encOut witAes witEm witness ksSel ksRc rcon ksSboxInput encNonzero
  ksNonzero cipher xtime encrypt)

variable {n : Nat}

/-! ### One S-box -/

theorem invAffineByte_inj : ∀ x y : Byte, invAffineByte x = invAffineByte y → x = y := by
  have h : ∀ x : Byte, computeSbox (bf8Inv ⟨invAffineByte x⟩).v = x := by decide +kernel
  intro x y e
  rw [← h x, ← h y, e]

theorem emb_eq (x : Byte) : BF.emb n x = BF.embHom n ⟨x⟩ := rfl

/-- An S-box constraint says that the input is not zero and the output is the S-box of the input. -/
theorem sbox_con_iff (hl : BF.LamSize n) (x y : Byte) :
    BF.emb n x * BF.emb n (invAffineByte y) = 1 ↔ x ≠ 0 ∧ y = sbox x := by
  rw [emb_eq, emb_eq, ← BF.embHom_mul hl, ← BF.embHom_one hl]
  constructor
  · intro h
    have h1 := BF.embHom_inj hl h
    have hx : (⟨x⟩ : BF 8) ≠ 0 := by
      intro h0
      rw [h0, zero_mul] at h1
      exact absurd h1 (by decide)
    have h2 := BF.bf8Inv_mul _ hx
    have h3 : (⟨invAffineByte y⟩ : BF 8) = bf8Inv ⟨x⟩ := by
      calc (⟨invAffineByte y⟩ : BF 8) = bf8Inv ⟨x⟩ * ⟨x⟩ * ⟨invAffineByte y⟩ := by rw [h2, one_mul]
        _ = bf8Inv ⟨x⟩ := by rw [mul_assoc, h1, mul_one]
    refine ⟨fun h0 => hx (by rw [h0]; rfl), invAffineByte_inj _ _ ?_⟩
    rw [← sbox_table, invAffine_table, ← h3]
  · rintro ⟨h0, rfl⟩
    rw [← sbox_table, invAffine_table]
    have hx : (⟨x⟩ : BF 8) ≠ 0 := by
      intro h1
      exact h0 (congrArg BF.v h1)
    have h2 := BF.bf8Inv_mul _ hx
    rw [mul_comm]
    exact congrArg _ h2

theorem emb_xtime (hl : BF.LamSize n) (x : Byte) : BF.emb n (xtime x) = BF.emb n 2 * BF.emb n x := by
  rw [emb_eq, emb_eq, emb_eq, ← BF.embHom_mul hl, mul_comm, ← mul2_table]
  rfl

theorem emb_three (hl : BF.LamSize n) (x : Byte) :
    BF.emb n (xtime x ^^^ x) = BF.emb n 3 * BF.emb n x := by
  rw [emb_eq, emb_eq, emb_eq, ← BF.embHom_mul hl, mul_comm, ← mul3_table]
  rfl

/-! ### Encryption -/

/-- Row `r` of MixColumns on one column of bytes. -/
def mixB (x : Nat → Byte) (r : Nat) : Byte :=
  xtime (x r) ^^^ (xtime (x ((r + 1) % 4)) ^^^ x ((r + 1) % 4)) ^^^ x ((r + 2) % 4) ^^^ x ((r + 3) % 4)

/-- Input byte of S-box number `idx`. -/
def encSB (Nb : Nat) (I K X : Nat → Byte) (idx : Nat) : Byte :=
  if idx < 4 * Nb then I idx ^^^ K idx
  else mixB (fun r => X (idx - 4 * Nb - idx % 4 + r)) (idx % 4) ^^^ K idx

theorem encS_emb (hl : BF.LamSize n) (Nb : Nat) (I K X : Nat → Byte) (idx : Nat) :
    encS Nb (BF.emb n 2) (BF.emb n 3) (fun b => BF.emb n (I b)) (fun b => BF.emb n (K b))
      (fun b => BF.emb n (X b)) idx = BF.emb n (encSB Nb I K X idx) := by
  unfold encS encSB mixL mixB
  split
  · rw [BF.emb_xor]
  · rw [BF.emb_xor, BF.emb_xor, BF.emb_xor, BF.emb_xor, emb_xtime hl, emb_three hl]

theorem icol_shift {Nb c r : Nat} (hN : Nb = 4 ∨ Nb = 6 ∨ Nb = 8) (hc : c < Nb) (hr : r < 4) :
    (icol Nb c r + shiftOffset Nb r) % Nb = c ∧ icol Nb ((c + shiftOffset Nb r) % Nb) r = c := by
  have hoff : shiftOffset Nb r ≤ Nb := by
    unfold shiftOffset
    split <;> omega
  unfold icol
  generalize shiftOffset Nb r = o at *
  rcases hN with rfl | rfl | rfl <;> omega

section enc
variable {Nb R : Nat} {W : Nat → Nat → Byte} {I K X O : Nat → Byte}

theorem encSB_eq (hNb : 0 < Nb) (hK : ∀ b, b < 4 * Nb * (R + 1) → K b = W (b / 4) (b % 4)) {j c r : Nat}
    (hj : j < R) (hc : c < Nb) (hr : r < 4)
    (hX : ∀ j', j = j' + 1 → ∀ i, i < 4 * Nb → X (4 * Nb * j' + i) = midState Nb W I j' i) :
    encSB Nb I K X (4 * Nb * j + (4 * c + r)) = roundState Nb W (blockState I) j c r := by
  have hle : 4 * Nb * j + 4 * Nb ≤ 4 * Nb * R := em_le hj
  have m5 : 4 * Nb * (R + 1) = 4 * Nb * R + 4 * Nb := Nat.mul_succ _ _
  have hKv : K (4 * Nb * j + (4 * c + r)) = W (Nb * j + c) r := by
    rw [hK _ (by omega)]
    have e : 4 * Nb * j + (4 * c + r) = 4 * (Nb * j + c) + r := by rw [Nat.mul_assoc]; omega
    rw [e, Nat.mul_add_div (by decide), Nat.div_eq_of_lt hr, Nat.mul_add_mod, Nat.mod_eq_of_lt hr]
    rfl
  unfold encSB
  rw [hKv]
  cases j with
  | zero =>
    rw [if_pos (by omega)]
    simp only [Nat.mul_zero, Nat.zero_add]
    show _ = Spec.addRoundKey Nb W 0 (blockState I) c r
    unfold Spec.addRoundKey blockState
    rw [Nat.mul_zero, Nat.zero_add]
  | succ j =>
    have hs : 4 * Nb * (j + 1) = 4 * Nb * j + 4 * Nb := Nat.mul_succ _ _
    have h4 : 4 * Nb * j % 4 = 0 := by rw [Nat.mul_assoc]; exact Nat.mul_mod_right _ _
    rw [if_neg (by omega)]
    have e1 : (4 * Nb * (j + 1) + (4 * c + r)) % 4 = r := by omega
    rw [e1]
    have e2 : ∀ r', r' < 4 → X (4 * Nb * (j + 1) + (4 * c + r) - 4 * Nb - r + r')
        = shiftRows Nb (Spec.subBytes (roundState Nb W (blockState I) j)) c r' := by
      intro r' hr'
      rw [show 4 * Nb * (j + 1) + (4 * c + r) - 4 * Nb - r + r' = 4 * Nb * j + (4 * c + r') by omega,
        hX j rfl _ (by omega)]
      unfold midState stateBytes
      rw [show (4 * c + r') / 4 = c by omega, show (4 * c + r') % 4 = r' by omega]
    show mixB _ r ^^^ _ = Spec.addRoundKey Nb W (j + 1) (mixColumns (shiftRows Nb (Spec.subBytes _))) c r
    unfold Spec.addRoundKey mixB mixColumns
    beta_reduce
    rw [e2 r hr, e2 _ (Nat.mod_lt _ (by decide)), e2 _ (Nat.mod_lt _ (by decide)),
      e2 _ (Nat.mod_lt _ (by decide))]

theorem encOutB_mid {j c r : Nat} (hj : j + 1 < R) (hc : c < Nb) (hr : r < 4) :
    encOutB Nb R X O K (4 * Nb * j + (4 * c + r)) = X (4 * Nb * j + (4 * icol Nb c r + r)) := by
  have hi : icol Nb c r < Nb := icol_lt (by omega)
  have hle : 4 * Nb * j + 4 * Nb ≤ 4 * Nb * (R - 1) := em_le (by omega)
  unfold encOutB
  rw [← Nat.add_assoc, srcIdx_eq rfl hc hr]
  unfold encOut
  rw [if_pos (by omega), Nat.one_mul, Nat.add_zero, Nat.add_assoc]

theorem encOutB_last {c r : Nat} (hR : 0 < R) (hc : c < Nb) (hr : r < 4)
    (hK : ∀ b, b < 4 * Nb * (R + 1) → K b = W (b / 4) (b % 4)) :
    encOutB Nb R X O K (4 * Nb * (R - 1) + (4 * c + r))
      = O (4 * icol Nb c r + r) ^^^ W (Nb * R + icol Nb c r) r := by
  have hi : icol Nb c r < Nb := icol_lt (by omega)
  have m5 : 4 * Nb * (R + 1) = 4 * Nb * R + 4 * Nb := Nat.mul_succ _ _
  have m6 : 4 * Nb * R = 4 * Nb * (R - 1) + 4 * Nb := by rw [← Nat.mul_succ]; congr 1; omega
  unfold encOutB
  rw [← Nat.add_assoc, srcIdx_eq rfl hc hr]
  unfold encOut
  rw [if_neg (by omega), Nat.one_mul, Nat.one_mul, Nat.add_zero, Nat.add_zero, hK _ (by omega)]
  have e : 4 * Nb * (R - 1) + 4 * icol Nb c r + r + 4 * Nb = 4 * (Nb * R + icol Nb c r) + r := by
    rw [Nat.mul_add, ← Nat.mul_assoc]; omega
  rw [e, Nat.mul_add_div (by decide), Nat.div_eq_of_lt hr, Nat.mul_add_mod, Nat.mod_eq_of_lt hr,
    show 4 * Nb * (R - 1) + 4 * icol Nb c r + r - 4 * Nb * (R - 1) = 4 * icol Nb c r + r by omega]
  rfl

theorem xor_eq_iff (a b c : Byte) : a ^^^ b = c ↔ a = c ^^^ b := by
  constructor
  · rintro rfl; rw [BitVec.xor_assoc, BitVec.xor_self, BitVec.xor_zero]
  · rintro rfl; rw [BitVec.xor_assoc, BitVec.xor_self, BitVec.xor_zero]

/-- All S-box constraints of one encryption hold exactly if the committed states are those of the
encryption, the output is the ciphertext, and no S-box input is zero. -/
theorem enc_iff (hN : Nb = 4 ∨ Nb = 6 ∨ Nb = 8) (hR : 0 < R)
    (hK : ∀ b, b < 4 * Nb * (R + 1) → K b = W (b / 4) (b % 4)) :
    (∀ idx, idx < 4 * Nb * R → encSB Nb I K X idx ≠ 0 ∧
      encOutB Nb R X O K idx = sbox (encSB Nb I K X idx)) ↔
    (∀ j, j + 1 < R → ∀ i, i < 4 * Nb → X (4 * Nb * j + i) = midState Nb W I j i) ∧
    (∀ i, i < 4 * Nb → O i = stateBytes (cipher Nb R W (blockState I)) i) ∧
    (∀ j, j < R → ∀ c, c < Nb → ∀ r, r < 4 → roundState Nb W (blockState I) j c r ≠ 0) := by
  have hNb : 0 < Nb := by omega
  constructor
  · intro h
    have hst : ∀ j, j < R → (∀ j', j = j' + 1 → ∀ i, i < 4 * Nb → X (4 * Nb * j' + i) = midState Nb W I j' i) →
        ∀ c, c < Nb → ∀ r, r < 4 → roundState Nb W (blockState I) j c r ≠ 0 ∧
          encOutB Nb R X O K (4 * Nb * j + (4 * c + r)) = sbox (roundState Nb W (blockState I) j c r) := by
      intro j hj hX c hc r hr
      have hle : 4 * Nb * j + 4 * Nb ≤ 4 * Nb * R := em_le hj
      have := h (4 * Nb * j + (4 * c + r)) (by omega)
      rwa [encSB_eq hNb hK hj hc hr hX] at this
    have hmid : ∀ j, j + 1 < R → ∀ i, i < 4 * Nb → X (4 * Nb * j + i) = midState Nb W I j i := by
      intro j
      induction j with
      | zero =>
        intro hj i hi
        have := (hst 0 (by omega) (fun _ e => by omega) ((i / 4 + shiftOffset Nb (i % 4)) % Nb)
          (Nat.mod_lt _ hNb) (i % 4) (by omega)).2
        rw [encOutB_mid hj (Nat.mod_lt _ hNb) (by omega),
          (icol_shift hN (by omega : i / 4 < Nb) (by omega)).2, show 4 * (i / 4) + i % 4 = i by omega] at this
        exact this
      | succ j ih =>
        intro hj i hi
        have := (hst (j + 1) (by omega) (fun j' e => by
            obtain rfl : j = j' := by omega
            exact ih (by omega)) ((i / 4 + shiftOffset Nb (i % 4)) % Nb)
          (Nat.mod_lt _ hNb) (i % 4) (by omega)).2
        rw [encOutB_mid hj (Nat.mod_lt _ hNb) (by omega),
          (icol_shift hN (by omega : i / 4 < Nb) (by omega)).2, show 4 * (i / 4) + i % 4 = i by omega] at this
        exact this
    refine ⟨hmid, fun i hi => ?_, fun j hj c hc r hr => ?_⟩
    · have := (hst (R - 1) (by omega) (fun j' e => hmid j' (by omega)) ((i / 4 + shiftOffset Nb (i % 4)) % Nb)
          (Nat.mod_lt _ hNb) (i % 4) (by omega)).2
      rw [encOutB_last hR (Nat.mod_lt _ hNb) (by omega) hK,
          (icol_shift hN (by omega : i / 4 < Nb) (by omega)).2, show 4 * (i / 4) + i % 4 = i by omega,
          xor_eq_iff] at this
      exact this
    · exact (hst j hj (fun j' e => hmid j' (by omega)) c hc r hr).1
  · rintro ⟨hmid, hO, hnz⟩ idx hidx
    have hj : idx / (4 * Nb) < R := Nat.div_lt_of_lt_mul hidx
    have hlt : idx % (4 * Nb) < 4 * Nb := Nat.mod_lt _ (by omega)
    have e : idx = 4 * Nb * (idx / (4 * Nb)) + (4 * (idx % (4 * Nb) / 4) + idx % (4 * Nb) % 4) := by
      have := Nat.div_add_mod idx (4 * Nb)
      omega
    have hr : idx % (4 * Nb) % 4 < 4 := Nat.mod_lt _ (by decide)
    have hc : idx % (4 * Nb) / 4 < Nb := by omega
    generalize idx % (4 * Nb) % 4 = r at *
    generalize idx % (4 * Nb) / 4 = c at *
    generalize idx / (4 * Nb) = j at *
    rw [e, encSB_eq hNb hK hj hc hr (fun j' e' => hmid j' (by omega))]
    refine ⟨hnz j hj c hc r hr, ?_⟩
    have hi : icol Nb c r < Nb := icol_lt hNb
    by_cases hl : j + 1 < R
    · rw [encOutB_mid hl hc hr, hmid j hl _ (by omega)]
      unfold midState stateBytes
      rw [show (4 * icol Nb c r + r) / 4 = icol Nb c r by omega, show (4 * icol Nb c r + r) % 4 = r by omega]
      unfold shiftRows Spec.subBytes
      rw [(icol_shift hN hc hr).1]
    · obtain rfl : j = R - 1 := by omega
      rw [encOutB_last hR hc hr hK, hO _ (by omega), xor_eq_iff]
      unfold stateBytes
      rw [show (4 * icol Nb c r + r) / 4 = icol Nb c r by omega, show (4 * icol Nb c r + r) % 4 = r by omega]
      unfold cipher Spec.addRoundKey shiftRows Spec.subBytes
      rw [(icol_shift hN hc hr).1]

end enc

/-! ### Key schedule -/

/-- The byte of the previous word entering the S-box for byte `c` of the `t`-th word with S-boxes. -/
def ksRot (Nwd t c : Nat) : Nat := if Nwd = 8 → t % 2 = 0 then (c + 1) % 4 else c

theorem ksRot_lt {Nwd t c : Nat} (hc : c < 4) : ksRot Nwd t c < 4 := by
  unfold ksRot
  split
  · exact Nat.mod_lt _ (by decide)
  · exact hc

theorem ksInput_word {Nwd : Nat} (hN : Nwd = 4 ∨ Nwd = 6 ∨ Nwd = 8) (t : Nat) (prev : Nat → Byte) :
    ksSboxInput Nwd (Nwd + ksStep Nwd * t) prev = some fun c => prev (ksRot Nwd t c) := by
  unfold ksSboxInput ksRot ksStep
  by_cases h8 : Nwd = 8
  · subst h8
    by_cases ht : t % 2 = 0
    · rw [if_pos (by simp; omega)]
      simp [ht]
    · rw [if_neg (by simp; omega), if_pos (by simp; omega)]
      simp [ht]
  · rw [if_pos (by rcases hN with rfl | rfl | rfl <;> simp <;> omega)]
    simp [h8]

theorem ksInput_none {Nwd k : Nat} (hN : Nwd = 4 ∨ Nwd = 6 ∨ Nwd = 8) (hk : Nwd ≤ k)
    (hne : (k - Nwd) % ksStep Nwd ≠ 0) (prev : Nat → Byte) : ksSboxInput Nwd k prev = none := by
  unfold ksSboxInput
  rcases hN with rfl | rfl | rfl
  · rw [show ksStep 4 = 4 from rfl] at hne
    rw [if_neg (by omega), if_neg (by omega)]
  · rw [show ksStep 6 = 6 from rfl] at hne
    rw [if_neg (by omega), if_neg (by omega)]
  · rw [show ksStep 8 = 4 from rfl] at hne
    rw [if_neg (by omega), if_neg (by omega)]

theorem keyWord_word {Nwd : Nat} (hN : Nwd = 4 ∨ Nwd = 6 ∨ Nwd = 8) (key : Nat → Byte) (t : Nat) {c : Nat}
    (_hc : c < 4) : keyWord Nwd key (Nwd + ksStep Nwd * t) c = keyWord Nwd key (ksStep Nwd * t) c ^^^
      (sbox (keyWord Nwd key (Nwd + ksStep Nwd * t - 1) (ksRot Nwd t c)) ^^^ ksRc Nwd t c) := by
  rw [keyWord.eq_1 Nwd key (Nwd + ksStep Nwd * t), dif_neg (by omega), ksInput_word hN]
  dsimp only
  rw [show Nwd + ksStep Nwd * t - Nwd = ksStep Nwd * t by omega]
  congr 2
  unfold ksRc
  rcases hN with rfl | rfl | rfl
  · rw [show ksStep 4 = 4 from rfl]
    by_cases hc0 : c = 0
    · rw [if_pos (⟨by omega, hc0⟩ : (4 + 4 * t) % 4 = 0 ∧ c = 0), if_pos ⟨hc0, fun h => absurd h (by decide)⟩,
        if_neg (by decide)]
      congr 1; omega
    · rw [if_neg (by simp [hc0]), if_neg (by simp [hc0])]
  · rw [show ksStep 6 = 6 from rfl]
    by_cases hc0 : c = 0
    · rw [if_pos (⟨by omega, hc0⟩ : (6 + 6 * t) % 6 = 0 ∧ c = 0), if_pos ⟨hc0, fun h => absurd h (by decide)⟩,
        if_neg (by decide)]
      congr 1; omega
    · rw [if_neg (by simp [hc0]), if_neg (by simp [hc0])]
  · rw [show ksStep 8 = 4 from rfl]
    by_cases hc0 : c = 0
    · by_cases ht : t % 2 = 0
      · rw [if_pos (⟨by omega, hc0⟩ : (8 + 4 * t) % 8 = 0 ∧ c = 0), if_pos ⟨hc0, fun _ => ht⟩, if_pos rfl]
        congr 1; omega
      · rw [if_neg (by omega), if_neg (by simp [ht])]
    · rw [if_neg (by simp [hc0]), if_neg (by simp [hc0])]

theorem keyWord_none {Nwd k : Nat} (hN : Nwd = 4 ∨ Nwd = 6 ∨ Nwd = 8) (hk : Nwd ≤ k)
    (hne : (k - Nwd) % ksStep Nwd ≠ 0) (key : Nat → Byte) (c : Nat) :
    keyWord Nwd key k c = keyWord Nwd key (k - Nwd) c ^^^ keyWord Nwd key (k - 1) c := by
  rw [keyWord.eq_1 Nwd key k, dif_neg (by omega), ksInput_none hN hk hne]

/-- Words with S-boxes: number below the total. -/
theorem AesWF.word_count {P : Params} (h : AesWF P) {k : Nat} (hk : P.Nwd ≤ k) (hlt : k < 4 * (P.R + 1))
    (h0 : (k - P.Nwd) % ksStep P.Nwd = 0) :
    (k - P.Nwd) / ksStep P.Nwd < P.Ske / 4 ∧ k = P.Nwd + ksStep P.Nwd * ((k - P.Nwd) / ksStep P.Nwd) := by
  have hN := h.nwd
  have hR := h.R
  have hS := h.ske
  have hd := Nat.div_add_mod (k - P.Nwd) (ksStep P.Nwd)
  refine ⟨?_, by omega⟩
  clear hd
  unfold swords at hS
  unfold ksStep at *
  rcases hN with e | e | e <;> rw [e] at hS hR h0 ⊢ <;> rw [hR] at hS hlt <;> simp at * <;> omega

theorem ksSB_eq {P : Params} (h : AesWF P) {w : Nat → Byte} {p : Nat} :
    ksSB P.Nwd w p = liftKey (· ^^^ ·) 4 P.Nwd w (P.Nwd + ksStep P.Nwd * (p / 4) - 1)
      (ksRot P.Nwd (p / 4) (p % 4)) := by
  have hN := h.nwd
  have hlt : ksRot P.Nwd (p / 4) (p % 4) < 4 := ksRot_lt (Nat.mod_lt _ (by decide))
  have e : ksSel P.Nwd p = 4 * (P.Nwd + ksStep P.Nwd * (p / 4) - 1) + ksRot P.Nwd (p / 4) (p % 4) := by
    unfold ksSel ksRot
    rw [show P.Nwd - 1 + ksStep P.Nwd * (p / 4) = P.Nwd + ksStep P.Nwd * (p / 4) - 1 by omega]
  unfold ksSB keyCell
  rw [e, Nat.mul_add_div (by decide), Nat.div_eq_of_lt hlt, Nat.mul_add_mod, Nat.mod_eq_of_lt hlt]
  rfl

theorem ks_lift {P : Params} (h : AesWF P) {w : Nat → Byte}
    (hw : ∀ t, t < P.Ske / 4 → (∀ k, k < P.Nwd + ksStep P.Nwd * t → ∀ c, c < 4 →
        liftKey (· ^^^ ·) 4 P.Nwd w k c = keyWord P.Nwd w k c) →
      ∀ c, c < 4 → w (4 * P.Nwd + 4 * t + c) = keyWord P.Nwd w (P.Nwd + ksStep P.Nwd * t) c) :
    ∀ k, k < 4 * (P.R + 1) → ∀ c, c < 4 → liftKey (· ^^^ ·) 4 P.Nwd w k c = keyWord P.Nwd w k c := by
  have hN := h.nwd
  intro k
  induction k using Nat.strong_induction_on with
  | _ k ih =>
    intro hk c hc
    rw [liftKey.eq_1 _ _ _ w k]
    by_cases hlt : k < P.Nwd
    · rw [dif_pos (.inl hlt), keyWord_lt hlt]
    · rw [dif_neg (by omega)]
      by_cases h0 : (k - P.Nwd) % ksStep P.Nwd = 0
      · rw [if_pos h0]
        obtain ⟨h1, h2⟩ := h.word_count (by omega) hk h0
        have := hw _ h1 (fun k' hk' => ih k' (by omega) (by omega)) c hc
        rw [← h2] at this
        rw [← this]
        congr 1
        omega
      · rw [if_neg h0, ih _ (by omega) (by omega) c hc, ih _ (by omega) (by omega) c hc,
          keyWord_none hN (by omega) h0]

/-- All key-schedule constraints hold exactly if the committed words are those of the key schedule of
the key at the start of the witness, and no S-box input is zero. -/
theorem ks_iff {P : Params} (h : AesWF P) {w : Nat → Byte} :
    (∀ p, p < P.Ske → ksSB P.Nwd w p ≠ 0 ∧ ksOutB P.Nwd w p = sbox (ksSB P.Nwd w p)) ↔
    (∀ t, t < P.Ske / 4 → ∀ c, c < 4 →
      w (4 * P.Nwd + 4 * t + c) = keyWord P.Nwd w (P.Nwd + ksStep P.Nwd * t) c) ∧
    ksNonzero P.Nwd (4 * (P.R + 1)) w := by
  have hN := h.nwd
  have hske := h.ske_lt
  have hidx : ∀ t c, c < 4 → (4 * t + c) / 4 = t ∧ (4 * t + c) % 4 = c := fun t c hc => by omega
  have hout : ∀ t c, t < P.Ske / 4 → c < 4 → (∀ k, k < P.Nwd + ksStep P.Nwd * t → ∀ c, c < 4 →
        liftKey (· ^^^ ·) 4 P.Nwd w k c = keyWord P.Nwd w k c) →
      (ksOutB P.Nwd w (4 * t + c) = sbox (ksSB P.Nwd w (4 * t + c)) ↔
        w (4 * P.Nwd + 4 * t + c) = keyWord P.Nwd w (P.Nwd + ksStep P.Nwd * t) c) := by
    intro t c ht hc hlift
    obtain ⟨e1, e2⟩ := hidx t c hc
    rw [ksSB_eq h, keyWord_word hN _ _ hc, e1, e2, hlift _ (by omega) _ (ksRot_lt hc)]
    unfold ksOutB
    rw [e1, e2, hlift _ (by omega) c hc, ← Nat.add_assoc, xor_eq_iff, xor_eq_iff, BitVec.xor_comm (keyWord _ _ _ _)]
  constructor
  · intro hp
    have hw : ∀ t, t < P.Ske / 4 → (∀ k, k < P.Nwd + ksStep P.Nwd * t → ∀ c, c < 4 →
        liftKey (· ^^^ ·) 4 P.Nwd w k c = keyWord P.Nwd w k c) →
      ∀ c, c < 4 → w (4 * P.Nwd + 4 * t + c) = keyWord P.Nwd w (P.Nwd + ksStep P.Nwd * t) c := by
      intro t ht hlift c hc
      exact (hout t c ht hc hlift).1 (hp (4 * t + c) (by omega)).2
    have hl := ks_lift h hw
    refine ⟨fun t ht c hc => hw t ht (fun k hk => hl k (by have := h.word_lt ht; omega)) c hc, ?_⟩
    intro k hk hlt t ht r hr
    by_cases h0 : (k - P.Nwd) % ksStep P.Nwd = 0
    · obtain ⟨h1, h2⟩ := h.word_count hk hlt h0
      generalize (k - P.Nwd) / ksStep P.Nwd = m at h1 h2
      subst h2
      rw [ksInput_word hN] at ht
      obtain rfl := Option.some.inj ht
      have := (hp (4 * m + r) (by omega)).1
      rw [ksSB_eq h, (hidx m r hr).1, (hidx m r hr).2, hl _ (by omega) _ (ksRot_lt hr)] at this
      exact this
    · rw [ksInput_none hN hk h0] at ht
      exact absurd ht (by simp)
  · rintro ⟨hw, hnz⟩ p hp
    have hl := ks_lift h fun t ht _ => hw t ht
    have ht : p / 4 < P.Ske / 4 := by omega
    have hlt := h.word_lt ht
    have hc : p % 4 < 4 := Nat.mod_lt _ (by decide)
    have e : 4 * (p / 4) + p % 4 = p := Nat.div_add_mod p 4
    constructor
    · rw [ksSB_eq h, hl _ (by omega) _ (ksRot_lt hc)]
      exact hnz (P.Nwd + ksStep P.Nwd * (p / 4)) (by omega) hlt _ (ksInput_word hN _ _) _ hc
    · have := (hout _ _ ht hc fun k hk => hl k (by omega)).2 (hw _ ht _ hc)
      rwa [e] at this

/-! ### The whole system -/

/-- `w` satisfies all constraints for the public key `(I, O)`. -/
def Satisfies (n : Nat) (P : Params) (I O w : Nat → Byte) : Prop :=
  ∀ p, p < conCount P → conIn P I 1 (bitsL n w) p * conOut P I O 1 (bitsL n w) p = 1

theorem conIn_aes_ks {P : Params} (h : AesWF P) (hl : BF.LamSize n) (I O w : Nat → Byte) {p : Nat} (hp : p < P.Ske) :
    conIn P I 1 (bitsL n w) p * conOut P I O 1 (bitsL n w) p = 1 ↔
      ksSB P.Nwd w p ≠ 0 ∧ ksOutB P.Nwd w p = sbox (ksSB P.Nwd w p) := by
  rw [conIn_ks h _ _ _ hp, conOut_ks h _ _ _ _ hp, ksS_bits, ksSd_bits, sbox_con_iff hl]

theorem con_aes_enc {P : Params} (h : AesWF P) (hl : BF.LamSize n) (I O w : Nat → Byte) (b : Nat) {p : Nat}
    (hp : p < P.Senc) :
    conIn P I 1 (bitsL n w) (P.Ske + (P.Senc * b + p)) * conOut P I O 1 (bitsL n w) (P.Ske + (P.Senc * b + p)) = 1 ↔
      encSB 4 (fun c => I (16 * b + c)) (keyCell (· ^^^ ·) 4 P.Nwd w)
        (fun c => w (P.Lke / 8 + P.Lenc / 8 * b + c)) p ≠ 0 ∧
      encOutB 4 P.R (fun c => w (P.Lke / 8 + P.Lenc / 8 * b + c)) (fun c => O (16 * b + c))
        (keyCell (· ^^^ ·) 4 P.Nwd w) p =
      sbox (encSB 4 (fun c => I (16 * b + c)) (keyCell (· ^^^ ·) 4 P.Nwd w)
        (fun c => w (P.Lke / 8 + P.Lenc / 8 * b + c)) p) := by
  have h1 := h.Lke
  have h2 := h.lam
  have h3 := h.Lenc
  have e : P.Lke + P.Lenc * b = 8 * (P.Lke / 8 + P.Lenc / 8 * b) := by
    rw [Nat.mul_add, ← Nat.mul_assoc, Nat.mul_div_cancel' (by omega), Nat.mul_div_cancel' (by omega)]
  rw [conIn_enc h _ _ _ _ hp, conOut_enc h _ _ _ _ _ hp, ← sbox_con_iff hl, ← encS_emb hl]
  rw [encSd_bits (n := n) 4 P.R (X := fun c => w (P.Lke / 8 + P.Lenc / 8 * b + c)) (O := fun c => O (16 * b + c))
    (K := keyCell (· ^^^ ·) 4 P.Nwd w)]
  · have e1 : (byteL (keyCell (· + ·) 32 P.Nwd (bitsL n w)))
        = fun c => BF.emb n (keyCell (· ^^^ ·) 4 P.Nwd w c) := by
      funext c
      exact bc_bits fun i hi => keyCell_bits w c hi
    have e2 : (byteL fun i => bitsL n w (P.Lke + P.Lenc * b + i))
        = fun c => BF.emb n (w (P.Lke / 8 + P.Lenc / 8 * b + c)) := by
      funext c
      exact block_bytes h w c
    rw [e1, e2]
    simp only [one_mul]
  · intro c i hi
    rw [e, ← Nat.add_assoc, ← Nat.mul_add]
    unfold bitsL
    rw [bitOf_byte hi]
  · intro c i hi
    rw [one_mul, bitOf_byte hi]
  · intro c i hi
    exact keyCell_bits w c hi

theorem satisfies_aes {P : Params} (h : AesWF P) (hl : BF.LamSize n) (I O w : Nat → Byte) :
    Satisfies n P I O w ↔
      (∀ t, t < P.l / 8 → w t = witAes P.Nwd P.Ske P.R w I t) ∧
      (∀ b, b < P.beta → ∀ i, i < 16 →
        O (16 * b + i) = encrypt P.Nwd 4 P.R w (fun j => I (16 * b + j)) i) ∧
      ksNonzero P.Nwd (4 * (P.R + 1)) w ∧
      ∀ b, b < P.beta → encNonzero P.Nwd 4 P.R w (fun j => I (16 * b + j)) := by
  have hN := h.nwd
  have hR := h.R
  have hlam := h.lam
  have hLke := h.Lke
  have hLenc := h.Lenc
  have hSenc := h.Senc
  have hl' := h.l
  have hske := h.ske_lt
  have hsplit : Satisfies n P I O w ↔
      (∀ p, p < P.Ske → ksSB P.Nwd w p ≠ 0 ∧ ksOutB P.Nwd w p = sbox (ksSB P.Nwd w p)) ∧
      ∀ b, b < P.beta → ∀ p, p < 4 * 4 * P.R →
        encSB 4 (fun c => I (16 * b + c)) (keyCell (· ^^^ ·) 4 P.Nwd w)
          (fun c => w (P.Lke / 8 + P.Lenc / 8 * b + c)) p ≠ 0 ∧
        encOutB 4 P.R (fun c => w (P.Lke / 8 + P.Lenc / 8 * b + c)) (fun c => O (16 * b + c))
          (keyCell (· ^^^ ·) 4 P.Nwd w) p =
        sbox (encSB 4 (fun c => I (16 * b + c)) (keyCell (· ^^^ ·) 4 P.Nwd w)
          (fun c => w (P.Lke / 8 + P.Lenc / 8 * b + c)) p) := by
    unfold Satisfies conCount
    constructor
    · intro hs
      refine ⟨fun p hp => (conIn_aes_ks h hl I O w hp).1 (hs p (by omega)), fun b hb p hp => ?_⟩
      refine (con_aes_enc h hl I O w b (by omega)).1 (hs _ ?_)
      have : P.Senc * b + P.Senc ≤ P.Senc * P.beta := by rw [← Nat.mul_succ]; exact Nat.mul_le_mul_left _ hb
      rw [Nat.mul_comm P.beta]
      omega
    · rintro ⟨h1, h2⟩ p hp
      by_cases hk : p < P.Ske
      · exact (conIn_aes_ks h hl I O w hk).2 (h1 p hk)
      · have hpos : 0 < P.Senc := by omega
        have e : p = P.Ske + (P.Senc * ((p - P.Ske) / P.Senc) + (p - P.Ske) % P.Senc) := by
          have := Nat.div_add_mod (p - P.Ske) P.Senc
          omega
        have hb : (p - P.Ske) / P.Senc < P.beta := Nat.div_lt_of_lt_mul (by rw [Nat.mul_comm]; omega)
        have hm : (p - P.Ske) % P.Senc < P.Senc := Nat.mod_lt _ hpos
        rw [e]
        exact (con_aes_enc h hl I O w _ hm).2 (h2 _ hb _ (by omega))
  have hKof : (∀ t, t < P.Ske / 4 → ∀ c, c < 4 →
      w (4 * P.Nwd + 4 * t + c) = keyWord P.Nwd w (P.Nwd + ksStep P.Nwd * t) c) →
      ∀ b, b < 4 * 4 * (P.R + 1) → keyCell (· ^^^ ·) 4 P.Nwd w b = keyWord P.Nwd w (b / 4) (b % 4) := by
    intro hw b hb
    exact ks_lift h (fun t ht _ => hw t ht) _ (by omega) _ (Nat.mod_lt _ (by decide))
  have hwit : (∀ t, t < P.l / 8 → w t = witAes P.Nwd P.Ske P.R w I t) ↔
      (∀ t, t < P.Ske / 4 → ∀ c, c < 4 →
        w (4 * P.Nwd + 4 * t + c) = keyWord P.Nwd w (P.Nwd + ksStep P.Nwd * t) c) ∧
      ∀ b, b < P.beta → ∀ j, j + 1 < P.R → ∀ i, i < 16 →
        w (P.Lke / 8 + P.Lenc / 8 * b + (16 * j + i)) =
          midState 4 (keyWord P.Nwd w) (fun c => I (16 * b + c)) j i := by
    have eL : P.Lenc / 8 = 16 * (P.R - 1) := by omega
    have eK : P.Lke / 8 = 4 * P.Nwd + P.Ske := by omega
    have hblk : P.l / 8 = 4 * P.Nwd + P.Ske + 16 * (P.R - 1) * P.beta := by
      have : P.beta * P.Lenc = 8 * (16 * (P.R - 1) * P.beta) := by rw [hLenc, Nat.mul_comm]; ring
      omega
    have hval : ∀ b j i, 16 * j + i < 16 * (P.R - 1) → i < 16 →
        witAes P.Nwd P.Ske P.R w I (4 * P.Nwd + P.Ske + (16 * (P.R - 1) * b + (16 * j + i))) =
          midState 4 (keyWord P.Nwd w) (fun c => I (16 * b + c)) j i := by
      intro b j i hji hi
      unfold witAes
      rw [if_neg (by omega), if_neg (by omega)]
      dsimp only
      rw [show 4 * P.Nwd + P.Ske + (16 * (P.R - 1) * b + (16 * j + i)) - (4 * P.Nwd + P.Ske)
          = 16 * (P.R - 1) * b + (16 * j + i) by omega, Nat.mul_add_div (by omega), Nat.mul_add_mod,
        Nat.div_eq_of_lt hji, Nat.mod_eq_of_lt hji, Nat.add_zero, show (16 * j + i) / 16 = j by omega,
        Nat.mul_assoc, Nat.mul_add_mod, show (16 * j + i) % 16 = i by omega]
    rw [eL, eK, hblk]
    constructor
    · intro hw
      refine ⟨fun t ht c hc => ?_, fun b hb j hj i hi => ?_⟩
      · rw [hw _ (by omega)]
        unfold witAes
        rw [if_neg (by omega), if_pos (by omega), show 4 * P.Nwd + 4 * t + c - 4 * P.Nwd = 4 * t + c by omega,
          show (4 * t + c) / 4 = t by omega, show (4 * t + c) % 4 = c by omega]
      · have hle : 16 * (P.R - 1) * b + 16 * (P.R - 1) ≤ 16 * (P.R - 1) * P.beta := by
          rw [← Nat.mul_succ]; exact Nat.mul_le_mul_left _ hb
        rw [Nat.add_assoc, hw _ (by omega), hval b j i (by omega) hi]
    · rintro ⟨h1, h2⟩ t ht
      by_cases ht1 : t < 4 * P.Nwd
      · unfold witAes
        rw [if_pos ht1]
      · by_cases ht2 : t < 4 * P.Nwd + P.Ske
        · have := h1 ((t - 4 * P.Nwd) / 4) (by omega) ((t - 4 * P.Nwd) % 4) (by omega)
          unfold witAes
          rw [if_neg ht1, if_pos ht2, ← this]
          congr 1; omega
        · have hpos : 0 < 16 * (P.R - 1) := by omega
          have hq : t - (4 * P.Nwd + P.Ske) < 16 * (P.R - 1) * P.beta := by omega
          have hb := Nat.div_lt_of_lt_mul hq
          have hm := Nat.mod_lt (t - (4 * P.Nwd + P.Ske)) hpos
          have hd := Nat.div_add_mod (t - (4 * P.Nwd + P.Ske)) (16 * (P.R - 1))
          have e : t = 4 * P.Nwd + P.Ske + (16 * (P.R - 1) * ((t - (4 * P.Nwd + P.Ske)) / (16 * (P.R - 1))) +
              (16 * ((t - (4 * P.Nwd + P.Ske)) % (16 * (P.R - 1)) / 16)
                + (t - (4 * P.Nwd + P.Ske)) % (16 * (P.R - 1)) % 16)) := by omega
          generalize (t - (4 * P.Nwd + P.Ske)) % (16 * (P.R - 1)) = m at *
          generalize (t - (4 * P.Nwd + P.Ske)) / (16 * (P.R - 1)) = b at *
          rw [e, hval _ _ _ (by omega) (by omega), ← Nat.add_assoc]
          rw [← h2 b hb (m / 16) (by omega) (m % 16) (by omega)]
  rw [hsplit, ks_iff h, hwit]
  constructor
  · rintro ⟨⟨h1, h2⟩, h3⟩
    have hK := hKof h1
    have h4 := fun b hb => (enc_iff (.inl rfl) (by omega) hK).1 (h3 b hb)
    exact ⟨⟨h1, fun b hb => (h4 b hb).1⟩, fun b hb => (h4 b hb).2.1, h2, fun b hb => (h4 b hb).2.2⟩
  · rintro ⟨⟨h1, h2⟩, h3, h4, h5⟩
    have hK := hKof h1
    exact ⟨⟨h1, h4⟩, fun b hb => (enc_iff (.inl rfl) (by omega) hK).2 ⟨h2 b hb, h3 b hb, h5 b hb⟩⟩

theorem satisfies_em {P : Params} (h : EmWF P) (hl : BF.LamSize n) (I O w : Nat → Byte) :
    Satisfies n P I O w ↔
      (∀ t, t < P.l / 8 → w t = witEm P.Nwd w I t) ∧
      (∀ i, i < 4 * P.Nwd → O i = encrypt P.Nwd P.Nwd P.R I w i ^^^ w i) ∧
      encNonzero P.Nwd P.Nwd P.R I w := by
  have hN := h.nwd
  have hR := h.R
  have hlam := h.lam
  have hLenc := h.Lenc
  have hSenc := h.Senc
  have hl' := h.l
  obtain ⟨m1, m2, m3, m4⟩ := h.mul
  have hone : ∀ p, (conIn P I 1 (bitsL n w) p * conOut P I O 1 (bitsL n w) p = 1 ↔
      encSB P.Nwd w (emKey P.Nwd I) (fun b => w (4 * P.Nwd + b)) p ≠ 0 ∧
      encOutB P.Nwd P.R (fun b => w (4 * P.Nwd + b)) (fun b => O b ^^^ w b) (emKey P.Nwd I) p =
      sbox (encSB P.Nwd w (emKey P.Nwd I) (fun b => w (4 * P.Nwd + b)) p)) := by
    intro p
    unfold conIn conOut
    rw [if_pos h.Lke, if_pos h.Lke, ← sbox_con_iff hl, ← encS_emb hl]
    rw [encSd_bits (n := n) P.Nwd P.R (X := fun c => w (4 * P.Nwd + c)) (O := fun c => O c ^^^ w c)
      (K := emKey P.Nwd I)]
    · have e1 : byteL (fun i => (1 : BF n) * BF.bitF n (bitOf (emKey P.Nwd I) i))
          = fun c => BF.emb n (emKey P.Nwd I c) := by
        funext c
        exact bc_bits fun i hi => by beta_reduce; rw [one_mul, bitOf_byte hi]
      have e2 : byteL (bitsL n w) = fun c => BF.emb n (w c) := by
        funext c
        exact byteL_bits w c
      rw [e1, e2]
    · intro c i hi
      unfold bitsL
      rw [show 32 * P.Nwd + (8 * c + i) = 8 * (4 * P.Nwd + c) + i by omega, bitOf_byte hi]
    · intro c i hi
      unfold bitsL
      rw [one_mul, bitOf_byte hi, bitOf_byte hi, bitF_xor_byte]
    · intro c i hi
      rw [one_mul, bitOf_byte hi]
  have hsat : Satisfies n P I O w ↔ ∀ p, p < 4 * P.Nwd * P.R →
      encSB P.Nwd w (emKey P.Nwd I) (fun b => w (4 * P.Nwd + b)) p ≠ 0 ∧
      encOutB P.Nwd P.R (fun b => w (4 * P.Nwd + b)) (fun b => O b ^^^ w b) (emKey P.Nwd I) p =
      sbox (encSB P.Nwd w (emKey P.Nwd I) (fun b => w (4 * P.Nwd + b)) p) := by
    unfold Satisfies conCount
    rw [h.ske, h.beta, hSenc, Nat.zero_add, Nat.one_mul]
    exact forall_congr' fun p => imp_congr_right fun _ => hone p
  rw [hsat, enc_iff (W := keyWord P.Nwd I) (K := emKey P.Nwd I) hN (by omega) (fun b _ => rfl)]
  refine and_congr ?_ (and_congr (forall_congr' fun i => imp_congr_right fun _ => ?_) Iff.rfl)
  · have hblk : P.l / 8 = 4 * P.Nwd + 4 * P.Nwd * (P.R - 1) := by omega
    have hval : ∀ j i, i < 4 * P.Nwd →
        witEm P.Nwd w I (4 * P.Nwd + (4 * P.Nwd * j + i)) = midState P.Nwd (keyWord P.Nwd I) w j i := by
      intro j i hi
      unfold witEm
      rw [if_neg (by omega), show 4 * P.Nwd + (4 * P.Nwd * j + i) - 4 * P.Nwd = 4 * P.Nwd * j + i by omega,
        Nat.mul_add_div (by omega), Nat.mul_add_mod, Nat.div_eq_of_lt hi, Nat.mod_eq_of_lt hi, Nat.add_zero]
    rw [hblk]
    constructor
    · intro h1 t ht
      by_cases ht1 : t < 4 * P.Nwd
      · unfold witEm; rw [if_pos ht1]
      · have hpos : 0 < 4 * P.Nwd := by omega
        have hq : t - 4 * P.Nwd < 4 * P.Nwd * (P.R - 1) := by omega
        have hb := Nat.div_lt_of_lt_mul hq
        have hm := Nat.mod_lt (t - 4 * P.Nwd) hpos
        have hd := Nat.div_add_mod (t - 4 * P.Nwd) (4 * P.Nwd)
        have e : t = 4 * P.Nwd + (4 * P.Nwd * ((t - 4 * P.Nwd) / (4 * P.Nwd)) + (t - 4 * P.Nwd) % (4 * P.Nwd)) := by
          omega
        generalize (t - 4 * P.Nwd) % (4 * P.Nwd) = m at *
        generalize (t - 4 * P.Nwd) / (4 * P.Nwd) = j at *
        rw [e, hval j m hm]
        exact h1 j (by omega) m hm
    · intro h1 j hj i hi
      have hle : 4 * P.Nwd * j + 4 * P.Nwd ≤ 4 * P.Nwd * (P.R - 1) := em_le (by omega)
      rw [h1 _ (by omega), hval j i hi]
  · rw [xor_eq_iff]
    rfl

/-- The constraint system of every parameter set. -/
theorem satisfies_iff (i : ParamId) (hn : fieldBits (params i).lambda = n) (I O w : Nat → Byte) :
    Satisfies n (params i) I O w ↔
      (∀ t, t < (params i).l / 8 → w t = witness (params i) w I t) ∧ Spec.owfGood i w I ∧
      ∀ t, t < Spec.owfOutLen i → O t = Spec.owf i w I t := by
  have hl : BF.LamSize n := by rw [← hn]; exact lamSize_fieldBits _
  unfold witness
  by_cases hk : (params i).Lke = 0
  · have h := params_em i hk
    have he : Spec.isEm i = true := by revert hk; cases i <;> decide
    have hlam : Spec.lam i / 32 = (params i).Nwd := by revert hk; cases i <;> decide
    have hR : (params i).R = (params i).Nwd + 6 := h.R
    have hout : Spec.owfOutLen i = 4 * (params i).Nwd := by revert hk; cases i <;> decide
    rw [satisfies_em h hl, if_pos hk, hout]
    unfold Spec.owfGood Spec.owf
    simp only [he, if_true, hlam, ← hR]
    exact and_congr Iff.rfl And.comm
  · have h := params_aes i hk
    have he : Spec.isEm i = false := by revert hk; cases i <;> decide
    have hlam : Spec.lam i / 32 = (params i).Nwd := by revert hk; cases i <;> decide
    have hR : (params i).R = (params i).Nwd + 6 := h.R
    have hin : Spec.owfInLen i = 16 * (params i).beta := by revert hk; cases i <;> decide
    rw [satisfies_aes h hl, if_neg hk]
    unfold Spec.owfGood Spec.owf Spec.owfOutLen
    simp only [he, hlam, ← hR, hin]
    rw [show 4 * ((params i).Nwd + 7) = 4 * ((params i).R + 1) by omega]
    refine and_congr Iff.rfl ?_
    constructor
    · rintro ⟨h1, h2, h3⟩
      refine ⟨⟨h2, fun b hb => h3 b (by omega)⟩, fun t ht => ?_⟩
      have := h1 (t / 16) (by omega) (t % 16) (Nat.mod_lt _ (by decide))
      rwa [Nat.div_add_mod] at this
    · rintro ⟨⟨h1, h2⟩, h3⟩
      refine ⟨fun b hb j hj => ?_, h1, fun b hb => h2 b (by omega)⟩
      have := h3 (16 * b + j) (by omega)
      rwa [if_neg (by decide), show (16 * b + j) / 16 = b by omega, show (16 * b + j) % 16 = j by omega] at this

end Faest
