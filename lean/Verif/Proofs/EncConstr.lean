/-
The encryption constraints: the values absorbed by the hash contexts.
-/
import Verif.Proofs.KsConstr

namespace Faest
open Spec (keyCell invAffL conA0 conA1 conB mixL encS icol srcIdx encOut encSd encOutB byteL shiftOffset)

variable {n : Nat}

/-! ### Loops -/

/-- Loop over rounds, columns and rows writing one cell each. -/
theorem ok_grid3 {α : Type} {R Nb W : Nat} {y0 : Mem α} {body : Nat → Nat → Nat → Mem α → Option (Mem α)}
    {F : Nat → α} (hW : W = 4 * Nb) (hlen : y0.length = W * R)
    (hbody : ∀ j, j < R → ∀ c, c < Nb → ∀ r, r < 4 → ∀ y : Mem α,
      body j c r y = wr y (W * j + 4 * c + r) (F (W * j + 4 * c + r))) :
    Ok (forN R y0 (fun j y => forN Nb y (fun c y => forN 4 y (body j c)))) (fun y => Has y 0 (W * R) F) := by
  refine (Ok.forN (fun j y => y.length = W * R ∧ ∀ p, p < W * j → rd y p = some (F p)) ?_ ?_).mono ?_
  · exact ⟨hlen, fun p hp => absurd hp (by omega)⟩
  · rintro j hj y ⟨hl, hy⟩
    have hjR : W * j + W ≤ W * R := by rw [← Nat.mul_succ]; exact Nat.mul_le_mul_left _ hj
    refine (Ok.forN (fun c y => y.length = W * R ∧ ∀ p, p < W * j + 4 * c → rd y p = some (F p))
      ⟨hl, hy⟩ ?_).mono ?_
    · rintro c hc y ⟨hl, hy⟩
      refine (Ok.forN (fun r y => y.length = W * R ∧ ∀ p, p < W * j + 4 * c + r → rd y p = some (F p))
        ⟨hl, hy⟩ ?_).mono ?_
      · rintro r hr y ⟨hl, hy⟩
        rw [hbody j hj c hc r hr y]
        refine Ok.wr (by omega) fun y' hl' hr' => ⟨by omega, fun p hp => ?_⟩
        rw [hr']
        by_cases h : p = W * j + 4 * c + r
        · rw [if_pos h, h]
        · rw [if_neg h]; exact hy p (by omega)
      · rintro y ⟨hl, hy⟩
        exact ⟨hl, fun p hp => hy p (by omega)⟩
    · rintro y ⟨hl, hy⟩
      exact ⟨hl, fun p hp => hy p (by rw [Nat.mul_succ] at hp; omega)⟩
  · rintro y ⟨_, hy⟩ p hp
    rw [Nat.zero_add]
    exact hy p hp

/-- First loop of the forward functions. -/
theorem ok_first {α : Type} {m : Nat} {y0 : Mem α} {body : Nat → Mem α → Option (Mem α)} {F : Nat → α}
    (hlen : m ≤ y0.length) (hbody : ∀ i, i < m → ∀ y, body i y = wr y i (F i)) :
    Ok (forN m y0 body) (fun y => y.length = y0.length ∧ Has y 0 m F) := by
  refine (ok_row (off := 0) (v := F) (by omega) fun i hi y _ _ => ?_).mono ?_
  · rw [Nat.zero_add]; exact hbody i hi y
  · rintro y ⟨hl, hy⟩
    refine ⟨hl, fun p hp => ?_⟩
    rw [Nat.zero_add, hy, if_pos (by omega), Nat.sub_zero]

/-- Second loop of the forward functions: rounds and columns, four cells at a time. -/
theorem ok_grid2 {α : Type} {R Nb W : Nat} {y0 : Mem α} {body : Nat → Nat → Mem α → Option (Mem α)}
    {F : Nat → α} (hW : W = 4 * Nb) (hR : 1 ≤ R) (hlen : y0.length = W * R) (hy0 : Has y0 0 W F)
    (hbody : ∀ j, 1 ≤ j → j < R → ∀ c, c < Nb → ∀ y : Mem α,
      body j c y = wrN y (W * j + 4 * c) (tabP 4 (fun r => F (W * j + 4 * c + r)))) :
    Ok (forR 1 R y0 (fun j y => forN Nb y (body j))) (fun y => Has y 0 (W * R) F) := by
  refine (Ok.forR (fun j y => y.length = W * R ∧ ∀ p, p < W * j → rd y p = some (F p)) hR ?_ ?_).mono ?_
  · exact ⟨hlen, fun p hp => hy0.rd0 (by omega)⟩
  · rintro j hj1 hj y ⟨hl, hy⟩
    have hjR : W * j + W ≤ W * R := by rw [← Nat.mul_succ]; exact Nat.mul_le_mul_left _ hj
    refine (Ok.forN (fun c y => y.length = W * R ∧ ∀ p, p < W * j + 4 * c → rd y p = some (F p))
      ⟨hl, hy⟩ ?_).mono ?_
    · rintro c hc y ⟨hl, hy⟩
      rw [hbody j hj1 hj c hc y]
      refine Ok.wrN (by rw [tabP_length]; omega) fun y' hl' hr' => ⟨by omega, fun p hp => ?_⟩
      rw [hr', tabP_length]
      by_cases h : W * j + 4 * c ≤ p ∧ p < W * j + 4 * c + 4
      · rw [if_pos h, tabP_getElem?, if_pos (by omega), Nat.add_sub_cancel' h.1]
      · rw [if_neg h]; exact hy p (by omega)
    · rintro y ⟨hl, hy⟩
      exact ⟨hl, fun p hp => hy p (by rw [Nat.mul_succ] at hp; omega)⟩
  · rintro y ⟨_, hy⟩ p hp
    rw [Nat.zero_add]
    exact hy p hp

theorem mixRead_aes {two three : BF n} {fx fk : Nat → Option (BF n)} {X K : Nat → BF n}
    (hx : ∀ r, r < 4 → fx r = some (X r)) (hk : ∀ r, r < 4 → fk r = some (K r)) :
    mixRead aesMix two three fx fk = some (tabP 4 (fun r => mixL two three X r + K r)) := by
  unfold mixRead
  rw [hx 0 (by decide), hx 1 (by decide), hx 2 (by decide), hx 3 (by decide), hk 0 (by decide),
    hk 1 (by decide), hk 2 (by decide), hk 3 (by decide)]
  show some _ = some _
  congr 1
  simp [aesMix, tabP, List.range_succ, mixL, ← BF.add_def, ← BF.mul_def]
  refine ⟨?_, ?_, ?_, ?_⟩ <;> ring

theorem mixRead_em {two three : BF n} {fx fk : Nat → Option (BF n)} {X K : Nat → BF n}
    (hx : ∀ r, r < 4 → fx r = some (X r)) (hk : ∀ r, r < 4 → fk r = some (K r)) :
    mixRead emMix two three fx fk = some (tabP 4 (fun r => mixL two three X r + K r)) := by
  unfold mixRead
  rw [hx 0 (by decide), hx 1 (by decide), hx 2 (by decide), hx 3 (by decide), hk 0 (by decide),
    hk 1 (by decide), hk 2 (by decide), hk 3 (by decide)]
  show some _ = some _
  congr 1
  simp [emMix, tabP, List.range_succ, mixL, ← BF.add_def, ← BF.mul_def]
  refine ⟨?_, ?_, ?_, ?_⟩ <;> ring

theorem encS_mix {Nb : Nat} {two three : BF n} {I K X : Nat → BF n} {W j c r : Nat} (hW : W = 4 * Nb)
    (hj : 1 ≤ j) (hr : r < 4) :
    encS Nb two three I K X (W * j + 4 * c + r) =
      mixL two three (fun r => X (W * (j - 1) + 4 * c + r)) r + K (W * j + 4 * c + r) := by
  obtain ⟨i, rfl⟩ : ∃ i, j = i + 1 := ⟨j - 1, by omega⟩
  have h4 : W * (i + 1) % 4 = 0 := by rw [hW, Nat.mul_assoc]; exact Nat.mul_mod_right _ _
  unfold encS
  rw [Nat.mul_succ] at *
  rw [if_neg (by omega), show (W * i + W + 4 * c + r) % 4 = r by omega]
  congr 2
  funext r'
  congr 1
  rw [Nat.add_sub_cancel]
  omega

/-! ### AES -/

theorem hashLoop0_ok (hn : 64 ≤ n) {N : Nat} {ms mvs msd mvsd : Mem (BF n)} {s vs sd vsd : Nat → BF n}
    (h1 : Has ms 0 N s) (h2 : Has mvs 0 N vs) (h3 : Has msd 0 N sd) (h4 : Has mvsd 0 N vsd)
    {sdf : Nat → Byte} {ys0 ys1 : List (BF n)} {c : ZkCtx n × ZkCtx n}
    (hc0 : ZkOk sdf ys0 c.1) (hc1 : ZkOk sdf ys1 c.2) :
    Ok (hashLoop0 N ms mvs msd mvsd c) (fun c =>
      ZkOk sdf (ys0 ++ tabP N (fun p => conA0 (vs p) (vsd p))) c.1 ∧
      ZkOk sdf (ys1 ++ tabP N (fun p => conA1 (s p) (vs p) (sd p) (vsd p))) c.2) := by
  unfold hashLoop0
  refine Ok.forN (fun m (c : ZkCtx n × ZkCtx n) =>
      ZkOk sdf (ys0 ++ tabP m (fun p => conA0 (vs p) (vsd p))) c.1 ∧
      ZkOk sdf (ys1 ++ tabP m (fun p => conA1 (s p) (vs p) (sd p) (vsd p))) c.2) ?_ ?_
  · exact ⟨by simpa [tabP] using hc0, by simpa [tabP] using hc1⟩
  · rintro m hm c ⟨a, b⟩
    refine Ok.step (h1.rd0 hm) ?_
    refine Ok.step (h2.rd0 hm) ?_
    refine Ok.step (h3.rd0 hm) ?_
    refine Ok.step (h4.rd0 hm) ?_
    exact Ok.pure (encHash0_ok hn a b)

theorem hashLoop1_ok (hn : 64 ≤ n) {N : Nat} {mqs mqsd : Mem (BF n)} {qs qsd : Nat → BF n} {d : BF n}
    (h1 : Has mqs 0 N qs) (h2 : Has mqsd 0 N qsd)
    {sdf : Nat → Byte} {ys : List (BF n)} {c : ZkCtx n} (hc : ZkOk sdf ys c) :
    Ok (hashLoop1 N mqs mqsd (bfMul d d) c) (fun c =>
      ZkOk sdf (ys ++ tabP N (fun p => conB d (qs p) (qsd p))) c) := by
  unfold hashLoop1
  refine Ok.forN (fun m (c : ZkCtx n) =>
      ZkOk sdf (ys ++ tabP m (fun p => conB d (qs p) (qsd p))) c) ?_ ?_
  · simpa [tabP] using hc
  · intro m hm c a
    refine Ok.step (h1.rd0 hm) ?_
    refine Ok.step (h2.rd0 hm) ?_
    exact Ok.pure (a.table hn rfl)

theorem encForward1_ok {P : Params} (h : AesWF P) (hl : BF.LamSize n) {x xk inp : Mem Byte} {xo ino : Nat}
    {X K I : Nat → Byte} (hx : Has x xo (16 * (P.R - 1)) X) (hk : Has xk 0 ((P.R + 1) * 16) K)
    (hi : Has inp ino 16 I) :
    Ok (encForward1 n P x xo xk inp ino) (fun y => Has y 0 P.Senc
      (encS 4 (BF.emb n 2) (BF.emb n 3) (fun b => BF.emb n (I b)) (fun b => BF.emb n (K b))
        (fun b => BF.emb n (X b)))) := by
  have hR := h.R
  have hS := h.Senc
  unfold encForward1
  dsimp only
  refine Ok.bind (ok_first (F := encS 4 (BF.emb n 2) (BF.emb n 3) (fun b => BF.emb n (I b))
    (fun b => BF.emb n (K b)) (fun b => BF.emb n (X b))) (by rw [malloc_length]; omega) ?_) ?_
  · intro i hi' y
    rw [hi.rd hi', hk.rd0 (by omega)]
    show (byteCombineBits n _ >>= _) = _
    rw [BF.byteCombineBits_ok hl]
    show (byteCombineBits n _ >>= _) = _
    rw [BF.byteCombineBits_ok hl]
    unfold encS
    rw [if_pos (by omega)]
    rfl
  rintro y ⟨hyl, hy⟩
  rw [malloc_length] at hyl
  refine Ok.step (BF.byteCombineBits_ok hl _) ?_
  refine Ok.step (BF.byteCombineBits_ok hl _) ?_
  rw [hS] at hyl ⊢
  refine ok_grid2 (W := 16) rfl (by omega) hyl hy ?_
  intro j hj1 hj2 c hc y
  rw [mixRead_aes (X := fun r => BF.emb n (X (16 * (j - 1) + 4 * c + r)))
    (K := fun r => BF.emb n (K (16 * j + 4 * c + r)))]
  · show wrN _ _ _ = _
    congr 1
    refine tabP_congr fun r hr => ?_
    rw [encS_mix (Nb := 4) rfl hj1 hr]
  · intro r hr
    rw [show xo + (128 * (j - 1) + 32 * c + 8 * r) / 8 = xo + (16 * (j - 1) + 4 * c + r) by omega,
      hx.rd (by omega)]
    exact BF.byteCombineBits_ok hl _
  · intro r hr
    rw [show (128 * j + 32 * c + 8 * r) / 8 = 16 * j + 4 * c + r by omega, hk.rd0 (by omega)]
    exact BF.byteCombineBits_ok hl _

theorem mulBit_mode {mtag mkey : Byte} {d one : BF n}
    (hm : (mtag = 1 ∧ one = 0) ∨ (mtag = 0 ∧ mkeyFactor d mkey = one)) (b : Byte) (j : Nat) :
    bfMulBit (mkeyFactor d mkey) ((1 ^^^ mtag) &&& getBit b j) = one * BF.bitF n (b.getLsbD j) := by
  rcases hm with ⟨rfl, rfl⟩ | ⟨rfl, rfl⟩
  · rw [BF.mulBit_eq, zero_mul]
    have : ((1 ^^^ 1 : Byte) &&& getBit b j).getLsbD 0 = false := by simp
    rw [this]; rfl
  · rw [← mulBit_getBit]
    congr 1
    unfold getBit
    show (1 : Byte) &&& _ = _
    rw [BitVec.and_comm, BitVec.and_assoc]
    rfl

theorem encForward_ok {P : Params} (h : AesWF P) (hl : BF.LamSize n) {x xk : Mem (BF n)} {inp : Mem Byte}
    {xo ino : Nat} {X K : Nat → BF n} {I : Nat → Byte} (hx : Has x xo (128 * (P.R - 1)) X)
    (hk : Has xk 0 ((P.R + 1) * 128) K) (hi : Has inp ino 16 I)
    {mtag mkey : Byte} {delta : Option (Mem Byte)} {one : BF n} (hm : Mode n mtag mkey delta one) :
    Ok (encForward P x xo xk inp ino mtag mkey delta) (fun y => Has y 0 P.Senc
      (encS 4 (BF.emb n 2) (BF.emb n 3) (fun b => one * BF.emb n (I b)) (byteL K) (byteL X))) := by
  have h8 : 8 ≤ n := by rcases hl with rfl | rfl | rfl <;> decide
  have hR := h.R
  have hS := h.Senc
  obtain ⟨d, hd1, hd2, hd3⟩ := hm.factor h8
  unfold encForward
  dsimp only
  refine Ok.step hd1 ?_
  refine Ok.bind (ok_first (F := encS 4 (BF.emb n 2) (BF.emb n 3) (fun b => one * BF.emb n (I b))
    (byteL K) (byteL X)) (by rw [malloc_length]; omega) ?_) ?_
  · intro i hi' y
    rw [fill_eq (g := fun j => one * BF.bitF n ((I i).getLsbD j))]
    · show (byteCombine _ 0 >>= _) = _
      rw [BF.byteCombine_ok hl (has_full _ _), BF.byteCombine_ok hl (g := fun j => K (8 * i + j))
        fun j hj => hk.rd0 (by omega)]
      unfold encS byteL
      rw [if_pos (by omega), BF.bc_mul]
      rfl
    · intro j hj
      rw [hi.rd hi', ← mulBit_mode hd3]
      rfl
  rintro y ⟨hyl, hy⟩
  rw [malloc_length] at hyl
  refine Ok.step (BF.byteCombineBits_ok hl _) ?_
  refine Ok.step (BF.byteCombineBits_ok hl _) ?_
  rw [hS] at hyl ⊢
  refine ok_grid2 (W := 16) rfl (by omega) hyl hy ?_
  intro j hj1 hj2 c hc y
  rw [mixRead_aes (X := fun r => byteL X (16 * (j - 1) + 4 * c + r))
    (K := fun r => byteL K (16 * j + 4 * c + r))]
  · show wrN _ _ _ = _
    congr 1
    refine tabP_congr fun r hr => ?_
    rw [encS_mix (Nb := 4) rfl hj1 hr]
  · intro r hr
    refine BF.byteCombine_ok hl fun i hi => ?_
    rw [Nat.add_assoc, hx.rd (by omega)]
    congr 2
    omega
  · intro r hr
    refine BF.byteCombine_ok hl fun i hi => ?_
    rw [hk.rd0 (by omega)]
    congr 2
    omega

theorem srcIdx_eq {Nb W j c r : Nat} (hW : W = 4 * Nb) (hc : c < Nb) (hr : r < 4) :
    srcIdx Nb (W * j + 4 * c + r) = W * j + 4 * icol Nb c r + r := by
  have h4 : W * j % 4 = 0 := by rw [hW, Nat.mul_assoc]; exact Nat.mul_mod_right _ _
  unfold srcIdx
  subst hW
  have hlt : 4 * c + r < 4 * Nb := by omega
  have e1 : (4 * Nb * j + 4 * c + r) / (4 * Nb) = j := by
    rw [Nat.add_assoc, Nat.mul_add_div (by omega), Nat.div_eq_of_lt hlt, Nat.add_zero]
  have e2 : (4 * Nb * j + 4 * c + r) % (4 * Nb) = 4 * c + r := by
    rw [Nat.add_assoc, Nat.mul_add_mod, Nat.mod_eq_of_lt hlt]
  rw [e1, e2, show (4 * c + r) / 4 = c by omega, show (4 * Nb * j + 4 * c + r) % 4 = r by omega]

theorem icol_lt {Nb c r : Nat} (h : 0 < Nb) : icol Nb c r < Nb := Nat.mod_lt _ h

theorem icol_four {c r : Nat} (_hr : r < 4) : (c + 4 - r) % 4 = icol 4 c r := by
  unfold icol shiftOffset
  rw [if_neg (by omega)]

theorem icol_em {Nwd c r : Nat} (hN : Nwd = 4 ∨ Nwd = 6 ∨ Nwd = 8) (_hr : r < 4) :
    emIcol Nwd c r = icol Nwd c r := by
  unfold icol shiftOffset emIcol
  dsimp only
  by_cases h : Nwd = 8 ∧ 2 ≤ r
  · rw [if_pos h, if_pos (by omega)]; rcases hN with rfl | rfl | rfl <;> omega
  · rw [if_neg h, if_neg (by omega)]

theorem mulBit_factor {mtag mkey : Byte} {d one : BF n} (h : bfMulBit (mkeyFactor d mkey) (1 ^^^ mtag) = one) :
    bwdFactor d mtag mkey = one := h

theorem encBackward1_ok {P : Params} (h : AesWF P) (hl : BF.LamSize n) {x xk out : Mem Byte} {xo oo : Nat}
    {X K O : Nat → Byte} (hx : Has x xo (16 * (P.R - 1)) X) (hk : Has xk 0 ((P.R + 1) * 16) K)
    (ho : Has out oo 16 O) :
    Ok (encBackward1 n P x xo xk out oo) (fun y => Has y 0 P.Senc
      (fun p => BF.emb n (invAffineByte (encOutB 4 P.R X O K p)))) := by
  have hR := h.R
  have hS := h.Senc
  unfold encBackward1
  rw [hS]
  refine ok_grid3 (W := 16) rfl (by simp) ?_
  intro j hj c hc r hr y
  have hic := icol_lt (Nb := 4) (c := c) (r := r) (by decide)
  dsimp only
  have hsrc : encSrc1 P x xo xk out oo j (128 * j + 32 * ((c + 4 - r) % 4) + 8 * r)
      = some (encOutB 4 P.R X O K (16 * j + 4 * c + r)) := by
    unfold encSrc1 encOutB encOut
    rw [icol_four hr, srcIdx_eq (W := 16) rfl hc hr]
    by_cases hjR : j < P.R - 1
    · rw [if_pos hjR, if_pos (by omega),
        show xo + (128 * j + 32 * icol 4 c r + 8 * r) / 8 = xo + (16 * j + 4 * icol 4 c r + r) by omega,
        hx.rd (by omega)]
      congr 2; omega
    · rw [if_neg hjR, if_neg (by omega),
        show oo + (128 * j + 32 * icol 4 c r + 8 * r - 128 * (P.R - 1)) / 8
          = oo + (4 * icol 4 c r + r) by omega,
        ho.rd (by omega), hk.rd0 (by omega)]
      show some (_ ^^^ _) = some (_ ^^^ _)
      congr 2 <;> congr 1 <;> omega
  rw [hsrc]
  show (byteCombineBits n _ >>= _) = _
  rw [BF.byteCombineBits_ok hl]
  rfl

theorem encBackward_ok {P : Params} (h : AesWF P) (hl : BF.LamSize n) {x xk : Mem (BF n)} {out : Mem Byte}
    {xo oo : Nat} {X K : Nat → BF n} {O : Nat → Byte} (hx : Has x xo (128 * (P.R - 1)) X)
    (hk : Has xk 0 ((P.R + 1) * 128) K) (ho : Has out oo 16 O)
    {mtag mkey : Byte} {delta : Option (Mem Byte)} {one : BF n} (hm : Mode n mtag mkey delta one) :
    Ok (encBackward P x xo xk mtag mkey delta out oo) (fun y => Has y 0 P.Senc
      (encSd 4 P.R one X (fun p => one * BF.bitF n (bitOf O p)) K)) := by
  have h8 : 8 ≤ n := by rcases hl with rfl | rfl | rfl <;> decide
  have hR := h.R
  have hS := h.Senc
  obtain ⟨d, hd1, hd2, hd3⟩ := hm.factor h8
  unfold encBackward
  dsimp only
  refine Ok.step hd1 ?_
  rw [mulBit_factor hd2, hS]
  refine ok_grid3 (W := 16) rfl (by simp) ?_
  intro j hj c hc r hr y
  have hic := icol_lt (Nb := 4) (c := c) (r := r) (by decide)
  obtain ⟨m, hm1, hm2⟩ : ∃ m, encSrc P x xo xk one out oo j (128 * j + 32 * ((c + 4 - r) % 4) + 8 * r) = some m ∧
      Has m 0 8 (encOut (· + ·) 8 4 P.R X (fun p => one * BF.bitF n (bitOf O p)) K
        (srcIdx 4 (16 * j + 4 * c + r))) := by
    unfold encSrc
    rw [icol_four hr, srcIdx_eq (W := 16) rfl hc hr]
    by_cases hjR : j < P.R - 1
    · rw [if_pos hjR, rdN_has (g := fun i => X (128 * j + 32 * icol 4 c r + 8 * r + i)) ?_ (by decide)]
      · refine ⟨_, rfl, (has_full _ _).congr fun i hi => ?_⟩
        unfold encOut
        rw [if_pos (by omega)]
        congr 1; omega
      · intro i hi
        rw [Nat.add_assoc, hx.rd (by omega)]
    · rw [if_neg hjR]
      refine ⟨_, fill_eq fun i hi => ?_, has_full _ _⟩
      unfold encOut
      rw [if_neg (by omega), show oo + (128 * j + 32 * icol 4 c r + 8 * r - 128 * (P.R - 1)) / 8
          = oo + (4 * icol 4 c r + r) by omega, ho.rd (by omega), hk.rd0 (by omega)]
      show some (bfMulBit one (getBit _ i) + _) = some _
      rw [mulBit_getBit]
      unfold bitOf
      beta_reduce
      rw [show (8 * (16 * j + 4 * icol 4 c r + r - 4 * 4 * (P.R - 1)) + i) / 8 = 4 * icol 4 c r + r by omega,
        show (8 * (16 * j + 4 * icol 4 c r + r - 4 * 4 * (P.R - 1)) + i) % 8 = i by omega]
      congr 3
      omega
  rw [hm1]
  show (invAffineBF m one >>= _) = _
  rw [invAffineBF_ok hm2]
  show (byteCombine (full 8 _) 0 >>= _) = _
  rw [BF.byteCombine_ok hl (has_full _ _)]
  rfl

theorem encConstraints0_ok {P : Params} (h : AesWF P) (hl : BF.LamSize n) {w k inp out : Mem Byte}
    {v vk : Mem (BF n)} {wo vo ino oo : Nat} {W K I O : Nat → Byte} {X XK : Nat → BF n}
    (hw : Has w wo (16 * (P.R - 1)) W) (hk : Has k 0 ((P.R + 1) * 16) K)
    (hv : Has v vo (128 * (P.R - 1)) X) (hvk : Has vk 0 ((P.R + 1) * 128) XK)
    (hi : Has inp ino 16 I) (ho : Has out oo 16 O)
    {sdf : Nat → Byte} {ys0 ys1 : List (BF n)} {c : ZkCtx n × ZkCtx n}
    (hc0 : ZkOk sdf ys0 c.1) (hc1 : ZkOk sdf ys1 c.2) :
    Ok (encConstraints0 P inp ino out oo w wo v vo k vk c) (fun c =>
      ZkOk sdf (ys0 ++ tabP P.Senc (fun p => conA0
        (encS 4 (BF.emb n 2) (BF.emb n 3) (fun b => 0 * BF.emb n (I b)) (byteL XK) (byteL X) p)
        (encSd 4 P.R 0 X (fun p => 0 * BF.bitF n (bitOf O p)) XK p))) c.1 ∧
      ZkOk sdf (ys1 ++ tabP P.Senc (fun p => conA1
        (encS 4 (BF.emb n 2) (BF.emb n 3) (fun b => BF.emb n (I b)) (fun b => BF.emb n (K b))
          (fun b => BF.emb n (W b)) p)
        (encS 4 (BF.emb n 2) (BF.emb n 3) (fun b => 0 * BF.emb n (I b)) (byteL XK) (byteL X) p)
        (BF.emb n (invAffineByte (encOutB 4 P.R W O K p)))
        (encSd 4 P.R 0 X (fun p => 0 * BF.bitF n (bitOf O p)) XK p))) c.2) := by
  have h64 : 64 ≤ n := by rcases hl with rfl | rfl | rfl <;> decide
  unfold encConstraints0
  refine Ok.bind (encForward1_ok h hl hw hk hi) ?_
  intro s hs
  refine Ok.bind (encForward_ok h hl hv hvk hi Mode.tag) ?_
  intro vs hvs
  refine Ok.bind (encBackward1_ok h hl hw hk ho) ?_
  intro sd hsd
  refine Ok.bind (encBackward_ok h hl hv hvk ho Mode.tag) ?_
  intro vsd hvsd
  exact hashLoop0_ok h64 hs hvs hsd hvsd hc0 hc1

theorem encConstraints1_ok {P : Params} (h : AesWF P) (hl : BF.LamSize n) {inp out δ : Mem Byte}
    {q qk : Mem (BF n)} {qo ino oo : Nat} {I O df : Nat → Byte} {X XK : Nat → BF n}
    (hq : Has q qo (128 * (P.R - 1)) X) (hqk : Has qk 0 ((P.R + 1) * 128) XK)
    (hi : Has inp ino 16 I) (ho : Has out oo 16 O) (hd : Has δ 0 (n / 8) df)
    {sdf : Nat → Byte} {ys : List (BF n)} {c : ZkCtx n} (hc : ZkOk sdf ys c) :
    Ok (encConstraints1 P inp ino out oo q qo qk δ c) (fun c =>
      ZkOk sdf (ys ++ tabP P.Senc (fun p => conB (loadF n df)
        (encS 4 (BF.emb n 2) (BF.emb n 3) (fun b => loadF n df * BF.emb n (I b)) (byteL XK) (byteL X) p)
        (encSd 4 P.R (loadF n df) X (fun p => loadF n df * BF.bitF n (bitOf O p)) XK p))) c) := by
  have h64 : 64 ≤ n := by rcases hl with rfl | rfl | rfl <;> decide
  unfold encConstraints1
  refine Ok.bind (encForward_ok h hl hq hqk hi (Mode.key δ df hd)) ?_
  intro qs hqs
  refine Ok.bind (encBackward_ok h hl hq hqk ho (Mode.key δ df hd)) ?_
  intro qsd hqsd
  refine Ok.step (bfLoad_ok (by omega) hd) ?_
  exact hashLoop1_ok h64 hqs hqsd hc

/-! ### Even-Mansour -/

/-- Facts about the Even-Mansour parameter sets. -/
structure EmWF (P : Params) : Prop where
  nwd : P.Nwd = 4 ∨ P.Nwd = 6 ∨ P.Nwd = 8
  lam : P.lambda = 32 * P.Nwd
  R : P.R = P.Nwd + 6
  Lke : P.Lke = 0
  ske : P.Ske = 0
  Lenc : P.Lenc = 32 * P.Nwd * P.R
  Senc : P.Senc = 4 * P.Nwd * P.R
  l : P.l = P.Lenc
  pk : P.pkSize / 2 = 4 * P.Nwd
  beta : P.beta = 1
  shape : witnessShape P = (P.Nwd, 1)

theorem params_em (i : ParamId) (h : (params i).Lke = 0) : EmWF (params i) := by
  revert h
  cases i <;> intro h <;> first
    | exact absurd h (by decide)
    | (constructor <;> decide)

/-- All products of the parameters, for linear arithmetic. -/
theorem EmWF.mul {P : Params} (h : EmWF P) : 4 * P.Nwd * P.R = 4 * P.Nwd * (P.R - 1) + 4 * P.Nwd ∧
    32 * P.Nwd * P.R = 8 * (4 * P.Nwd * P.R) ∧ 32 * P.Nwd * (P.R + 1) = 8 * (4 * P.Nwd * P.R) + 32 * P.Nwd ∧
    P.lambda * (P.R + 1) = 8 * (4 * P.Nwd * P.R) + 32 * P.Nwd := by
  have hR := h.R
  have hl := h.lam
  refine ⟨?_, ?_, ?_, ?_⟩
  · rw [← Nat.mul_succ]; congr 1; omega
  · rw [← Nat.mul_assoc, ← Nat.mul_assoc]
  · rw [Nat.mul_succ, ← Nat.mul_assoc, ← Nat.mul_assoc]
  · rw [hl, Nat.mul_succ, ← Nat.mul_assoc, ← Nat.mul_assoc]

theorem em_idx {Nwd j : Nat} : 32 * Nwd * j = 8 * (4 * Nwd * j) := by
  rw [← Nat.mul_assoc, ← Nat.mul_assoc]

theorem em_le {Nwd j R : Nat} (h : j < R) : 4 * Nwd * j + 4 * Nwd ≤ 4 * Nwd * R := by
  rw [← Nat.mul_succ]; exact Nat.mul_le_mul_left _ h

theorem em_pred {Nwd j : Nat} (h : 1 ≤ j) : 4 * Nwd * j = 4 * Nwd + 4 * Nwd * (j - 1) := by
  rw [Nat.add_comm, ← Nat.mul_succ]; congr 1; omega

theorem emForward1_ok {P : Params} (h : EmWF P) (hl : BF.LamSize n) {z x : Mem Byte}
    {Z K : Nat → Byte} (hz : Has z 0 (4 * P.Nwd * P.R) Z) (hk : Has x 0 (4 * P.Nwd * (P.R + 1)) K) :
    Ok (emForward1 n P z x) (fun y => Has y 0 P.Senc
      (encS P.Nwd (BF.emb n 2) (BF.emb n 3) (fun b => BF.emb n (Z b)) (fun b => BF.emb n (K b))
        (fun b => BF.emb n (Z (4 * P.Nwd + b))))) := by
  have hN := h.nwd
  have hR := h.R
  have hS := h.Senc
  obtain ⟨m1, m2, m3, m4⟩ := h.mul
  have m5 : 4 * P.Nwd * (P.R + 1) = 4 * P.Nwd * P.R + 4 * P.Nwd := Nat.mul_succ _ _
  unfold emForward1
  dsimp only
  refine Ok.bind (ok_first (F := encS P.Nwd (BF.emb n 2) (BF.emb n 3) (fun b => BF.emb n (Z b))
    (fun b => BF.emb n (K b)) (fun b => BF.emb n (Z (4 * P.Nwd + b)))) (by rw [malloc_length]; omega) ?_) ?_
  · intro i hi' y
    rw [hz.rd0 (by omega), hk.rd0 (by omega)]
    show (byteCombineBits n _ >>= _) = _
    rw [BF.byteCombineBits_ok hl]
    show (byteCombineBits n _ >>= _) = _
    rw [BF.byteCombineBits_ok hl]
    unfold encS
    rw [if_pos (by omega)]
    rfl
  rintro y ⟨hyl, hy⟩
  rw [malloc_length] at hyl
  refine Ok.step (BF.byteCombineBits_ok hl _) ?_
  refine Ok.step (BF.byteCombineBits_ok hl _) ?_
  rw [hS] at hyl ⊢
  refine ok_grid2 (W := 4 * P.Nwd) rfl (by omega) hyl hy ?_
  intro j hj1 hj2 c hc y
  have hle := em_le (Nwd := P.Nwd) hj2
  have hpr := em_pred (Nwd := P.Nwd) hj1
  rw [mixRead_em (X := fun r => BF.emb n (Z (4 * P.Nwd + (4 * P.Nwd * (j - 1) + 4 * c + r))))
    (K := fun r => BF.emb n (K (4 * P.Nwd * j + 4 * c + r)))]
  · show wrN _ _ _ = _
    congr 1
    refine tabP_congr fun r hr => ?_
    rw [encS_mix rfl hj1 hr]
  · intro r hr
    rw [em_idx, hz.rd0 (by omega)]
    show byteCombineBits n _ = _
    rw [BF.byteCombineBits_ok hl]
    congr 3; omega
  · intro r hr
    rw [em_idx, hk.rd0 (by omega)]
    show byteCombineBits n _ = _
    rw [BF.byteCombineBits_ok hl]
    congr 3; omega

/-- The round keys on the tag side are constants, hence zero. -/
inductive KeyArg (n : Nat) (len : Nat) : Option (Mem (BF n)) → (Nat → BF n) → Prop
  | none : KeyArg n len none (fun _ => 0)
  | some (m : Mem (BF n)) (K : Nat → BF n) : Has m 0 len K → KeyArg n len (some m) K

theorem emForward_ok {P : Params} (h : EmWF P) (hl : BF.LamSize n) {z : Mem (BF n)} {x : Option (Mem (BF n))}
    {Z K : Nat → BF n} (hz : Has z 0 (32 * P.Nwd * P.R) Z) (hk : KeyArg n (32 * P.Nwd * (P.R + 1)) x K) :
    Ok (emForward P z x) (fun y => Has y 0 P.Senc
      (encS P.Nwd (BF.emb n 2) (BF.emb n 3) (byteL Z) (byteL K) (fun b => byteL Z (4 * P.Nwd + b)))) := by
  have hN := h.nwd
  have hR := h.R
  have hS := h.Senc
  obtain ⟨m1, m2, m3, m4⟩ := h.mul
  unfold emForward
  dsimp only
  refine Ok.bind (ok_first (F := encS P.Nwd (BF.emb n 2) (BF.emb n 3) (byteL Z) (byteL K)
    (fun b => byteL Z (4 * P.Nwd + b))) (by rw [malloc_length]; omega) ?_) ?_
  · intro i hi' y
    rw [BF.byteCombine_ok hl (g := fun j => Z (8 * i + j)) fun j hj => hz.rd0 (by omega)]
    unfold encS
    rw [if_pos (by omega)]
    cases hk with
    | none =>
      unfold byteL
      rw [BF.bc_zero, add_zero]
      rfl
    | some m K hm =>
      show (byteCombine m (8 * i) >>= _) = _
      rw [BF.byteCombine_ok hl (g := fun j => K (8 * i + j)) fun j hj => hm.rd0 (by omega)]
      rfl
  rintro y ⟨hyl, hy⟩
  rw [malloc_length] at hyl
  refine Ok.step (BF.byteCombineBits_ok hl _) ?_
  refine Ok.step (BF.byteCombineBits_ok hl _) ?_
  rw [hS] at hyl ⊢
  refine ok_grid2 (W := 4 * P.Nwd) rfl (by omega) hyl hy ?_
  intro j hj1 hj2 c hc y
  have hle := em_le (Nwd := P.Nwd) hj2
  have hpr := em_pred (Nwd := P.Nwd) hj1
  rw [mixRead_em (X := fun r => byteL Z (4 * P.Nwd + (4 * P.Nwd * (j - 1) + 4 * c + r)))
    (K := fun r => byteL K (4 * P.Nwd * j + 4 * c + r))]
  · show wrN _ _ _ = _
    congr 1
    refine tabP_congr fun r hr => ?_
    rw [encS_mix rfl hj1 hr]
  · intro r hr
    refine BF.byteCombine_ok hl fun i hi => ?_
    rw [em_idx, hz.rd0 (by omega)]
    congr 2; omega
  · intro r hr
    cases hk with
    | none =>
      unfold byteL
      rw [BF.bc_zero]
      rfl
    | some m K hm =>
      refine BF.byteCombine_ok hl fun i hi => ?_
      rw [em_idx, hm.rd0 (by omega)]
      congr 2; omega

theorem emBackward1_ok {P : Params} (h : EmWF P) (hl : BF.LamSize n) {z x zOut : Mem Byte}
    {Z K O : Nat → Byte} (hz : Has z 0 (4 * P.Nwd * P.R) Z) (hk : Has x 0 (4 * P.Nwd * (P.R + 1)) K)
    (ho : Has zOut 0 (4 * P.Nwd) O) :
    Ok (emBackward1 n P z x zOut) (fun y => Has y 0 P.Senc
      (fun p => BF.emb n (invAffineByte (encOutB P.Nwd P.R (fun b => Z (4 * P.Nwd + b)) O K p)))) := by
  have hN := h.nwd
  have hR := h.R
  have hS := h.Senc
  have hlam := h.lam
  obtain ⟨m1, m2, m3, m4⟩ := h.mul
  have m5 : 4 * P.Nwd * (P.R + 1) = 4 * P.Nwd * P.R + 4 * P.Nwd := Nat.mul_succ _ _
  unfold emBackward1
  rw [hS]
  refine ok_grid3 (W := 4 * P.Nwd) rfl (by simp) ?_
  intro j hj c hc r hr y
  have hle := em_le (Nwd := P.Nwd) hj
  have hic := icol_lt (Nb := P.Nwd) (c := c) (r := r) (by omega)
  dsimp only
  have hsrc : emSrc1 P z x zOut j (P.lambda + 32 * P.Nwd * j + 32 * emIcol P.Nwd c r + 8 * r)
      = some (encOutB P.Nwd P.R (fun b => Z (4 * P.Nwd + b)) O K (4 * P.Nwd * j + 4 * c + r)) := by
    unfold emSrc1 encOutB encOut
    rw [icol_em hN hr, srcIdx_eq rfl hc hr, em_idx, Nat.mul_succ, em_idx]
    by_cases hjR : j < P.R - 1
    · have hle2 := em_le (Nwd := P.Nwd) hjR
      rw [if_pos hjR, if_pos (Nat.lt_of_lt_of_le (by clear m1 m2 m3 m4 m5 hle2; omega) hle2), hz.rd0 (by omega)]
      congr 2; omega
    · obtain rfl : j = P.R - 1 := by omega
      rw [if_neg hjR, if_neg (by omega), ho.rd0 (by omega), hk.rd0 (by omega)]
      show some (_ ^^^ _) = some (_ ^^^ _)
      congr 2 <;> congr 1 <;> omega
  rw [hsrc]
  show (byteCombineBits n _ >>= _) = _
  rw [BF.byteCombineBits_ok hl]
  rfl

theorem emBackward_ok {P : Params} (h : EmWF P) (hl : BF.LamSize n) {z zOut : Mem (BF n)}
    {x : Option (Mem (BF n))} {Z K O : Nat → BF n} (hz : Has z 0 (32 * P.Nwd * P.R) Z)
    (hk : KeyArg n (32 * P.Nwd * (P.R + 1)) x K) (ho : Has zOut 0 (32 * P.Nwd) O)
    {mtag mkey : Byte} {delta : Option (Mem Byte)} {one : BF n} (hm : Mode n mtag mkey delta one) :
    Ok (emBackward P z x zOut mtag mkey delta) (fun y => Has y 0 P.Senc
      (encSd P.Nwd P.R one (fun b => Z (32 * P.Nwd + b)) O K)) := by
  have h8 : 8 ≤ n := by rcases hl with rfl | rfl | rfl <;> decide
  have hN := h.nwd
  have hR := h.R
  have hS := h.Senc
  have hlam := h.lam
  obtain ⟨m1, m2, m3, m4⟩ := h.mul
  obtain ⟨d, hd1, hd2, hd3⟩ := hm.factor h8
  unfold emBackward
  dsimp only
  refine Ok.step hd1 ?_
  rw [mulBit_factor hd2, hS]
  refine ok_grid3 (W := 4 * P.Nwd) rfl (by simp) ?_
  intro j hj c hc r hr y
  have hle := em_le (Nwd := P.Nwd) hj
  have hic := icol_lt (Nb := P.Nwd) (c := c) (r := r) (by omega)
  obtain ⟨m, hm1, hm2⟩ : ∃ m, emSrc P z x zOut j (P.lambda + 32 * P.Nwd * j + 32 * emIcol P.Nwd c r + 8 * r) = some m ∧
      Has m 0 8 (encOut (· + ·) 8 P.Nwd P.R (fun b => Z (32 * P.Nwd + b)) O K
        (srcIdx P.Nwd (4 * P.Nwd * j + 4 * c + r))) := by
    unfold emSrc
    rw [icol_em hN hr, srcIdx_eq rfl hc hr, em_idx, Nat.mul_succ, em_idx]
    by_cases hjR : j < P.R - 1
    · have hle2 := em_le (Nwd := P.Nwd) hjR
      rw [if_pos hjR, rdN_has (g := fun i => Z (P.lambda + 8 * (4 * P.Nwd * j) + 32 * icol P.Nwd c r + 8 * r + i))
        ?_ (by decide)]
      · refine ⟨_, rfl, (has_full _ _).congr fun i hi => ?_⟩
        unfold encOut
        rw [if_pos (Nat.lt_of_lt_of_le (by clear m1 m2 m3 m4 hle2; omega) hle2)]
        congr 1; omega
      · intro i hi
        rw [hz.rd0 (by omega)]
    · obtain rfl : j = P.R - 1 := by omega
      rw [if_neg hjR]
      refine ⟨_, fill_eq fun i hi => ?_, has_full _ _⟩
      unfold encOut
      rw [if_neg (by omega), ho.rd0 (by omega)]
      cases hk with
      | none =>
        beta_reduce
        rw [add_zero]
        show some _ = some _
        congr 2; omega
      | some m K hm =>
        show (rd m _ >>= _) = _
        rw [hm.rd0 (by omega)]
        beta_reduce
        show some (O _ + K _) = some (O _ + K _)
        congr 2 <;> congr 1 <;> omega
  rw [hm1]
  show (invAffineBF m one >>= _) = _
  rw [invAffineBF_ok hm2]
  show (byteCombine (full 8 _) 0 >>= _) = _
  rw [BF.byteCombine_ok hl (has_full _ _)]
  rfl

end Faest
