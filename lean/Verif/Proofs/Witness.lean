/-
`aes_extend_witness` computes the extended witness, and the extended witness of an accepted key
satisfies all constraints.
-/
import Verif.Spec.Witness
import Verif.Proofs.ConAlg

namespace Faest
open Spec (ksStep liftKey keyCell ksS ksSd ksSB ksOutB conA0 conA1 conB encS encSd encOutB byteL emKey
  conCount conIn conOut bitsL keyWord roundState shiftRows midState stateBytes blockState sbox
  shiftOffset icol srcIdx mixL encOut witAes witEm witness ksSel ksRc rcon ksSboxInput encNonzero ksNonzero)

variable {n : Nat}

/-! ### The code -/

/-- Writing one word of a round key at the end of a prefix. -/
theorem wr_prefix {w : Mem Byte} {L pos k : Nat} {f g : Nat → Byte} (hl : w.length = L)
    (hw : Has w 0 pos f) (hle : pos + k ≤ L) (hk : 0 < k) (hg : ∀ i, i < k → g i = f (pos + i)) :
    Ok (wrN w pos (tabP k g)) (fun m => m.length = L ∧ Has m 0 (pos + k) f) := by
  refine Ok.wrN (by rw [tabP_length]; omega) ?_
  intro m hlm hm
  refine ⟨by omega, fun i hi => ?_⟩
  rw [Nat.zero_add, hm]
  by_cases hlt : i < pos
  · rw [if_neg (by omega), hw.rd0 hlt]
  · rw [if_pos (by rw [tabP_length]; omega), tabP_getElem?, if_pos (by omega), hg _ (by omega)]
    congr 2; omega

theorem witnessBlock_ok {P : Params} {bw R L pos b : Nat} {rk inp w : Mem Byte} {W : Nat → Nat → Byte}
    {f I : Nat → Byte} (hb : bw = 4 ∨ bw = 6 ∨ bw = 8) (hR : P.R = R + 1)
    (hrk : RkHas rk bw (bw * (P.R + 1)) W) (hi : Has inp (4 * bw * b) (4 * bw) I)
    (hl : w.length = L) (hw : Has w 0 pos f) (hle : pos + 4 * bw * R ≤ L)
    (hf : ∀ j, j < R → ∀ i, i < 4 * bw → f (pos + 4 * bw * j + i) = midState bw W I j i) :
    Ok (witnessBlock P bw rk inp b (w, pos)) (fun s => s.1.length = L ∧ s.2 = pos + 4 * bw * R ∧
      Has s.1 0 (pos + 4 * bw * R) f) := by
  unfold witnessBlock
  refine Ok.bind (loadState_ok (by omega) hi) ?_
  intro st hst
  refine Ok.bind (addRoundKey_ok (by omega) hst (rk_round (by omega) hrk (Nat.zero_le _))) ?_
  intro st hst
  refine Ok.bind (Ok.forR (fun j (s : Mem Byte × Mem Byte × Nat) =>
    StHas s.1 bw (roundState bw W (blockState I) (j - 1)) ∧ s.2.1.length = L ∧
    s.2.2 = pos + 4 * bw * (j - 1) ∧ Has s.2.1 0 (pos + 4 * bw * (j - 1)) f) (lo := 1) (hi := P.R) (by omega)
    ?_ ?_) ?_
  · exact ⟨hst, hl, rfl, hw⟩
  · rintro j hj1 hj2 ⟨st, w, p⟩ ⟨h1, h2, rfl, h4⟩
    simp only at h1 h2 h4 ⊢
    obtain ⟨j, rfl⟩ : ∃ j', j = j' + 1 := ⟨j - 1, by omega⟩
    simp only [Nat.add_sub_cancel] at h1 h4 ⊢
    have hle2 : 4 * bw * j + 4 * bw ≤ 4 * bw * R := em_le (by omega)
    unfold witnessRound
    refine Ok.bind (subBytes_ok (by omega) h1) ?_
    rintro ⟨st2, z⟩ ⟨hs2, -⟩
    refine Ok.bind (shiftRow_ok hb hs2) ?_
    intro st3 hs3
    refine Ok.step (storeState_ok hs3) ?_
    refine Ok.bind (wr_prefix h2 h4 (k := 4 * bw) (by dsimp only; omega) (by omega)
      fun i hi => (hf j (by omega) i hi).symm) ?_
    rintro w2 ⟨hl2, hw2⟩
    refine Ok.bind (mixColumn_ok (by omega) hs3) ?_
    intro st4 hs4
    refine Ok.bind (addRoundKey_ok (by omega) hs4 (rk_round (by omega) hrk (by omega))) ?_
    intro st5 hs5
    rw [Nat.add_assoc] at hw2
    refine Ok.pure ⟨hs5, hl2, ?_, ?_⟩
    · show pos + 4 * bw * j + 4 * bw = pos + 4 * bw * (j + 1)
      rw [Nat.mul_succ, Nat.add_assoc]
    · rw [Nat.mul_succ]; exact hw2
  · rintro ⟨st, w, p⟩ ⟨-, h2, h3, h4⟩
    simp only [hR, Nat.add_sub_cancel] at h2 h3 h4
    exact Ok.pure ⟨h2, h3, h4⟩

theorem witnessSchedule_ok {P : Params} {bw : Nat} {key : Mem Byte} {k : Nat → Byte}
    (hN : P.Nwd = 4 ∨ P.Nwd = 6 ∨ P.Nwd = 8) (hR : P.R = P.Nwd + 6) (hlam : P.lambda = 32 * P.Nwd)
    (hb : bw = 4 ∨ bw = P.Nwd) (hk : Has key 0 (4 * P.Nwd) k) :
    Ok (witnessSchedule P bw key) (fun s => RkHas s.1 bw (bw * (P.R + 1)) (keyWord P.Nwd k)) := by
  have e : witnessSchedule P bw key = expandKey key P.Nwd bw P.R := by
    unfold witnessSchedule
    rw [hlam, hR]
    rcases hN with hN | hN | hN <;> rw [hN] at hb ⊢ <;> rcases hb with rfl | rfl <;> rfl
  rw [e]
  have hle : P.Nwd ≤ bw * (P.R + 1) := by
    have : 4 * (P.R + 1) ≤ bw * (P.R + 1) := Nat.mul_le_mul_right _ (by omega)
    omega
  exact (expandKey_ok hN (by omega) (by omega) hle hk).mono fun s hs => hs.1

theorem witnessKey_aes {P : Params} (h : AesWF P) {rk inp w : Mem Byte} {key x : Nat → Byte} {L : Nat}
    (hrk : RkHas rk 4 (4 * (P.R + 1)) (keyWord P.Nwd key)) (hl : w.length = L) (hL : 4 * P.Nwd + P.Ske ≤ L) :
    Ok (witnessKey P rk inp w) (fun s => s.1.length = L ∧ s.2 = 4 * P.Nwd + P.Ske ∧
      Has s.1 0 (4 * P.Nwd + P.Ske) (witAes P.Nwd P.Ske P.R key x)) := by
  have hN := h.nwd
  have hR := h.R
  have hlam := h.lam
  have hLke := h.Lke
  have hske := h.ske_lt
  have hske4 : P.Ske % 4 = 0 := by have := h.ske; rcases hN with e | e | e <;> rw [e] at this <;> simp_all
  unfold witnessKey
  rw [if_pos (by omega)]
  refine Ok.bind (Ok.forN (fun i (s : Mem Byte × Nat) => s.1.length = L ∧ s.2 = 4 * i ∧
    Has s.1 0 (4 * i) (witAes P.Nwd P.Ske P.R key x)) ?_ ?_) ?_
  · exact ⟨hl, rfl, fun i hi => by omega⟩
  · rintro i hi ⟨w, pos⟩ ⟨h1, rfl, h3⟩
    simp only at h1 h3 ⊢
    have hw : Has rk (rkIdx (i / 4) (i % 4) 0) 4 (keyWord P.Nwd key i) := fun r hr => hrk.2 i (by omega) r hr
    refine Ok.step (rdN_has hw (by decide)) ?_
    refine Ok.bind (wr_prefix h1 h3 (by omega) (by decide) fun r hr => ?_) ?_
    · rw [keyWord_lt hi]
      unfold witAes
      rw [if_pos (by omega)]
    · rintro m ⟨hm1, hm2⟩
      exact Ok.pure ⟨hm1, rfl, hm2⟩
  · rintro ⟨w, pos⟩ ⟨h1, rfl, h3⟩
    simp only at h1 h3 ⊢
    refine Ok.bind (Ok.forN (fun i (s : Mem Byte × Nat × Nat) => s.1.length = L ∧ s.2.1 = 4 * P.Nwd + 4 * i ∧
      s.2.2 = P.Nwd + ksStep P.Nwd * i ∧
      Has s.1 0 (4 * P.Nwd + 4 * i) (witAes P.Nwd P.Ske P.R key x)) ?_ ?_) ?_
    · exact ⟨h1, rfl, rfl, h3⟩
    · rintro i hi ⟨w, pos, ik⟩ ⟨h1, rfl, rfl, h3⟩
      simp only at h1 h3 ⊢
      have hlt : P.Nwd + ksStep P.Nwd * i < 4 * (P.R + 1) := by
        exact h.word_lt (by omega)
      have hw : Has rk (rkIdx ((P.Nwd + ksStep P.Nwd * i) / 4) ((P.Nwd + ksStep P.Nwd * i) % 4) 0) 4
        (keyWord P.Nwd key (P.Nwd + ksStep P.Nwd * i)) := fun r hr => hrk.2 _ hlt r hr
      refine Ok.step (rdN_has hw (by decide)) ?_
      refine Ok.bind (wr_prefix h1 h3 (by omega) (by decide) fun r hr => ?_) ?_
      · unfold witAes
        rw [if_neg (by omega), if_pos (by omega)]
        rw [show 4 * P.Nwd + 4 * i + r - 4 * P.Nwd = 4 * i + r by omega,
          show (4 * i + r) / 4 = i by omega, show (4 * i + r) % 4 = r by omega]
      · rintro m ⟨hm1, hm2⟩
        refine Ok.pure ⟨hm1, ?_, ?_, hm2⟩
        · show 4 * P.Nwd + 4 * i + 4 = _
          omega
        · show P.Nwd + ksStep P.Nwd * i + (if P.lambda = 192 then 6 else 4) = _
          rw [Nat.mul_succ, Nat.add_assoc]
          congr 2
          unfold ksStep
          by_cases h6 : P.Nwd = 6
          · rw [if_pos (by omega), if_pos h6]
          · rw [if_neg (by omega), if_neg h6]
    · rintro ⟨w, pos, ik⟩ ⟨h1, h2, -, h3⟩
      simp only at h1 h2 h3
      rw [show 4 * (P.Ske / 4) = P.Ske by omega] at h2 h3
      exact Ok.pure ⟨h1, h2, h3⟩

theorem aesExtendWitness_aes {P : Params} (h : AesWF P) (h8 : P.l % 8 = 0) {key inp : Mem Byte}
    {k x : Nat → Byte} (hk : Has key 0 (4 * P.Nwd) k) (hx : Has inp 0 (16 * P.beta) x) :
    Ok (aesExtendWitness key inp P) (fun w => w.length = P.l / 8 ∧
      Has w 0 (P.l / 8) (witAes P.Nwd P.Ske P.R k x)) := by
  have hN := h.nwd
  have hR := h.R
  have hlam := h.lam
  have hLke := h.Lke
  have hLenc := h.Lenc
  have hl := h.l
  have hbeta := h.beta
  have hblk : P.beta * P.Lenc = 8 * (16 * (P.R - 1) * P.beta) := by
    rw [hLenc, Nat.mul_comm]; ring
  unfold aesExtendWitness
  rw [if_neg (by omega), if_neg (by omega), h.shape]
  dsimp only
  refine Ok.bind (witnessSchedule_ok hN hR hlam (.inl rfl) hk) ?_
  rintro ⟨rk, z⟩ hrk
  simp only at hrk ⊢
  refine Ok.bind (witnessKey_aes h hrk (L := P.l / 8) (x := x) (by rw [malloc_length]; omega) (by omega)) ?_
  rintro ⟨w, pos⟩ ⟨h1, rfl, h3⟩
  simp only at h1 h3 ⊢
  refine Ok.bind (Ok.forN (fun b (s : Mem Byte × Nat) => s.1.length = P.l / 8 ∧
    s.2 = 4 * P.Nwd + P.Ske + 16 * (P.R - 1) * b ∧
    Has s.1 0 (4 * P.Nwd + P.Ske + 16 * (P.R - 1) * b) (witAes P.Nwd P.Ske P.R k x)) ?_ ?_) ?_
  · exact ⟨h1, rfl, h3⟩
  · rintro b hb ⟨w, pos⟩ ⟨h1, rfl, h3⟩
    simp only at h1 h3 ⊢
    have hle : 16 * (P.R - 1) * b + 16 * (P.R - 1) ≤ 16 * (P.R - 1) * P.beta := by
      rw [← Nat.mul_succ]; exact Nat.mul_le_mul_left _ hb
    refine (witnessBlock_ok (R := P.R - 1) (I := fun i => x (16 * b + i)) (.inl rfl) (by omega) hrk
      (fun i hi => ?_) h1 h3 (by omega) ?_).mono ?_
    · exact hx.rd0 (by omega)
    · intro j hj i hi
      have hji : 16 * j + i < 16 * (P.R - 1) := by omega
      unfold witAes
      rw [if_neg (by omega), if_neg (by omega)]
      dsimp only
      rw [show 4 * P.Nwd + P.Ske + 16 * (P.R - 1) * b + 4 * 4 * j + i - (4 * P.Nwd + P.Ske)
          = 16 * (P.R - 1) * b + (16 * j + i) by omega, Nat.mul_add_div (by omega), Nat.mul_add_mod,
        Nat.div_eq_of_lt hji, Nat.mod_eq_of_lt hji, Nat.add_zero, show (16 * j + i) / 16 = j by omega,
        Nat.mul_assoc, Nat.mul_add_mod, show (16 * j + i) % 16 = i by omega]
    · rintro ⟨w, pos⟩ ⟨h1, h2, h3⟩
      have e : 4 * P.Nwd + P.Ske + 16 * (P.R - 1) * (b + 1)
          = 4 * P.Nwd + P.Ske + 16 * (P.R - 1) * b + 16 * (P.R - 1) := by
        rw [Nat.mul_succ]; omega
      dsimp only at h1 h2 h3 ⊢
      rw [e]
      exact ⟨h1, h2, h3⟩
  · rintro ⟨w, pos⟩ ⟨h1, -, h3⟩
    exact Ok.pure ⟨h1, h3.mono (by omega)⟩

theorem aesExtendWitness_em {P : Params} (h : EmWF P) (h8 : P.l % 8 = 0) {key inp : Mem Byte}
    {k x : Nat → Byte} (hk : Has key 0 (4 * P.Nwd) k) (hx : Has inp 0 (4 * P.Nwd) x) :
    Ok (aesExtendWitness key inp P) (fun w => w.length = P.l / 8 ∧
      Has w 0 (P.l / 8) (witEm P.Nwd k x)) := by
  have hN := h.nwd
  have hR := h.R
  have hlam := h.lam
  have hLenc := h.Lenc
  have hl := h.l
  obtain ⟨m1, m2, m3, m4⟩ := h.mul
  unfold aesExtendWitness
  rw [if_pos h.Lke, if_pos h.Lke, h.shape]
  dsimp only
  refine Ok.bind (witnessSchedule_ok hN hR hlam (.inr rfl) hx) ?_
  rintro ⟨rk, z⟩ hrk
  simp only at hrk ⊢
  refine Ok.bind (P := fun s => s.1.length = P.l / 8 ∧ s.2 = 4 * P.Nwd ∧
    Has s.1 0 (4 * P.Nwd) (witEm P.Nwd k x)) ?_ ?_
  · unfold witnessKey
    rw [if_neg (by have := h.Lke; omega), show P.lambda / 8 = 4 * P.Nwd by omega]
    refine Ok.step (rdN_has hk (by omega)) ?_
    refine Ok.bind (wr_prefix (L := P.l / 8) (pos := 0) (f := witEm P.Nwd k x) (by rw [malloc_length]; omega)
      (fun i hi => by omega) (by omega) (by omega) fun i hi => ?_) ?_
    · unfold witEm
      rw [if_pos (by omega), Nat.zero_add]
    · rintro m ⟨hm1, hm2⟩
      rw [Nat.zero_add] at hm2
      exact Ok.pure ⟨hm1, rfl, hm2⟩
  rintro ⟨w, pos⟩ ⟨h1, rfl, h3⟩
  simp only at h1 h3 ⊢
  refine Ok.bind (P := fun s => s.1.length = P.l / 8 ∧ Has s.1 0 (P.l / 8) (witEm P.Nwd k x)) ?_ ?_
  · rw [show (1 : Nat) = 0 + 1 from rfl, forN_succ]
    refine Ok.bind (P := fun s => s = (w, 4 * P.Nwd)) (Ok.of_eq (forN_zero _ _) rfl) ?_
    rintro s rfl
    refine (witnessBlock_ok (R := P.R - 1) (I := k) (L := P.l / 8) (f := witEm P.Nwd k x) hN (by omega) hrk
      (fun i hi => ?_) h1 h3 (by omega) ?_).mono ?_
    · rw [Nat.mul_zero]; exact hk i hi
    · intro j hj i hi
      unfold witEm
      rw [if_neg (by omega), show 4 * P.Nwd + 4 * P.Nwd * j + i - 4 * P.Nwd = 4 * P.Nwd * j + i by omega,
        Nat.mul_add_div (by omega), Nat.mul_add_mod, Nat.div_eq_of_lt hi, Nat.mod_eq_of_lt hi, Nat.add_zero]
    · rintro ⟨w, pos⟩ ⟨h1, -, h3⟩
      exact ⟨h1, h3.mono (by omega)⟩
  · rintro ⟨w, pos⟩ ⟨h1, h3⟩
    exact Ok.pure ⟨h1, h3⟩

/-- `aes_extend_witness` for every parameter set. -/
theorem aesExtendWitness_ok (i : ParamId) {key inp : Mem Byte} {k x : Nat → Byte}
    (hk : Has key 0 ((params i).lambda / 8) k) (hx : Has inp 0 ((params i).pkSize / 2) x) :
    Ok (aesExtendWitness key inp (params i)) (fun w => w.length = (params i).l / 8 ∧
      Has w 0 ((params i).l / 8) (witness (params i) k x)) := by
  rw [params_pk] at hx
  unfold witness
  by_cases hk0 : (params i).Lke = 0
  · rw [if_pos hk0] at hx ⊢
    have h := params_em i hk0
    have := h.lam
    exact aesExtendWitness_em h (params_wf i).l8 (hk.mono (by omega)) hx
  · rw [if_neg hk0] at hx ⊢
    have h := params_aes i hk0
    have := h.lam
    exact aesExtendWitness_aes h (params_wf i).l8 (hk.mono (by omega)) hx

end Faest
