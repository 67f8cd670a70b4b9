/-
`aes_prove` and `aes_verify` compute hashes of the lists of constraint values.
-/
import Verif.Proofs.ConLinear
import Verif.Proofs.VoleCorr

namespace Faest
open Spec (ksStep liftKey keyCell ksS ksSd ksSB ksOutB conA0 conA1 conB encS encSd encOutB byteL emKey
  conCount conIn conOut bitsL listA0 listA1 listB rowF polyAt zkHash strBit colStart depth leafIdx)

variable {n : Nat}

/-! ### Even-Mansour constraints -/

theorem encS_congr {Nb : Nat} {two three : BF n} {I I' K K' X X' : Nat → BF n} (hI : ∀ b, I b = I' b)
    (hK : ∀ b, K b = K' b) (hX : ∀ b, X b = X' b) (p : Nat) :
    encS Nb two three I K X p = encS Nb two three I' K' X' p := by
  rw [funext hI, funext hK, funext hX]

theorem byteL_bits_off (w : Nat → Byte) (o b : Nat) :
    byteL (fun i => bitsL n w (8 * o + i)) b = BF.emb n (w (o + b)) := by
  rw [← byteL_bits]
  unfold byteL
  refine bc_congr fun i _ => ?_
  show bitsL n w (8 * o + (8 * b + i)) = _
  rw [show 8 * o + (8 * b + i) = 8 * (o + b) + i by omega]

theorem byteL_one (K : Nat → Byte) (b : Nat) :
    byteL (fun i => (1 : BF n) * BF.bitF n (bitOf K i)) b = BF.emb n (K b) := by
  rw [← byteL_bits]
  unfold byteL
  refine bc_congr fun i _ => ?_
  exact one_mul _

theorem emConstraints0_ok {P : Params} (h : EmWF P) (hl : BF.LamSize n) {out x w : Mem Byte}
    {v : Mem (BF n)} {W O I : Nat → Byte} {X : Nat → BF n}
    (hw : Has w 0 (P.l / 8) W) (hx : Has x 0 (4 * P.Nwd * (P.R + 1)) (emKey P.Nwd I))
    (hv : Has v 0 P.l X) (ho : Has out 0 (4 * P.Nwd) O)
    {sdf : Nat → Byte} {c : ZkCtx n × ZkCtx n} (hc0 : ZkOk sdf [] c.1) (hc1 : ZkOk sdf [] c.2) :
    Ok (emConstraints0 P out x w v c) (fun c =>
      ZkOk sdf (listA0 P I O X) c.1 ∧ ZkOk sdf (listA1 P I O W X) c.2) := by
  have h64 : 64 ≤ n := by rcases hl with rfl | rfl | rfl <;> decide
  have hN := h.nwd
  have hR := h.R
  have hlam := h.lam
  have hL := h.l
  have hLe := h.Lenc
  obtain ⟨m1, m2, m3, m4⟩ := h.mul
  have hw' : Has w 0 (4 * P.Nwd * P.R) W := hw.mono (by omega)
  have hv' : Has v 0 (32 * P.Nwd * P.R) X := hv.mono (by omega)
  unfold emConstraints0
  refine Ok.step (xorArr_ok (n := P.lambda / 8) (ho.mono (by omega)) (hw.mono (by omega))) ?_
  refine Ok.bind (emForward1_ok h hl hw' hx) ?_
  intro s hs
  refine Ok.bind (emForward_ok h hl hv' KeyArg.none) ?_
  intro vs hvs
  refine Ok.bind (emBackward1_ok h hl hw' hx ((has_tabP _ _).mono (by omega))) ?_
  intro sd hsd
  refine Ok.bind (emBackward_ok h hl hv' KeyArg.none (hv.mono (by omega)) Mode.tag) ?_
  intro vsd hvsd
  have hcnt : conCount P = P.Senc := by unfold conCount; rw [h.ske, h.beta, Nat.one_mul, Nat.zero_add]
  have e0 : ∀ p, encS P.Nwd (BF.emb n 2) (BF.emb n 3) (byteL X) (byteL fun _ => 0)
      (fun b => byteL X (4 * P.Nwd + b)) p = conIn P I 0 X p := by
    intro p
    unfold conIn
    rw [if_pos h.Lke]
    refine encS_congr (fun _ => rfl) (fun b => ?_) (fun _ => rfl) p
    congr 1; funext i; rw [zero_mul]
  have e1 : ∀ p, encSd P.Nwd P.R 0 (fun b => X (32 * P.Nwd + b)) X (fun _ => 0) p = conOut P I O 0 X p := by
    intro p
    unfold conOut
    rw [if_pos h.Lke]
    congr 1
    · funext i; rw [zero_mul, zero_add]
    · funext i; rw [zero_mul]
  have e2 : ∀ p, encS P.Nwd (BF.emb n 2) (BF.emb n 3) (fun b => BF.emb n (W b))
      (fun b => BF.emb n (emKey P.Nwd I b)) (fun b => BF.emb n (W (4 * P.Nwd + b))) p
        = conIn P I 1 (bitsL n W) p := by
    intro p
    unfold conIn
    rw [if_pos h.Lke]
    exact encS_congr (fun b => (byteL_bits W b).symm) (fun b => (byteL_one _ b).symm)
      (fun b => (byteL_bits W _).symm) p
  have e3 : ∀ p, BF.emb n (invAffineByte (encOutB P.Nwd P.R (fun b => W (4 * P.Nwd + b))
      (fun i => O i ^^^ W i) (emKey P.Nwd I) p)) = conOut P I O 1 (bitsL n W) p := by
    intro p
    unfold conOut
    rw [if_pos h.Lke]
    refine (encSd_bits _ _ (fun b i hi => ?_) (fun b i hi => ?_) (fun b i hi => ?_) p).symm
    · unfold bitsL
      rw [show 32 * P.Nwd + (8 * b + i) = 8 * (4 * P.Nwd + b) + i by omega, bitOf_byte hi]
    · unfold bitsL
      rw [bitOf_byte hi, bitOf_byte hi, one_mul, bitF_xor_byte]
    · rw [bitOf_byte hi, one_mul]
  have := hashLoop0_ok h64 hs hvs hsd hvsd hc0 hc1
  simp only [e0, e1, e2, e3, List.nil_append] at this
  unfold listA0 listA1
  rw [hcnt]
  exact this

theorem emConstraints1_ok {P : Params} (h : EmWF P) (hl : BF.LamSize n) {out x δ : Mem Byte}
    {q : Mem (BF n)} {O I df : Nat → Byte} {X : Nat → BF n}
    (hx : Has x 0 (4 * P.Nwd * (P.R + 1)) (emKey P.Nwd I))
    (hq : Has q 0 P.l X) (ho : Has out 0 (4 * P.Nwd) O) (hd : Has δ 0 (n / 8) df)
    {sdf : Nat → Byte} {c : ZkCtx n} (hc : ZkOk sdf [] c) :
    Ok (emConstraints1 P out x q δ c) (fun c => ZkOk sdf (listB P I O (loadF n df) X) c) := by
  have h64 : 64 ≤ n := by rcases hl with rfl | rfl | rfl <;> decide
  have hN := h.nwd
  have hR := h.R
  have hlam := h.lam
  have hL := h.l
  have hLe := h.Lenc
  obtain ⟨m1, m2, m3, m4⟩ := h.mul
  have m5 : 4 * P.Nwd * (P.R + 1) = 4 * P.Nwd * P.R + 4 * P.Nwd := Nat.mul_succ _ _
  have hq' : Has q 0 (32 * P.Nwd * P.R) X := hq.mono (by omega)
  have hbit : ∀ {m : Mem Byte} {L : Nat} {g : Nat → Byte}, Has m 0 L g → ∀ {i}, i < 8 * L →
      ∀ {β : Type} (f : Byte → Option β), (ptrGetBit m i >>= f) = f (getBit (g (i / 8)) (i % 8)) := by
    intro m L g hm i hi β f
    unfold ptrGetBit
    rw [hm.rd0 (by omega)]
    rfl
  unfold emConstraints1
  refine Ok.step (bfLoad_ok (by omega) hd) ?_
  refine Ok.step (fill_eq (g := fun i => loadF n df * BF.bitF n (bitOf (emKey P.Nwd I) i)) fun i hi => ?_) ?_
  · rw [hbit hx (by omega)]
    show some (bfMulBit _ (getBit _ _)) = _
    rw [mulBit_getBit]; rfl
  refine Ok.step (fill_eq (g := fun i => loadF n df * BF.bitF n (bitOf O i) + X i) fun i hi => ?_) ?_
  · rw [hbit ho (by omega), hq.rd0 (by omega)]
    show some (bfMulBit _ (getBit _ _) + _) = _
    rw [mulBit_getBit]; rfl
  refine Ok.bind (emForward_ok h hl hq' (KeyArg.some _ _ ((has_full _ _).mono (by omega)))) ?_
  intro qs hqs
  refine Ok.bind (emBackward_ok h hl hq' (KeyArg.some _ _ ((has_full _ _).mono (by omega)))
    ((has_full _ _).mono (by omega)) (Mode.key δ df hd)) ?_
  intro qsd hqsd
  have hcnt : conCount P = P.Senc := by unfold conCount; rw [h.ske, h.beta, Nat.one_mul, Nat.zero_add]
  have := hashLoop1_ok (d := loadF n df) h64 hqs hqsd hc
  refine this.mono fun c hc => ?_
  unfold listB
  rw [hcnt]
  unfold conIn conOut
  simp only [if_pos h.Lke]
  exact hc

/-! ### Matrix transposition and correction -/

theorem or_shift_bit (x : Byte) (b : Bool) (k j : Nat) :
    (x ||| (BitVec.ofNat 8 (if b then 1 else 0) <<< k)).getLsbD j
      = (x.getLsbD j || (decide (j < 8) && decide (j = k) && b)) := by
  rw [BitVec.getLsbD_or, BitVec.getLsbD_shiftLeft]
  congr 1
  by_cases h8 : j < 8
  · by_cases hk : j < k
    · simp [hk, show j ≠ k by omega]
    · simp only [h8, hk, decide_true, decide_false, Bool.not_false, Bool.true_and]
      cases b
      · simp
      · by_cases hjk : j = k
        · subst hjk; simp
        · simp only [if_true, hjk, decide_false, Bool.false_and]
          rw [BitVec.getLsbD_ofNat]
          have : Nat.testBit 1 (j - k) = false := by
            by_contra hc
            rw [Bool.not_eq_false, Nat.testBit_one_eq_true_iff_self_eq_zero] at hc
            omega
          rw [this, Bool.and_false]
  · simp [h8]

theorem columnToRowMajor_ok (hl : BF.LamSize n) {V : Mem (List Byte)} {L ell : Nat}
    {col : Nat → Nat → Byte} (hV : ∀ c, c < n → rd V c = some (tabP L (col c))) (hL : ell + n ≤ 8 * L) :
    columnToRowMajor n V ell = some (full (ell + n) (rowF n col)) := by
  have h8 : 8 ∣ n := by rcases hl with rfl | rfl | rfl <;> decide
  have hn8 : 8 ≤ n := by rcases hl with rfl | rfl | rfl <;> decide
  unfold columnToRowMajor
  refine fill_eq fun row hrow => ?_
  obtain ⟨nr, e1, hlen, g, hg, hb⟩ : Ok (forN n (calloc (n / 8) 0) (fun column nr => do
      let col ← rd V column
      let b ← ptrGetBit (ofList col) row
      ptrSetBit nr b column)) (fun nr => nr.length = n / 8 ∧ ∃ g, Has nr 0 (n / 8) g ∧
        ∀ k, k < n → bitOf g k = (decide (k < n) && bitOf (col k) row)) := by
    refine Ok.forN (fun c (nr : Mem Byte) => nr.length = n / 8 ∧ ∃ g, Has nr 0 (n / 8) g ∧
        ∀ k, k < n → bitOf g k = (decide (k < c) && bitOf (col k) row)) ?_ ?_
    · refine ⟨by simp, fun _ => 0, fun i hi => rd_calloc (by omega), fun k _ => ?_⟩
      unfold bitOf; simp
    · rintro c hc nr ⟨hlen, g, hg, hb⟩
      refine Ok.step (hV c hc) ?_
      refine Ok.step (ptrGetBit_ok (has_tabP L (col c)) (by omega)) ?_
      unfold ptrSetBit
      refine Ok.step (hg.rd0 (by omega)) ?_
      refine Ok.wr (by omega) ?_
      intro m hl' hm
      refine ⟨by omega, fun i => if i = c / 8 then g (c / 8) |||
        (BitVec.ofNat 8 (if strBit (col c) row then 1 else 0) <<< (c % 8)) else g i, ?_, ?_⟩
      · intro i hi
        rw [Nat.zero_add, hm]
        beta_reduce
        by_cases h1 : i = c / 8
        · rw [if_pos h1, if_pos h1]
        · rw [if_neg h1, if_neg h1, hg.rd0 hi]
      · intro k hk
        unfold bitOf
        beta_reduce
        by_cases h1 : k / 8 = c / 8
        · rw [if_pos h1, or_shift_bit, ← h1]
          have := hb k hk
          unfold bitOf at this
          rw [this]
          by_cases h2 : k = c
          · subst h2
            have hmod : k % 8 < 8 := Nat.mod_lt _ (by decide)
            simp only [Nat.lt_irrefl, decide_false, Bool.false_and, Bool.false_or, hmod, decide_true,
              Bool.true_and, Nat.lt_succ_self]
            rfl
          · have h3 : k % 8 ≠ c % 8 := by omega
            simp only [h3, decide_false, Bool.and_false, Bool.false_and, Bool.or_false]
            congr 1
            simp only [decide_eq_decide]; omega
        · rw [if_neg h1]
          have := hb k hk
          unfold bitOf at this
          rw [this]
          congr 1
          simp only [decide_eq_decide]; omega
  refine Eq.trans (b := bfLoad n nr 0) (by rw [e1]; rfl) ?_
  rw [bfLoad_ok hn8 hg, loadF_eq_sum h8 (by omega)]
  unfold rowF
  congr 1
  refine Finset.sum_congr rfl fun i hi => ?_
  have hi := Finset.mem_range.1 hi
  rw [hb i hi, decide_eq_true hi, Bool.true_and]

/-- The correction of column `p` by `d` on the first `nb` bytes. -/
def corrCol (ch d : Nat → Byte) (nb : Nat) (qf : Nat → Nat → Byte) (p t : Nat) : Byte :=
  if strBit ch p ∧ t < nb then d t ^^^ qf p t else qf p t

theorem xor_prefix {L nb : Nat} (h : nb ≤ L) (d q : Nat → Byte) :
    tabP nb (fun i => d i ^^^ q i) ++ (tabP L q).drop nb
      = tabP L (fun t => if t < nb then d t ^^^ q t else q t) := by
  obtain ⟨k, rfl⟩ : ∃ k, L = nb + k := ⟨L - nb, by omega⟩
  rw [tabP_add nb k q, List.drop_left' (by simp), tabP_add nb k]
  congr 1
  · refine tabP_congr fun i hi => ?_
    rw [if_pos hi]
  · refine tabP_congr fun i hi => ?_
    rw [if_neg (by omega)]

theorem correctQ_ok {P : Params} (h : PWF P) {d chall : Mem Byte} {Q : Mem (List Byte)} {nb L : Nat}
    {df ch : Nat → Byte} {qf : Nat → Nat → Byte} (hd : Has d 0 nb df) (hc : Has chall 0 (P.lambda / 8) ch)
    (hQ : ∀ p, p < P.lambda → rd Q p = some (tabP L (qf p))) (hnb : nb ≤ L) :
    Ok (correctQ P d chall nb Q) (fun Q' => ∀ p, p < P.lambda →
      rd Q' p = some (tabP L (corrCol ch df nb qf p))) := by
  unfold correctQ
  refine Ok.bind (Ok.forN (fun i (s : Mem (List Byte) × Nat) => s.2 = colStart P i ∧
    ∀ p, p < P.lambda → rd s.1 p = some (tabP L (if p < colStart P i then corrCol ch df nb qf p else qf p)))
    ?_ ?_) ?_
  · refine ⟨PWF.colStart_zero.symm, fun p hp => ?_⟩
    rw [if_neg (by rw [PWF.colStart_zero]; omega)]
    exact hQ p hp
  · rintro i hi ⟨Q, pos⟩ ⟨rfl, hQ⟩
    simp only at hQ ⊢
    refine Ok.bind (chalDec_ok h hc hi (by simp [MAX_DEPTH])) ?_
    rintro ⟨ret, dec⟩ ⟨_, _, hdec⟩
    simp only at hdec ⊢
    rw [PWF.colStart_succ]
    have hdep : (if i < P.t0 then P.k0 else P.k1) = depth P i := rfl
    rw [hdep]
    refine Ok.forN (fun j (s : Mem (List Byte) × Nat) => s.2 = colStart P i + j ∧
      ∀ p, p < P.lambda → rd s.1 p = some (tabP L (if p < colStart P i + j then corrCol ch df nb qf p else qf p)))
      ?_ ?_
    · exact ⟨rfl, hQ⟩
    · rintro j hj ⟨Q, pos⟩ ⟨rfl, hQ⟩
      simp only at hQ ⊢
      have hlt := h.col_lt hi hj
      have hthis := hQ _ hlt
      rw [if_neg (by omega)] at hthis
      have hbit := hdec.2 j hj
      rw [leafIdx_bit hj] at hbit
      cases hsb : strBit ch (colStart P i + j) with
      | true =>
        rw [hsb, if_pos rfl] at hbit
        refine Ok.step hbit ?_
        rw [if_pos (by decide)]
        refine Ok.step hthis ?_
        refine Ok.step (xorArr_ok hd ((has_tabP L _).mono hnb)) ?_
        rw [xor_prefix hnb]
        refine Ok.bind (Ok.wr (Q := fun m => ∀ p, p < P.lambda → rd m p = some (tabP L
          (if p < colStart P i + (j + 1) then corrCol ch df nb qf p else qf p))) (rd_lt hthis) ?_) ?_
        · intro m hlm hm p hp
          rw [hm]
          by_cases hpe : p = colStart P i + j
          · rw [if_pos hpe, if_pos (by omega)]
            congr 2
            funext t
            subst hpe
            unfold corrCol
            rw [hsb]
            by_cases ht : t < nb
            · rw [if_pos ht, if_pos ⟨rfl, ht⟩]
            · rw [if_neg ht, if_neg (fun hh => ht hh.2)]
          · rw [if_neg hpe, hQ p hp]
            by_cases hp2 : p < colStart P i + j
            · rw [if_pos hp2, if_pos (by omega)]
            · rw [if_neg hp2, if_neg (by omega)]
        · intro m hm
          exact Ok.pure ⟨rfl, hm⟩
      | false =>
        rw [hsb, if_neg (by simp)] at hbit
        refine Ok.step hbit ?_
        rw [if_neg (by decide)]
        refine Ok.pure ⟨rfl, fun p hp => ?_⟩
        show rd Q p = _
        rw [hQ p hp]
        by_cases hpe : p = colStart P i + j
        · rw [if_neg (by omega), if_pos (by omega)]
          congr 2
          funext t
          subst hpe
          unfold corrCol
          rw [hsb, if_neg (by simp)]
        · by_cases hp2 : p < colStart P i + j
          · rw [if_pos hp2, if_pos (by omega)]
          · rw [if_neg hp2, if_neg (by omega)]
  · rintro ⟨Q, pos⟩ ⟨_, hQ⟩
    refine Ok.pure fun p hp => ?_
    have := hQ p hp
    rw [h.colStart_tau, if_pos hp] at this
    exact this

/-! ### The expanded public key of the Even-Mansour variants -/

theorem emExpand_ok {P : Params} (h : EmWF P) {inp : Mem Byte} {I : Nat → Byte} {size : Nat}
    (hi : Has inp 0 (4 * P.Nwd) I) (hs : 4 * P.Nwd * (P.R + 1) ≤ size) :
    Ok (emExpand P inp size) (fun x => Has x 0 (4 * P.Nwd * (P.R + 1)) (emKey P.Nwd I)) := by
  have hN := h.nwd
  have hR := h.R
  have hlam := h.lam
  obtain ⟨⟨rk, z⟩, e1, hrk, -⟩ : Ok (expandKey inp P.Nwd P.Nwd P.R) (fun s =>
      RkHas s.1 P.Nwd (P.Nwd * (P.R + 1)) (Spec.keyWord P.Nwd I) ∧ True) :=
    (expandKey_ok hN hN (by omega) (Nat.le_mul_of_pos_right _ (by omega)) hi).mono fun s hs => ⟨hs.1, trivial⟩
  have e2 : emSchedule P inp = some (rk, z) := by
    rw [← e1, hR]
    unfold emSchedule
    rcases hN with hN | hN | hN <;> rw [hN] at hlam ⊢ <;> rw [hlam] <;> rfl
  unfold emExpand
  refine Ok.step e2 ?_
  refine Ok.bind (Ok.forN (fun r (s : Mem Byte × Nat) => s.1.length = size ∧ s.2 = 4 * P.Nwd * r ∧
    Has s.1 0 (4 * P.Nwd * r) (emKey P.Nwd I)) ?_ ?_) ?_
  · exact ⟨by simp, by simp, fun i hi => by omega⟩
  · rintro r hr ⟨x, pos⟩ ⟨h1, rfl, h3⟩
    simp only at h1 h3 ⊢
    have hle := em_le (Nwd := P.Nwd) hr
    refine (Ok.forN (fun i (s : Mem Byte × Nat) => s.1.length = size ∧ s.2 = 4 * P.Nwd * r + 4 * i ∧
      Has s.1 0 (4 * P.Nwd * r + 4 * i) (emKey P.Nwd I)) ?_ ?_).mono ?_
    · exact ⟨h1, rfl, h3⟩
    · rintro i hi ⟨x, pos⟩ ⟨h1, rfl, h3⟩
      simp only at h1 h3 ⊢
      have hw : Has rk (rkIdx r i 0) 4 (Spec.keyWord P.Nwd I (P.Nwd * r + i)) :=
        fun k hk => rk_round (by omega) hrk (by omega) i hi k hk
      refine Ok.step (rdN_has hw (by decide)) ?_
      refine Ok.bind (Ok.wrN (Q := fun m => m.length = size ∧
        Has m 0 (4 * P.Nwd * r + 4 * (i + 1)) (emKey P.Nwd I)) (by rw [tabP_length]; omega) ?_) ?_
      · intro m hl hm
        refine ⟨by omega, fun k hk => ?_⟩
        rw [Nat.zero_add, hm]
        by_cases hlt : k < 4 * P.Nwd * r + 4 * i
        · rw [if_neg (by omega), h3.rd0 hlt]
        · rw [if_pos (by rw [tabP_length]; omega), tabP_getElem?, if_pos (by omega)]
          unfold emKey
          have e : 4 * P.Nwd * r = 4 * (P.Nwd * r) := Nat.mul_assoc _ _ _
          rw [e] at hk hlt ⊢
          congr 2 <;> omega
      · rintro m ⟨hl, hm⟩
        exact Ok.pure ⟨hl, by dsimp only; omega, hm⟩
    · rintro ⟨x, pos⟩ ⟨h1, h2, h3⟩
      have e : 4 * P.Nwd * (r + 1) = 4 * P.Nwd * r + 4 * P.Nwd := Nat.mul_succ _ _
      rw [e]
      exact ⟨h1, h2, h3⟩
  · rintro ⟨x, pos⟩ ⟨_, _, h3⟩
    exact Ok.pure h3

/-! ### AES constraints -/

section aes
variable {P : Params} (h : AesWF P)
include h

theorem conIn_ks (I : Nat → Byte) (one : BF n) (x : Nat → BF n) {p : Nat} (hp : p < P.Ske) :
    conIn P I one x p = ksS P.Nwd x p := by
  have := h.Lke
  have := h.lam
  have := h.nwd
  unfold conIn
  rw [if_neg (by omega), if_pos hp]

theorem conOut_ks (I O : Nat → Byte) (one : BF n) (x : Nat → BF n) {p : Nat} (hp : p < P.Ske) :
    conOut P I O one x p = ksSd P.Nwd one x p := by
  have := h.Lke
  have := h.lam
  have := h.nwd
  unfold conOut
  rw [if_neg (by omega), if_pos hp]

theorem conIn_enc (I : Nat → Byte) (one : BF n) (x : Nat → BF n) (b : Nat) {p : Nat} (hp : p < P.Senc) :
    conIn P I one x (P.Ske + (P.Senc * b + p)) = encS 4 (BF.emb n 2) (BF.emb n 3)
      (fun c => one * BF.emb n (I (16 * b + c))) (byteL (keyCell (· + ·) 32 P.Nwd x))
      (byteL fun i => x (P.Lke + P.Lenc * b + i)) p := by
  have := h.Lke
  have := h.lam
  have := h.nwd
  unfold conIn
  rw [if_neg (by omega), if_neg (by omega), Nat.add_sub_cancel_left, Nat.mul_add_div (by omega),
    Nat.mul_add_mod, Nat.div_eq_of_lt hp, Nat.mod_eq_of_lt hp, Nat.add_zero]

theorem conOut_enc (I O : Nat → Byte) (one : BF n) (x : Nat → BF n) (b : Nat) {p : Nat} (hp : p < P.Senc) :
    conOut P I O one x (P.Ske + (P.Senc * b + p)) = encSd 4 P.R one (fun i => x (P.Lke + P.Lenc * b + i))
      (fun i => one * BF.bitF n (bitOf (fun c => O (16 * b + c)) i)) (keyCell (· + ·) 32 P.Nwd x) p := by
  have := h.Lke
  have := h.lam
  have := h.nwd
  unfold conOut
  rw [if_neg (by omega), if_neg (by omega), Nat.add_sub_cancel_left, Nat.mul_add_div (by omega),
    Nat.mul_add_mod, Nat.div_eq_of_lt hp, Nat.mod_eq_of_lt hp, Nat.add_zero]

/-- A list over all S-boxes is the list of the key schedule followed by those of the blocks. -/
theorem con_split {α : Type} (f : Nat → α) : tabP (conCount P) f =
    tabP P.Ske f ++ tabP P.Senc (fun p => f (P.Ske + (P.Senc * 0 + p)))
      ++ (if P.beta = 2 then tabP P.Senc (fun p => f (P.Ske + (P.Senc * 1 + p))) else []) := by
  unfold conCount
  rcases h.beta with hb | hb
  · rw [hb, if_neg (by decide), List.append_nil, Nat.one_mul, tabP_add]
    congr 1
    refine tabP_congr fun i _ => ?_
    rw [Nat.mul_zero, Nat.zero_add]
  · rw [hb, if_pos rfl, Nat.two_mul, tabP_add, tabP_add, List.append_assoc]
    congr 2
    · refine tabP_congr fun i _ => ?_
      rw [Nat.mul_zero, Nat.zero_add]
    · refine tabP_congr fun i _ => ?_
      rw [Nat.mul_one]

theorem block_bytes {b : Nat} (w : Nat → Byte) (c : Nat) :
    byteL (fun i => bitsL n w (P.Lke + P.Lenc * b + i)) c = BF.emb n (w (P.Lke / 8 + P.Lenc / 8 * b + c)) := by
  have h1 := h.Lke
  have h2 := h.lam
  have h3 := h.Lenc
  have e : P.Lke + P.Lenc * b = 8 * (P.Lke / 8 + P.Lenc / 8 * b) := by
    rw [Nat.mul_add, ← Nat.mul_assoc, Nat.mul_div_cancel' (by omega), Nat.mul_div_cancel' (by omega)]
  rw [e, byteL_bits_off]

/-- The constraints of block `b` on the prover's side. -/
theorem encBlock0_ok (hl : BF.LamSize n) {w k inp out : Mem Byte} {v vk : Mem (BF n)} {b wo vo : Nat}
    {wf I O : Nat → Byte} {x : Nat → BF n} (hb : b < P.beta) (hwo : wo = P.Lke / 8 + P.Lenc / 8 * b)
    (hvo : vo = P.Lke + P.Lenc * b)
    (hw : Has w 0 (P.l / 8) wf) (hk : Has k 0 ((P.R + 1) * 16) (keyCell (· ^^^ ·) 4 P.Nwd wf))
    (hv : Has v 0 P.l x) (hvk : Has vk 0 ((P.R + 1) * 128) (keyCell (· + ·) 32 P.Nwd x))
    (hi : Has inp 0 (16 * P.beta) I) (ho : Has out 0 (16 * P.beta) O)
    {sdf : Nat → Byte} {ys0 ys1 : List (BF n)} {c : ZkCtx n × ZkCtx n}
    (hc0 : ZkOk sdf ys0 c.1) (hc1 : ZkOk sdf ys1 c.2) :
    Ok (encConstraints0 P inp (16 * b) out (16 * b) w wo v vo k vk c) (fun c =>
      ZkOk sdf (ys0 ++ tabP P.Senc (fun p => conA0 (conIn P I 0 x (P.Ske + (P.Senc * b + p)))
        (conOut P I O 0 x (P.Ske + (P.Senc * b + p))))) c.1 ∧
      ZkOk sdf (ys1 ++ tabP P.Senc (fun p => conA1 (conIn P I 1 (bitsL n wf) (P.Ske + (P.Senc * b + p)))
        (conIn P I 0 x (P.Ske + (P.Senc * b + p)))
        (conOut P I O 1 (bitsL n wf) (P.Ske + (P.Senc * b + p)))
        (conOut P I O 0 x (P.Ske + (P.Senc * b + p))))) c.2) := by
  have h1 := h.Lke
  have h2 := h.lam
  have h3 := h.Lenc
  have h4 := h.l
  have h5 : P.Lenc * b + P.Lenc ≤ P.beta * P.Lenc := by
    rw [← Nat.mul_succ, Nat.mul_comm]; exact Nat.mul_le_mul_right _ hb
  have h6 : P.Lenc / 8 * b + P.Lenc / 8 ≤ P.beta * P.Lenc / 8 := by
    have := Nat.mul_div_cancel' (n := 8) (m := P.Lenc) (by omega)
    have e : 8 * (P.Lenc / 8 * b) = P.Lenc * b := by rw [← Nat.mul_assoc, this]
    omega
  subst hwo hvo
  refine (encConstraints0_ok h hl (W := fun i => wf (P.Lke / 8 + P.Lenc / 8 * b + i))
    (X := fun i => x (P.Lke + P.Lenc * b + i)) (I := fun c => I (16 * b + c)) (O := fun c => O (16 * b + c))
    (fun i hi => hw.rd0 (by omega)) hk (fun i hi => hv.rd0 (by omega)) hvk
    (fun i hi' => hi.rd0 (by omega)) (fun i hi' => ho.rd0 (by omega)) hc0 hc1).mono ?_
  rintro c ⟨hc0, hc1⟩
  have e1 : ∀ p, p < P.Senc → encS 4 (BF.emb n 2) (BF.emb n 3) (fun c => BF.emb n (I (16 * b + c)))
      (fun c => BF.emb n (keyCell (· ^^^ ·) 4 P.Nwd wf c))
      (fun c => BF.emb n (wf (P.Lke / 8 + P.Lenc / 8 * b + c))) p
        = conIn P I 1 (bitsL n wf) (P.Ske + (P.Senc * b + p)) := by
    intro p hp
    rw [conIn_enc h _ _ _ _ hp]
    refine encS_congr (fun c => (one_mul _).symm) (fun c => ?_) (fun c => (block_bytes h wf c).symm) p
    exact (bc_bits fun i hi => keyCell_bits wf _ hi).symm
  have e2 : ∀ p, p < P.Senc → BF.emb n (invAffineByte (encOutB 4 P.R
      (fun i => wf (P.Lke / 8 + P.Lenc / 8 * b + i)) (fun c => O (16 * b + c))
      (keyCell (· ^^^ ·) 4 P.Nwd wf) p)) = conOut P I O 1 (bitsL n wf) (P.Ske + (P.Senc * b + p)) := by
    intro p hp
    rw [conOut_enc h _ _ _ _ _ hp]
    refine (encSd_bits _ _ (fun c i hi => ?_) (fun c i hi => ?_) (fun c i hi => keyCell_bits wf c hi) p).symm
    · have e : P.Lke + P.Lenc * b = 8 * (P.Lke / 8 + P.Lenc / 8 * b) := by
        rw [Nat.mul_add, ← Nat.mul_assoc, Nat.mul_div_cancel' (by omega), Nat.mul_div_cancel' (by omega)]
      unfold bitsL
      rw [e, ← Nat.add_assoc, ← Nat.mul_add, bitOf_byte hi]
    · rw [bitOf_byte hi, one_mul]
  constructor
  · rw [tabP_congr (h := fun p => conA0 (encS 4 (BF.emb n 2) (BF.emb n 3)
      (fun c => 0 * BF.emb n (I (16 * b + c))) (byteL (keyCell (· + ·) 32 P.Nwd x))
      (byteL fun i => x (P.Lke + P.Lenc * b + i)) p) (encSd 4 P.R 0 (fun i => x (P.Lke + P.Lenc * b + i))
      (fun i => 0 * BF.bitF n (bitOf (fun c => O (16 * b + c)) i)) (keyCell (· + ·) 32 P.Nwd x) p))]
    · exact hc0
    · intro p hp
      rw [conIn_enc h _ _ _ _ hp, conOut_enc h _ _ _ _ _ hp]
  · rw [tabP_congr (g := fun p => conA1 (conIn P I 1 (bitsL n wf) (P.Ske + (P.Senc * b + p))) _ _ _)]
    · exact hc1
    · intro p hp
      rw [← e1 p hp, ← e2 p hp, conIn_enc h _ _ _ _ hp, conOut_enc h _ _ _ _ _ hp]

/-- The constraints of block `b` on the verifier's side. -/
theorem encBlock1_ok (hl : BF.LamSize n) {inp out δ : Mem Byte} {q qk : Mem (BF n)} {b qo : Nat}
    {I O df : Nat → Byte} {x : Nat → BF n} (hb : b < P.beta) (hqo : qo = P.Lke + P.Lenc * b)
    (hq : Has q 0 P.l x) (hqk : Has qk 0 ((P.R + 1) * 128) (keyCell (· + ·) 32 P.Nwd x))
    (hi : Has inp 0 (16 * P.beta) I) (ho : Has out 0 (16 * P.beta) O) (hd : Has δ 0 (n / 8) df)
    {sdf : Nat → Byte} {ys : List (BF n)} {c : ZkCtx n} (hc : ZkOk sdf ys c) :
    Ok (encConstraints1 P inp (16 * b) out (16 * b) q qo qk δ c) (fun c =>
      ZkOk sdf (ys ++ tabP P.Senc (fun p => conB (loadF n df)
        (conIn P I (loadF n df) x (P.Ske + (P.Senc * b + p)))
        (conOut P I O (loadF n df) x (P.Ske + (P.Senc * b + p))))) c) := by
  have h3 := h.Lenc
  have h4 := h.l
  have h5 : P.Lenc * b + P.Lenc ≤ P.beta * P.Lenc := by
    rw [← Nat.mul_succ, Nat.mul_comm]; exact Nat.mul_le_mul_right _ hb
  subst hqo
  refine (encConstraints1_ok h hl (X := fun i => x (P.Lke + P.Lenc * b + i))
    (I := fun c => I (16 * b + c)) (O := fun c => O (16 * b + c)) (fun i hi => hq.rd0 (by omega)) hqk
    (fun i hi' => hi.rd0 (by omega)) (fun i hi' => ho.rd0 (by omega)) hd hc).mono ?_
  intro c hc
  rw [tabP_congr (g := fun p => conB _ (conIn P I (loadF n df) x (P.Ske + (P.Senc * b + p))) _)]
  · exact hc
  · intro p hp
    rw [conIn_enc h _ _ _ _ hp, conOut_enc h _ _ _ _ _ hp]

theorem aesProveN_ok (hl : BF.LamSize n) {w u inp out chall : Mem Byte} {V : Mem (List Byte)} {L : Nat}
    {wf uf I O sdf : Nat → Byte} {col : Nat → Nat → Byte} (hn : P.lambda = n)
    (hw : Has w 0 (P.l / 8) wf) (hu : Has u 0 (P.l / 8 + n / 8) uf)
    (hV : ∀ c, c < n → rd V c = some (tabP L (col c))) (hL : P.l + n ≤ 8 * L)
    (hi : Has inp 0 (16 * P.beta) I) (ho : Has out 0 (16 * P.beta) O)
    (hc : Has chall 0 (3 * (n / 8) + 8) sdf) :
    aesProveN n P w u V inp out chall = some
      ((zkHash n sdf (listA1 P I O wf (rowF n col)) (loadF n fun t => uf (P.l / 8 + t))).toBytes,
       (zkHash n sdf (listA0 P I O (rowF n col)) (polyAt fun i => rowF n col (P.l + i))).toBytes) := by
  have h64 : 64 ≤ n := by rcases hl with rfl | rfl | rfl <;> decide
  have h1 := h.Lke
  have h2 := h.lam
  have h3 := h.Lenc
  have h4 := h.l
  have hble : P.Lke ≤ P.l := by omega
  apply Ok.eq
  unfold aesProveN
  refine Ok.step (columnToRowMajor_ok hl hV hL) ?_
  have hv : Has (full (P.l + n) (rowF n col)) 0 (P.l + n) (rowF n col) := has_full _ _
  refine Ok.bind (zkInit_ok h64 hc) ?_
  intro a0 ha0
  refine Ok.bind (zkInit_ok h64 hc) ?_
  intro a1 ha1
  refine Ok.bind (ksConstraints0_ok h hl (hw.mono (by omega)) (hv.mono (by omega)) ha0 ha1) ?_
  rintro ⟨⟨c0, c1⟩, k, vk⟩ ⟨hc0, hc1, hk, hvk⟩
  simp only at hc0 hc1 hk hvk ⊢
  have hbeta := h.beta
  refine Ok.bind (encBlock0_ok h hl (b := 0) (by omega) (by rw [Nat.mul_zero, Nat.add_zero])
    (by rw [Nat.mul_zero, Nat.add_zero]) hw hk (hv.mono (by omega)) hvk hi ho hc0 hc1) ?_
  rintro c ⟨hc0, hc1⟩
  refine Ok.bind (P := fun c => ZkOk sdf (listA0 P I O (rowF n col)) c.1 ∧
    ZkOk sdf (listA1 P I O wf (rowF n col)) c.2) ?_ ?_
  · have s0 := con_split h fun p => conA0 (conIn P I 0 (rowF n col) p) (conOut P I O 0 (rowF n col) p)
    have s1 := con_split h fun p => conA1 (conIn P I 1 (bitsL n wf) p) (conIn P I 0 (rowF n col) p)
      (conOut P I O 1 (bitsL n wf) p) (conOut P I O 0 (rowF n col) p)
    rw [List.nil_append, tabP_congr (h := fun p => conA0 (conIn P I 0 (rowF n col) p)
      (conOut P I O 0 (rowF n col) p)) fun p hp => by rw [conIn_ks h _ _ _ hp, conOut_ks h _ _ _ _ hp]] at hc0
    rw [List.nil_append, tabP_congr (h := fun p => conA1 (conIn P I 1 (bitsL n wf) p)
      (conIn P I 0 (rowF n col) p) (conOut P I O 1 (bitsL n wf) p) (conOut P I O 0 (rowF n col) p))
      fun p hp => by
        rw [conIn_ks h _ _ _ hp, conOut_ks h _ _ _ _ hp, conIn_ks h _ _ _ hp, conOut_ks h _ _ _ _ hp,
          ksS_bits, ksSd_bits]] at hc1
    unfold encConstraints0Snd
    rcases hbeta with hb | hb
    · rw [if_neg (by omega), List.append_nil] at s0 s1
      rw [if_neg (by omega)]
      refine Ok.pure ⟨?_, ?_⟩
      · unfold listA0; rw [s0]; exact hc0
      · unfold listA1; rw [s1]; exact hc1
    · rw [if_pos hb] at s0 s1 ⊢
      refine (encBlock0_ok h hl (b := 1) (by omega) (by omega) (by omega) hw hk (hv.mono (by omega)) hvk
        hi ho hc0 hc1).mono ?_
      rintro c ⟨hc0, hc1⟩
      refine ⟨?_, ?_⟩
      · unfold listA0; rw [s0]; exact hc0
      · unfold listA1; rw [s1]; exact hc1
  · rintro ⟨c0, c1⟩ ⟨hc0, hc1⟩
    refine Ok.step (bfLoad_ok (g := fun t => uf (P.l / 8 + t)) (by omega) fun i hi => hu.rd0 (by omega)) ?_
    refine Ok.step (zkFinalize_ok h64 hc1 _) ?_
    refine Ok.step (ptr_eq (by rw [full_length]; omega)) ?_
    refine Ok.step (BF.sumPoly_ok (g := fun i => rowF n col (P.l + i)) (by omega) ?_) ?_
    · intro i hi
      rw [Nat.zero_add, rd_drop]
      exact hv.rd0 (by omega)
    refine Ok.step (zkFinalize_ok h64 hc0 _) ?_
    exact Ok.pure rfl

end aes

theorem verifyFinish_ok (hl : BF.LamSize n) {ctx : ZkCtx n} {sdf af df : Nat → Byte} {ys : List (BF n)}
    (hc : ZkOk sdf ys ctx) {q : Mem (BF n)} {x : Nat → BF n} {ell : Nat} (hq : Has q 0 (ell + n) x)
    {aT δ : Mem Byte} (ha : Has aT 0 (n / 8) af) (hd : Has δ 0 (n / 8) df) :
    verifyFinish ctx q ell aT δ = some
      (zkHash n sdf ys (polyAt fun i => x (ell + i)) + loadF n af * loadF n df).toBytes := by
  have h64 : 64 ≤ n := by rcases hl with rfl | rfl | rfl <;> decide
  have h8 : 8 ∣ n := by rcases hl with rfl | rfl | rfl <;> decide
  apply Ok.eq
  unfold verifyFinish
  refine Ok.step (ptr_eq (by have := hq.le (by omega); omega)) ?_
  refine Ok.step (BF.sumPoly_ok (g := fun i => x (ell + i)) (by omega) ?_) ?_
  · intro i hi
    rw [Nat.zero_add, rd_drop]
    exact hq.rd0 (by omega)
  refine Ok.step (zkFinalize_ok h64 hc _) ?_
  refine Ok.step (bfLoad_ok (g := byteAt (zkHash n sdf ys (polyAt fun i => x (ell + i)))) (by omega)
    (by rw [toBytes_eq]; exact has_tabP _ _)) ?_
  refine Ok.step (bfLoad_ok (by omega) ha) ?_
  refine Ok.step (bfLoad_ok (by omega) hd) ?_
  rw [loadF_byteAt h8]
  exact Ok.pure rfl

theorem aesVerifyN_ok {P : Params} (h : AesWF P) (hp : PWF P) (hl : BF.LamSize n)
    {d chall2 chall3 aT inp out : Mem Byte} {Q : Mem (List Byte)} {L : Nat}
    {df I O sdf ch af : Nat → Byte} {qf : Nat → Nat → Byte} (hn : P.lambda = n)
    (hd : Has d 0 (P.l / 8) df) (hQ : ∀ c, c < n → rd Q c = some (tabP L (qf c))) (hL : P.l + n ≤ 8 * L)
    (hi : Has inp 0 (16 * P.beta) I) (ho : Has out 0 (16 * P.beta) O)
    (hc2 : Has chall2 0 (3 * (n / 8) + 8) sdf) (hc3 : Has chall3 0 (n / 8) ch)
    (ha : Has aT 0 (n / 8) af) :
    aesVerifyN n P d Q chall2 chall3 aT inp out = some
      (zkHash n sdf (listB P I O (loadF n ch) (rowF n (corrCol ch df (P.l / 8) qf)))
        (polyAt fun i => rowF n (corrCol ch df (P.l / 8) qf) (P.l + i)) + loadF n af * loadF n ch).toBytes := by
  have h64 : 64 ≤ n := by rcases hl with rfl | rfl | rfl <;> decide
  have h1 := h.Lke
  have h2 := h.lam
  have h3 := h.Lenc
  have h4 := h.l
  have hbeta := h.beta
  have hl8 := hp.l8
  subst hn
  apply Ok.eq
  unfold aesVerifyN
  rw [show (P.l + 7) / 8 = P.l / 8 by omega]
  refine Ok.bind (correctQ_ok hp hd hc3 hQ (by omega)) ?_
  intro Q' hQ'
  refine Ok.step (columnToRowMajor_ok hl hQ' hL) ?_
  generalize rowF P.lambda (corrCol ch df (P.l / 8) qf) = x
  have hv : Has (full (P.l + P.lambda) x) 0 (P.l + P.lambda) x := has_full _ _
  refine Ok.bind (zkInit_ok h64 hc2) ?_
  intro b0 hb0
  refine Ok.bind (ksConstraints1_ok h hl (hv.mono (by omega)) hc3 hb0) ?_
  rintro ⟨c, qk⟩ ⟨hc, hqk⟩
  simp only at hc hqk ⊢
  refine Ok.bind (encBlock1_ok h hl (b := 0) (by omega) (by rw [Nat.mul_zero, Nat.add_zero])
    (hv.mono (by omega)) hqk hi ho hc3 hc) ?_
  intro c hc
  refine Ok.bind (P := fun c => ZkOk sdf (listB P I O (loadF P.lambda ch) x) c) ?_ ?_
  · have s0 := con_split h fun p => conB (loadF P.lambda ch) (conIn P I (loadF P.lambda ch) x p)
      (conOut P I O (loadF P.lambda ch) x p)
    rw [List.nil_append, tabP_congr (h := fun p => conB (loadF P.lambda ch) (conIn P I (loadF P.lambda ch) x p)
      (conOut P I O (loadF P.lambda ch) x p)) fun p hp => by
        rw [conIn_ks h _ _ _ hp, conOut_ks h _ _ _ _ hp]] at hc
    unfold encConstraints1Snd
    rcases hbeta with hb | hb
    · rw [if_neg (by omega), List.append_nil] at s0
      rw [if_neg (by omega)]
      refine Ok.pure ?_
      unfold listB; rw [s0]; exact hc
    · rw [if_pos hb] at s0 ⊢
      refine (encBlock1_ok h hl (b := 1) (by omega) (by omega) (hv.mono (by omega)) hqk
        hi ho hc3 hc).mono ?_
      intro c hc
      unfold listB; rw [s0]; exact hc
  · intro c hc
    exact Ok.of_eq (verifyFinish_ok hl hc hv ha hc3) rfl

theorem emProveN_ok {P : Params} (h : EmWF P) (hl : BF.LamSize n) {w u inp out chall : Mem Byte}
    {V : Mem (List Byte)} {L : Nat}
    {wf uf I O sdf : Nat → Byte} {col : Nat → Nat → Byte} (hn : P.lambda = n)
    (hw : Has w 0 (P.l / 8) wf) (hu : Has u 0 (P.l / 8 + n / 8) uf)
    (hV : ∀ c, c < n → rd V c = some (tabP L (col c))) (hL : P.l + n ≤ 8 * L)
    (hi : Has inp 0 (4 * P.Nwd) I) (ho : Has out 0 (4 * P.Nwd) O)
    (hc : Has chall 0 (3 * (n / 8) + 8) sdf) :
    emProveN n P w u V inp out chall = some
      ((zkHash n sdf (listA1 P I O wf (rowF n col)) (loadF n fun t => uf (P.l / 8 + t))).toBytes,
       (zkHash n sdf (listA0 P I O (rowF n col)) (polyAt fun i => rowF n col (P.l + i))).toBytes) := by
  have h64 : 64 ≤ n := by rcases hl with rfl | rfl | rfl <;> decide
  have h2 := h.lam
  have h4 := h.l
  obtain ⟨m1, m2, m3, m4⟩ := h.mul
  have m5 : 4 * P.Nwd * (P.R + 1) = 4 * P.Nwd * P.R + 4 * P.Nwd := Nat.mul_succ _ _
  apply Ok.eq
  unfold emProveN
  rw [← h4]
  refine Ok.bind (emExpand_ok h hi (by split <;> omega)) ?_
  intro x hx
  refine Ok.step (columnToRowMajor_ok hl hV hL) ?_
  have hv : Has (full (P.l + n) (rowF n col)) 0 (P.l + n) (rowF n col) := has_full _ _
  refine Ok.bind (zkInit_ok h64 hc) ?_
  intro a0 ha0
  refine Ok.bind (zkInit_ok h64 hc) ?_
  intro a1 ha1
  refine Ok.bind (emConstraints0_ok h hl hw hx (hv.mono (by omega)) ho (c := (a0, a1)) ha0 ha1) ?_
  rintro ⟨c0, c1⟩ ⟨hc0, hc1⟩
  refine Ok.step (bfLoad_ok (g := fun t => uf (P.l / 8 + t)) (by omega) fun i hi => hu.rd0 (by omega)) ?_
  refine Ok.step (zkFinalize_ok h64 hc1 _) ?_
  refine Ok.step (ptr_eq (by rw [full_length]; omega)) ?_
  refine Ok.step (BF.sumPoly_ok (g := fun i => rowF n col (P.l + i)) (by omega) ?_) ?_
  · intro i hi
    rw [Nat.zero_add, rd_drop]
    exact hv.rd0 (by omega)
  refine Ok.step (zkFinalize_ok h64 hc0 _) ?_
  exact Ok.pure rfl

theorem emVerifyN_ok {P : Params} (h : EmWF P) (hp : PWF P) (hl : BF.LamSize n)
    {d chall2 chall3 aT inp out : Mem Byte} {Q : Mem (List Byte)} {L : Nat}
    {df I O sdf ch af : Nat → Byte} {qf : Nat → Nat → Byte} (hn : P.lambda = n)
    (hd : Has d 0 (P.l / 8) df) (hQ : ∀ c, c < n → rd Q c = some (tabP L (qf c))) (hL : P.l + n ≤ 8 * L)
    (hi : Has inp 0 (4 * P.Nwd) I) (ho : Has out 0 (4 * P.Nwd) O)
    (hc2 : Has chall2 0 (3 * (n / 8) + 8) sdf) (hc3 : Has chall3 0 (n / 8) ch)
    (ha : Has aT 0 (n / 8) af) :
    emVerifyN n P d Q chall2 chall3 aT inp out = some
      (zkHash n sdf (listB P I O (loadF n ch) (rowF n (corrCol ch df (P.l / 8) qf)))
        (polyAt fun i => rowF n (corrCol ch df (P.l / 8) qf) (P.l + i)) + loadF n af * loadF n ch).toBytes := by
  have h64 : 64 ≤ n := by rcases hl with rfl | rfl | rfl <;> decide
  have h2 := h.lam
  have h4 := h.l
  obtain ⟨m1, m2, m3, m4⟩ := h.mul
  have m5 : 4 * P.Nwd * (P.R + 1) = 4 * P.Nwd * P.R + 4 * P.Nwd := Nat.mul_succ _ _
  have hl8 := hp.l8
  subst hn
  apply Ok.eq
  unfold emVerifyN
  rw [← h4, show (P.l + 7) / 8 = P.l / 8 by omega]
  refine Ok.bind (correctQ_ok hp hd hc3 hQ (by omega)) ?_
  intro Q' hQ'
  refine Ok.step (columnToRowMajor_ok hl hQ' hL) ?_
  generalize rowF P.lambda (corrCol ch df (P.l / 8) qf) = x
  have hv : Has (full (P.l + P.lambda) x) 0 (P.l + P.lambda) x := has_full _ _
  refine Ok.bind (emExpand_ok h hi (by omega)) ?_
  intro xk hxk
  refine Ok.bind (zkInit_ok h64 hc2) ?_
  intro b0 hb0
  refine Ok.bind (emConstraints1_ok h hl hxk (hv.mono (by omega)) ho hc3 hb0) ?_
  intro c hc
  exact Ok.of_eq (verifyFinish_ok hl hc hv ha hc3) rfl

/-! ### All parameter sets -/

theorem fieldBits_eq {P : Params} (h : PWF P) : fieldBits P.lambda = P.lambda := by
  rcases h.lam with e | e | e <;> rw [e] <;> rfl

theorem lamSize_fieldBits (lam : Nat) : BF.LamSize (fieldBits lam) := by
  unfold fieldBits BF.LamSize
  split
  · simp
  · split <;> simp

/-- Facts common to the parameter sets with their own lengths of input and output. -/
theorem params_pk (i : ParamId) : (params i).pkSize / 2 =
    if (params i).Lke = 0 then 4 * (params i).Nwd else 16 * (params i).beta := by
  cases i <;> decide

/-- `aes_prove` hashes the lists of constraint values. -/
theorem aesProve_ok (i : ParamId) (hn : fieldBits (params i).lambda = n) {w u inp out chall : Mem Byte}
    {V : Mem (List Byte)} {L : Nat} {wf uf I O sdf : Nat → Byte} {col : Nat → Nat → Byte}
    (hw : Has w 0 ((params i).l / 8) wf) (hu : Has u 0 ((params i).l / 8 + n / 8) uf)
    (hV : ∀ c, c < n → rd V c = some (tabP L (col c))) (hL : (params i).l + n ≤ 8 * L)
    (hi : Has inp 0 ((params i).pkSize / 2) I) (ho : Has out 0 ((params i).pkSize / 2) O)
    (hc : Has chall 0 (3 * (n / 8) + 8) sdf) :
    aesProve (params i) w u V inp out chall = some
      ((zkHash n sdf (listA1 (params i) I O wf (rowF n col))
          (loadF n fun t => uf ((params i).l / 8 + t))).toBytes,
       (zkHash n sdf (listA0 (params i) I O (rowF n col))
          (polyAt fun j => rowF n col ((params i).l + j))).toBytes) := by
  have hf := fieldBits_eq (params_wf i)
  have hl := lamSize_fieldBits (params i).lambda
  rw [params_pk] at hi ho
  subst hn
  unfold aesProve
  by_cases hk : (params i).Lke = 0
  · rw [if_pos hk] at hi ho
    rw [if_neg (by simp [hk])]
    exact emProveN_ok (params_em i hk) hl hf.symm hw hu hV hL hi ho hc
  · rw [if_neg hk] at hi ho
    rw [if_pos hk]
    exact aesProveN_ok (params_aes i hk) hl hf.symm hw hu hV hL hi ho hc

/-- `aes_verify` hashes the list of the verifier's values, for the corrected columns. -/
theorem aesVerify_ok (i : ParamId) (hn : fieldBits (params i).lambda = n)
    {d chall2 chall3 aT inp out : Mem Byte} {Q : Mem (List Byte)} {L : Nat}
    {df I O sdf ch af : Nat → Byte} {qf : Nat → Nat → Byte}
    (hd : Has d 0 ((params i).l / 8) df) (hQ : ∀ c, c < n → rd Q c = some (tabP L (qf c)))
    (hL : (params i).l + n ≤ 8 * L)
    (hi : Has inp 0 ((params i).pkSize / 2) I) (ho : Has out 0 ((params i).pkSize / 2) O)
    (hc2 : Has chall2 0 (3 * (n / 8) + 8) sdf) (hc3 : Has chall3 0 (n / 8) ch)
    (ha : Has aT 0 (n / 8) af) :
    aesVerify (params i) d Q chall2 chall3 aT inp out = some
      (zkHash n sdf (listB (params i) I O (loadF n ch) (rowF n (corrCol ch df ((params i).l / 8) qf)))
        (polyAt fun j => rowF n (corrCol ch df ((params i).l / 8) qf) ((params i).l + j))
        + loadF n af * loadF n ch).toBytes := by
  have hf := fieldBits_eq (params_wf i)
  have hl := lamSize_fieldBits (params i).lambda
  rw [params_pk] at hi ho
  subst hn
  unfold aesVerify
  by_cases hk : (params i).Lke = 0
  · rw [if_pos hk] at hi ho
    rw [if_neg (by simp [hk])]
    exact emVerifyN_ok (params_em i hk) (params_wf i) hl hf.symm hd hQ hL hi ho hc2 hc3 ha
  · rw [if_neg hk] at hi ho
    rw [if_pos hk]
    exact aesVerifyN_ok (params_aes i hk) (params_wf i) hl hf.symm hd hQ hL hi ho hc2 hc3 ha

end Faest
