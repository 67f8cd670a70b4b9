/-
The key-schedule constraints: the values absorbed by the hash contexts.
-/
import Verif.Proofs.KsRefine

namespace Faest
open Spec (ksStep liftKey keyCell ksRc invAffL ksSel ksOutL ksOutB ksS ksSd ksSB conA0 conA1 conB)

variable {n : Nat}

/-- `rotate_word` at word `j`. -/
def rotAt (Nwd j : Nat) : Bool := decide (Nwd = 8 → j % 2 = 0)

theorem ksSel_word {Nwd j r : Nat} (hr : r < 4) :
    ksSel Nwd (4 * j + r) = 4 * (Nwd - 1 + ksStep Nwd * j) + (if rotAt Nwd j then (r + 1) % 4 else r) := by
  unfold ksSel rotAt
  rw [show (4 * j + r) / 4 = j by omega, show (4 * j + r) % 4 = r by omega]
  by_cases h : Nwd = 8 → j % 2 = 0
  · rw [if_pos h, if_pos (decide_eq_true h)]
  · rw [if_neg h, if_neg (by rw [decide_eq_false h]; decide)]

/-- The loop filling `bf_k_hat`. -/
theorem hat_ok {α : Type} {rot : Bool} {f : Nat → Mem α → Option (Mem α)} {g : Nat → α}
    (hf : ∀ r m, r < 4 → f r m = wr m (hatIdx rot r) (g r)) :
    Ok (forN 4 (malloc 4) f) (fun m => Has m 0 4 (fun r => g (if rot then (r + 1) % 4 else r))) := by
  refine (Ok.forN (fun i m => m.length = 4 ∧ ∀ r, r < 4 → (if rot then (r + 1) % 4 else r) < i →
    rd m r = some (g (if rot then (r + 1) % 4 else r))) ?_ ?_).mono ?_
  · exact ⟨by simp, fun r _ h => absurd h (by omega)⟩
  · rintro i hi m ⟨hl, hm⟩
    rw [hf i m hi]
    have hh : hatIdx rot i < 4 := by unfold hatIdx; split <;> omega
    refine Ok.wr (by omega) fun m' hl' hr => ⟨by omega, fun r hr4 hlt => ?_⟩
    rw [hr]
    unfold hatIdx
    cases rot
    · simp only [Bool.false_eq_true, if_false] at *
      by_cases h : r = i
      · rw [if_pos h, h]
      · rw [if_neg h]; exact hm r hr4 (by omega)
    · simp only [if_true] at *
      by_cases h : r = (i + 3) % 4
      · rw [if_pos h]; congr 2; omega
      · rw [if_neg h]; exact hm r hr4 (by omega)
  · rintro m ⟨_, hm⟩ r hr
    rw [Nat.zero_add]
    exact hm r hr (by split <;> omega)

/-- A context which has absorbed a table. -/
theorem ZkOk.table (hn : 64 ≤ n) {sdf : Nat → Byte} {ys : List (BF n)} {f : Nat → BF n} {m : Nat}
    {c : ZkCtx n} (h : ZkOk sdf (ys ++ tabP m f) c) {v : BF n} (hv : v = f m) :
    ZkOk sdf (ys ++ tabP (m + 1) f) (zkUpdate c v) := by
  rw [tabP_succ, ← List.append_assoc, hv]
  exact zkUpdate_ok hn h _

theorem encHash0_ok (hn : 64 ≤ n) {sdf : Nat → Byte} {ys0 ys1 : List (BF n)} {s vs sd vsd : Nat → BF n} {m : Nat}
    {c : ZkCtx n × ZkCtx n} (h0 : ZkOk sdf (ys0 ++ tabP m (fun p => conA0 (vs p) (vsd p))) c.1)
    (h1 : ZkOk sdf (ys1 ++ tabP m (fun p => conA1 (s p) (vs p) (sd p) (vsd p))) c.2) :
    ZkOk sdf (ys0 ++ tabP (m + 1) (fun p => conA0 (vs p) (vsd p)))
        (encHash0 (s m) (vs m) (sd m) (vsd m) c).1 ∧
    ZkOk sdf (ys1 ++ tabP (m + 1) (fun p => conA1 (s p) (vs p) (sd p) (vsd p)))
        (encHash0 (s m) (vs m) (sd m) (vsd m) c).2 :=
  ⟨h0.table hn rfl, h1.table hn rfl⟩

theorem ksHash0_eq (kh vkh wh vwh : BF n) (c : ZkCtx n × ZkCtx n) :
    ksHash0 kh vkh wh vwh c = encHash0 kh vkh wh vwh c := by
  unfold ksHash0 encHash0
  have : bfAdd (bfAdd (bfMul (bfAdd kh vkh) (bfAdd wh vwh)) bfOne) (bfMul vkh vwh)
      = bfAdd (bfAdd (bfMul (bfAdd kh vkh) (bfAdd wh vwh)) (bfMul vkh vwh)) bfOne := by
    show _ + (1 : BF n) + _ = _ + _ + (1 : BF n)
    ring
  simp only [this]

theorem iwdStep_eq {P : Params} (h : AesWF P) : iwdStep P.lambda = 32 * ksStep P.Nwd := by
  unfold iwdStep ksStep
  rcases h.nwd with e | e | e <;> rw [h.lam, e] <;> rfl

theorem rotAt_succ {P : Params} (h : AesWF P) (j : Nat) :
    (if P.lambda = 256 then !(rotAt P.Nwd j) else rotAt P.Nwd j) = rotAt P.Nwd (j + 1) := by
  unfold rotAt
  rcases h.nwd with e | e | e <;> rw [h.lam, e] <;> simp
  by_cases h2 : j % 2 = 0
  · simp [h2]; omega
  · simp [h2]; omega

theorem keySel_lt {P : Params} (h : AesWF P) {j r : Nat} (hj : j < P.Ske / 4) (hr : r < 4) :
    4 * (P.Nwd - 1 + ksStep P.Nwd * j) + r < (P.R + 1) * 16 := by
  have := h.word_lt hj
  omega

theorem ksConstr0Step_ok {P : Params} (h : AesWF P) (hl : BF.LamSize n) {k wd : Mem Byte}
    {vk vwd : Mem (BF n)} {w : Nat → Byte} {x : Nat → BF n}
    (hk : Has k 0 ((P.R + 1) * 16) (keyCell (· ^^^ ·) 4 P.Nwd w))
    (hvk : Has vk 0 ((P.R + 1) * 128) (keyCell (· + ·) 32 P.Nwd x))
    (hwd : Has wd 0 P.Ske (fun j => invAffineByte (ksOutB P.Nwd w j)))
    (hvwd : ∀ j i, j < P.Ske → i < 8 → rd vwd (8 * j + i) = some (invAffL 0 (ksOutL P.Nwd 0 x j) i))
    {j : Nat} (hj : j < P.Ske / 4) {sdf : Nat → Byte} {ys0 ys1 : List (BF n)} {c : ZkCtx n × ZkCtx n}
    (h0 : ZkOk sdf (ys0 ++ tabP (4 * j) (fun p => conA0 (ksS P.Nwd x p) (ksSd P.Nwd 0 x p))) c.1)
    (h1 : ZkOk sdf (ys1 ++ tabP (4 * j) (fun p => conA1 (BF.emb n (ksSB P.Nwd w p)) (ksS P.Nwd x p)
      (BF.emb n (invAffineByte (ksOutB P.Nwd w p))) (ksSd P.Nwd 0 x p))) c.2) :
    Ok (ksConstr0Step P k vk wd vwd j (c, 32 * (P.Nwd - 1 + ksStep P.Nwd * j), rotAt P.Nwd j)) (fun r =>
      ZkOk sdf (ys0 ++ tabP (4 * (j + 1)) (fun p => conA0 (ksS P.Nwd x p) (ksSd P.Nwd 0 x p))) r.1.1 ∧
      ZkOk sdf (ys1 ++ tabP (4 * (j + 1)) (fun p => conA1 (BF.emb n (ksSB P.Nwd w p)) (ksS P.Nwd x p)
        (BF.emb n (invAffineByte (ksOutB P.Nwd w p))) (ksSd P.Nwd 0 x p))) r.1.2 ∧
      r.2 = (32 * (P.Nwd - 1 + ksStep P.Nwd * (j + 1)), rotAt P.Nwd (j + 1))) := by
  have h64 : 64 ≤ n := by rcases hl with rfl | rfl | rfl <;> decide
  have hske := h.ske_lt
  unfold ksConstr0Step
  dsimp only
  refine Ok.bind (hat_ok (rot := rotAt P.Nwd j) (g := fun r => BF.emb n (keyCell (· ^^^ ·) 4 P.Nwd w
    (4 * (P.Nwd - 1 + ksStep P.Nwd * j) + r))) ?_) ?_
  · intro r m hr
    have := keySel_lt h hj hr
    rw [hk.rd0 (by omega), show (32 * (P.Nwd - 1 + ksStep P.Nwd * j) + 8 * r) / 8
      = 4 * (P.Nwd - 1 + ksStep P.Nwd * j) + r by omega]
    show (byteCombineBits n _ >>= _) = _
    rw [BF.byteCombineBits_ok hl]
    rfl
  intro kh hkh
  refine Ok.bind (hat_ok (rot := rotAt P.Nwd j) (g := fun r => BF.bc (fun i => keyCell (· + ·) 32 P.Nwd x
    (8 * (4 * (P.Nwd - 1 + ksStep P.Nwd * j) + r) + i))) ?_) ?_
  · intro r m hr
    have := keySel_lt h hj hr
    rw [BF.byteCombine_ok hl (g := fun i => keyCell (· + ·) 32 P.Nwd x
      (8 * (4 * (P.Nwd - 1 + ksStep P.Nwd * j) + r) + i))]
    · rfl
    · intro i hi
      rw [hvk.rd0 (by omega)]
      congr 2
      omega
  intro vkh hvkh
  refine Ok.step (fill_eq (g := fun r => BF.emb n (invAffineByte (ksOutB P.Nwd w (4 * j + r)))) ?_) ?_
  · intro r hr
    rw [hwd.rd0 (by omega), show (32 * j + 8 * r) / 8 = 4 * j + r by omega]
    exact BF.byteCombineBits_ok hl _
  refine Ok.step (fill_eq (g := fun r => ksSd P.Nwd 0 x (4 * j + r)) ?_) ?_
  · intro r hr
    refine BF.byteCombine_ok hl fun i hi => ?_
    rw [← hvwd (4 * j + r) i (by omega) hi]
    congr 1
    omega
  refine Ok.bind (Ok.forN (fun r (c : ZkCtx n × ZkCtx n) =>
    ZkOk sdf (ys0 ++ tabP (4 * j + r) (fun p => conA0 (ksS P.Nwd x p) (ksSd P.Nwd 0 x p))) c.1 ∧
    ZkOk sdf (ys1 ++ tabP (4 * j + r) (fun p => conA1 (BF.emb n (ksSB P.Nwd w p)) (ksS P.Nwd x p)
        (BF.emb n (invAffineByte (ksOutB P.Nwd w p))) (ksSd P.Nwd 0 x p))) c.2) ⟨h0, h1⟩ ?_) ?_
  · rintro r hr c ⟨hc0, hc1⟩
    refine Ok.step (hkh.rd0 hr) ?_
    refine Ok.step (hvkh.rd0 hr) ?_
    refine Ok.step (rd_full hr) ?_
    refine Ok.step (rd_full hr) ?_
    refine Ok.pure ?_
    rw [ksHash0_eq]
    have := encHash0_ok (s := fun p => BF.emb n (ksSB P.Nwd w p)) (vs := ksS P.Nwd x)
      (sd := fun p => BF.emb n (invAffineByte (ksOutB P.Nwd w p))) (vsd := ksSd P.Nwd 0 x) h64 hc0 hc1
    beta_reduce at this
    rw [show ksSB P.Nwd w (4 * j + r) = keyCell (· ^^^ ·) 4 P.Nwd w
        (4 * (P.Nwd - 1 + ksStep P.Nwd * j) + if rotAt P.Nwd j then (r + 1) % 4 else r) by
        unfold ksSB; rw [ksSel_word hr],
      show ksS P.Nwd x (4 * j + r) = BF.bc (fun i => keyCell (· + ·) 32 P.Nwd x
        (8 * (4 * (P.Nwd - 1 + ksStep P.Nwd * j) + if rotAt P.Nwd j then (r + 1) % 4 else r) + i)) by
        unfold ksS; rw [ksSel_word hr]] at this
    exact this
  · rintro c ⟨hc0, hc1⟩
    refine Ok.pure ⟨hc0, hc1, ?_⟩
    show (_, _) = (_, _)
    rw [iwdStep_eq h, rotAt_succ h]
    congr 1
    rw [Nat.mul_succ]
    omega

theorem ksConstraints0_ok {P : Params} (h : AesWF P) (hl : BF.LamSize n) {w : Mem Byte} {v : Mem (BF n)}
    {wf : Nat → Byte} {x : Nat → BF n} (hw : Has w 0 (P.Lke / 8) wf) (hv : Has v 0 P.Lke x)
    {sdf : Nat → Byte} {ys0 ys1 : List (BF n)} {c : ZkCtx n × ZkCtx n}
    (h0 : ZkOk sdf ys0 c.1) (h1 : ZkOk sdf ys1 c.2) :
    Ok (ksConstraints0 P w v c) (fun r =>
      ZkOk sdf (ys0 ++ tabP P.Ske (fun p => conA0 (ksS P.Nwd x p) (ksSd P.Nwd 0 x p))) r.1.1 ∧
      ZkOk sdf (ys1 ++ tabP P.Ske (fun p => conA1 (BF.emb n (ksSB P.Nwd wf p)) (ksS P.Nwd x p)
        (BF.emb n (invAffineByte (ksOutB P.Nwd wf p))) (ksSd P.Nwd 0 x p))) r.1.2 ∧
      Has r.2.1 0 ((P.R + 1) * 16) (keyCell (· ^^^ ·) 4 P.Nwd wf) ∧
      Has r.2.2 0 ((P.R + 1) * 128) (keyCell (· + ·) 32 P.Nwd x)) := by
  have h8 : 8 ≤ n := by rcases hl with rfl | rfl | rfl <;> decide
  have hske := h.ske_lt
  unfold ksConstraints0
  refine Ok.bind (ksForward1_ok h hw (by rw [malloc_length]; omega)) ?_
  rintro k ⟨-, hk⟩
  refine Ok.bind (ksForward_ok h hv (by rw [malloc_length])) ?_
  rintro vk ⟨-, hvk⟩
  refine Ok.bind (ksBackward1_ok h hw hk) ?_
  intro wd hwd
  refine Ok.bind (ksBackward_ok h h8 hv hvk Mode.tag) ?_
  intro vwd hvwd
  refine Ok.bind (Ok.forN (fun j (s : (ZkCtx n × ZkCtx n) × Nat × Bool) =>
      ZkOk sdf (ys0 ++ tabP (4 * j) (fun p => conA0 (ksS P.Nwd x p) (ksSd P.Nwd 0 x p))) s.1.1 ∧
      ZkOk sdf (ys1 ++ tabP (4 * j) (fun p => conA1 (BF.emb n (ksSB P.Nwd wf p)) (ksS P.Nwd x p)
        (BF.emb n (invAffineByte (ksOutB P.Nwd wf p))) (ksSd P.Nwd 0 x p))) s.1.2 ∧
      s.2 = (32 * (P.Nwd - 1 + ksStep P.Nwd * j), rotAt P.Nwd j)) ?_ ?_) ?_
  · refine ⟨?_, ?_, ?_⟩
    · simpa [tabP] using h0
    · simpa [tabP] using h1
    · simp [rotAt]
  · rintro j hj ⟨c, s2⟩ ⟨hc0, hc1, rfl⟩
    exact ksConstr0Step_ok h hl hk hvk hwd hvwd hj hc0 hc1
  · rintro ⟨c, s2⟩ ⟨hc0, hc1, -⟩
    rw [show 4 * (P.Ske / 4) = P.Ske by omega] at hc0 hc1
    exact Ok.pure ⟨hc0, hc1, hk, hvk⟩

theorem ksConstr1Step_ok {P : Params} (h : AesWF P) (hl : BF.LamSize n)
    {qk qwd : Mem (BF n)} {x : Nat → BF n} {d : BF n}
    (hqk : Has qk 0 ((P.R + 1) * 128) (keyCell (· + ·) 32 P.Nwd x))
    (hqwd : ∀ j i, j < P.Ske → i < 8 → rd qwd (8 * j + i) = some (invAffL d (ksOutL P.Nwd d x j) i))
    {j : Nat} (hj : j < P.Ske / 4) {sdf : Nat → Byte} {ys : List (BF n)} {c : ZkCtx n}
    (h0 : ZkOk sdf (ys ++ tabP (4 * j) (fun p => conB d (ksS P.Nwd x p) (ksSd P.Nwd d x p))) c) :
    Ok (ksConstr1Step P qk qwd (bfMul d d) j (c, 32 * (P.Nwd - 1 + ksStep P.Nwd * j), rotAt P.Nwd j)) (fun r =>
      ZkOk sdf (ys ++ tabP (4 * (j + 1)) (fun p => conB d (ksS P.Nwd x p) (ksSd P.Nwd d x p))) r.1 ∧
      r.2 = (32 * (P.Nwd - 1 + ksStep P.Nwd * (j + 1)), rotAt P.Nwd (j + 1))) := by
  have h64 : 64 ≤ n := by rcases hl with rfl | rfl | rfl <;> decide
  have hske := h.ske_lt
  unfold ksConstr1Step
  dsimp only
  refine Ok.bind (hat_ok (rot := rotAt P.Nwd j) (g := fun r => BF.bc (fun i => keyCell (· + ·) 32 P.Nwd x
    (8 * (4 * (P.Nwd - 1 + ksStep P.Nwd * j) + r) + i))) ?_) ?_
  · intro r m hr
    have := keySel_lt h hj hr
    rw [BF.byteCombine_ok hl (g := fun i => keyCell (· + ·) 32 P.Nwd x
      (8 * (4 * (P.Nwd - 1 + ksStep P.Nwd * j) + r) + i))]
    · rfl
    · intro i hi
      rw [hqk.rd0 (by omega)]
      congr 2
      omega
  intro qkh hqkh
  refine Ok.step (fill_eq (g := fun r => ksSd P.Nwd d x (4 * j + r)) ?_) ?_
  · intro r hr
    refine BF.byteCombine_ok hl fun i hi => ?_
    rw [← hqwd (4 * j + r) i (by omega) hi]
    congr 1
    omega
  refine Ok.bind (Ok.forN (fun r (c : ZkCtx n) =>
    ZkOk sdf (ys ++ tabP (4 * j + r) (fun p => conB d (ksS P.Nwd x p) (ksSd P.Nwd d x p))) c) h0 ?_) ?_
  · intro r hr c hc
    refine Ok.step (hqkh.rd0 hr) ?_
    refine Ok.step (rd_full hr) ?_
    refine Ok.pure (hc.table h64 ?_)
    rw [show ksS P.Nwd x (4 * j + r) = BF.bc (fun i => keyCell (· + ·) 32 P.Nwd x
        (8 * (4 * (P.Nwd - 1 + ksStep P.Nwd * j) + if rotAt P.Nwd j then (r + 1) % 4 else r) + i)) by
        unfold ksS; rw [ksSel_word hr]]
    rfl
  · intro c hc
    refine Ok.pure ⟨hc, ?_⟩
    show (_, _) = (_, _)
    rw [iwdStep_eq h, rotAt_succ h]
    congr 1
    rw [Nat.mul_succ]
    omega

theorem ksConstraints1_ok {P : Params} (h : AesWF P) (hl : BF.LamSize n) {q : Mem (BF n)} {δ : Mem Byte}
    {x : Nat → BF n} {df : Nat → Byte} (hq : Has q 0 P.Lke x) (hd : Has δ 0 (n / 8) df)
    {sdf : Nat → Byte} {ys : List (BF n)} {c : ZkCtx n} (h0 : ZkOk sdf ys c) :
    Ok (ksConstraints1 P q δ c) (fun r =>
      ZkOk sdf (ys ++ tabP P.Ske (fun p => conB (loadF n df) (ksS P.Nwd x p) (ksSd P.Nwd (loadF n df) x p))) r.1 ∧
      Has r.2 0 ((P.R + 1) * 128) (keyCell (· + ·) 32 P.Nwd x)) := by
  have h8 : 8 ≤ n := by rcases hl with rfl | rfl | rfl <;> decide
  have hske := h.ske_lt
  unfold ksConstraints1
  refine Ok.bind (ksForward_ok h hq (by rw [malloc_length])) ?_
  rintro qk ⟨-, hqk⟩
  refine Ok.bind (ksBackward_ok h h8 hq hqk (Mode.key δ df hd)) ?_
  intro qwd hqwd
  refine Ok.step (bfLoad_ok h8 hd) ?_
  refine Ok.bind (Ok.forN (fun j (s : ZkCtx n × Nat × Bool) =>
      ZkOk sdf (ys ++ tabP (4 * j) (fun p => conB (loadF n df) (ksS P.Nwd x p) (ksSd P.Nwd (loadF n df) x p))) s.1 ∧
      s.2 = (32 * (P.Nwd - 1 + ksStep P.Nwd * j), rotAt P.Nwd j)) ?_ ?_) ?_
  · refine ⟨?_, ?_⟩
    · simpa [tabP] using h0
    · simp [rotAt]
  · rintro j hj ⟨c, s2⟩ ⟨hc0, rfl⟩
    exact ksConstr1Step_ok h hl hqk hqwd hj hc0
  · rintro ⟨c, s2⟩ ⟨hc0, -⟩
    rw [show 4 * (P.Ske / 4) = P.Ske by omega] at hc0
    exact Ok.pure ⟨hc0, hqk⟩

end Faest
