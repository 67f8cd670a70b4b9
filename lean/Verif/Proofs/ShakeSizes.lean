/-
The sizes for which `hash_update` is not right: the truncations to `unsigned int` in
KeccakSponge.inc:190-192 and to `size_t` in hash_shake.h:221.  Also the hashing functions of faest.c.
-/
import Verif.Proofs.ShakeRun

namespace Faest.Keccak
open Spec.Keccak (shake shakeX)

/-! ### The hashing functions of faest.c -/

theorem roUpdate_ok {w : Nat} (hw : 32 ≤ w) {sel : Nat} {M : List Byte} {ctx : HashInstance} (h : HAbs sel M ctx)
    {data : Mem Byte} {n : Nat} {l : List Byte} (hd : rdN data 0 n = some l) (hs : UpdateFits w sel M.length n) :
    Ok (roUpdate w ctx data n) (HAbs sel (M ++ l)) := by
  obtain ⟨h1, rfl⟩ := data_of_rdN hd
  exact hashUpdate_ok hw h h1 hs

theorem wrote_result {m m' : Mem Byte} {n : Nat} {sel : Nat} {M : List Byte}
    (h : Wrote m 0 n (fun i => shakeX sel M i) m') (hn : n ≤ m.length) :
    rdN m' 0 n = some (squeeze shakeX sel M 0 n) := by
  rw [wrote_rdN h hn]
  unfold squeeze
  simp only [Nat.zero_add]

theorem hashMuC_ok {w : Nat} (hw : 32 ≤ w) {mu owfInput owfOutput msg : Mem Byte} {n msglen lambda : Nat}
    {inp out m : List Byte} (hi : rdN owfInput 0 n = some inp) (ho : rdN owfOutput 0 n = some out)
    (hm : rdN msg 0 msglen = some m) (hn : n < 2 ^ 29) (hl : lambda < 2 ^ 29) (hmu : 2 * lambda / 8 ≤ mu.length)
    (hs : UpdateFits w (hashSel lambda) (2 * n) msglen) :
    Ok (hashMuC w mu owfInput owfOutput n msg msglen lambda)
      (Wrote mu 0 (2 * lambda / 8) (fun i => shakeX (hashSel lambda) (inp ++ out ++ m ++ [0x01]) i)) := by
  unfold hashMuC
  have l1 := (data_of_rdN hi).2
  have l2 := (data_of_rdN ho).2
  refine Ok.bind (roInit_ok lambda) ?_
  intro ctx h0
  refine Ok.bind (roUpdate_ok hw h0 hi (small_of_lt hw hn).update) ?_
  intro ctx h1
  refine Ok.bind (roUpdate_ok hw h1 ho (small_of_lt hw hn).update) ?_
  intro ctx h2
  refine Ok.bind (roUpdate_ok hw h2 hm ?_) ?_
  · have : ([] ++ inp ++ out).length = 2 * n := by simp; omega
    rw [this]; exact hs
  intro ctx h3
  rw [List.nil_append] at h3
  exact final1_ok hw h3 0x01 hmu (small_of_lt hw (by omega))

theorem hashChallenge1C_ok {w : Nat} (hw : 32 ≤ w) {chall1 mu hcom c iv : Mem Byte} {lambda ell tau : Nat}
    {mu' hcom' c' iv' : List Byte} (h1 : rdN mu 0 (lambda / 8 * 2) = some mu')
    (h2 : rdN hcom 0 (lambda / 8 * 2) = some hcom')
    (h3 : rdN c 0 ((ell / 8 + lambda / 8 * 2 + UNIVERSAL_HASH_B) * (tau - 1)) = some c')
    (h4 : rdN iv 0 IV_SIZE = some iv') (hl : lambda < 2 ^ 16) (he : ell < 2 ^ 16) (ht : tau < 2 ^ 8)
    (hc : 5 * (lambda / 8) + 8 ≤ chall1.length) :
    Ok (hashChallenge1C w chall1 mu hcom c iv lambda ell tau) (Wrote chall1 0 (5 * (lambda / 8) + 8)
      (fun i => shakeX (hashSel lambda) (mu' ++ hcom' ++ c' ++ iv' ++ [0x02]) i)) := by
  unfold hashChallenge1C
  refine Ok.bind (roInit_ok lambda) ?_
  intro ctx g0
  refine Ok.bind (roUpdate_ok hw g0 h1 (small_of_lt hw (by omega)).update) ?_
  intro ctx g1
  refine Ok.bind (roUpdate_ok hw g1 h2 (small_of_lt hw (by omega)).update) ?_
  intro ctx g2
  refine Ok.bind (roUpdate_ok hw g2 h3 (small_of_lt hw ?_).update) ?_
  · have a : ell / 8 + lambda / 8 * 2 + UNIVERSAL_HASH_B < 2 ^ 15 := by unfold UNIVERSAL_HASH_B; omega
    calc (ell / 8 + lambda / 8 * 2 + UNIVERSAL_HASH_B) * (tau - 1) ≤ 2 ^ 15 * 2 ^ 8 :=
          Nat.mul_le_mul (by omega) (by omega)
      _ < 2 ^ 29 := by omega
  intro ctx g3
  refine Ok.bind (roUpdate_ok hw g3 h4 (small_of_lt hw (by unfold IV_SIZE; omega)).update) ?_
  intro ctx g4
  rw [List.nil_append] at g4
  exact final1_ok hw g4 0x02 hc (small_of_lt hw (by omega))

theorem hashChallenge2C_ok {w : Nat} (hw : 32 ≤ w) {chall2 chall1 uTilde hV d : Mem Byte} {lambda ell : Nat}
    {chall1' uTilde' hV' d' : List Byte} (h1 : rdN chall1 0 (5 * (lambda / 8) + 8) = some chall1')
    (h2 : rdN uTilde 0 (lambda / 8 + UNIVERSAL_HASH_B) = some uTilde')
    (h3 : rdN hV 0 (2 * (lambda / 8)) = some hV') (h4 : rdN d 0 (ell / 8) = some d')
    (hl : lambda < 2 ^ 16) (he : ell < 2 ^ 16) (hc : 3 * (lambda / 8) + 8 ≤ chall2.length) :
    Ok (hashChallenge2C w chall2 chall1 uTilde hV d lambda ell) (Wrote chall2 0 (3 * (lambda / 8) + 8)
      (fun i => shakeX (hashSel lambda) (chall1' ++ uTilde' ++ hV' ++ d' ++ [0x02]) i)) := by
  unfold hashChallenge2C
  refine Ok.bind (roInit_ok lambda) ?_
  intro ctx g0
  refine Ok.bind (roUpdate_ok hw g0 h1 (small_of_lt hw (by omega)).update) ?_
  intro ctx g1
  refine Ok.bind (roUpdate_ok hw g1 h2 (small_of_lt hw (by unfold UNIVERSAL_HASH_B; omega)).update) ?_
  intro ctx g2
  refine Ok.bind (roUpdate_ok hw g2 h3 (small_of_lt hw (by omega)).update) ?_
  intro ctx g3
  refine Ok.bind (roUpdate_ok hw g3 h4 (small_of_lt hw (by omega)).update) ?_
  intro ctx g4
  rw [List.nil_append] at g4
  exact final1_ok hw g4 0x02 hc (small_of_lt hw (by omega))

theorem hashChallenge3C_ok {w : Nat} (hw : 32 ≤ w) {chall3 chall2 aTilde bTilde : Mem Byte} {lambda : Nat}
    {chall2' aTilde' bTilde' : List Byte} (h1 : rdN chall2 0 (3 * (lambda / 8) + 8) = some chall2')
    (h2 : rdN aTilde 0 (lambda / 8) = some aTilde') (h3 : rdN bTilde 0 (lambda / 8) = some bTilde')
    (hl : lambda < 2 ^ 16) (hc : lambda / 8 ≤ chall3.length) :
    Ok (hashChallenge3C w chall3 chall2 aTilde bTilde lambda) (Wrote chall3 0 (lambda / 8)
      (fun i => shakeX (hashSel lambda) (chall2' ++ aTilde' ++ bTilde' ++ [0x02]) i)) := by
  unfold hashChallenge3C
  refine Ok.bind (roInit_ok lambda) ?_
  intro ctx g0
  refine Ok.bind (roUpdate_ok hw g0 h1 (small_of_lt hw (by omega)).update) ?_
  intro ctx g1
  refine Ok.bind (roUpdate_ok hw g1 h2 (small_of_lt hw (by omega)).update) ?_
  intro ctx g2
  refine Ok.bind (roUpdate_ok hw g2 h3 (small_of_lt hw (by omega)).update) ?_
  intro ctx g3
  rw [List.nil_append] at g3
  exact final1_ok hw g3 0x02 hc (small_of_lt hw (by omega))

/-! ### Sizes that do not work -/

theorem addBytesInLane_len {st st' : Mem U64} {base p : Nat} {data : Mem Byte} {off n : Nat}
    (h : addBytesInLane st base p data off n = some st') : st'.length = st.length := by
  unfold addBytesInLane at h
  split at h
  · cases h; rfl
  · cases hl : loadPartial data n with
    | none => rw [hl] at h; simp at h
    | some lane =>
      rw [hl, Option.bind_eq_bind, Option.bind_some] at h
      split at h
      · cases hr : rd st (base + p) with
        | none => rw [hr] at h; simp at h
        | some x =>
          rw [hr, Option.bind_some] at h
          unfold wr at h
          split at h
          · cases h; simp
          · cases h
      · cases h

theorem addBytesInLane_oob {st : Mem U64} {p : Nat} {data : Mem Byte} {off n : Nat} (hp : st.length ≤ p)
    (hn : 0 < n) : addBytesInLane st 0 p data off n = none := by
  unfold addBytesInLane
  rw [if_neg (by omega), rd_eq_none_of_ge (by omega : st.length ≤ 0 + p)]
  cases loadPartial data n with
  | none => rfl
  | some x => simp

/-- Adding bytes beyond the end of the state is an access outside the state array. -/
theorem addBytesLoop_oob : ∀ fuel sizeLeft lp off (data : Mem Byte) (st : Mem U64), st.length = 25 → lp ≤ 25 →
    off < 8 → (lp = 25 → off = 0) → 200 < 8 * lp + off + sizeLeft → addBytesLoop 0 fuel sizeLeft lp off data st = none := by
  intro fuel
  induction fuel with
  | zero => intros; rfl
  | succ f ih =>
    intro sizeLeft lp off data st hl hlp ho ho2 hsz
    unfold addBytesLoop
    by_cases e : sizeLeft > 0
    · rw [if_pos e]
      dsimp only
      generalize hb : (if 8 - off > sizeLeft then sizeLeft else 8 - off) = b
      have hb1 : 0 < b ∧ b ≤ 8 - off ∧ b ≤ sizeLeft := by split at hb <;> omega
      by_cases e2 : lp = 25
      · rw [addBytesInLane_oob (by omega) hb1.1]; rfl
      · cases h : addBytesInLane st 0 lp data off b with
        | none => rfl
        | some st' =>
          rw [Option.bind_eq_bind, Option.bind_some]
          cases hp : ptr data b with
          | none => rfl
          | some d =>
            rw [Option.bind_eq_bind, Option.bind_some]
            exact ih _ _ _ _ _ (by rw [addBytesInLane_len h, hl]) (by omega) (by omega) (by omega) (by omega)
    · omega

/-- With a block partly filled and a remaining size that is a multiple of `2^32`, one turn of the loop changes
nothing. -/
theorem absorbLoop_stuck {w r : Nat} (hr200 : r ≤ 200) {data : Mem Byte} {s : MSt} {inst : SpongeInstance}
    (h : AOk r s inst) (hs : s.2 ≠ 0) {len i : Nat} (hl : len ≤ data.length) (hw : len < 2 ^ w) (hi : i < len)
    (hm : (len - i) % 2 ^ 32 = 0) (fuel : Nat) :
    absorbLoop w data len (fuel + 1) inst i = absorbLoop w data len fuel inst i := by
  have hrate : inst.rate / 8 = r := by rw [h.rate]; omega
  have hlt := h.lt
  have hidx := h.idx
  have hpb : partialBlock r inst.byteIOIndex (len - i) = 0 := by
    unfold partialBlock uint
    rw [hm, Nat.zero_add, Nat.mod_eq_of_lt (by omega), if_neg (by omega)]
  have hadd : addBytes inst.state 0 (data.drop i) inst.byteIOIndex 0 = some inst.state := by
    unfold addBytes
    rw [if_neg (by omega)]
    rfl
  conv_lhs => unfold absorbLoop
  dsimp only
  rw [hrate, if_pos hi, ptr_eq (by omega), Option.bind_eq_bind, Option.bind_some, if_neg (by omega), hpb, hadd,
    Option.bind_eq_bind, Option.bind_some, Nat.add_zero, Nat.add_zero, if_neg (by unfold uint; omega), sizeT_eq (by omega)]
  congr 1
  rw [uint_eq (by omega)]

theorem absorbLoop_stuck_none {w r : Nat} (hr200 : r ≤ 200) {data : Mem Byte} {s : MSt} {inst : SpongeInstance}
    (h : AOk r s inst) (hs : s.2 ≠ 0) {len i : Nat} (hl : len ≤ data.length) (hw : len < 2 ^ w) (hi : i < len)
    (hm : (len - i) % 2 ^ 32 = 0) (fuel : Nat) : absorbLoop w data len fuel inst i = none := by
  induction fuel with
  | zero => rfl
  | succ f ih => rw [absorbLoop_stuck hr200 h hs hl hw hi hm, ih]

/-- Outside of `Fits`, absorbing goes wrong whenever a block is partly filled. -/
theorem absorbLoop_none {w r : Nat} (hr200 : r ≤ 200) {data : Mem Byte} {l : List Byte} (hd : Data data l)
    (hw : l.length + r < 2 ^ w) {s : MSt} {inst : SpongeInstance} (h : AOk r s inst) (hs : s.2 ≠ 0)
    (hf : ¬ Fits r s.2 l.length) (fuel : Nat) : absorbLoop w data l.length fuel inst 0 = none := by
  have hrate : inst.rate / 8 = r := by rw [h.rate]; omega
  have hlt := h.lt
  have hidx := h.idx
  have hdl := hd.len
  unfold Fits at hf
  generalize hL : l.length = L at *
  cases fuel with
  | zero => rfl
  | succ fuel =>
    unfold absorbLoop
    dsimp only
    have hpb : partialBlock r inst.byteIOIndex (L - 0) = L % 2 ^ 32 := by
      unfold partialBlock uint
      rw [Nat.sub_zero, hidx, if_neg (by omega)]
    rw [hrate, if_pos (by omega), ptr_eq (by omega), Option.bind_eq_bind, Option.bind_some, if_neg (by omega), hpb,
      hidx]
    by_cases e : L % 2 ^ 32 + s.2 < 2 ^ 32
    · -- the remaining size becomes a multiple of 2^32
      have h1 : L % 2 ^ 32 + s.2 < r := by omega
      have hdd := (hd.drop (i := 0) (by omega)).take (i := L % 2 ^ 32) (by simp; omega)
      obtain ⟨st, hst, hok⟩ := addBytes_ok (off := s.2) h.has hdd (by simp; omega) (by omega)
      rw [hst, Option.bind_eq_bind, Option.bind_some, if_neg (by unfold uint; omega), Nat.zero_add,
        uint_eq (by omega), sizeT_eq (by omega)]
      have hA : AOk r (_, s.2 + L % 2 ^ 32) { inst with state := st, byteIOIndex := s.2 + L % 2 ^ 32 } :=
        ⟨hok.has, hok.len.trans h.len, h.rate, rfl, by show s.2 + L % 2 ^ 32 < r; omega, h.sq⟩
      exact absorbLoop_stuck_none hr200 hA (by show s.2 + L % 2 ^ 32 ≠ 0; omega) (by omega) (by omega) (by omega)
        (by omega) fuel
    · have hnone : addBytes inst.state 0 (data.drop 0) s.2 (L % 2 ^ 32) = none := by
        unfold addBytes
        rw [if_neg hs]
        exact addBytesLoop_oob _ _ _ _ _ _ h.len (by omega) (by omega) (by omega) (by omega)
      rw [hnone]
      rfl

theorem hashUpdate_none {w : Nat} (hw : 32 ≤ w) {sel : Nat} {M : List Byte} {ctx : HashInstance} (h : HAbs sel M ctx)
    {data : Mem Byte} {l : List Byte} (hd : Data data l) (h8 : 8 * l.length < 2 ^ w)
    (hf : ¬ UpdateFits w sel M.length l.length) : hashUpdate w ctx data l.length = none := by
  obtain ⟨f1, f2, f3⟩ := rateOf_facts sel
  unfold UpdateFits at hf
  rw [not_and_or] at hf
  have hf := hf.resolve_left (by omega)
  rw [not_or, ← idx_eq] at hf
  unfold hashUpdate hashUpdateBits spongeAbsorb
  rw [shl3 h8, if_pos (by omega), Nat.mul_div_cancel_left _ (by omega : 0 < 8), h.sp.sq]
  simp only [Bool.false_eq_true, if_false]
  rw [absorbLoop_none (by omega) hd (add_rate_lt hw h8) h.sp hf.1 hf.2]
  rfl

/-- The bits above `size_t` are lost. -/
theorem hashUpdate_wrap {w : Nat} (hw : 3 ≤ w) (ctx : HashInstance) (data : Mem Byte) (n k : Nat) :
    hashUpdate w ctx data (n + 2 ^ (w - 3) * k) = hashUpdate w ctx data n := by
  unfold hashUpdate
  have : sizeT w ((n + 2 ^ (w - 3) * k) <<< 3) = sizeT w (n <<< 3) := by
    unfold sizeT
    have e : 2 ^ w = 2 ^ 3 * 2 ^ (w - 3) := by rw [← Nat.pow_add]; congr 1; omega
    rw [Nat.shiftLeft_eq, Nat.shiftLeft_eq, Nat.add_mul,
      show 2 ^ (w - 3) * k * 2 ^ 3 = 2 ^ w * k by rw [e]; ring, Nat.add_mul_mod_self_left]
  rw [this]

end Faest.Keccak
