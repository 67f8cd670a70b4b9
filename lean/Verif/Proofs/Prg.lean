/-
Counter increment, PRG and one-way functions.
-/
import Verif.Model.Owf
import Verif.Spec.Owf
import Verif.Proofs.AesRefine

namespace Faest
open Spec (beNat counter)

theorem beNat_lt (g : Nat → Byte) (n : Nat) : beNat g n < 256 ^ n := by
  induction n with
  | zero => simp [beNat]
  | succ n ih =>
    have := (g n).isLt
    rw [beNat, Nat.pow_succ]; omega

theorem beNat_congr {g h : Nat → Byte} {n : Nat} (e : ∀ j, j < n → g j = h j) :
    beNat g n = beNat h n := by
  induction n with
  | zero => rfl
  | succ n ih => rw [beNat, beNat, ih fun j hj => e j (by omega), e n (by omega)]

theorem aesIncrementIvLoop_ok : ∀ (i : Nat) (iv : Mem Byte) (g : Nat → Byte) (n : Nat),
    iv.length = n → i ≤ n → Has iv 0 n g →
    Ok (aesIncrementIvLoop i iv) (fun iv' => iv'.length = n ∧ ∃ g', Has iv' 0 n g' ∧
      (∀ j, i ≤ j → g' j = g j) ∧ beNat g' i = (beNat g i + 1) % 256 ^ i) := by
  intro i
  induction i with
  | zero =>
    intro iv g n hl _ h
    exact Ok.some ⟨hl, g, h, fun _ _ => rfl, by simp [beNat]⟩
  | succ i ih =>
    intro iv g n hl hi h
    unfold aesIncrementIvLoop
    refine Ok.step (h.rd0 (by omega)) ?_
    by_cases hb : g i = 0xff
    · rw [if_pos hb]
      refine Ok.bind (Ok.wr (Q := fun m' => m'.length = n ∧
        Has m' 0 n (fun j => if j = i then 0 else g j)) (by omega) ?_) ?_
      · intro m' h1 h2
        refine ⟨by omega, fun j hj => ?_⟩
        rw [Nat.zero_add, h2, h.rd0 hj]
        by_cases hc : j = i <;> simp [hc]
      rintro m1 ⟨hl1, h1⟩
      refine (ih m1 _ n hl1 (by omega) h1).mono ?_
      rintro m2 ⟨hl2, g2, h2, h3, h4⟩
      refine ⟨hl2, g2, h2, ?_, ?_⟩
      · intro j hj
        rw [h3 j (by omega), if_neg (by omega)]
      · have e1 : beNat (fun j => if j = i then 0 else g j) i = beNat g i :=
          beNat_congr fun j hj => by rw [if_neg (by omega)]
        have z0 : (0 : Byte).toNat = 0 := rfl
        have z1 : (0xff : Byte).toNat = 255 := rfl
        have z2 : beNat g i * 256 + 255 + 1 = (beNat g i + 1) * 256 := by omega
        rw [beNat, beNat, h3 i (Nat.le_refl _), if_pos rfl, h4, e1, hb, Nat.pow_succ, z0, z1,
          Nat.add_zero, z2, Nat.mul_mod_mul_right]
    · rw [if_neg hb]
      refine Ok.wr (by omega) ?_
      intro m' h1 h2
      refine ⟨by omega, fun j => if j = i then g i + 1 else g j, ?_, ?_, ?_⟩
      · intro j hj
        rw [Nat.zero_add, h2, h.rd0 hj]
        by_cases hc : j = i <;> simp [hc]
      · intro j hj
        simp only
        rw [if_neg (by omega)]
      · have e1 : beNat (fun j => if j = i then g i + 1 else g j) i = beNat g i :=
          beNat_congr fun j hj => by rw [if_neg (by omega)]
        rw [beNat, beNat, e1, if_pos rfl]
        have hlt := (g i).isLt
        have hne : (g i).toNat ≠ 255 := fun hc => hb (BitVec.eq_of_toNat_eq (by rw [hc]; rfl))
        have e2 : (g i + 1).toNat = (g i).toNat + 1 := by
          rw [BitVec.toNat_add]
          show ((g i).toNat + 1) % 256 = _
          omega
        have := beNat_lt g i
        rw [e2, Nat.mod_eq_of_lt (by rw [Nat.pow_succ]; omega)]
        omega

/-- The bytes of a big-endian number. -/
theorem beNat_byte (g : Nat → Byte) (n j : Nat) (hj : j < n) :
    BitVec.ofNat 8 (beNat g n / 256 ^ (n - 1 - j)) = g j := by
  induction n with
  | zero => omega
  | succ n ih =>
    by_cases hc : j = n
    · subst hc
      rw [show j + 1 - 1 - j = 0 by omega, Nat.pow_zero, Nat.div_one, beNat]
      apply BitVec.eq_of_toNat_eq
      have := (g j).isLt
      rw [BitVec.toNat_ofNat]
      show _ % 256 = _
      omega
    · have e : n + 1 - 1 - j = (n - 1 - j) + 1 := by omega
      have hlt := (g n).isLt
      rw [e, Nat.pow_succ, Nat.mul_comm, ← Nat.div_div_eq_div_mul, beNat,
        show (beNat g n * 256 + (g n).toNat) / 256 = beNat g n by omega]
      exact ih (by omega)

theorem beNat_bytes (n M : Nat) :
    beNat (fun j => BitVec.ofNat 8 (M / 256 ^ (n - 1 - j))) n = M % 256 ^ n := by
  induction n generalizing M with
  | zero => simp [beNat, Nat.mod_one]
  | succ n ih =>
    have e : beNat (fun j => BitVec.ofNat 8 (M / 256 ^ (n + 1 - 1 - j))) n = M / 256 % 256 ^ n := by
      rw [← ih (M / 256)]
      refine beNat_congr fun j hj => ?_
      rw [show n + 1 - 1 - j = (n - 1 - j) + 1 by omega, Nat.pow_succ, Nat.mul_comm (256 ^ _),
        ← Nat.div_div_eq_div_mul]
    rw [beNat, e]
    simp only [show n + 1 - 1 - n = 0 by omega, Nat.pow_zero, Nat.div_one, BitVec.toNat_ofNat]
    rw [Nat.pow_succ 256 n, Nat.mul_comm (256 ^ n), Nat.mod_mul]
    omega

theorem beNat_counter (iv : Nat → Byte) (i : Nat) :
    beNat (counter iv i) 16 = (beNat iv 16 + i) % 2 ^ 128 := by
  have := beNat_bytes 16 ((beNat iv 16 + i) % 2 ^ 128)
  rw [show (256 : Nat) ^ 16 = 2 ^ 128 from by decide, Nat.mod_mod] at this
  exact this

theorem counter_of_beNat {g iv : Nat → Byte} {i : Nat}
    (h : beNat g 16 = (beNat iv 16 + i) % 2 ^ 128) : ∀ j, j < 16 → g j = counter iv i j := by
  intro j hj
  unfold counter
  rw [← h, ← beNat_byte g 16 j hj]

theorem counter_zero {iv : Nat → Byte} : ∀ j, j < 16 → iv j = counter iv 0 j := by
  refine counter_of_beNat ?_
  rw [Nat.add_zero, Nat.mod_eq_of_lt]
  exact beNat_lt iv 16

theorem aesIncrementIv_ok {m : Mem Byte} {iv : Nat → Byte} {i : Nat} (hl : m.length = 16)
    (h : Has m 0 16 (counter iv i)) :
    Ok (aesIncrementIv m) (fun m' => m'.length = 16 ∧ Has m' 0 16 (counter iv (i + 1))) := by
  refine (aesIncrementIvLoop_ok 16 m _ 16 hl (Nat.le_refl _) h).mono ?_
  rintro m' ⟨hl', g', h', _, hb⟩
  refine ⟨hl', h'.congr (counter_of_beNat ?_)⟩
  rw [hb, beNat_counter]
  show _ % 2 ^ 128 = _
  omega

theorem tabP_append_block {g : Nat → Byte} {k : Nat} {blk : List Byte}
    (h : blk = tabP 16 (fun j => g (16 * k + j))) :
    tabP (16 * k) g ++ blk = tabP (16 * (k + 1)) g := by
  rw [h, Nat.mul_add, Nat.mul_one, tabP_add]

theorem prg_ok {key iv : Mem Byte} {lambda outlen : Nat} {k v : Nat → Byte}
    (hlam : lambda = 128 ∨ lambda = 192 ∨ lambda = 256)
    (hk : Has key 0 (lambda / 8) k) (hv : Has iv 0 16 v) :
    prg key iv lambda outlen = some (tabP outlen (Spec.prgStream lambda k v)) := by
  have hkw : aesKeyWords lambda = Spec.aesNk lambda := by
    rcases hlam with rfl | rfl | rfl <;> rfl
  have hnr : aesRounds lambda = Spec.aesNr lambda := by
    rcases hlam with rfl | rfl | rfl <;> rfl
  have hk4 : Spec.aesNk lambda = 4 ∨ Spec.aesNk lambda = 6 ∨ Spec.aesNk lambda = 8 := by
    unfold Spec.aesNk; omega
  have hr1 : 1 ≤ Spec.aesNr lambda ∧ Spec.aesNr lambda ≤ 14 := by unfold Spec.aesNr; omega
  apply Ok.eq
  unfold prg
  rw [hkw, hnr]
  refine Ok.step (rdN_has hv (by decide)) ?_
  refine Ok.bind (expandKey_ok (g := k) (bw := 4) hk4 (.inl rfl) hr1.2
    (by unfold Spec.aesNk Spec.aesNr; omega) (hk.mono (by unfold Spec.aesNk; omega))) ?_
  rintro ⟨rk, z⟩ ⟨hrk, _⟩
  have hblk : ∀ (m : Mem Byte) (i : Nat), Has m 0 16 (counter v i) →
      Ok (encryptBlock rk m 0 4 (Spec.aesNr lambda))
        (fun s => s.1 = tabP 16 (fun j => Spec.prgStream lambda k v (16 * i + j))) := by
    intro m i hm
    refine (encryptBlock_ok (p := counter v i) (.inl rfl) hr1.1 hrk hm).mono ?_
    rintro s ⟨hs, _⟩
    rw [hs]
    refine tabP_congr fun j hj => ?_
    unfold Spec.prgStream Spec.encrypt
    rw [show (16 * i + j) / 16 = i by omega, show (16 * i + j) % 16 = j by omega]
  refine Ok.bind (Ok.forN (fun i (s : List Byte × Mem Byte) =>
    s.1 = tabP (16 * i) (Spec.prgStream lambda k v) ∧ s.2.length = 16 ∧
      Has s.2 0 16 (counter v i)) ?_ ?_) ?_
  · refine ⟨by simp [tabP], by simp, ?_⟩
    exact (has_full 16 v).congr counter_zero
  · rintro i _ ⟨o, m⟩ ⟨h1, h2, h3⟩
    refine Ok.bind (hblk m i h3) ?_
    rintro ⟨blk, zb⟩ hb
    refine Ok.bind (aesIncrementIv_ok h2 h3) ?_
    rintro m' ⟨h4, h5⟩
    refine Ok.pure ⟨?_, h4, h5⟩
    simp only at h1 hb ⊢
    rw [h1]
    exact tabP_append_block hb
  · rintro ⟨o, m⟩ ⟨h1, h2, h3⟩
    simp only at h1 h3 ⊢
    by_cases hrem : outlen % 16 ≠ 0
    · rw [if_pos hrem]
      refine Ok.bind (hblk m _ h3) ?_
      rintro ⟨blk, zb⟩ hb
      simp only at hb ⊢
      have hrd : rdN (ofList blk) 0 (outlen % 16)
          = some (tabP (outlen % 16) (fun j => Spec.prgStream lambda k v (16 * (outlen / 16) + j))) := by
        refine rdN_has ?_ (by omega)
        rw [hb]
        exact (has_full 16 _).mono (by omega)
      refine Ok.step hrd (Ok.pure ?_)
      rw [h1, ← tabP_add]
      congr 1
      omega
    · rw [if_neg hrem]
      refine Ok.pure ?_
      rw [h1]
      congr 1
      omega

/-! ### One-way functions -/

theorem not_ksZero_iff {Nk tot : Nat} {key : Nat → Byte} :
    (¬ ∃ k, Nk ≤ k ∧ k < tot ∧ ksZeroAt Nk key k) ↔ Spec.ksNonzero Nk tot key := by
  unfold ksZeroAt Spec.ksNonzero
  constructor
  · intro h k h1 h2 t ht r hr h0
    exact h ⟨k, h1, h2, t, ht, r, hr, h0⟩
  · rintro h ⟨k, h1, h2, t, ht, r, hr, h0⟩
    exact h k h1 h2 t ht r hr h0

theorem not_encZero_iff {Nk Nb Nr : Nat} {key p : Nat → Byte} :
    (¬ encZero Nb (Spec.keyWord Nk key) (Spec.blockState p) Nr) ↔ Spec.encNonzero Nk Nb Nr key p := by
  unfold encZero Spec.encNonzero
  constructor
  · intro h i h1 c hc r hr h0
    exact h ⟨i, h1, c, hc, r, hr, h0⟩
  · rintro h ⟨i, h1, c, hc, r, hr, h0⟩
    exact h i h1 c hc r hr h0

theorem tabP_two_blocks (g : Nat → Byte) (f : Nat → Byte) (h : Nat → Byte)
    (hf : ∀ j, j < 16 → g j = f j) (hh : ∀ j, j < 16 → g (16 + j) = h j) :
    tabP 16 f ++ tabP 16 h = tabP 32 g := by
  rw [show (32 : Nat) = 16 + 16 from rfl, tabP_add]
  rw [tabP_congr hf, tabP_congr hh]

/-- The value of the one-way function and its flag. -/
theorem owf_ok (i : ParamId) {key inp : Mem Byte} {k x : Nat → Byte}
    (hk : Has key 0 (Spec.lam i / 8) k) (hx : Has inp 0 (Spec.owfInLen i) x) :
    Ok (owf i key inp) (fun s => s.1 = tabP (Spec.owfOutLen i) (Spec.owf i k x) ∧
      (s.2 = true ↔ Spec.owfGood i k x)) := by
  have aes1 : ∀ (i : ParamId), i = .p128S ∨ i = .p128F → Has key 0 16 k → Has inp 0 16 x →
      Ok (owf128 key inp) (fun s => s.1 = tabP (Spec.owfOutLen i) (Spec.owf i k x) ∧
      (s.2 = true ↔ Spec.owfGood i k x)) := by
    intro i hi hk hx
    unfold owf128
    refine Ok.bind (expandKey_ok (.inl rfl) (.inl rfl) (by decide) (by decide) hk) ?_
    rintro ⟨rk, z⟩ ⟨hrk, hz⟩
    refine Ok.bind (encryptBlock_ok (.inl rfl) (by decide) hrk hx) ?_
    rintro ⟨o, z1⟩ ⟨ho, hz1⟩
    refine Ok.pure ⟨?_, ?_⟩
    · have : Spec.owfOutLen i = 16 := by rcases hi with rfl | rfl <;> rfl
      simp only at ho ⊢
      rw [this, ho]
      refine tabP_congr fun j hj => ?_
      unfold Spec.owf
      have e1 : Spec.isEm i = false := by rcases hi with rfl | rfl <;> rfl
      have e2 : Spec.lam i = 128 := by rcases hi with rfl | rfl <;> rfl
      rw [e1, e2, show j / 16 = 0 by omega, show j % 16 = j by omega]
      simp [Spec.encrypt]
    · simp only [Bool.not_eq_true', Bool.or_eq_false_iff]
      simp only at hz hz1
      rw [← Bool.not_eq_true, ← Bool.not_eq_true, hz, hz1, not_ksZero_iff, not_encZero_iff]
      unfold Spec.owfGood
      have e1 : Spec.isEm i = false := by rcases hi with rfl | rfl <;> rfl
      have e2 : Spec.lam i = 128 := by rcases hi with rfl | rfl <;> rfl
      have e3 : Spec.owfInLen i = 16 := by rcases hi with rfl | rfl <;> rfl
      rw [e1, e2, e3]
      simp only [Bool.false_eq_true, if_false]
      refine and_congr Iff.rfl ?_
      constructor
      · intro h b hb
        obtain rfl : b = 0 := by omega
        simpa using h
      · intro h
        have := h 0 (by decide)
        simpa using this
  have aes2 : ∀ (i : ParamId) (kw nr : Nat), (kw = 6 ∧ nr = 12 ∧ (i = .p192S ∨ i = .p192F)) ∨
      (kw = 8 ∧ nr = 14 ∧ (i = .p256S ∨ i = .p256F)) → Has key 0 (4 * kw) k → Has inp 0 32 x →
      Ok (do
        let (rk, z) ← expandKey key kw 4 nr
        let (out, z1) ← encryptBlock rk inp 0 4 nr
        let (out2, z2) ← encryptBlock rk inp 16 4 nr
        pure (out ++ out2, !(z || z1 || z2)) : Option (List Byte × Bool))
      (fun s => s.1 = tabP (Spec.owfOutLen i) (Spec.owf i k x) ∧
      (s.2 = true ↔ Spec.owfGood i k x)) := by
    intro i kw nr hi hk hx
    have e1 : Spec.isEm i = false := by
      rcases hi with ⟨_, _, rfl | rfl⟩ | ⟨_, _, rfl | rfl⟩ <;> rfl
    have e2 : Spec.lam i / 32 = kw := by
      rcases hi with ⟨rfl, _, rfl | rfl⟩ | ⟨rfl, _, rfl | rfl⟩ <;> rfl
    have e3 : Spec.owfInLen i = 32 := by
      rcases hi with ⟨_, _, rfl | rfl⟩ | ⟨_, _, rfl | rfl⟩ <;> rfl
    have e4 : kw + 6 = nr := by omega
    have e5 : kw + 7 = nr + 1 := by omega
    refine Ok.bind (expandKey_ok (by omega) (.inl rfl) (by omega) (by omega) hk) ?_
    rintro ⟨rk, z⟩ ⟨hrk, hz⟩
    refine Ok.bind (encryptBlock_ok (.inl rfl) (by omega) hrk (hx.mono (by decide))) ?_
    rintro ⟨o, z1⟩ ⟨ho, hz1⟩
    refine Ok.bind (encryptBlock_ok (p := fun j => x (16 + j)) (.inl rfl) (by omega) hrk ?_) ?_
    · have := hx.sub 16 16 (by decide)
      rwa [Nat.zero_add] at this
    rintro ⟨o2, z2⟩ ⟨ho2, hz2⟩
    refine Ok.pure ⟨?_, ?_⟩
    · simp only at ho ho2 ⊢
      rw [Spec.owfOutLen, e3, ho, ho2]
      refine tabP_two_blocks _ _ _ ?_ ?_
      · intro j hj
        unfold Spec.owf
        rw [e1, e2, e4, show j / 16 = 0 by omega, show j % 16 = j by omega]
        simp [Spec.encrypt]
      · intro j hj
        unfold Spec.owf
        rw [e1, e2, e4, show (16 + j) / 16 = 1 by omega, show (16 + j) % 16 = j by omega]
        simp [Spec.encrypt]
    · simp only [Bool.not_eq_true', Bool.or_eq_false_iff]
      simp only at hz hz1 hz2
      rw [← Bool.not_eq_true, ← Bool.not_eq_true, ← Bool.not_eq_true, hz, hz1, hz2, not_ksZero_iff,
        not_encZero_iff, not_encZero_iff]
      unfold Spec.owfGood
      rw [e1, e2, e3, e4, e5, and_assoc]
      simp only [Bool.false_eq_true, if_false]
      refine and_congr Iff.rfl ?_
      constructor
      · rintro ⟨h0, h1⟩ b hb
        have : b = 0 ∨ b = 1 := by omega
        rcases this with rfl | rfl
        · simpa using h0
        · simpa using h1
      · intro h
        have h0 := h 0 (by decide)
        have h1 := h 1 (by decide)
        exact ⟨by simpa using h0, by simpa using h1⟩
  have em : ∀ (i : ParamId) (bw nr : Nat), (bw = 4 ∧ nr = 10 ∧ (i = .pEM128S ∨ i = .pEM128F)) ∨
      (bw = 6 ∧ nr = 12 ∧ (i = .pEM192S ∨ i = .pEM192F)) ∨
      (bw = 8 ∧ nr = 14 ∧ (i = .pEM256S ∨ i = .pEM256F)) → Has key 0 (4 * bw) k →
      Has inp 0 (4 * bw) x →
      Ok (owfEm bw nr key inp)
      (fun s => s.1 = tabP (Spec.owfOutLen i) (Spec.owf i k x) ∧
      (s.2 = true ↔ Spec.owfGood i k x)) := by
    intro i bw nr hi hk hx
    have e1 : Spec.isEm i = true := by
      rcases hi with ⟨_, _, rfl | rfl⟩ | ⟨_, _, rfl | rfl⟩ | ⟨_, _, rfl | rfl⟩ <;> rfl
    have e2 : Spec.lam i / 32 = bw := by
      rcases hi with ⟨rfl, _, rfl | rfl⟩ | ⟨rfl, _, rfl | rfl⟩ | ⟨rfl, _, rfl | rfl⟩ <;> rfl
    have e3 : Spec.owfInLen i = 4 * bw := by
      rcases hi with ⟨rfl, _, rfl | rfl⟩ | ⟨rfl, _, rfl | rfl⟩ | ⟨rfl, _, rfl | rfl⟩ <;> rfl
    have e4 : bw + 6 = nr := by omega
    have hb : bw = 4 ∨ bw = 6 ∨ bw = 8 := by omega
    unfold owfEm
    refine Ok.bind (expandKey_ok hb hb (by omega)
      (Nat.le_mul_of_pos_right _ (by omega)) hx) ?_
    rintro ⟨rk, z⟩ ⟨hrk, hz⟩
    refine Ok.bind (encryptBlock_ok hb (by omega) hrk hk) ?_
    rintro ⟨o, z1⟩ ⟨ho, hz1⟩
    simp only at ho hz1 ⊢
    have hx2 : xorArr (ofList o) key (4 * bw) = some (tabP (4 * bw) (Spec.owf i k x)) := by
      unfold xorArr
      refine tabM_eq fun j hj => ?_
      have h1 : rd (ofList o) j = some (Spec.stateBytes (Spec.cipher bw nr (Spec.keyWord bw x)
          (Spec.blockState k)) j) := by
        rw [ho]; exact (has_full _ _).rd0 hj
      rw [h1, hk.rd0 hj]
      unfold Spec.owf
      rw [e1, e2, e4]
      rfl
    refine Ok.step hx2 (Ok.pure ⟨?_, ?_⟩)
    · rw [Spec.owfOutLen, e3]
    · simp only [Bool.not_eq_true']
      rw [← Bool.not_eq_true, hz1, not_encZero_iff]
      unfold Spec.owfGood
      rw [e1, e2, e4]
      simp
  cases i
  · exact aes1 _ (.inl rfl) hk hx
  · exact aes1 _ (.inr rfl) hk hx
  · exact aes2 _ 6 12 (.inl ⟨rfl, rfl, .inl rfl⟩) hk hx
  · exact aes2 _ 6 12 (.inl ⟨rfl, rfl, .inr rfl⟩) hk hx
  · exact aes2 _ 8 14 (.inr ⟨rfl, rfl, .inl rfl⟩) hk hx
  · exact aes2 _ 8 14 (.inr ⟨rfl, rfl, .inr rfl⟩) hk hx
  · exact em _ 4 10 (.inl ⟨rfl, rfl, .inl rfl⟩) hk hx
  · exact em _ 4 10 (.inl ⟨rfl, rfl, .inr rfl⟩) hk hx
  · exact em _ 6 12 (.inr (.inl ⟨rfl, rfl, .inl rfl⟩)) hk hx
  · exact em _ 6 12 (.inr (.inl ⟨rfl, rfl, .inr rfl⟩)) hk hx
  · exact em _ 8 14 (.inr (.inr ⟨rfl, rfl, .inl rfl⟩)) hk hx
  · exact em _ 8 14 (.inr (.inr ⟨rfl, rfl, .inr rfl⟩)) hk hx

end Faest
