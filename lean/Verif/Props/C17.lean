/-
C17: the AES and Rijndael code follows the standard.
C18: block encryption is a permutation.
C19: counter increment and the PRG stream.
C20: the one-way function accepts exactly when no S-box input is zero.
-/
import Verif.Proofs.Perm
import Verif.Proofs.Concrete

namespace Faest.Props

/-- The combinations of key words, block words and rounds used by the code. -/
def cipherShape (kw bw rounds : Nat) : Prop :=
  (kw = 4 ∧ bw = 4 ∧ rounds = 10) ∨ (kw = 6 ∧ bw = 4 ∧ rounds = 12) ∨ (kw = 8 ∧ bw = 4 ∧ rounds = 14) ∨
  (kw = 6 ∧ bw = 6 ∧ rounds = 12) ∨ (kw = 8 ∧ bw = 8 ∧ rounds = 14)

/-- Key expansion: defined for every key; byte `r` of word `k` of the round keys is byte `r` of word
`k` of the expanded key of the standard. -/
theorem C17_expand_key {kw bw rounds : Nat} (h : cipherShape kw bw rounds) (key : Nat → Byte) :
    ∃ rk z, expandKey (full (4 * kw) key) kw bw rounds = some (rk, z) ∧
      ∀ i, i ≤ rounds → ∀ c, c < bw → ∀ r, r < 4 →
        rd rk (rkIdx i c r) = some (Spec.keyWord kw key (bw * i + c) r) := by
  have hkw : kw = 4 ∨ kw = 6 ∨ kw = 8 := by unfold cipherShape at h; omega
  have hb : bw = 4 ∨ bw = 6 ∨ bw = 8 := by unfold cipherShape at h; omega
  have hle : kw ≤ bw * (rounds + 1) := by
    rcases h with ⟨rfl, rfl, rfl⟩ | ⟨rfl, rfl, rfl⟩ | ⟨rfl, rfl, rfl⟩ | ⟨rfl, rfl, rfl⟩ | ⟨rfl, rfl, rfl⟩ <;>
      decide
  obtain ⟨⟨rk, z⟩, h1, h2, _⟩ := expandKey_ok hkw hb (by unfold cipherShape at h; omega) hle
    (has_full (4 * kw) key)
  exact ⟨rk, z, h1, fun i hi => rk_round (by omega) h2 hi⟩

/-- Block encryption after key expansion: defined for every key and block, and the ciphertext is the
one of the standard. -/
theorem C17_encrypt {kw bw rounds : Nat} (h : cipherShape kw bw rounds) (key p : Nat → Byte) :
    ∃ rk z z', expandKey (full (4 * kw) key) kw bw rounds = some (rk, z) ∧
      encryptBlock rk (full (4 * bw) p) 0 bw rounds
        = some (tabP (4 * bw) (Spec.encrypt kw bw rounds key p), z') := by
  have hkw : kw = 4 ∨ kw = 6 ∨ kw = 8 := by unfold cipherShape at h; omega
  have hb : bw = 4 ∨ bw = 6 ∨ bw = 8 := by unfold cipherShape at h; omega
  have hle : kw ≤ bw * (rounds + 1) := by
    rcases h with ⟨rfl, rfl, rfl⟩ | ⟨rfl, rfl, rfl⟩ | ⟨rfl, rfl, rfl⟩ | ⟨rfl, rfl, rfl⟩ | ⟨rfl, rfl, rfl⟩ <;>
      decide
  obtain ⟨⟨rk, z⟩, h1, h2, _⟩ := expandKey_ok hkw hb (by unfold cipherShape at h; omega) hle
    (has_full (4 * kw) key)
  obtain ⟨⟨o, z'⟩, h3, h4, _⟩ := encryptBlock_ok (p := p) hb (by unfold cipherShape at h; omega) h2
    (has_full (4 * bw) p)
  simp only at h4
  subst h4
  exact ⟨rk, z, z', h1, h3⟩

/-- FIPS 197, appendix C.1, on the model. -/
example : ((expandKey (ofList [0x00, 0x01, 0x02, 0x03, 0x04, 0x05, 0x06, 0x07, 0x08, 0x09, 0x0a, 0x0b,
      0x0c, 0x0d, 0x0e, 0x0f]) 4 4 10).bind (fun s => encryptBlock s.1 (ofList [0x00, 0x11, 0x22, 0x33,
      0x44, 0x55, 0x66, 0x77, 0x88, 0x99, 0xaa, 0xbb, 0xcc, 0xdd, 0xee, 0xff]) 0 4 10)).map Prod.fst
    = some [0x69, 0xc4, 0xe0, 0xd8, 0x6a, 0x7b, 0x04, 0x30, 0xd8, 0xcd, 0xb7, 0x80, 0x70, 0xb4, 0xc5,
      0x5a] := by decide +kernel

example : cipherShape 6 6 12 := by unfold cipherShape; decide

/-- For every array of round keys, encryption is injective on blocks. -/
theorem C18_encrypt_injective {rk : Mem Byte} {bw rounds : Nat} (hb : bw = 4 ∨ bw = 6 ∨ bw = 8)
    (hr : 1 ≤ rounds) (hrk : ∀ i, i ≤ rounds → ∀ c, c < bw → ∀ r, r < 4 → ∃ b, rd rk (rkIdx i c r) = some b)
    (hl : rk.length = rkSize) (p q : Nat → Byte) {o : List Byte} {z z' : Bool}
    (h1 : encryptBlock rk (full (4 * bw) p) 0 bw rounds = some (o, z))
    (h2 : encryptBlock rk (full (4 * bw) q) 0 bw rounds = some (o, z')) :
    ∀ j, j < 4 * bw → p j = q j := by
  have hb0 : 0 < bw := by omega
  have hw : RkHas rk bw (bw * (rounds + 1)) (fun k r => (rd rk (rkIdx (k / bw) (k % bw) r)).getD 0) := by
    refine ⟨hl, ?_⟩
    intro k hk r hr
    obtain ⟨b, hb⟩ := hrk (k / bw) (by
      have : k / bw < rounds + 1 := Nat.div_lt_of_lt_mul (by rwa [Nat.mul_comm] at hk ⊢)
      omega) (k % bw) (Nat.mod_lt _ hb0) r hr
    simp only [hb, Option.getD_some]
  obtain ⟨s1, e1, g1, _⟩ := encryptBlock_ok (p := p) hb hr hw (has_full (4 * bw) p)
  obtain ⟨s2, e2, g2, _⟩ := encryptBlock_ok (p := q) hb hr hw (has_full (4 * bw) q)
  rw [h1] at e1
  rw [h2] at e2
  cases e1
  cases e2
  simp only at g1 g2
  rw [g1] at g2
  exact encryptF_inj g2

/-- The blocks of one key stream are pairwise different (period `2^128`). -/
theorem C18_stream_blocks_distinct {lambda : Nat} (key iv : Nat → Byte) {i j : Nat}
    (hi : i < 2 ^ 128) (hj : j < 2 ^ 128)
    (h : ∀ b, b < 16 → Spec.prgStream lambda key iv (16 * i + b) = Spec.prgStream lambda key iv (16 * j + b)) :
    i = j := by
  have h' : tabP (4 * 4) (Spec.encrypt (Spec.aesNk lambda) 4 (Spec.aesNr lambda) key (Spec.counter iv i))
      = tabP (4 * 4) (Spec.encrypt (Spec.aesNk lambda) 4 (Spec.aesNr lambda) key (Spec.counter iv j)) := by
    refine tabP_congr fun b hb => ?_
    have := h b (by omega)
    unfold Spec.prgStream at this
    rwa [show (16 * i + b) / 16 = i by omega, show (16 * i + b) % 16 = b by omega,
      show (16 * j + b) / 16 = j by omega, show (16 * j + b) % 16 = b by omega] at this
  have e := encryptF_inj h'
  have e2 : Spec.beNat (Spec.counter iv i) 16 = Spec.beNat (Spec.counter iv j) 16 :=
    beNat_congr fun b hb => e b (by omega)
  rw [beNat_counter, beNat_counter] at e2
  omega

/-- The two hypotheses on the round keys are met by every expanded key. -/
example (key : Nat → Byte) : ∃ rk z, expandKey (full (4 * 8) key) 8 8 14 = some (rk, z) ∧
    (∀ i, i ≤ 14 → ∀ c, c < 8 → ∀ r, r < 4 → ∃ b, rd rk (rkIdx i c r) = some b) := by
  obtain ⟨rk, z, h1, h2⟩ := C17_expand_key (kw := 8) (bw := 8) (rounds := 14)
    (by unfold cipherShape; decide) key
  exact ⟨rk, z, h1, fun i hi c hc r hr => ⟨_, h2 i hi c hc r hr⟩⟩

/-- The increment adds one to the 16-byte big-endian number, modulo `2^128`, and never changes
anything else. -/
theorem C19_increment (iv : Nat → Byte) :
    ∃ iv', aesIncrementIv (full 16 iv) = some (full 16 iv') ∧
      Spec.beNat iv' 16 = (Spec.beNat iv 16 + 1) % 2 ^ 128 := by
  obtain ⟨m, h1, h2, g, h3, _, h5⟩ := aesIncrementIvLoop_ok 16 (full 16 iv) iv 16 (by simp [full])
    (Nat.le_refl _) (has_full 16 iv)
  refine ⟨g, ?_, h5⟩
  rw [aesIncrementIv, h1, mem_ext_of_rd h2 h3]

/-- The PRG output of length `n` is the prefix of length `n` of the counter-mode stream. -/
theorem C19_prg {lambda : Nat} (h : lambda = 128 ∨ lambda = 192 ∨ lambda = 256) (key iv : Nat → Byte)
    (n : Nat) :
    prg (full (lambda / 8) key) (full 16 iv) lambda n = some (tabP n (Spec.prgStream lambda key iv)) :=
  prg_ok h (has_full _ _) (has_full _ _)

/-- Carry over all bytes. -/
example : aesIncrementIv (ofList (List.replicate 16 0xff)) = some (ofList (List.replicate 16 0)) := by
  decide

/-- The one-way function is defined on all inputs of the right sizes, returns the specified value,
and reports success exactly when no S-box input is zero. -/
theorem C20_owf (i : ParamId) (key inp : Nat → Byte) :
    ∃ ok, owf i (full (Spec.lam i / 8) key) (full (Spec.owfInLen i) inp)
        = some (tabP (Spec.owfOutLen i) (Spec.owf i key inp), ok) ∧
      (ok = true ↔ Spec.owfGood i key inp) := by
  obtain ⟨⟨o, ok⟩, h1, h2, h3⟩ := owf_ok i (has_full (Spec.lam i / 8) key)
    (has_full (Spec.owfInLen i) inp)
  simp only at h2
  subst h2
  exact ⟨ok, h1, h3⟩

/-- A key with a zero S-box input (all-zero key and block) is rejected. -/
example : (owf .pEM128F (ofList (List.replicate 16 0)) (ofList (List.replicate 16 0))).map Prod.snd
    = some false := by decide +kernel

/-- A key which is accepted. -/
example : Spec.owfGood .p128F (fun j => Concrete.key.getD j 0) (fun j => Concrete.inp.getD j 0) := by
  obtain ⟨ok, h1, h2⟩ := C20_owf .p128F (fun j => Concrete.key.getD j 0) (fun j => Concrete.inp.getD j 0)
  have e1 : full (Spec.lam .p128F / 8) (fun j => Concrete.key.getD j 0) = ofList Concrete.key := by rfl
  have e2 : full (Spec.owfInLen .p128F) (fun j => Concrete.inp.getD j 0) = ofList Concrete.inp := by rfl
  rw [e1, e2] at h1
  have h3 : owf .p128F (ofList Concrete.key) (ofList Concrete.inp) = some (Concrete.out, true) :=
    Concrete.owf_kat
  rw [h3] at h1
  have h4 := congrArg (Option.map Prod.snd) h1
  rw [Option.map_some, Option.map_some] at h4
  exact h2.1 (Option.some.inj h4).symm

end Faest.Props
