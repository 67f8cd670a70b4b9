/-
C01, C03–C07: signing, verification and key validation through the public interface.

The theorems speak about the model functions `validateKeypair`, `signWithRandomness` and `verify`
(Model/Api.lean) on buffers.  `ofList l` is a buffer holding the bytes `l`; a buffer for a signature is
an arbitrary `Mem Byte`, possibly uninitialised.  "Accepted" and "determined public key" are `Spec.skGood`
and `Spec.pkOf`, by way of the standalone `Spec.owf`, `Spec.owfGood` of Spec/Owf.lean.
-/
import Verif.Proofs.ApiRefine
import Verif.Proofs.Kat

namespace Faest.Props

/-- Buffers with the same length and the same contents are equal. -/
theorem mem_ext {m m' : Mem Byte} (hl : m.length = m'.length) (h : ∀ p, rd m p = rd m' p) : m = m' := by
  apply List.ext_getElem?
  intro p
  have := h p
  unfold rd at this
  by_cases hp : p < m.length
  · rw [List.getElem?_eq_getElem hp, List.getElem?_eq_getElem (by omega)] at this ⊢
    simpa using this
  · rw [List.getElem?_eq_none (by omega), List.getElem?_eq_none (by omega)]

theorem rd_take {m : Mem Byte} {k p : Nat} : rd (m.take k) p = if p < k then rd m p else none := by
  unfold rd
  rw [List.getElem?_take]
  split <;> rfl

theorem take_of_rd {m : Mem Byte} {s : List Byte} {n : Nat} (hl : s.length = n) (hn : n ≤ m.length)
    (h : ∀ p, p < n → rd m p = s[p]?) : m.take n = ofList s := by
  refine mem_ext (by rw [List.length_take, ofList_length]; omega) fun p => ?_
  rw [rd_take, rd_ofList]
  split
  · exact h p ‹_›
  · rw [List.getElem?_eq_none (by omega)]

theorem drop_of_rd {m m' : Mem Byte} {n : Nat} (hl : m.length = m'.length)
    (h : ∀ p, n ≤ p → rd m p = rd m' p) : m.drop n = m'.drop n := by
  refine mem_ext (by simp [hl]) fun p => ?_
  rw [rd_drop, rd_drop]
  exact h _ (by omega)

/-- Signing, with the resulting buffer split at the end of the signature. -/
theorem sign_ok' (X : XOF) {i : ParamId} {sk m r : List Byte} {rho : Option (Mem Byte)} {rholen msglen : Nat}
    {msg sig : Mem Byte} {n : Nat} (hsk : sk.length = (params i).skSize) (hn : (params i).sigSize ≤ n)
    (hbuf : n ≤ sig.length) (hm : rdN msg 0 msglen = some m) (hr : rhoBytes rho rholen = some r)
    (hnull : rho = none → rholen = 0) (hg : Spec.skGood i sk) :
    signWithRandomness X i (some (ofList sk)) msg msglen rho rholen (some sig) (some n)
      = some ⟨0, some (ofList (Spec.signature X i sk m r) ++ sig.drop (params i).sigSize),
          some (params i).sigSize⟩ := by
  obtain ⟨sig', h1, h2, h3⟩ := sign_ok X hsk hn hbuf hm hr hnull hg
  rw [h1]
  have ht : sig'.take (params i).sigSize = ofList (Spec.signature X i sk m r) :=
    take_of_rd (signature_length X i sk m r) (by omega) fun p hp => by rw [h3, if_pos hp]
  have hd : sig'.drop (params i).sigSize = sig.drop (params i).sigSize :=
    drop_of_rd h2 fun p hp => by rw [h3, if_neg (by omega)]
  rw [← ht, ← hd, List.take_append_drop]

theorem rhoNull (rho : Option (List Byte)) : rho.map ofList = none → (rho.getD []).length = 0 := by
  cases rho <;> simp

/-- Verification of a string written at the start of a buffer. -/
theorem verify_list (X : XOF) {i : ParamId} {pk m sg : List Byte} {rest msg : Mem Byte} {msglen : Nat}
    (hpk : pk.length = (params i).pkSize) (hm : rdN msg 0 msglen = some m)
    (hs : sg.length = (params i).sigSize) :
    ∃ r : Int, verify X i (some (ofList pk)) msg msglen (some (ofList sg ++ rest)) (params i).sigSize = some r ∧
      (r = 0 ∨ r = -1) ∧ (r = 0 ↔ Spec.ValidSig X i pk m sg) := by
  refine verify_ok X hpk hm fun t ht => ?_
  have := has_ofList_le sg (n := (params i).sigSize) hs.ge t ht
  rw [← this]
  unfold rd
  rw [List.getElem?_append_left (by rw [ofList_length]; omega)]

/-! ### C01 -/

/-- **C01.** If `validate_keypair` returns 0 then signing with a large enough buffer returns 0, writes exactly
`SIGNATURE_SIZE` bytes `s` at its start, and `verify` accepts them with return value 0: for every parameter
set, message, `rho` (`none` is NULL) and every hash function `X`. -/
theorem C01_sign_then_verify (X : XOF) (i : ParamId) (pk sk m : List Byte) (rho : Option (List Byte))
    (sig : Mem Byte) (n : Nat) (hpk : pk.length = (params i).pkSize) (hsk : sk.length = (params i).skSize)
    (hn : (params i).sigSize ≤ n) (hbuf : n ≤ sig.length)
    (hv : validateKeypair i (some (ofList pk)) (some (ofList sk)) = some 0) :
    ∃ s : List Byte, s.length = (params i).sigSize ∧
      signWithRandomness X i (some (ofList sk)) (ofList m) m.length (rho.map ofList) (rho.getD []).length
          (some sig) (some n)
        = some ⟨0, some (ofList s ++ sig.drop (params i).sigSize), some (params i).sigSize⟩ ∧
      verify X i (some (ofList pk)) (ofList m) m.length (some (ofList s)) (params i).sigSize = some 0 := by
  obtain ⟨r, h1, h2⟩ := validate_ok hpk hsk
  rw [hv] at h1
  obtain rfl := Option.some.inj h1
  have hg : Spec.skGood i sk ∧ pk = Spec.pkOf i sk := by
    rcases h2 with h | h | h
    · exact h.2
    · exact absurd h.1 (by decide)
    · exact absurd h.1 (by decide)
  obtain ⟨hg, rfl⟩ := hg
  refine ⟨Spec.signature X i sk m (rho.getD []), signature_length .., ?_, ?_⟩
  · exact sign_ok' X hsk hn hbuf (rdN_ofList m) (rhoBytes_ofList rho) (rhoNull rho) hg
  · obtain ⟨r, h3, -, h5⟩ := verify_list X (i := i) (rest := []) hpk (rdN_ofList m)
      (signature_length X i sk m (rho.getD []))
    rw [List.append_nil] at h3
    rw [h3, h5.2 (signature_valid X hsk hg)]

/-- C01 applies to the known-answer key pair of FAEST-128f. -/
example (X : XOF) (m rho : List Byte) : ∃ s : List Byte, s.length = 6336 ∧
    signWithRandomness X .p128F (some (ofList Concrete.sk)) (ofList m) m.length
      (some (ofList rho)) rho.length (some (malloc 7000)) (some 7000)
      = some ⟨0, some (ofList s ++ (malloc 7000).drop 6336), some 6336⟩ ∧
    verify X .p128F (some (ofList Concrete.pk)) (ofList m) m.length (some (ofList s)) 6336
      = some 0 :=
  C01_sign_then_verify X .p128F _ _ m (some rho) (malloc 7000) 7000 rfl rfl (by decide) (by simp) Concrete.kat_valid

/-! ### C03 -/

/-- **C03.** NULL pointers give -1 ... -/
theorem C03_null (i : ParamId) (pk sk : Option (Mem Byte)) (h : pk = none ∨ sk = none) :
    validateKeypair i pk sk = some (-1) := by
  rcases h with rfl | rfl
  · rfl
  · cases pk <;> rfl

/-- **C03.** ... and on keys of the right sizes the result is 1 exactly if the one-way function rejects the
secret key, 0 exactly if it accepts and the public key is input ‖ output, 2 exactly if it accepts and the public
key is another one; never -1. -/
theorem C03_codes (i : ParamId) (pk sk : List Byte) (hpk : pk.length = (params i).pkSize)
    (hsk : sk.length = (params i).skSize) :
    ∃ r : Int, validateKeypair i (some (ofList pk)) (some (ofList sk)) = some r ∧
      (r = 1 ↔ ¬Spec.skGood i sk) ∧
      (r = 2 ↔ Spec.skGood i sk ∧ pk ≠ Spec.pkOf i sk) ∧
      (r = 0 ↔ Spec.skGood i sk ∧ pk = Spec.pkOf i sk) ∧ r ≠ -1 := by
  obtain ⟨r, h1, h2⟩ := validate_ok hpk hsk
  refine ⟨r, h1, ?_⟩
  rcases h2 with ⟨rfl, h3, h4⟩ | ⟨rfl, h3⟩ | ⟨rfl, h3, h4⟩
  · simp [h3, h4]
  · simp [h3]
  · simp [h3, h4]

/-- All three codes occur. -/
example : validateKeypair .p128F (some (ofList Concrete.pk)) (some (ofList Concrete.sk)) = some 0 ∧
    validateKeypair .p128F (some (ofList Concrete.sk)) (some (ofList Concrete.sk)) = some 2 ∧
    validateKeypair .p128F (some (ofList Concrete.pk)) (some (ofList (List.replicate 32 0))) = some 1 := by
  refine ⟨Concrete.kat_valid, ?_, ?_⟩
  · obtain ⟨r, h1, -, h2, -⟩ := C03_codes .p128F Concrete.sk Concrete.sk rfl rfl
    rw [h1, h2.2 ⟨Concrete.kat_good, by rw [Concrete.kat_owf.2]; decide⟩]
  · obtain ⟨r, h1, h2, -⟩ := C03_codes .p128F Concrete.pk (List.replicate 32 0) rfl rfl
    rw [h1, h2.2 Concrete.zero_bad]

/-! ### C04 -/

/-- The error conditions of signing. -/
def SignError (i : ParamId) (sk : Option (List Byte)) (rhoNull : Bool) (rholen : Nat) (sigNull : Bool)
    (len : Option Nat) : Prop :=
  sk = none ∨ sigNull = true ∨ len = none ∨ (∃ n, len = some n ∧ n < (params i).sigSize) ∨
    (rhoNull = true ∧ rholen ≠ 0) ∨ ∃ s, sk = some s ∧ ¬Spec.skGood i s

/-- **C04.** In the error cases nothing is required of the message and `rho` buffers, the result is -1, and the
signature buffer and `*signature_len` are unchanged. -/
theorem C04_error (X : XOF) (i : ParamId) (sk : Option (List Byte)) (msg : Mem Byte) (msglen : Nat)
    (rho : Option (Mem Byte)) (rholen : Nat) (sig : Option (Mem Byte)) (len : Option Nat)
    (hsk : ∀ s, sk = some s → s.length = (params i).skSize)
    (he : SignError i sk rho.isNone rholen sig.isNone len) :
    signWithRandomness X i (sk.map ofList) msg msglen rho rholen sig len = some ⟨-1, sig, len⟩ := by
  cases sk with
  | none => rfl
  | some s =>
    cases sig with
    | none => rfl
    | some b =>
      cases len with
      | none => rfl
      | some n =>
        by_cases hc : n < (params i).sigSize ∨ (rho.isNone = true ∧ rholen ≠ 0)
        · show (if n < (params i).sigSize ∨ (rho.isNone ∧ rholen ≠ 0) then _ else _) = _
          rw [if_pos hc]
        · refine sign_reject X (hsk s rfl) ?_
          rcases he with h | h | h | ⟨k, h, h'⟩ | h | ⟨t, h, h'⟩
          · exact absurd h (by simp)
          · exact absurd h (by simp)
          · exact absurd h (by simp)
          · obtain rfl := Option.some.inj h
            exact absurd (.inl h') hc
          · exact absurd (.inr h) hc
          · obtain rfl := Option.some.inj h
            exact h'

/-- **C04.** Otherwise the result is 0, `*signature_len` is set to `SIGNATURE_SIZE` and the bytes of the buffer
beyond `SIGNATURE_SIZE` are unchanged. -/
theorem C04_success (X : XOF) (i : ParamId) (sk m : List Byte) (rho : Option (List Byte)) (sig : Mem Byte) (n : Nat)
    (hsk : sk.length = (params i).skSize) (hbuf : n ≤ sig.length)
    (he : ¬SignError i (some sk) rho.isNone (rho.getD []).length false (some n)) :
    ∃ sig', signWithRandomness X i (some (ofList sk)) (ofList m) m.length (rho.map ofList) (rho.getD []).length
          (some sig) (some n) = some ⟨0, some sig', some (params i).sigSize⟩ ∧
      sig'.length = sig.length ∧ ∀ p, (params i).sigSize ≤ p → sig'[p]? = sig[p]? := by
  simp only [SignError, not_or] at he
  obtain ⟨-, -, -, h1, -, h3⟩ := he
  have hn : (params i).sigSize ≤ n := by
    by_contra hc
    exact h1 ⟨n, rfl, by omega⟩
  have hg : Spec.skGood i sk := by
    by_contra hc
    exact h3 ⟨sk, rfl, hc⟩
  have hl : (ofList (Spec.signature X i sk m (rho.getD []))).length = (params i).sigSize := by
    rw [ofList_length, signature_length]
  refine ⟨_, sign_ok' X hsk hn hbuf (rdN_ofList m) (rhoBytes_ofList rho) (rhoNull rho) hg, ?_, ?_⟩
  · rw [List.length_append, hl, List.length_drop]; omega
  · intro p hp
    rw [List.getElem?_append_right (by omega), List.getElem?_drop, hl]
    congr 1
    omega

/-- **C04.** So the result is -1 exactly in the error cases. -/
theorem C04_iff (X : XOF) (i : ParamId) (sk m : List Byte) (rho : Option (List Byte)) (sig : Mem Byte) (n : Nat)
    (hsk : sk.length = (params i).skSize) (hbuf : n ≤ sig.length) :
    (∃ r, signWithRandomness X i (some (ofList sk)) (ofList m) m.length (rho.map ofList) (rho.getD []).length
          (some sig) (some n) = some r ∧ r.ret = -1) ↔
      SignError i (some sk) rho.isNone (rho.getD []).length false (some n) := by
  constructor
  · rintro ⟨r, h1, h2⟩
    by_contra hc
    obtain ⟨s, h3, -⟩ := C04_success X i sk m rho sig n hsk hbuf hc
    rw [h3] at h1
    obtain rfl := Option.some.inj h1
    exact absurd h2 (show ¬(0 : Int) = -1 by decide)
  · intro he
    refine ⟨_, C04_error X i (some sk) _ _ _ _ (some sig) (some n) (by rintro s ⟨⟩; exact hsk) ?_, rfl⟩
    simpa using he

/-- There is a call meeting the conditions of success ... -/
example : ¬SignError .p128F (some Concrete.sk) true 0 false (some 6336) := by
  simp only [SignError, not_or, not_exists, not_and]
  refine ⟨by simp, by simp, by simp, ?_, by simp, ?_⟩
  · rintro n ⟨⟩
    decide
  · rintro s ⟨⟩
    exact not_not.2 Concrete.kat_good

/-- ... and one which fails because of the key. -/
example : SignError .pEM128F (some (List.replicate 32 0)) false 0 false (some 10000) :=
  .inr (.inr (.inr (.inr (.inr ⟨_, rfl, Concrete.zero_bad_em⟩))))

/-! ### C05 -/

/-- **C05.** The bytes written are a function of the secret key, the message and `rho`: there is one function
`sgn` such that every successful call writes `sgn sk msg rho` over the first `SIGNATURE_SIZE` cells of the buffer,
whatever the buffer contained (cells may be uninitialised) and however long it is; `rho = NULL` counts as the
empty string, and so does a non-NULL `rho` of length 0. -/
theorem C05_function (X : XOF) (i : ParamId) :
    ∃ sgn : List Byte → List Byte → List Byte → List Byte, (∀ sk m r, (sgn sk m r).length = (params i).sigSize) ∧
      ∀ (sk m : List Byte) (rho : Option (List Byte)) (sig sig' : Mem Byte) (n n' : Nat),
        sk.length = (params i).skSize → n ≤ sig.length →
        signWithRandomness X i (some (ofList sk)) (ofList m) m.length (rho.map ofList) (rho.getD []).length
          (some sig) (some n) = some ⟨0, some sig', some n'⟩ →
        sig'.take (params i).sigSize = ofList (sgn sk m (rho.getD [])) := by
  refine ⟨Spec.signature X i, signature_length X i, ?_⟩
  intro sk m rho sig sig' n n' hsk hbuf h
  have hc : ¬SignError i (some sk) rho.isNone (rho.getD []).length false (some n) := by
    intro he
    obtain ⟨r, h1, h2⟩ := (C04_iff X i sk m rho sig n hsk hbuf).2 he
    rw [h] at h1
    obtain rfl := Option.some.inj h1
    exact absurd h2 (show ¬(0 : Int) = -1 by decide)
  simp only [SignError, not_or] at hc
  obtain ⟨-, -, -, h1, -, h3⟩ := hc
  have hn : (params i).sigSize ≤ n := by
    by_contra hc
    exact h1 ⟨n, rfl, by omega⟩
  have hg : Spec.skGood i sk := by
    by_contra hc
    exact h3 ⟨sk, rfl, hc⟩
  have h4 := sign_ok' X hsk hn hbuf (rdN_ofList m) (rhoBytes_ofList rho) (rhoNull rho) hg
  unfold rhoMem at h4
  rw [h4] at h
  have hs := (Option.some.inj (SignResult.mk.inj (Option.some.inj h)).2.1)
  rw [← hs, List.take_left' (by rw [ofList_length, signature_length])]

/-- Two calls with different buffers (one uninitialised, one holding `0xff`), one with `rho` NULL and one with an
empty `rho`. -/
example (X : XOF) (m : List Byte) (s1 s2 : Mem Byte) (n1 n2 : Nat)
    (h1 : signWithRandomness X .p128F (some (ofList Concrete.sk)) (ofList m) m.length none 0
      (some (malloc 7000)) (some 7000) = some ⟨0, some s1, some n1⟩)
    (h2 : signWithRandomness X .p128F (some (ofList Concrete.sk)) (ofList m) m.length
      (some (ofList [])) 0 (some (calloc 6336 0xff)) (some 6336) = some ⟨0, some s2, some n2⟩) :
    s1.take 6336 = s2.take 6336 := by
  obtain ⟨f, -, hf⟩ := C05_function X .p128F
  have e1 := hf _ m none _ s1 _ n1 rfl (by simp) h1
  have e2 := hf _ m (some []) _ s2 _ n2 rfl (by simp) h2
  exact e1.trans e2.symm

/-! ### C07 -/

/-- **C07.** NULL arguments and wrong lengths are rejected with -1, whatever the buffers. -/
theorem C07_malformed (X : XOF) (i : ParamId) (pk sig : Option (Mem Byte)) (msg : Mem Byte) (msglen len : Nat)
    (h : pk = none ∨ sig = none ∨ len ≠ (params i).sigSize) : verify X i pk msg msglen sig len = some (-1) := by
  cases pk with
  | none => rfl
  | some pk =>
    cases sig with
    | none => rfl
    | some sig =>
      rcases h with h | h | h
      · exact absurd h (by simp)
      · exact absurd h (by simp)
      · show (if len ≠ (params i).sigSize then _ else _) = _
        rw [if_pos h]

/-- **C07.** For every string of `SIGNATURE_SIZE` bytes, verification is defined (no access outside a buffer, no
read of an uninitialised cell) and returns 0 or -1, for buffers of exactly the documented sizes. -/
theorem C07_total (X : XOF) (i : ParamId) (pk m sg : List Byte) (hpk : pk.length = (params i).pkSize)
    (hs : sg.length = (params i).sigSize) :
    verify X i (some (ofList pk)) (ofList m) m.length (some (ofList sg)) (params i).sigSize = some 0 ∨
    verify X i (some (ofList pk)) (ofList m) m.length (some (ofList sg)) (params i).sigSize = some (-1) := by
  obtain ⟨r, h1, h2, -⟩ := verify_list X (i := i) (rest := []) hpk (rdN_ofList m) hs
  rw [List.append_nil] at h1
  rw [h1]
  rcases h2 with rfl | rfl
  · exact .inl rfl
  · exact .inr rfl

example (X : XOF) : verify X .p192S (some (ofList (List.replicate 64 7))) (ofList []) 0
      (some (ofList (List.replicate 12744 0xff))) 12744 = some 0 ∨
    verify X .p192S (some (ofList (List.replicate 64 7))) (ofList []) 0
      (some (ofList (List.replicate 12744 0xff))) 12744 = some (-1) :=
  C07_total X .p192S (List.replicate 64 7) [] (List.replicate 12744 0xff) List.length_replicate List.length_replicate

end Faest.Props
