/-
C59: the translated program with the translated hash layer, from the API functions down to the rounds of Keccak.
-/
import Verif.Props.C55
import Verif.Proofs.Gen.HShake

namespace Faest.Props
open Faest.C
open Spec.Keccak (shakeX)

/-- The rate of the sponge in bytes: SHAKE128 for the sets with security parameter 128, SHAKE256 for the others. -/
def spongeRate (i : ParamId) : Nat := if (params i).lambda = 128 then 168 else 136

/-- The lengths `n` which can be hashed behind `len` bytes: the length in bits has 64 bits, and the number of bytes for the
first block does not suffer from the conversion to `unsigned int` in sha3/KeccakSponge.inc (C46). -/
def Hashable (i : ParamId) (len n : Nat) : Prop :=
  8 * n < 2 ^ 64 ∧ (len % spongeRate i = 0 ∨ n + len % spongeRate i < 2 ^ 32 ∨
    (spongeRate i ≤ n % 2 ^ 32 + len % spongeRate i ∧ n % 2 ^ 32 + len % spongeRate i < 2 ^ 32))

/-- All lengths up to 2^32 - 200 are hashable. -/
theorem Hashable.small {i : ParamId} {len n : Nat} (h : n + 200 ≤ 2 ^ 32) : Hashable i len n := by
  have : spongeRate i = 168 ∨ spongeRate i = 136 := by unfold spongeRate; split <;> simp
  unfold Hashable
  rcases this with e | e <;> rw [e] <;> omega

-- longer messages are, too, but not all of them
example : Hashable .p128F 32 (2 ^ 32 + 1000) := by unfold Hashable; decide
example : ¬ Hashable .p128F 32 (2 ^ 32 - 1) := by unfold Hashable; decide
example : ¬ Hashable .p128F 32 (2 ^ 32 + 100) := by unfold Hashable; decide

theorem Hashable.msg {v : GenH.Sha3} {i : ParamId} {n : Nat} (h : Hashable i (params i).pkSize n) : v.spec.Msg i n := by
  have e : (params i).pkSize / 2 + (params i).pkSize / 2 = (params i).pkSize := by cases i <;> rfl
  have r : Keccak.rateOf (hashSel (params i).lambda) = spongeRate i := by cases i <;> rfl
  show Keccak.UpdateFits 64 (hashSel (params i).lambda) ((params i).pkSize / 2 + (params i).pkSize / 2) n
  rw [e]
  unfold Keccak.UpdateFits Keccak.Fits
  rw [r]
  exact h

theorem Hashable.rho {v : GenH.Sha3} {i : ParamId} {n : Nat} (h : Hashable i (3 * ((params i).lambda / 8)) n) : v.spec.Rho i n := by
  have e : (params i).lambda / 8 + (params i).lambda / 8 * 2 = 3 * ((params i).lambda / 8) := by omega
  have r : Keccak.rateOf (hashSel (params i).lambda) = spongeRate i := by cases i <;> rfl
  show Keccak.UpdateFits 64 (hashSel (params i).lambda) ((params i).lambda / 8 + (params i).lambda / 8 * 2) n
  rw [e]
  unfold Keccak.UpdateFits Keccak.Fits
  rw [r]
  exact h

section
variable (v : GenH.Sha3) (i : ParamId) (H : C.Heap) (hf : ∀ b, H.next ≤ b → H.cells b = none)
  {sk m : List Byte} {rho : Option (List Byte)} {psk pm pr : CPtr} {s o sl ol n : Nat} {kd kl : Kind} {M : Mem Byte} {ml : Mem Nat}
include hf

/-- **C59, signing with given randomness.** The complete translated `faest_*_sign_with_randomness`, with the translated text
of the hash layer: from any memory with the key, the message, the randomness, a buffer and a length which is not too small,
it runs to its end without undefined behaviour.  If the key is good it returns 0, stores the signature of the
specification, with SHAKE of FIPS 202 in all places, and its size, and changes nothing else.  Otherwise it returns -1
and changes nothing.  The states of the sponges are gone. -/
theorem C59_sign_with_randomness (hsk : sk.length = (params i).skSize) (hs : BytesAt H psk sk) (hap : Apart psk s)
    (hm : BytesAt H pm m) (hrho : (rho = none ∧ pr = none) ∨ ∃ r, rho = some r ∧ BytesAt H pr r)
    (hS : H.cells s = some ⟨kd, .bytes M⟩) (ho : o + (params i).sigSize ≤ M.length)
    (hL : H.cells sl = some ⟨kl, .nums ml⟩) (hn : ml[ol]? = some (some n)) (hle : (params i).sigSize ≤ n) (hfm : Hashable i (params i).pkSize m.length)
    (hfr : rho ≠ none → Hashable i (3 * ((params i).lambda / 8)) (rho.getD []).length) :
    ∃ r H', GenApi.signWithRandomness i v.impl psk pm m.length pr (rho.getD []).length (some ⟨s, o⟩) (some ⟨sl, ol⟩) H = some (r, H') ∧
      (Spec.skGood i sk → r = 0 ∧
        H'.cells = upd (upd H.cells s (some ⟨kd, .bytes (setBytes M o (Spec.signature shakeX i sk m (rho.getD [])))⟩))
          sl (some ⟨kl, .nums (ml.set ol (some (params i).sigSize))⟩)) ∧
      (¬ Spec.skGood i sk → r = minusOne ∧ H'.cells = H.cells) :=
  run_swr v.spec i H hf hsk hs hap hm hrho hS ho hL hn hle hfm.msg fun h => (hfr h).rho

/-- **C59, signing.** The same for `faest_*_sign`, the next call of `rand_bytes` storing `bs`. -/
theorem C59_sign {sr or' c : Nat} {kr : Kind} {mr : Mem (List (Nat × List Byte))} {bs : List Byte} {rest : List (Nat × List Byte)}
    (hsk : sk.length = (params i).skSize) (hs : BytesAt H psk sk) (hap : Apart psk s) (hm : BytesAt H pm m)
    (hS : H.cells s = some ⟨kd, .bytes M⟩) (ho : o + (params i).sigSize ≤ M.length)
    (hL : H.cells sl = some ⟨kl, .nums ml⟩) (hn : ml[ol]? = some (some n)) (hle : (params i).sigSize ≤ n)
    (hR : H.cells sr = some ⟨kr, .tape mr⟩) (hr : mr[or']? = some (some ((c, bs) :: rest))) (hbs : bs.length = (params i).lambda / 8) (hfm : Hashable i (params i).pkSize m.length) :
    ∃ r H', GenApi.sign i v.impl (some ⟨sr, or'⟩) psk pm m.length (some ⟨s, o⟩) (some ⟨sl, ol⟩) H = some (r, H') ∧
      (Spec.skGood i sk → r = 0 ∧
        H'.cells = upd (upd (upd H.cells s (some ⟨kd, .bytes (setBytes M o (Spec.signature shakeX i sk m bs))⟩))
          sl (some ⟨kl, .nums (ml.set ol (some (params i).sigSize))⟩)) sr (some ⟨kr, .tape (mr.set or' (some rest))⟩)) ∧
      (¬ Spec.skGood i sk → r = minusOne ∧ H'.cells = upd H.cells sr (some ⟨kr, .tape (mr.set or' (some rest))⟩)) :=
  run_sign v.spec i H hf hsk hs hap hm hS ho hL hn hle hR hr hbs hfm.msg

/-- **C59, verification.** The complete translated `faest_*_verify` returns 0 for a valid signature and -1 for anything else
of this length, and leaves every block as it was. -/
theorem C59_verify {pk sg : List Byte} {ppk ps : CPtr} (hpk : pk.length = (params i).pkSize) (hsg : sg.length = (params i).sigSize)
    (hp : BytesAt H ppk pk) (hm : BytesAt H pm m) (hs : BytesAt H ps sg) (hfm : Hashable i (params i).pkSize m.length) :
    ∃ r H', GenApi.verify i v.impl ppk pm m.length ps (params i).sigSize H = some (r, H') ∧ H'.cells = H.cells ∧
      (Spec.ValidSig shakeX i pk m sg → r = 0) ∧ (¬ Spec.ValidSig shakeX i pk m sg → r = minusOne) :=
  run_verify v.spec i H hf hpk hsg hp hm hs hfm.msg

/-- **C59, signed messages.** The complete translated `crypto_sign`. -/
theorem C59_crypto_sign {sk : List Byte} {psk pm : CPtr} {sr or' c : Nat} {kr : Kind} {mr : Mem (List (Nat × List Byte))} {bs : List Byte}
    {rest : List (Nat × List Byte)} (hsk : sk.length = (params i).skSize) (hs : BytesAt H psk sk) (hap : Apart psk s) (hm : BytesAt H pm m)
    (hlt : m.length + (params i).sigSize < 2 ^ 64)
    (hS : H.cells s = some ⟨kd, .bytes M⟩) (ho : o + (m.length + (params i).sigSize) ≤ M.length)
    (hL : H.cells sl = some ⟨kl, .nums ml⟩) (hol : ol < ml.length)
    (hR : H.cells sr = some ⟨kr, .tape mr⟩) (hr : mr[or']? = some (some ((c, bs) :: rest))) (hbs : bs.length = (params i).lambda / 8) (hfm : Hashable i (params i).pkSize m.length) :
    ∃ r H', GenApi.cryptoSign i v.impl (some ⟨sr, or'⟩) (some ⟨s, o⟩) (some ⟨sl, ol⟩) pm m.length psk H = some (r, H') ∧
      ∃ M', H'.cells = upd (upd (upd H.cells s (some ⟨kd, .bytes M'⟩))
          sl (some ⟨kl, .nums (ml.set ol (some (m.length + (params i).sigSize)))⟩)) sr (some ⟨kr, .tape (mr.set or' (some rest))⟩) ∧
        (Spec.skGood i sk → r = 0 ∧ M' = setBytes M o (m ++ Spec.signature shakeX i sk m bs)) ∧
        (¬ Spec.skGood i sk → r = minusOne ∧ M' = setBytes M o m) :=
  run_csign v.spec i H hf hsk hs hap hm hlt hS ho hL hol hR hr hbs hfm.msg

/-- **C59, opening.** The complete translated `crypto_sign_open`. -/
theorem C59_crypto_open {pk sg : List Byte} {ppk psm : CPtr} (hpk : pk.length = (params i).pkSize) (hsg : sg.length = (params i).sigSize)
    (hlt : m.length + (params i).sigSize < 2 ^ 64) (hp : BytesAt H ppk pk) (hsm : BytesAt H psm (m ++ sg))
    (hS : H.cells s = some ⟨kd, .bytes M⟩) (ho : o + m.length ≤ M.length)
    (hL : H.cells sl = some ⟨kl, .nums ml⟩) (hol : ol < ml.length) (hfm : Hashable i (params i).pkSize m.length) :
    (Spec.ValidSig shakeX i pk m sg → ∃ H', GenApi.cryptoSignOpen i v.impl (some ⟨s, o⟩) (some ⟨sl, ol⟩) psm (m ++ sg).length ppk H = some (0, H') ∧
      H'.cells = upd (upd H.cells s (some ⟨kd, .bytes (setBytes M o m)⟩)) sl (some ⟨kl, .nums (ml.set ol (some m.length))⟩)) ∧
    (¬ Spec.ValidSig shakeX i pk m sg → ∀ pm pl, ∃ H', GenApi.cryptoSignOpen i v.impl pm pl psm (m ++ sg).length ppk H = some (minusOne, H') ∧
      H'.cells = H.cells) :=
  run_copen v.spec i H hf hpk hsg hlt hp hsm hS ho hL hol hfm.msg

/-- **C59, everything.** Generating a key pair, signing and verifying with the complete translated program: all three
return 0. -/
theorem C59_roundtrip {sp op ss os sr or' c c' : Nat} {kp ks kr : Kind} {mp ms : Mem Byte} {mr : Mem (List (Nat × List Byte))}
    {good bs : List Byte} {bad rest : List (Nat × List Byte)} {pm : CPtr}
    (hP : H.cells sp = some ⟨kp, .bytes mp⟩) (hop : op + (params i).pkSize ≤ mp.length)
    (hS : H.cells ss = some ⟨ks, .bytes ms⟩) (hos : os + (params i).skSize ≤ ms.length) (hne : sp ≠ ss)
    (hR : H.cells sr = some ⟨kr, .tape mr⟩) (hr : mr[or']? = some (some (bad ++ (c, good) :: (c', bs) :: rest)))
    (hbad : ∀ e ∈ bad, e.2.length = (params i).skSize ∧ ¬ Spec.skGood i e.2) (hlen : bad.length < 2 ^ 63)
    (hg : good.length = (params i).skSize) (hgood : Spec.skGood i good) (hbs : bs.length = (params i).lambda / 8)
    (hM : H.cells s = some ⟨kd, .bytes M⟩) (ho : o + (params i).sigSize ≤ M.length) (hsp : s ≠ sp) (hss : s ≠ ss)
    (hL : H.cells sl = some ⟨kl, .nums ml⟩) (hn : ml[ol]? = some (some n)) (hle : (params i).sigSize ≤ n)
    (hm : BytesAt H pm m) (hmp : Apart pm sp) (hms : Apart pm ss) (hmM : Apart pm s) (hfm : Hashable i (params i).pkSize m.length) :
    ∃ H', (do
        let r1 ← GenApi.keygen i (some ⟨sr, or'⟩) (some ⟨sp, op⟩) (some ⟨ss, os⟩)
        let r2 ← GenApi.sign i v.impl (some ⟨sr, or'⟩) (some ⟨ss, os⟩) pm m.length (some ⟨s, o⟩) (some ⟨sl, ol⟩)
        let r3 ← GenApi.verify i v.impl (some ⟨sp, op⟩) pm m.length (some ⟨s, o⟩) (params i).sigSize
        pure (r1, r2, r3) : CM (Nat × Nat × Nat)) H = some ((0, 0, 0), H') :=
  run_round v.spec i H hf hP hop hS hos hne hR hr hbad hlen hg hgood hbs hM ho hsp hss hL hn hle hm hmp hms hmM hfm.msg

end

/-- The hypotheses are met: signing the message in front of the buffer (memory of C53). -/
example : ∃ r H', GenApi.sign .p128F (GenH.Sha3.plain32.impl) (some ⟨3, 0⟩) (some ⟨0, 0⟩) (some ⟨1, 0⟩) 3 (some ⟨1, 3⟩) (some ⟨2, 0⟩) apiHeap = some (r, H') ∧
    r = 0 ∧ H'.cells = upd (upd (upd apiHeap.cells 1 (some ⟨.caller, .bytes (setBytes (ofList [1, 2, 3] ++ malloc 6336) 3
      (Spec.signature shakeX .p128F Concrete.sk [1, 2, 3] (List.replicate 16 7)))⟩)) 2 (some ⟨.caller, .nums [some 6336]⟩)) 3
      (some ⟨.caller, .tape [some []]⟩) := by
  obtain ⟨r, H', h1, h2, -⟩ := C59_sign .plain32 .p128F apiHeap api_fresh (m := [1, 2, 3]) (pm := some ⟨1, 0⟩) (o := 3) rfl api_sk
    (fun q hq => by cases hq; decide)
    ⟨1, 0, _, _, rfl, rfl, by rw [List.length_append, malloc_length]; decide, fun i h => by
      have : i = 0 ∨ i = 1 ∨ i = 2 := by simp at h; omega
      rcases this with rfl | rfl | rfl <;> rfl⟩
    (s := 1) rfl (by rw [List.length_append, malloc_length]; decide) (sl := 2) (ol := 0) (n := 7000) rfl rfl (by decide) (sr := 3) (or' := 0) rfl rfl rfl
    (.small (by decide))
  exact ⟨r, H', h1, h2 Concrete.kat_good⟩

end Faest.Props
