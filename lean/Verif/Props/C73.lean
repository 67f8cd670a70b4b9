/-
C73: the translated program with the hash layer over liboqs (hash_shake.h with the macro `OQS`).
-/
import Verif.Props.C60
import Verif.Proofs.OqsIdeal

namespace Faest.Props
open Faest.C
open Spec.Keccak (shakeX)

section
variable {L : Oqs.Lib} (S : Spec.Oqs.Works L) (b : FieldBuild) (be : Bool) (i : ParamId) (H : C.Heap) (hf : ∀ b, H.next ≤ b → H.cells b = none)
  {sk m : List Byte} {rho : Option (List Byte)} {psk pm pr : CPtr} {s o sl ol n : Nat} {kd kl : Kind} {M : Mem Byte} {ml : Mem Nat}
include S hf

/-- **C73, signing with given randomness.** The complete translated `faest_*_sign_with_randomness`, with the hash layer over
liboqs and the translated text of the fields: from any memory with the key, the message, the randomness, a buffer and a length which is not too small,
it runs to its end without undefined behaviour.  If the key is good it returns 0, stores the signature of the
specification, with SHAKE of FIPS 202 in all places, and its size, and changes nothing else.  Otherwise it returns -1
and changes nothing.  All contexts of the library are given back. -/
theorem C73_sign_with_randomness (hsk : sk.length = (params i).skSize) (hs : BytesAt H psk sk) (hap : Apart psk s)
    (hm : BytesAt H pm m) (hrho : (rho = none ∧ pr = none) ∨ ∃ r, rho = some r ∧ BytesAt H pr r)
    (hS : H.cells s = some ⟨kd, .bytes M⟩) (ho : o + (params i).sigSize ≤ M.length)
    (hL : H.cells sl = some ⟨kl, .nums ml⟩) (hn : ml[ol]? = some (some n)) (hle : (params i).sigSize ≤ n) :
    ∃ r H', GenWApi.signWithRandomness (fieldsImpl b be) i (Oqs.impl L) psk pm m.length pr (rho.getD []).length (some ⟨s, o⟩) (some ⟨sl, ol⟩) H = some (r, H') ∧
      (Spec.skGood i sk → r = 0 ∧
        H'.cells = upd (upd H.cells s (some ⟨kd, .bytes (setBytes M o (Spec.signature shakeX i sk m (rho.getD [])))⟩))
          sl (some ⟨kl, .nums (ml.set ol (some (params i).sigSize))⟩)) ∧
      (¬ Spec.skGood i sk → r = minusOne ∧ H'.cells = H.cells) := by
  simp only [C60_fields, GenWApi.signWithRandomness_eq]
  exact run_swr (Oqs.oqsSpec S) i H hf hsk hs hap hm hrho hS ho hL hn hle trivial fun _ => trivial

/-- **C73, signing.** The same for `faest_*_sign`, the next call of `rand_bytes` storing `bs`. -/
theorem C73_sign {sr or' c : Nat} {kr : Kind} {mr : Mem (List (Nat × List Byte))} {bs : List Byte} {rest : List (Nat × List Byte)}
    (hsk : sk.length = (params i).skSize) (hs : BytesAt H psk sk) (hap : Apart psk s) (hm : BytesAt H pm m)
    (hS : H.cells s = some ⟨kd, .bytes M⟩) (ho : o + (params i).sigSize ≤ M.length)
    (hL : H.cells sl = some ⟨kl, .nums ml⟩) (hn : ml[ol]? = some (some n)) (hle : (params i).sigSize ≤ n)
    (hR : H.cells sr = some ⟨kr, .tape mr⟩) (hr : mr[or']? = some (some ((c, bs) :: rest))) (hbs : bs.length = (params i).lambda / 8) :
    ∃ r H', GenWApi.sign (fieldsImpl b be) i (Oqs.impl L) (some ⟨sr, or'⟩) psk pm m.length (some ⟨s, o⟩) (some ⟨sl, ol⟩) H = some (r, H') ∧
      (Spec.skGood i sk → r = 0 ∧
        H'.cells = upd (upd (upd H.cells s (some ⟨kd, .bytes (setBytes M o (Spec.signature shakeX i sk m bs))⟩))
          sl (some ⟨kl, .nums (ml.set ol (some (params i).sigSize))⟩)) sr (some ⟨kr, .tape (mr.set or' (some rest))⟩)) ∧
      (¬ Spec.skGood i sk → r = minusOne ∧ H'.cells = upd H.cells sr (some ⟨kr, .tape (mr.set or' (some rest))⟩)) := by
  simp only [C60_fields, GenWApi.sign_eq]
  exact run_sign (Oqs.oqsSpec S) i H hf hsk hs hap hm hS ho hL hn hle hR hr hbs trivial

/-- **C73, verification.** The complete translated `faest_*_verify` returns 0 for a valid signature and -1 for anything else
of this length, and leaves every block as it was. -/
theorem C73_verify {pk sg : List Byte} {ppk ps : CPtr} (hpk : pk.length = (params i).pkSize) (hsg : sg.length = (params i).sigSize)
    (hp : BytesAt H ppk pk) (hm : BytesAt H pm m) (hs : BytesAt H ps sg) :
    ∃ r H', GenWApi.verify (fieldsImpl b be) i (Oqs.impl L) ppk pm m.length ps (params i).sigSize H = some (r, H') ∧ H'.cells = H.cells ∧
      (Spec.ValidSig shakeX i pk m sg → r = 0) ∧ (¬ Spec.ValidSig shakeX i pk m sg → r = minusOne) := by
  simp only [C60_fields, GenWApi.verify_eq]
  exact run_verify (Oqs.oqsSpec S) i H hf hpk hsg hp hm hs trivial

/-- **C73, signed messages.** The complete translated `crypto_sign`. -/
theorem C73_crypto_sign {sk : List Byte} {psk pm : CPtr} {sr or' c : Nat} {kr : Kind} {mr : Mem (List (Nat × List Byte))} {bs : List Byte}
    {rest : List (Nat × List Byte)} (hsk : sk.length = (params i).skSize) (hs : BytesAt H psk sk) (hap : Apart psk s) (hm : BytesAt H pm m)
    (hlt : m.length + (params i).sigSize < 2 ^ 64)
    (hS : H.cells s = some ⟨kd, .bytes M⟩) (ho : o + (m.length + (params i).sigSize) ≤ M.length)
    (hL : H.cells sl = some ⟨kl, .nums ml⟩) (hol : ol < ml.length)
    (hR : H.cells sr = some ⟨kr, .tape mr⟩) (hr : mr[or']? = some (some ((c, bs) :: rest))) (hbs : bs.length = (params i).lambda / 8) :
    ∃ r H', GenWApi.cryptoSign (fieldsImpl b be) i (Oqs.impl L) (some ⟨sr, or'⟩) (some ⟨s, o⟩) (some ⟨sl, ol⟩) pm m.length psk H = some (r, H') ∧
      ∃ M', H'.cells = upd (upd (upd H.cells s (some ⟨kd, .bytes M'⟩))
          sl (some ⟨kl, .nums (ml.set ol (some (m.length + (params i).sigSize)))⟩)) sr (some ⟨kr, .tape (mr.set or' (some rest))⟩) ∧
        (Spec.skGood i sk → r = 0 ∧ M' = setBytes M o (m ++ Spec.signature shakeX i sk m bs)) ∧
        (¬ Spec.skGood i sk → r = minusOne ∧ M' = setBytes M o m) := by
  simp only [C60_fields, GenWApi.cryptoSign_eq]
  exact run_csign (Oqs.oqsSpec S) i H hf hsk hs hap hm hlt hS ho hL hol hR hr hbs trivial

/-- **C73, opening.** The complete translated `crypto_sign_open`. -/
theorem C73_crypto_open {pk sg : List Byte} {ppk psm : CPtr} (hpk : pk.length = (params i).pkSize) (hsg : sg.length = (params i).sigSize)
    (hlt : m.length + (params i).sigSize < 2 ^ 64) (hp : BytesAt H ppk pk) (hsm : BytesAt H psm (m ++ sg))
    (hS : H.cells s = some ⟨kd, .bytes M⟩) (ho : o + m.length ≤ M.length)
    (hL : H.cells sl = some ⟨kl, .nums ml⟩) (hol : ol < ml.length) :
    (Spec.ValidSig shakeX i pk m sg → ∃ H', GenWApi.cryptoSignOpen (fieldsImpl b be) i (Oqs.impl L) (some ⟨s, o⟩) (some ⟨sl, ol⟩) psm (m ++ sg).length ppk H = some (0, H') ∧
      H'.cells = upd (upd H.cells s (some ⟨kd, .bytes (setBytes M o m)⟩)) sl (some ⟨kl, .nums (ml.set ol (some m.length))⟩)) ∧
    (¬ Spec.ValidSig shakeX i pk m sg → ∀ pm pl, ∃ H', GenWApi.cryptoSignOpen (fieldsImpl b be) i (Oqs.impl L) pm pl psm (m ++ sg).length ppk H = some (minusOne, H') ∧
      H'.cells = H.cells) := by
  simp only [C60_fields, GenWApi.cryptoSignOpen_eq]
  exact run_copen (Oqs.oqsSpec S) i H hf hpk hsg hlt hp hsm hS ho hL hol trivial

/-- **C73, everything.** Generating a key pair, signing and verifying with the complete translated program: all three
return 0. -/
theorem C73_roundtrip {sp op ss os sr or' c c' : Nat} {kp ks kr : Kind} {mp ms : Mem Byte} {mr : Mem (List (Nat × List Byte))}
    {good bs : List Byte} {bad rest : List (Nat × List Byte)} {pm : CPtr}
    (hP : H.cells sp = some ⟨kp, .bytes mp⟩) (hop : op + (params i).pkSize ≤ mp.length)
    (hS : H.cells ss = some ⟨ks, .bytes ms⟩) (hos : os + (params i).skSize ≤ ms.length) (hne : sp ≠ ss)
    (hR : H.cells sr = some ⟨kr, .tape mr⟩) (hr : mr[or']? = some (some (bad ++ (c, good) :: (c', bs) :: rest)))
    (hbad : ∀ e ∈ bad, e.2.length = (params i).skSize ∧ ¬ Spec.skGood i e.2) (hlen : bad.length < 2 ^ 63)
    (hg : good.length = (params i).skSize) (hgood : Spec.skGood i good) (hbs : bs.length = (params i).lambda / 8)
    (hM : H.cells s = some ⟨kd, .bytes M⟩) (ho : o + (params i).sigSize ≤ M.length) (hsp : s ≠ sp) (hss : s ≠ ss)
    (hL : H.cells sl = some ⟨kl, .nums ml⟩) (hn : ml[ol]? = some (some n)) (hle : (params i).sigSize ≤ n)
    (hm : BytesAt H pm m) (hmp : Apart pm sp) (hms : Apart pm ss) (hmM : Apart pm s) :
    ∃ H', (do
        let r1 ← GenWApi.keygen (fieldsImpl b be) i (some ⟨sr, or'⟩) (some ⟨sp, op⟩) (some ⟨ss, os⟩)
        let r2 ← GenWApi.sign (fieldsImpl b be) i (Oqs.impl L) (some ⟨sr, or'⟩) (some ⟨ss, os⟩) pm m.length (some ⟨s, o⟩) (some ⟨sl, ol⟩)
        let r3 ← GenWApi.verify (fieldsImpl b be) i (Oqs.impl L) (some ⟨sp, op⟩) pm m.length (some ⟨s, o⟩) (params i).sigSize
        pure (r1, r2, r3) : CM (Nat × Nat × Nat)) H = some ((0, 0, 0), H') := by
  simp only [C60_fields, GenWApi.keygen_eq, GenWApi.sign_eq, GenWApi.verify_eq]
  exact run_round (Oqs.oqsSpec S) i H hf hP hop hS hos hne hR hr hbad hlen hg hgood hbs hM ho hsp hss hL hn hle hm hmp hms hmM trivial

end

/-- The hypotheses are met: signing the message in front of the buffer (memory of C53). -/
example : ∃ r H', GenWApi.sign (fieldsImpl .vector true) .p128F (Oqs.impl Oqs.idealLib) (some ⟨3, 0⟩) (some ⟨0, 0⟩) (some ⟨1, 0⟩) 3 (some ⟨1, 3⟩) (some ⟨2, 0⟩) apiHeap = some (r, H') ∧
    r = 0 ∧ H'.cells = upd (upd (upd apiHeap.cells 1 (some ⟨.caller, .bytes (setBytes (ofList [1, 2, 3] ++ malloc 6336) 3
      (Spec.signature shakeX .p128F Concrete.sk [1, 2, 3] (List.replicate 16 7)))⟩)) 2 (some ⟨.caller, .nums [some 6336]⟩)) 3
      (some ⟨.caller, .tape [some []]⟩) := by
  obtain ⟨r, H', h1, h2, -⟩ := C73_sign Oqs.idealWorks .vector true .p128F apiHeap api_fresh (m := [1, 2, 3]) (pm := some ⟨1, 0⟩) (o := 3) rfl api_sk
    (fun q hq => by cases hq; decide)
    ⟨1, 0, _, _, rfl, rfl, by rw [List.length_append, malloc_length]; decide, fun i h => by
      have : i = 0 ∨ i = 1 ∨ i = 2 := by simp at h; omega
      rcases this with rfl | rfl | rfl <;> rfl⟩
    (s := 1) rfl (by rw [List.length_append, malloc_length]; decide) (sl := 2) (ol := 0) (n := 7000) rfl rfl (by decide) (sr := 3) (or' := 0) rfl rfl rfl
  exact ⟨r, H', h1, h2 Concrete.kat_good⟩

end Faest.Props
