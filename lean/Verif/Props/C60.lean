/-
C60: the translated program with the translated hash layer and the translated fields, down to operations on words.
-/
import Verif.Props.C59
import Verif.Proofs.Gen.FWords
import Verif.Proofs.Gen.WApi

namespace Faest.Props
open Faest.C
open Spec.Keccak (shakeX)

/-- The builds of fields.c: without vector extensions, with vector extensions and `__builtin_shufflevector`, with vector
extensions and without it. -/
inductive FieldBuild
  | struct | vectorBuiltin | vector
  deriving DecidableEq

/-- fields.h, fields.c, compat.h `rotr8`, `parity8` as translated for the build and the byte order. -/
def fieldsImpl : FieldBuild → Bool → FImpl
  | .struct, be => GenF.S.impl be
  | .vectorBuiltin, be => GenF.VB.impl be
  | .vector, be => GenF.VF.impl be

/-- **C60, fields.** All builds and byte orders of the translated fields behave the same, also when their arguments are not
in bounds: as the polynomials they stand for. -/
theorem C60_fields (b : FieldBuild) (be : Bool) : fieldsImpl b be = absF := by
  cases b
  · exact GenF.S.impl_eq be
  · exact GenF.VB.impl_eq be
  · exact GenF.VF.impl_eq be

-- the calls of the build with vector extensions go through the words: a product of two elements of the field with 2^192 elements
example (x y : BF 192) : (fieldsImpl .vector false).f192.mul x y = retW 192 (GenF.VF.bf192_mul (toW 4 x) (toW 4 y)) := by
  simp only [fieldsImpl, GenF.VF.impl, wordF, wordOps, GenF.VF.code192, Bool.false_eq_true, if_false]
-- four words with a fourth word which is not zero are no element
example : ofW (k := 4) 192 #v[0, 0, 0, 1] = none := by decide
example : (ofW (k := 4) 192 #v[5, 0, 7, 0]).map (fun a => toW 4 a) = some #v[5, 0, 7, 0] := by decide

section
variable (b : FieldBuild) (be : Bool) (v : GenH.Sha3) (i : ParamId) (H : C.Heap) (hf : ∀ b, H.next ≤ b → H.cells b = none)
  {sk m : List Byte} {rho : Option (List Byte)} {psk pm pr : CPtr} {s o sl ol n : Nat} {kd kl : Kind} {M : Mem Byte} {ml : Mem Nat}
include hf

/-- **C60, key generation.** The complete translated `faest_*_keygen` stores the first good key among the next strings of
`rand_bytes` and its public key. -/
theorem C60_keygen {sp op ss os sr or' c : Nat} {kp ks kr : Kind} {mp ms : Mem Byte} {mr : Mem (List (Nat × List Byte))}
    {good : List Byte} {bad rest : List (Nat × List Byte)}
    (hP : H.cells sp = some ⟨kp, .bytes mp⟩) (hop : op + (params i).pkSize ≤ mp.length)
    (hS : H.cells ss = some ⟨ks, .bytes ms⟩) (hos : os + (params i).skSize ≤ ms.length) (hne : sp ≠ ss)
    (hR : H.cells sr = some ⟨kr, .tape mr⟩) (hr : mr[or']? = some (some (bad ++ (c, good) :: rest)))
    (hbad : ∀ e ∈ bad, e.2.length = (params i).skSize ∧ ¬ Spec.skGood i e.2) (hlen : bad.length < 2 ^ 63)
    (hg : good.length = (params i).skSize) (hgood : Spec.skGood i good) :
    ∃ H', GenWApi.keygen (fieldsImpl b be) i (some ⟨sr, or'⟩) (some ⟨sp, op⟩) (some ⟨ss, os⟩) H = some (0, H') ∧
      H'.cells = upd (upd (upd H.cells sp (some ⟨kp, .bytes (setBytes mp op (Spec.pkOf i good))⟩))
        ss (some ⟨ks, .bytes (setBytes ms os good)⟩)) sr (some ⟨kr, .tape (mr.set or' (some rest))⟩) := by
  simp only [C60_fields, GenWApi.keygen_eq]
  exact C54_keygen i H hf hP hop hS hos hne hR hr hbad hlen hg hgood

/-- **C60, validation.** The complete translated `faest_*_validate_keypair`. -/
theorem C60_validate {pk sk : List Byte} {ppk psk : CPtr} (hpk : pk.length = (params i).pkSize) (hsk : sk.length = (params i).skSize)
    (hp : BytesAt H ppk pk) (hs : BytesAt H psk sk) :
    ∃ r H', GenWApi.validateKeypair (fieldsImpl b be) i ppk psk H = some (r, H') ∧ H'.cells = H.cells ∧ (¬ Spec.skGood i sk → r = 1) ∧
      (Spec.skGood i sk → pk = Spec.pkOf i sk → r = 0) ∧ (Spec.skGood i sk → pk ≠ Spec.pkOf i sk → r = 2) := by
  simp only [C60_fields, GenWApi.validateKeypair_eq]
  exact C54_validate i H hf hpk hsk hp hs

/-- **C60, signing with given randomness.** The complete translated `faest_*_sign_with_randomness`, with the translated text
of the hash layer and of the fields: from any memory with the key, the message, the randomness, a buffer and a length which is not too small,
it runs to its end without undefined behaviour.  If the key is good it returns 0, stores the signature of the
specification, with SHAKE of FIPS 202 in all places, and its size, and changes nothing else.  Otherwise it returns -1
and changes nothing.  The states of the sponges are gone. -/
theorem C60_sign_with_randomness (hsk : sk.length = (params i).skSize) (hs : BytesAt H psk sk) (hap : Apart psk s)
    (hm : BytesAt H pm m) (hrho : (rho = none ∧ pr = none) ∨ ∃ r, rho = some r ∧ BytesAt H pr r)
    (hS : H.cells s = some ⟨kd, .bytes M⟩) (ho : o + (params i).sigSize ≤ M.length)
    (hL : H.cells sl = some ⟨kl, .nums ml⟩) (hn : ml[ol]? = some (some n)) (hle : (params i).sigSize ≤ n) (hfm : Hashable i (params i).pkSize m.length)
    (hfr : rho ≠ none → Hashable i (3 * ((params i).lambda / 8)) (rho.getD []).length) :
    ∃ r H', GenWApi.signWithRandomness (fieldsImpl b be) i v.impl psk pm m.length pr (rho.getD []).length (some ⟨s, o⟩) (some ⟨sl, ol⟩) H = some (r, H') ∧
      (Spec.skGood i sk → r = 0 ∧
        H'.cells = upd (upd H.cells s (some ⟨kd, .bytes (setBytes M o (Spec.signature shakeX i sk m (rho.getD [])))⟩))
          sl (some ⟨kl, .nums (ml.set ol (some (params i).sigSize))⟩)) ∧
      (¬ Spec.skGood i sk → r = minusOne ∧ H'.cells = H.cells) := by
  simp only [C60_fields, GenWApi.signWithRandomness_eq]
  exact C59_sign_with_randomness v i H hf hsk hs hap hm hrho hS ho hL hn hle hfm hfr

/-- **C60, signing.** The same for `faest_*_sign`, the next call of `rand_bytes` storing `bs`. -/
theorem C60_sign {sr or' c : Nat} {kr : Kind} {mr : Mem (List (Nat × List Byte))} {bs : List Byte} {rest : List (Nat × List Byte)}
    (hsk : sk.length = (params i).skSize) (hs : BytesAt H psk sk) (hap : Apart psk s) (hm : BytesAt H pm m)
    (hS : H.cells s = some ⟨kd, .bytes M⟩) (ho : o + (params i).sigSize ≤ M.length)
    (hL : H.cells sl = some ⟨kl, .nums ml⟩) (hn : ml[ol]? = some (some n)) (hle : (params i).sigSize ≤ n)
    (hR : H.cells sr = some ⟨kr, .tape mr⟩) (hr : mr[or']? = some (some ((c, bs) :: rest))) (hbs : bs.length = (params i).lambda / 8) (hfm : Hashable i (params i).pkSize m.length) :
    ∃ r H', GenWApi.sign (fieldsImpl b be) i v.impl (some ⟨sr, or'⟩) psk pm m.length (some ⟨s, o⟩) (some ⟨sl, ol⟩) H = some (r, H') ∧
      (Spec.skGood i sk → r = 0 ∧
        H'.cells = upd (upd (upd H.cells s (some ⟨kd, .bytes (setBytes M o (Spec.signature shakeX i sk m bs))⟩))
          sl (some ⟨kl, .nums (ml.set ol (some (params i).sigSize))⟩)) sr (some ⟨kr, .tape (mr.set or' (some rest))⟩)) ∧
      (¬ Spec.skGood i sk → r = minusOne ∧ H'.cells = upd H.cells sr (some ⟨kr, .tape (mr.set or' (some rest))⟩)) := by
  simp only [C60_fields, GenWApi.sign_eq]
  exact C59_sign v i H hf hsk hs hap hm hS ho hL hn hle hR hr hbs hfm

/-- **C60, verification.** The complete translated `faest_*_verify` returns 0 for a valid signature and -1 for anything else
of this length, and leaves every block as it was. -/
theorem C60_verify {pk sg : List Byte} {ppk ps : CPtr} (hpk : pk.length = (params i).pkSize) (hsg : sg.length = (params i).sigSize)
    (hp : BytesAt H ppk pk) (hm : BytesAt H pm m) (hs : BytesAt H ps sg) (hfm : Hashable i (params i).pkSize m.length) :
    ∃ r H', GenWApi.verify (fieldsImpl b be) i v.impl ppk pm m.length ps (params i).sigSize H = some (r, H') ∧ H'.cells = H.cells ∧
      (Spec.ValidSig shakeX i pk m sg → r = 0) ∧ (¬ Spec.ValidSig shakeX i pk m sg → r = minusOne) := by
  simp only [C60_fields, GenWApi.verify_eq]
  exact C59_verify v i H hf hpk hsg hp hm hs hfm

/-- **C60, signed messages.** The complete translated `crypto_sign`. -/
theorem C60_crypto_sign {sk : List Byte} {psk pm : CPtr} {sr or' c : Nat} {kr : Kind} {mr : Mem (List (Nat × List Byte))} {bs : List Byte}
    {rest : List (Nat × List Byte)} (hsk : sk.length = (params i).skSize) (hs : BytesAt H psk sk) (hap : Apart psk s) (hm : BytesAt H pm m)
    (hlt : m.length + (params i).sigSize < 2 ^ 64)
    (hS : H.cells s = some ⟨kd, .bytes M⟩) (ho : o + (m.length + (params i).sigSize) ≤ M.length)
    (hL : H.cells sl = some ⟨kl, .nums ml⟩) (hol : ol < ml.length)
    (hR : H.cells sr = some ⟨kr, .tape mr⟩) (hr : mr[or']? = some (some ((c, bs) :: rest))) (hbs : bs.length = (params i).lambda / 8) (hfm : Hashable i (params i).pkSize m.length) :
    ∃ r H', GenWApi.cryptoSign (fieldsImpl b be) i v.impl (some ⟨sr, or'⟩) (some ⟨s, o⟩) (some ⟨sl, ol⟩) pm m.length psk H = some (r, H') ∧
      ∃ M', H'.cells = upd (upd (upd H.cells s (some ⟨kd, .bytes M'⟩))
          sl (some ⟨kl, .nums (ml.set ol (some (m.length + (params i).sigSize)))⟩)) sr (some ⟨kr, .tape (mr.set or' (some rest))⟩) ∧
        (Spec.skGood i sk → r = 0 ∧ M' = setBytes M o (m ++ Spec.signature shakeX i sk m bs)) ∧
        (¬ Spec.skGood i sk → r = minusOne ∧ M' = setBytes M o m) := by
  simp only [C60_fields, GenWApi.cryptoSign_eq]
  exact C59_crypto_sign v i H hf hsk hs hap hm hlt hS ho hL hol hR hr hbs hfm

/-- **C60, opening.** The complete translated `crypto_sign_open`. -/
theorem C60_crypto_open {pk sg : List Byte} {ppk psm : CPtr} (hpk : pk.length = (params i).pkSize) (hsg : sg.length = (params i).sigSize)
    (hlt : m.length + (params i).sigSize < 2 ^ 64) (hp : BytesAt H ppk pk) (hsm : BytesAt H psm (m ++ sg))
    (hS : H.cells s = some ⟨kd, .bytes M⟩) (ho : o + m.length ≤ M.length)
    (hL : H.cells sl = some ⟨kl, .nums ml⟩) (hol : ol < ml.length) (hfm : Hashable i (params i).pkSize m.length) :
    (Spec.ValidSig shakeX i pk m sg → ∃ H', GenWApi.cryptoSignOpen (fieldsImpl b be) i v.impl (some ⟨s, o⟩) (some ⟨sl, ol⟩) psm (m ++ sg).length ppk H = some (0, H') ∧
      H'.cells = upd (upd H.cells s (some ⟨kd, .bytes (setBytes M o m)⟩)) sl (some ⟨kl, .nums (ml.set ol (some m.length))⟩)) ∧
    (¬ Spec.ValidSig shakeX i pk m sg → ∀ pm pl, ∃ H', GenWApi.cryptoSignOpen (fieldsImpl b be) i v.impl pm pl psm (m ++ sg).length ppk H = some (minusOne, H') ∧
      H'.cells = H.cells) := by
  simp only [C60_fields, GenWApi.cryptoSignOpen_eq]
  exact C59_crypto_open v i H hf hpk hsg hlt hp hsm hS ho hL hol hfm

/-- **C60, everything.** Generating a key pair, signing and verifying with the complete translated program: all three
return 0. -/
theorem C60_roundtrip {sp op ss os sr or' c c' : Nat} {kp ks kr : Kind} {mp ms : Mem Byte} {mr : Mem (List (Nat × List Byte))}
    {good bs : List Byte} {bad rest : List (Nat × List Byte)} {pm : CPtr}
    (hP : H.cells sp = some ⟨kp, .bytes mp⟩) (hop : op + (params i).pkSize ≤ mp.length)
    (hS : H.cells ss = some ⟨ks, .bytes ms⟩) (hos : os + (params i).skSize ≤ ms.length) (hne : sp ≠ ss)
    (hR : H.cells sr = some ⟨kr, .tape mr⟩) (hr : mr[or']? = some (some (bad ++ (c, good) :: (c', bs) :: rest)))
    (hbad : ∀ e ∈ bad, e.2.length = (params i).skSize ∧ ¬ Spec.skGood i e.2) (hlen : bad.length < 2 ^ 63)
    (hg : good.length = (params i).skSize) (hgood : Spec.skGood i good) (hbs : bs.length = (params i).lambda / 8)
    (hM : H.cells s = some ⟨kd, .bytes M⟩) (ho : o + (params i).sigSize ≤ M.length) (hsp : s ≠ sp) (hss : s ≠ ss)
    (hL : H.cells sl = some ⟨kl, .nums ml⟩) (hn : ml[ol]? = some (some n)) (hle : (params i).sigSize ≤ n)
    (hm : BytesAt H pm m) (hmp : Apart pm sp) (hms : Apart pm ss) (hmM : Apart pm s) (hfm : Hashable i (params i).pkSize m.length) :
    ∃ H', (do
        let r1 ← GenWApi.keygen (fieldsImpl b be) i (some ⟨sr, or'⟩) (some ⟨sp, op⟩) (some ⟨ss, os⟩)
        let r2 ← GenWApi.sign (fieldsImpl b be) i v.impl (some ⟨sr, or'⟩) (some ⟨ss, os⟩) pm m.length (some ⟨s, o⟩) (some ⟨sl, ol⟩)
        let r3 ← GenWApi.verify (fieldsImpl b be) i v.impl (some ⟨sp, op⟩) pm m.length (some ⟨s, o⟩) (params i).sigSize
        pure (r1, r2, r3) : CM (Nat × Nat × Nat)) H = some ((0, 0, 0), H') := by
  simp only [C60_fields, GenWApi.keygen_eq, GenWApi.sign_eq, GenWApi.verify_eq]
  exact C59_roundtrip v i H hf hP hop hS hos hne hR hr hbad hlen hg hgood hbs hM ho hsp hss hL hn hle hm hmp hms hmM hfm

end

/-- The hypotheses are met: signing the message in front of the buffer (memory of C53). -/
example : ∃ r H', GenWApi.sign (fieldsImpl .vector true) .p128F GenH.Sha3.opt64be.impl (some ⟨3, 0⟩) (some ⟨0, 0⟩) (some ⟨1, 0⟩) 3 (some ⟨1, 3⟩) (some ⟨2, 0⟩) apiHeap = some (r, H') ∧
    r = 0 ∧ H'.cells = upd (upd (upd apiHeap.cells 1 (some ⟨.caller, .bytes (setBytes (ofList [1, 2, 3] ++ malloc 6336) 3
      (Spec.signature shakeX .p128F Concrete.sk [1, 2, 3] (List.replicate 16 7)))⟩)) 2 (some ⟨.caller, .nums [some 6336]⟩)) 3
      (some ⟨.caller, .tape [some []]⟩) := by
  obtain ⟨r, H', h1, h2, -⟩ := C60_sign .vector true .opt64be .p128F apiHeap api_fresh (m := [1, 2, 3]) (pm := some ⟨1, 0⟩) (o := 3) rfl api_sk
    (fun q hq => by cases hq; decide)
    ⟨1, 0, _, _, rfl, rfl, by rw [List.length_append, malloc_length]; decide, fun i h => by
      have : i = 0 ∨ i = 1 ∨ i = 2 := by simp at h; omega
      rcases this with rfl | rfl | rfl <;> rfl⟩
    (s := 1) rfl (by rw [List.length_append, malloc_length]; decide) (sl := 2) (ol := 0) (n := 7000) rfl rfl (by decide) (sr := 3) (or' := 0) rfl rfl rfl
    (.small (by decide))
  exact ⟨r, H', h1, h2 Concrete.kat_good⟩

end Faest.Props
