/-
C55: the translated text of crypto_sign.c.in, and the translated functions one after the other.
-/
import Verif.Props.C54

namespace Faest.Props
open Faest.C

/-- **C55, key pairs.** `crypto_sign_keypair` does what `faest_*_keygen` does (C54). -/
theorem C55_crypto_keypair (i : ParamId) (R pk sk : CPtr) : GenApi.cryptoSignKeypair i R pk sk = GenApi.keygen i R pk sk := by
  rw [ckeypair_eq, keygen_eq]

section
variable (X : XOF) (i : ParamId) (H : C.Heap) (hf : ∀ b, H.next ≤ b → H.cells b = none)
  {m : List Byte} {s o sl ol : Nat} {kd kl : Kind} {M : Mem Byte} {ml : Mem Nat}
include hf

/-- **C55, signed messages.** The translated `crypto_sign` of each parameter set, the next call of `rand_bytes` storing
`bs`: for a good key it returns 0, stores the message and behind it the signature to `sm` and their length to `smlen`.
The message may be anywhere, even inside `sm`. For a key which is refused it returns -1, having stored the message and the
length. -/
theorem C55_crypto_sign {sk : List Byte} {psk pm : CPtr} {sr or' c : Nat} {kr : Kind} {mr : Mem (List (Nat × List Byte))} {bs : List Byte}
    {rest : List (Nat × List Byte)} (hsk : sk.length = (params i).skSize) (hs : BytesAt H psk sk) (hap : Apart psk s) (hm : BytesAt H pm m)
    (hlt : m.length + (params i).sigSize < 2 ^ 64)
    (hS : H.cells s = some ⟨kd, .bytes M⟩) (ho : o + (m.length + (params i).sigSize) ≤ M.length)
    (hL : H.cells sl = some ⟨kl, .nums ml⟩) (hol : ol < ml.length)
    (hR : H.cells sr = some ⟨kr, .tape mr⟩) (hr : mr[or']? = some (some ((c, bs) :: rest))) (hbs : bs.length = (params i).lambda / 8) :
    ∃ r H', GenApi.cryptoSign i (absImpl X) (some ⟨sr, or'⟩) (some ⟨s, o⟩) (some ⟨sl, ol⟩) pm m.length psk H = some (r, H') ∧
      ∃ M', H'.cells = upd (upd (upd H.cells s (some ⟨kd, .bytes M'⟩))
          sl (some ⟨kl, .nums (ml.set ol (some (m.length + (params i).sigSize)))⟩)) sr (some ⟨kr, .tape (mr.set or' (some rest))⟩) ∧
        (Spec.skGood i sk → r = 0 ∧ M' = setBytes M o (m ++ Spec.signature X i sk m bs)) ∧
        (¬ Spec.skGood i sk → r = minusOne ∧ M' = setBytes M o m) :=
  run_csign (absSpec X) i H hf hsk hs hap hm hlt hS ho hL hol hR hr hbs trivial

/-- **C55, opening.** The translated `crypto_sign_open` of a string with at least as many bytes as a signature: if its
last part is a valid signature of the first part, the result is 0, the first part is stored to `m` and its length to
`mlen`; otherwise the result is -1 and nothing changes, even if `m` and `mlen` do not point to anything.
`m` may overlap the string. -/
theorem C55_crypto_open {pk sg : List Byte} {ppk psm : CPtr} (hpk : pk.length = (params i).pkSize) (hsg : sg.length = (params i).sigSize)
    (hlt : m.length + (params i).sigSize < 2 ^ 64) (hp : BytesAt H ppk pk) (hsm : BytesAt H psm (m ++ sg))
    (hS : H.cells s = some ⟨kd, .bytes M⟩) (ho : o + m.length ≤ M.length)
    (hL : H.cells sl = some ⟨kl, .nums ml⟩) (hol : ol < ml.length) :
    (Spec.ValidSig X i pk m sg → ∃ H', GenApi.cryptoSignOpen i (absImpl X) (some ⟨s, o⟩) (some ⟨sl, ol⟩) psm (m ++ sg).length ppk H = some (0, H') ∧
      H'.cells = upd (upd H.cells s (some ⟨kd, .bytes (setBytes M o m)⟩)) sl (some ⟨kl, .nums (ml.set ol (some m.length))⟩)) ∧
    (¬ Spec.ValidSig X i pk m sg → ∀ pm pl, ∃ H', GenApi.cryptoSignOpen i (absImpl X) pm pl psm (m ++ sg).length ppk H = some (minusOne, H') ∧
      H'.cells = H.cells) :=
  run_copen (absSpec X) i H hf hpk hsg hlt hp hsm hS ho hL hol trivial

/-- **C55, short strings.** -/
theorem C55_crypto_short {smlen : Nat} (h : smlen < (params i).sigSize) (pm pl psm ppk : CPtr) :
    ∃ H', GenApi.cryptoSignOpen i (absImpl X) pm pl psm smlen ppk H = some (minusOne, H') ∧ H'.cells = H.cells :=
  run_cshort i H hf h pm pl psm ppk

/-- **C55, everything.** Generating a key pair, signing and verifying with the translated functions, from any memory with
room for the keys and the signature and any source of randomness which gives a good key at some point: all three
return 0. -/
theorem C55_roundtrip {sp op ss os sr or' c c' n : Nat} {kp ks kr : Kind} {mp ms : Mem Byte} {mr : Mem (List (Nat × List Byte))}
    {good bs : List Byte} {bad rest : List (Nat × List Byte)} {pm : CPtr}
    (hP : H.cells sp = some ⟨kp, .bytes mp⟩) (hop : op + (params i).pkSize ≤ mp.length)
    (hS : H.cells ss = some ⟨ks, .bytes ms⟩) (hos : os + (params i).skSize ≤ ms.length) (hne : sp ≠ ss)
    (hR : H.cells sr = some ⟨kr, .tape mr⟩) (hr : mr[or']? = some (some (bad ++ (c, good) :: (c', bs) :: rest)))
    (hbad : ∀ e ∈ bad, e.2.length = (params i).skSize ∧ ¬ Spec.skGood i e.2) (hlen : bad.length < 2 ^ 63)
    (hg : good.length = (params i).skSize) (hgood : Spec.skGood i good) (hbs : bs.length = (params i).lambda / 8)
    (hM : H.cells s = some ⟨kd, .bytes M⟩) (ho : o + (params i).sigSize ≤ M.length) (hsp : s ≠ sp) (hss : s ≠ ss)
    (hL : H.cells sl = some ⟨kl, .nums ml⟩) (hn : ml[ol]? = some (some n)) (hle : (params i).sigSize ≤ n)
    (hm : BytesAt H pm m) (hmp : Apart pm sp) (hms : Apart pm ss) (hmM : Apart pm s) :
    ∃ H', (do
        let r1 ← GenApi.keygen i (some ⟨sr, or'⟩) (some ⟨sp, op⟩) (some ⟨ss, os⟩)
        let r2 ← GenApi.sign i (absImpl X) (some ⟨sr, or'⟩) (some ⟨ss, os⟩) pm m.length (some ⟨s, o⟩) (some ⟨sl, ol⟩)
        let r3 ← GenApi.verify i (absImpl X) (some ⟨sp, op⟩) pm m.length (some ⟨s, o⟩) (params i).sigSize
        pure (r1, r2, r3) : CM (Nat × Nat × Nat)) H = some ((0, 0, 0), H') :=
  run_round (absSpec X) i H hf hP hop hS hos hne hR hr hbad hlen hg hgood hbs hM ho hsp hss hL hn hle hm hmp hms hmM trivial

end

/-- The hypotheses are met by the memory of C53: moving the message is not needed, it is already in front of `sm`. -/
example (X : XOF) : ∃ r H', GenApi.cryptoSign .p128F (absImpl X) (some ⟨3, 0⟩) (some ⟨1, 0⟩) (some ⟨2, 0⟩) (some ⟨1, 1⟩) 2 (some ⟨0, 0⟩) apiHeap = some (r, H') ∧ r = 0 := by
  obtain ⟨r, H', h1, M', -, h2, -⟩ := C55_crypto_sign X .p128F apiHeap api_fresh (m := [2, 3]) (pm := some ⟨1, 1⟩) (o := 0) rfl api_sk
    (fun q hq => by cases hq; decide)
    ⟨1, 1, _, _, rfl, rfl, by rw [List.length_append, malloc_length]; decide, fun i h => by
      have : i = 0 ∨ i = 1 := by simp at h; omega
      rcases this with rfl | rfl <;> rfl⟩ (by decide)
    (s := 1) rfl (by rw [List.length_append, malloc_length]; decide) (sl := 2) (ol := 0) rfl (by decide) (sr := 3) (or' := 0) rfl rfl rfl
  exact ⟨r, H', h1, (h2 Concrete.kat_good).1⟩

end Faest.Props
