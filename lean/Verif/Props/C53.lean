/-
C53: the translated text of faest_param.c.in: signing and verification.
-/
import Verif.Proofs.Gen.ApiRun

namespace Faest.Props
open Faest.C

/-- -1 as `int`. -/
abbrev minusOne : Nat := 4294967295

section
variable (X : XOF) (i : ParamId) (H : C.Heap) (hf : ∀ b, H.next ≤ b → H.cells b = none)
  {sk m : List Byte} {rho : Option (List Byte)} {psk pm pr : CPtr} {s o sl ol n : Nat} {kd kl : Kind} {M : Mem Byte} {ml : Mem Nat}
include hf

/-- **C53, signing with given randomness.** From any memory in which the key, the message, the randomness, a buffer with
room for a signature and a length which is not too small are where the arguments point to, the translated
`faest_*_sign_with_randomness` runs to its end without undefined behaviour.  If the key is good it returns 0, writes the
signature of the specification to the buffer and its size to the length, and changes nothing else.  Otherwise it
returns -1 and changes nothing.  All blocks it has made are gone.  The message and the randomness may be anywhere, even in the
block of the signature; the key is in another block. -/
theorem C53_sign_with_randomness (hsk : sk.length = (params i).skSize) (hs : BytesAt H psk sk) (hap : Apart psk s)
    (hm : BytesAt H pm m) (hrho : (rho = none ∧ pr = none) ∨ ∃ r, rho = some r ∧ BytesAt H pr r)
    (hS : H.cells s = some ⟨kd, .bytes M⟩) (ho : o + (params i).sigSize ≤ M.length)
    (hL : H.cells sl = some ⟨kl, .nums ml⟩) (hn : ml[ol]? = some (some n)) (hle : (params i).sigSize ≤ n) :
    ∃ r H', GenApi.signWithRandomness i (absImpl X) psk pm m.length pr (rho.getD []).length (some ⟨s, o⟩) (some ⟨sl, ol⟩) H = some (r, H') ∧
      (Spec.skGood i sk → r = 0 ∧
        H'.cells = upd (upd H.cells s (some ⟨kd, .bytes (setBytes M o (Spec.signature X i sk m (rho.getD [])))⟩))
          sl (some ⟨kl, .nums (ml.set ol (some (params i).sigSize))⟩)) ∧
      (¬ Spec.skGood i sk → r = minusOne ∧ H'.cells = H.cells) :=
  run_swr (absSpec X) i H hf hsk hs hap hm hrho hS ho hL hn hle trivial fun _ => trivial

/-- **C53, signing.** The translated `faest_*_sign`, the next call of `rand_bytes` storing the bytes `bs`: the same with
`bs` as the randomness, whatever `rand_bytes` returns. -/
theorem C53_sign {sr or' c : Nat} {kr : Kind} {mr : Mem (List (Nat × List Byte))} {bs : List Byte} {rest : List (Nat × List Byte)}
    (hsk : sk.length = (params i).skSize) (hs : BytesAt H psk sk) (hap : Apart psk s) (hm : BytesAt H pm m)
    (hS : H.cells s = some ⟨kd, .bytes M⟩) (ho : o + (params i).sigSize ≤ M.length)
    (hL : H.cells sl = some ⟨kl, .nums ml⟩) (hn : ml[ol]? = some (some n)) (hle : (params i).sigSize ≤ n)
    (hR : H.cells sr = some ⟨kr, .tape mr⟩) (hr : mr[or']? = some (some ((c, bs) :: rest))) (hbs : bs.length = (params i).lambda / 8) :
    ∃ r H', GenApi.sign i (absImpl X) (some ⟨sr, or'⟩) psk pm m.length (some ⟨s, o⟩) (some ⟨sl, ol⟩) H = some (r, H') ∧
      (Spec.skGood i sk → r = 0 ∧
        H'.cells = upd (upd (upd H.cells s (some ⟨kd, .bytes (setBytes M o (Spec.signature X i sk m bs))⟩))
          sl (some ⟨kl, .nums (ml.set ol (some (params i).sigSize))⟩)) sr (some ⟨kr, .tape (mr.set or' (some rest))⟩)) ∧
      (¬ Spec.skGood i sk → r = minusOne ∧ H'.cells = upd H.cells sr (some ⟨kr, .tape (mr.set or' (some rest))⟩)) :=
  run_sign (absSpec X) i H hf hsk hs hap hm hS ho hL hn hle hR hr hbs trivial

/-- **C53, verification.** From any memory with a public key, a message and as many bytes as a signature has, the
translated `faest_*_verify` runs to its end without undefined behaviour and leaves every block as it was.  It returns 0 for
a valid signature and -1 for anything else.  The buffers may overlap. -/
theorem C53_verify {pk sg : List Byte} {ppk ps : CPtr} (hpk : pk.length = (params i).pkSize) (hsg : sg.length = (params i).sigSize)
    (hp : BytesAt H ppk pk) (hm : BytesAt H pm m) (hs : BytesAt H ps sg) :
    ∃ r H', GenApi.verify i (absImpl X) ppk pm m.length ps (params i).sigSize H = some (r, H') ∧ H'.cells = H.cells ∧
      (Spec.ValidSig X i pk m sg → r = 0) ∧ (¬ Spec.ValidSig X i pk m sg → r = minusOne) :=
  run_verify (absSpec X) i H hf hpk hsg hp hm hs trivial

/-- **C53, refused calls.** A missing key, buffer or length, a length which is too small, or a length without randomness:
-1 and no change, whatever the other pointers are; no other argument is touched. -/
theorem C53_reject (psk pm pr psig plen R ppk : CPtr) (len rholen siglen : Nat) :
    ((psk = none ∨ psig = none ∨ plen = none ∨ ∃ sl ol kl ml n, plen = some ⟨sl, ol⟩ ∧ H.cells sl = some ⟨kl, .nums ml⟩ ∧
        ml[ol]? = some (some n) ∧ (n < (params i).sigSize ∨ (pr = none ∧ rholen ≠ 0))) →
      ∃ H', GenApi.signWithRandomness i (absImpl X) psk pm len pr rholen psig plen H = some (minusOne, H') ∧ H'.cells = H.cells) ∧
    ((psk = none ∨ psig = none ∨ plen = none ∨ ∃ sl ol kl ml n, plen = some ⟨sl, ol⟩ ∧ H.cells sl = some ⟨kl, .nums ml⟩ ∧
        ml[ol]? = some (some n) ∧ n < (params i).sigSize) →
      ∃ H', GenApi.sign i (absImpl X) R psk pm len psig plen H = some (minusOne, H') ∧ H'.cells = H.cells) ∧
    ((ppk = none ∨ psig = none ∨ siglen ≠ (params i).sigSize) →
      ∃ H', GenApi.verify i (absImpl X) ppk pm len psig siglen H = some (minusOne, H') ∧ H'.cells = H.cells) :=
  run_reject i H hf psk pm pr psig plen R ppk len rholen siglen

end

/-- A memory with a secret key, a message of three bytes in front of a buffer for the signature, its size and a source of
randomness. -/
def apiHeap : C.Heap :=
  ⟨4, fun b => if b = 0 then some ⟨.caller, .bytes (ofList Concrete.sk)⟩
    else if b = 1 then some ⟨.caller, .bytes (ofList [1, 2, 3] ++ malloc 6336)⟩
    else if b = 2 then some ⟨.caller, .nums [some 7000]⟩
    else if b = 3 then some ⟨.caller, .tape [some [(0, List.replicate 16 7)]]⟩ else none⟩

theorem api_fresh : ∀ b, apiHeap.next ≤ b → apiHeap.cells b = none := fun b hb => by
  have : 4 ≤ b := hb
  simp only [apiHeap]
  rw [if_neg (by omega), if_neg (by omega), if_neg (by omega), if_neg (by omega)]

theorem api_sk : BytesAt apiHeap (some ⟨0, 0⟩) Concrete.sk :=
  ⟨0, 0, _, _, rfl, rfl, by rw [ofList_length]; omega, fun i h => by simp [ofList, h]⟩

/-- The hypotheses are met: signing the message in front of the buffer. -/
example (X : XOF) : ∃ r H', GenApi.sign .p128F (absImpl X) (some ⟨3, 0⟩) (some ⟨0, 0⟩) (some ⟨1, 0⟩) 3 (some ⟨1, 3⟩) (some ⟨2, 0⟩) apiHeap = some (r, H') ∧
    r = 0 ∧ H'.cells = upd (upd (upd apiHeap.cells 1 (some ⟨.caller, .bytes (setBytes (ofList [1, 2, 3] ++ malloc 6336) 3
      (Spec.signature X .p128F Concrete.sk [1, 2, 3] (List.replicate 16 7)))⟩)) 2 (some ⟨.caller, .nums [some 6336]⟩)) 3
      (some ⟨.caller, .tape [some []]⟩) := by
  obtain ⟨r, H', h1, h2, -⟩ := C53_sign X .p128F apiHeap api_fresh (m := [1, 2, 3]) (pm := some ⟨1, 0⟩) (o := 3) rfl api_sk
    (fun q hq => by cases hq; decide)
    ⟨1, 0, _, _, rfl, rfl, by rw [List.length_append, malloc_length]; decide, fun i h => by
      have : i = 0 ∨ i = 1 ∨ i = 2 := by simp at h; omega
      rcases this with rfl | rfl | rfl <;> rfl⟩
    (s := 1) rfl (by rw [List.length_append, malloc_length]; decide) (sl := 2) (ol := 0) (n := 7000) rfl rfl (by decide) (sr := 3) (or' := 0) rfl rfl rfl
  exact ⟨r, H', h1, h2 Concrete.kat_good⟩

end Faest.Props
