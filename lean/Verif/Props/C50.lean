/-
C50: byte-addressed buffers.
-/
import Verif.Proofs.FlatFaest
import Verif.Props.C38

namespace Faest.Props
open Spec (byteFn)

/-- **C50, signing.** With all trees, seeds, commitments and columns in plain byte buffers of the sizes of the C code,
`sign_with_randomness` has no out-of-bounds access, reads no uninitialised byte and writes exactly the signature of the
specification, for every accepted secret key, message, randomness and buffer which is large enough. -/
theorem C50_sign (X : XOF) (i : ParamId) (sk m : List Byte) (rho : Option (List Byte)) (buf : Mem Byte) (n : Nat)
    (hsk : sk.length = (params i).skSize) (hg : Spec.skGood i sk) (hn : (params i).sigSize ≤ n) (hb : n ≤ buf.length) :
    Flat.signWithRandomness X i (some (ofList sk)) (ofList m) m.length (rho.map ofList) (rho.getD []).length
        (some buf) (some n)
      = some ⟨0, some (ofList (Spec.signature X i sk m (rho.getD [])) ++ buf.drop (params i).sigSize),
          some (params i).sigSize⟩ := by
  obtain ⟨r, h1, rfl⟩ := signWithRandomness_flat _ (C38_sign X i sk m rho buf n hsk hg hn hb)
  exact h1

/-- **C50, verification.** The same for `verify`: for every public key, message and string of the length of a
signature it returns 0 if the string is a valid signature according to the specification and -1 otherwise. -/
theorem C50_verify (X : XOF) (i : ParamId) (pk m sg : List Byte) (hpk : pk.length = (params i).pkSize)
    (hs : sg.length = (params i).sigSize) :
    (Spec.ValidSig X i pk m sg →
      Flat.verify X i (some (ofList pk)) (ofList m) m.length (some (ofList sg)) (params i).sigSize = some 0) ∧
    (¬Spec.ValidSig X i pk m sg →
      Flat.verify X i (some (ofList pk)) (ofList m) m.length (some (ofList sg)) (params i).sigSize = some (-1)) := by
  obtain ⟨h1, h2⟩ := C38_verify X i pk m sg hpk hs
  refine ⟨fun hv => ?_, fun hv => ?_⟩
  · obtain ⟨r, h3, rfl⟩ := verify_flat _ (h1 hv)
    exact h3
  · obtain ⟨r, h3, rfl⟩ := verify_flat _ (h2 hv)
    exact h3

/-- The known-answer key of FAEST-128f, signing into a buffer of the size of a signature and verifying. -/
example (X : XOF) (m rho : List Byte) :
    Flat.signWithRandomness X .p128F (some (ofList Concrete.sk)) (ofList m) m.length (some (ofList rho)) rho.length
        (some (malloc 6336)) (some 6336)
      = some ⟨0, some (ofList (Spec.signature X .p128F Concrete.sk m rho) ++ (malloc 6336).drop 6336), some 6336⟩ ∧
    Flat.verify X .p128F (some (ofList (Spec.pkOf .p128F Concrete.sk))) (ofList m) m.length
      (some (ofList (Spec.signature X .p128F Concrete.sk m rho))) 6336 = some 0 :=
  ⟨C50_sign X .p128F Concrete.sk m (some rho) (malloc 6336) 6336 rfl Concrete.kat_good (Nat.le_refl _)
      (by rw [malloc_length]),
    (C50_verify X .p128F _ m _ (pkOf_length (by decide)) (signature_length X .p128F Concrete.sk m rho)).1
      (signature_valid X rfl Concrete.kat_good)⟩

end Faest.Props
