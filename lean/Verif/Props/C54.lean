/-
C54: the translated text of faest_param.c.in and compat.c: keys.
-/
import Verif.Props.C53

namespace Faest.Props
open Faest.C

section
variable (i : ParamId) (H : C.Heap) (hf : ∀ b, H.next ≤ b → H.cells b = none)
include hf

/-- **C54, key generation.** The calls of `rand_bytes` storing keys refused by the one-way function (`bad`) and then a
key which is not refused: the translated `faest_*_keygen` takes just these calls, returns 0, stores this secret key
and the public key of the specification, and changes nothing else. -/
theorem C54_keygen {sp op ss os sr or' c : Nat} {kp ks kr : Kind} {mp ms : Mem Byte} {mr : Mem (List (Nat × List Byte))}
    {good : List Byte} {bad rest : List (Nat × List Byte)}
    (hP : H.cells sp = some ⟨kp, .bytes mp⟩) (hop : op + (params i).pkSize ≤ mp.length)
    (hS : H.cells ss = some ⟨ks, .bytes ms⟩) (hos : os + (params i).skSize ≤ ms.length) (hne : sp ≠ ss)
    (hR : H.cells sr = some ⟨kr, .tape mr⟩) (hr : mr[or']? = some (some (bad ++ (c, good) :: rest)))
    (hbad : ∀ e ∈ bad, e.2.length = (params i).skSize ∧ ¬ Spec.skGood i e.2) (hlen : bad.length < 2 ^ 63)
    (hg : good.length = (params i).skSize) (hgood : Spec.skGood i good) :
    ∃ H', GenApi.keygen i (some ⟨sr, or'⟩) (some ⟨sp, op⟩) (some ⟨ss, os⟩) H = some (0, H') ∧
      H'.cells = upd (upd (upd H.cells sp (some ⟨kp, .bytes (setBytes mp op (Spec.pkOf i good))⟩))
        ss (some ⟨ks, .bytes (setBytes ms os good)⟩)) sr (some ⟨kr, .tape (mr.set or' (some rest))⟩) := by
  obtain ⟨D, hD⟩ := C.sat_exists H hf
  rw [keygen_eq]
  obtain ⟨F, rfl⟩ := split3 hD hP hS hR hne (by rintro rfl; rw [hP] at hR; cases hR) (by rintro rfl; rw [hS] at hR; cases hR)
  obtain ⟨b, H', D', hp, hs', rfl, rfl⟩ := gKeygen_run (F := F) (kp := kp) (ks := ks) (kr := kr) i hg hgood bad hbad hlen (rd_get hr) hos hop H hD
  rw [setBytes_eq (by rw [pkOf_length (by have := half_le i; omega)]; exact hop), setBytes_eq (by omega)] at hs'
  exact ⟨H', hp, put3 hD hs'⟩

/-- **C54, missing buffers.** `faest_*_keygen` and `faest_*_validate_keypair` refuse a null pointer and change nothing. -/
theorem C54_null {R pk sk : CPtr} (h : pk = none ∨ sk = none) :
    (∃ H', GenApi.keygen i R pk sk H = some (minusOne, H') ∧ H'.cells = H.cells) ∧
    (∃ H', GenApi.validateKeypair i pk sk H = some (minusOne, H') ∧ H'.cells = H.cells) := by
  rw [keygen_eq, validate_eq]
  constructor
  · refine run_same hf fun D _ => ?_
    unfold gKeygen
    rw [if_pos (by rcases h with rfl | rfl <;> simp)]
    exact t_pure ⟨rfl, rfl⟩
  · refine run_same hf fun D _ => ?_
    unfold gValidate
    rw [if_pos (by rcases h with rfl | rfl <;> simp)]
    exact t_pure ⟨rfl, rfl⟩

/-- **C54, validation.** `faest_*_validate_keypair` returns 1 for a secret key refused by the one-way function, 0 for a key
pair, 2 otherwise; it leaves every block as it was. -/
theorem C54_validate {pk sk : List Byte} {ppk psk : CPtr} (hpk : pk.length = (params i).pkSize) (hsk : sk.length = (params i).skSize)
    (hp : BytesAt H ppk pk) (hs : BytesAt H psk sk) :
    ∃ r H', GenApi.validateKeypair i ppk psk H = some (r, H') ∧ H'.cells = H.cells ∧ (¬ Spec.skGood i sk → r = 1) ∧
      (Spec.skGood i sk → pk = Spec.pkOf i sk → r = 0) ∧ (Spec.skGood i sk → pk ≠ Spec.pkOf i sk → r = 2) := by
  rw [validate_eq]
  obtain ⟨D, hD⟩ := C.sat_exists H hf
  obtain ⟨r, h1, h2, h3⟩ := gValidate_run i hpk hsk (hp.rdAt hD).view (hs.rdAt hD).view
  obtain ⟨b, H', D', hp, hs', rfl, rfl⟩ := h1 H hD
  exact ⟨_, H', hp, Sat.cells_eq hD hs', h2, fun h => (h3 h).1, fun h => (h3 h).2⟩

/-- **C54, clearing.** `faest_*_clear_private_key` sets the bytes of the key to zero and changes nothing else. -/
theorem C54_clear {s o : Nat} {kd : Kind} {m : Mem Byte} (hs : H.cells s = some ⟨kd, .bytes m⟩) (ho : o + (params i).skSize ≤ m.length) :
    ∃ H', GenApi.clearPrivateKey i (some ⟨s, o⟩) H = some ((), H') ∧
      H'.cells = upd H.cells s (some ⟨kd, .bytes (setBytes m o (List.replicate (params i).skSize 0))⟩) := by
  rw [clear_eq]
  refine run_one hf hs fun F _ => ?_
  rw [← setBytes_eq (by simpa using ho)]
  exact t_run rfl (bzero_run (half_le i).2.2.2.2.1 ho) (t_pure ⟨rfl, rfl⟩)

/-- **C54, comparison.** `faest_timingsafe_bcmp` returns 0 exactly for equal strings; it changes nothing. -/
theorem C54_bcmp {a b : List Byte} {pa pb : CPtr} (hl : a.length = b.length) (hlt : a.length < 2 ^ 64)
    (ha : BytesAt H pa a) (hb : BytesAt H pb b) :
    ∃ r H', Gen.faest_timingsafe_bcmp pa pb a.length H = some (r, H') ∧ H'.cells = H.cells ∧ (r = 0 ↔ a = b) := by
  obtain ⟨D, hD⟩ := C.sat_exists H hf
  have h2 := View.full (hb.rdAt hD).view
  rw [← hl] at h2
  obtain ⟨r, H', D', hp, hs', rfl, rfl⟩ := bcmp_run hlt (View.full (ha.rdAt hD).view) h2 H hD
  refine ⟨_, H', hp, Sat.cells_eq hD hs', ?_⟩
  rw [bcmpAcc_eq]
  constructor
  · intro h
    rw [list_eq_tabP a _ a.length rfl fun t ht => byteFn_getElem? rfl ht, list_eq_tabP b _ a.length hl.symm fun t ht => byteFn_getElem? hl.symm ht]
    exact tabP_congr h
  · rintro rfl _ _
    rfl

end

/-- The hypotheses are met: one refused key, then the known-answer key. -/
example : ∃ H', GenApi.keygen .p128F (some ⟨2, 0⟩) (some ⟨0, 0⟩) (some ⟨1, 1⟩)
    ⟨3, fun b => if b = 0 then some ⟨.caller, .bytes (malloc 32)⟩ else if b = 1 then some ⟨.caller, .bytes (malloc 33)⟩
      else if b = 2 then some ⟨.caller, .tape [some [(0, List.replicate 32 0), (0, Concrete.sk)]]⟩ else none⟩ = some (0, H') ∧
    H'.cells 0 = some ⟨.caller, .bytes (setBytes (malloc 32) 0 (Spec.pkOf .p128F Concrete.sk))⟩ ∧
    H'.cells 1 = some ⟨.caller, .bytes (setBytes (malloc 33) 1 Concrete.sk)⟩ := by
  have hz : ¬ Spec.skGood .p128F (List.replicate 32 0) := Concrete.zero_bad
  obtain ⟨H', h1, h2⟩ := C54_keygen .p128F
    ⟨3, fun b => if b = 0 then some ⟨.caller, .bytes (malloc 32)⟩ else if b = 1 then some ⟨.caller, .bytes (malloc 33)⟩
      else if b = 2 then some ⟨.caller, .tape [some [(0, List.replicate 32 0), (0, Concrete.sk)]]⟩ else none⟩
    (fun b hb => by
      have : 3 ≤ b := hb
      show (if b = 0 then _ else _) = none
      rw [if_neg (by omega), if_neg (by omega), if_neg (by omega)])
    (sp := 0) (op := 0) (ss := 1) (os := 1) (sr := 2) (or' := 0) (bad := [(0, List.replicate 32 0)]) (good := Concrete.sk) (rest := []) (c := 0)
    rfl (by decide) rfl (by decide) (by decide) rfl rfl (by
      intro e he
      obtain rfl := List.mem_singleton.1 he
      exact ⟨rfl, hz⟩) (by decide) rfl Concrete.kat_good
  exact ⟨H', h1, by rw [h2]; rfl, by rw [h2]; rfl⟩

end Faest.Props
