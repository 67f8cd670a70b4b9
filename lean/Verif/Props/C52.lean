/-
C52: the translated text of aes.c, utils.h and universal_hashing.c.
-/
import Verif.Proofs.Gen.Top
import Verif.Proofs.Gen.Aes2
import Verif.Proofs.Gen.UHash
import Verif.Props.C17
import Verif.Props.C13
import Verif.Proofs.Witness

namespace Faest.Props
open Faest.C

/-- **C52, the generator.** From any memory the translated `prg` runs to its end without undefined behaviour, writes the
counter-mode stream to its output and changes nothing else.  Key, iv and output may overlap. -/
theorem C52_prg (H : C.Heap) (hf : ∀ i, H.next ≤ i → H.cells i = none) {lambda n s o : Nat}
    (hlam : lambda = 128 ∨ lambda = 192 ∨ lambda = 256) (hn : n < 2 ^ 64) {key iv : CPtr} {k v : Nat → Byte} {kd : Kind} {m : Mem Byte}
    (hk : HoldsAt H key (lambda / 8) k) (hv : HoldsAt H iv 16 v) (hs : H.cells s = some ⟨kd, .bytes m⟩)
    (ho : o + n ≤ m.length) :
    ∃ H', Gen.prg key iv (some ⟨s, o⟩) lambda n H = some ((), H') ∧
      H'.cells = upd H.cells s (some ⟨kd, .bytes (setRange m o n (Spec.prgStream lambda k v))⟩) :=
  run_one hf hs fun _ hD => prg_run (hk.view (by omega) hD) (hv.view (by omega) hD)
    (prg_ok hlam (has_full _ _) (has_full _ _)) (setRange_eq ho) hn

/-- The translated key expansions and block ciphers. -/
def ciphers : List (Nat × Nat × Nat × (CPtr → CPtr → CM Nat) × (CPtr → CPtr → CPtr → CM Nat)) :=
  [(4, 4, 10, Gen.aes128_init_round_keys, Gen.aes128_encrypt_block),
   (6, 4, 12, Gen.aes192_init_round_keys, Gen.aes192_encrypt_block),
   (8, 4, 14, Gen.aes256_init_round_keys, Gen.aes256_encrypt_block),
   (6, 6, 12, Gen.rijndael192_init_round_keys, Gen.rijndael192_encrypt_block),
   (8, 8, 14, Gen.rijndael256_init_round_keys, Gen.rijndael256_encrypt_block)]

/-- Expansion of a key into a local array followed by the encryption of one block. -/
def encryptOnce (init : CPtr → CPtr → CM Nat) (enc : CPtr → CPtr → CPtr → CM Nat) (key pt out : CPtr) : CM Unit := do
  let rk ← alloc .stack (malloc 480 : Mem Byte)
  let _ ← init rk key
  let _ ← enc rk pt out
  cfree .stack rk
  pure ()

/-- **C52, block ciphers.** Each of the five translated ciphers computes the cipher of the standard. -/
theorem C52_encrypt (H : C.Heap) (hf : ∀ i, H.next ≤ i → H.cells i = none) {kw bw rounds s o : Nat}
    {init : CPtr → CPtr → CM Nat} {enc : CPtr → CPtr → CPtr → CM Nat} (hc : (kw, bw, rounds, init, enc) ∈ ciphers)
    {key pt : CPtr} {k p : Nat → Byte} {kd : Kind} {m : Mem Byte}
    (hk : HoldsAt H key (4 * kw) k) (hp : HoldsAt H pt (4 * bw) p) (hs : H.cells s = some ⟨kd, .bytes m⟩)
    (ho : o + 4 * bw ≤ m.length) :
    ∃ H', encryptOnce init enc key pt (some ⟨s, o⟩) H = some ((), H') ∧
      H'.cells = upd H.cells s (some ⟨kd, .bytes (setRange m o (4 * bw) (Spec.encrypt kw bw rounds k p))⟩) := by
  refine run_one hf hs fun F hD => ?_
  have hw := setRange_eq (g := Spec.encrypt kw bw rounds k p) ho
  unfold encryptOnce
  simp only [ciphers, List.mem_cons, List.not_mem_nil, Prod.mk.injEq, or_false] at hc
  rcases hc with ⟨rfl, rfl, rfl, rfl, rfl⟩ | ⟨rfl, rfl, rfl, rfl, rfl⟩ | ⟨rfl, rfl, rfl, rfl, rfl⟩ |
    ⟨rfl, rfl, rfl, rfl, rfl⟩ | ⟨rfl, rfl, rfl, rfl, rfl⟩
  case' inl => obtain ⟨rk, z, z', h1, h2⟩ := C17_encrypt (kw := 4) (bw := 4) (rounds := 10) (by unfold cipherShape; omega) k p
  case' inr.inl => obtain ⟨rk, z, z', h1, h2⟩ := C17_encrypt (kw := 6) (bw := 4) (rounds := 12) (by unfold cipherShape; omega) k p
  case' inr.inr.inl => obtain ⟨rk, z, z', h1, h2⟩ := C17_encrypt (kw := 8) (bw := 4) (rounds := 14) (by unfold cipherShape; omega) k p
  case' inr.inr.inr.inl => obtain ⟨rk, z, z', h1, h2⟩ := C17_encrypt (kw := 6) (bw := 6) (rounds := 12) (by unfold cipherShape; omega) k p
  case' inr.inr.inr.inr => obtain ⟨rk, z, z', h1, h2⟩ := C17_encrypt (kw := 8) (bw := 8) (rounds := 14) (by unfold cipherShape; omega) k p
  all_goals refine t_alloc fun t => ?_
  case' inl => refine t_run rfl (aes128_init_run (hk.view (by omega) hD) h1) ?_
  case' inr.inl => refine t_run rfl (aes192_init_run (hk.view (by omega) hD) h1) ?_
  case' inr.inr.inl => refine t_run rfl (aes256_init_run (hk.view (by omega) hD) h1) ?_
  case' inr.inr.inr.inl => refine t_run rfl (rijndael192_init_run (hk.view (by omega) hD) h1) ?_
  case' inr.inr.inr.inr => refine t_run rfl (rijndael256_init_run (hk.view (by omega) hD) h1) ?_
  all_goals have hq := hp.view (by omega) hD
  case' inl => refine t_run (D' := bl kd s m + (bl .stack t rk + F)) (by hfind) (aes128_encrypt_block_run (View.there View.here0) ?_ h2 hw) ?_
  case' inr.inl => refine t_run (D' := bl kd s m + (bl .stack t rk + F)) (by hfind) (aes192_encrypt_block_run (View.there View.here0) ?_ h2 hw) ?_
  case' inr.inr.inl => refine t_run (D' := bl kd s m + (bl .stack t rk + F)) (by hfind) (aes256_encrypt_block_run (View.there View.here0) ?_ h2 hw) ?_
  case' inr.inr.inr.inl => refine t_run (D' := bl kd s m + (bl .stack t rk + F)) (by hfind) (rijndael192_encrypt_block_run (View.there View.here0) ?_ h2 hw) ?_
  case' inr.inr.inr.inr => refine t_run (D' := bl kd s m + (bl .stack t rk + F)) (by hfind) (rijndael256_encrypt_block_run (View.there View.here0) ?_ h2 hw) ?_
  all_goals first
    | exact t_free (by hfind) (t_pure ⟨rfl, rfl⟩)
    | (rw [add_left_comm]; exact View.there hq)

/-- **C52, VOLE hash.** The translated `vole_hash` writes the specified hash; `out` may be anywhere but in the blocks of
the inputs. -/
theorem C52_vole_hash (H : C.Heap) (hf : ∀ i, H.next ≤ i → H.cells i = none) {lambda ell s o bs os bx ox : Nat}
    (hlam : lambda = 128 ∨ lambda = 192 ∨ lambda = 256) (he : ell < 2 ^ 20) (h8 : ell % 8 = 0) {sdf xf : Nat → Byte} {kd : Kind} {m : Mem Byte}
    (hsd : HoldsAt H (some ⟨bs, os⟩) (5 * (lambda / 8) + 8) sdf) (hx : HoldsAt H (some ⟨bx, ox⟩) (ell / 8 + 2 * (lambda / 8) + 2) xf)
    (hs : H.cells s = some ⟨kd, .bytes m⟩) (hns : s ≠ bs) (hnx : s ≠ bx) (ho : o + (lambda / 8 + 2) ≤ m.length) :
    ∃ H', Gen.vole_hash (some ⟨s, o⟩) (some ⟨bs, os⟩) (some ⟨bx, ox⟩) ell lambda H = some ((), H') ∧
      H'.cells = upd H.cells s (some ⟨kd, .bytes (setRange m o (lambda / 8 + 2) (Spec.voleHash lambda ell sdf xf))⟩) := by
  refine run_one hf hs fun F hD => ?_
  have hv : ∀ {b o n : Nat} {g : Nat → Byte}, HoldsAt H (some ⟨b, o⟩) n g → 0 < n → s ≠ b → View F (some ⟨b, o⟩) (full n g) := by
    intro b o n g h hn hne
    obtain ⟨b', o', k, m', hp, hb, hle⟩ := h.view hn hD
    obtain ⟨rfl, rfl⟩ : b = b' ∧ o = o' := by simpa using hp
    refine ⟨b, o, k, m', rfl, ?_, hle⟩
    rcases Multiset.mem_add.1 hb with h1 | h1
    · exact absurd (congrArg Prod.fst (Multiset.mem_singleton.1 h1)).symm hne
    · exact h1
  have hm := voleHashN_ok (n := lambda) hlam h8 (has_full _ sdf) (has_full _ xf)
  have hf : fieldBits lambda = lambda := by rcases hlam with rfl | rfl | rfl <;> rfl
  refine vole_hash_run he h8 (hv hsd (by omega) hns) (hv hx (by omega) hnx) (l := tabP (lambda / 8 + 2) (Spec.voleHash lambda ell sdf xf)) ?_ (setRange_eq ho)
  unfold voleHash
  rw [hf]
  exact hm

/-- **C52, witness.** The translated `aes_extend_witness` returns a new heap block with the specified extended witness
and changes no other block. -/
theorem C52_witness (H : C.Heap) (hf : ∀ i, H.next ≤ i → H.cells i = none) (i : ParamId) {key inp : CPtr} {k x : Nat → Byte}
    (hk : HoldsAt H key ((params i).lambda / 8) k) (hx : HoldsAt H inp ((params i).pkSize / 2) x) :
    ∃ b H' w, Gen.aes_extend_witness key inp (params i) H = some (some ⟨b, 0⟩, H') ∧ H.cells b = none ∧
      H'.cells = upd H.cells b (some ⟨.heap, .bytes w⟩) ∧ w.length = (params i).l / 8 ∧
      ∀ j, j < (params i).l / 8 → rd w j = some (Spec.witness (params i) k x j) := by
  obtain ⟨D, hD⟩ := C.sat_exists H hf
  obtain ⟨w, hw, hl, hwf⟩ := aesExtendWitness_ok i (has_full _ k) (has_full _ x)
  have h0 : 0 < (params i).lambda / 8 ∧ 0 < (params i).pkSize / 2 := by cases i <;> decide
  obtain ⟨r, H', D', hp, hs', b, rfl, rfl⟩ := extend_witness_run (witOk i) (hk.view h0.1 hD) (hx.view h0.2 hD) hw H hD
  have hb : H.cells b = none := by
    by_contra hc
    obtain ⟨c, hc⟩ := Option.ne_none_iff_exists'.1 hc
    exact Sat.ne hs' ((hD.mem _ _).1 hc) rfl
  refine ⟨b, H', w, hp, hb, ?_, hl, fun j hj => by simpa using hwf j hj⟩
  funext j
  apply Option.ext
  intro c
  rw [hs'.mem]
  unfold upd
  by_cases hj : j = b
  · subst hj
    rw [if_pos rfl]
    constructor
    · intro h
      rcases Multiset.mem_add.1 h with h1 | h1
      · exact congrArg some (congrArg Prod.snd (Multiset.mem_singleton.1 h1)).symm
      · exact absurd rfl (Sat.ne hs' h1)
    · intro h
      obtain rfl := Option.some.inj h
      exact Multiset.mem_add.2 (Or.inl (Multiset.mem_singleton.2 rfl))
  · rw [if_neg hj, hD.mem]
    constructor
    · intro h
      rcases Multiset.mem_add.1 h with h1 | h1
      · exact absurd (congrArg Prod.fst (Multiset.mem_singleton.1 h1)) hj
      · exact h1
    · exact fun h => Multiset.mem_add.2 (Or.inr h)

/-- A memory with a key, an iv and an output block of the caller. -/
def demoHeap : C.Heap :=
  ⟨3, fun b => if b = 0 then some ⟨.caller, .bytes (full 32 fun i => BitVec.ofNat 8 i)⟩
    else if b = 1 then some ⟨.caller, .bytes (full 64 fun i => BitVec.ofNat 8 (3 * i))⟩
    else if b = 2 then some ⟨.heap, .bytes (malloc 100)⟩ else none⟩

theorem demo_fresh : ∀ i, demoHeap.next ≤ i → demoHeap.cells i = none := fun i hi => by
  have : 3 ≤ i := hi
  simp only [demoHeap]
  rw [if_neg (by omega), if_neg (by omega), if_neg (by omega)]

/-- The hypotheses are met: 33 bytes from a 256-bit key. -/
example : ∃ H', Gen.prg (some ⟨0, 0⟩) (some ⟨1, 7⟩) (some ⟨2, 5⟩) 256 33 demoHeap = some ((), H') ∧
    H'.cells = upd demoHeap.cells 2 (some ⟨.heap, .bytes (setRange (malloc 100) 5 33
      (Spec.prgStream 256 (fun i => BitVec.ofNat 8 i) (fun i => BitVec.ofNat 8 (3 * (7 + i)))))⟩) :=
  C52_prg demoHeap demo_fresh (by decide) (by decide)
    ⟨0, 0, _, _, rfl, rfl, fun i hi => by simpa using has_full 32 (fun i => BitVec.ofNat 8 i) i hi⟩
    ⟨1, 7, _, _, rfl, rfl, fun i hi => by simpa using has_full 64 (fun i => BitVec.ofNat 8 (3 * i)) (7 + i) (by omega)⟩ rfl (by simp [malloc])

/-- A key that is too short is undefined behaviour of the translated code. -/
example : Gen.aes_increment_iv (some ⟨7, 0⟩) demoHeap = none := rfl

end Faest.Props
