/-
C57: the translated text of the hash layer: sha3 (opt64, plain32, avx2 and armv8a-neon), hash_shake.h and
random_oracle.c.
-/
import Verif.Proofs.Gen.HashTop

namespace Faest.Props
open Faest.C Faest.GenH Faest.Keccak
open Spec.Keccak (shakeX)

section
variable (H : C.Heap) (hf : ∀ i, H.next ≤ i → H.cells i = none)

include hf in
/-- **C57, one state.** A context in any condition whose 200 bytes of state are at block `b`; inputs in any number of
pieces, read from anywhere outside of the state, and outputs in any number of pieces, to anywhere outside of the state:
`hash_init`, `hash_update`s, `hash_final` and `hash_squeeze`s run without undefined behaviour and store consecutive
pieces of the SHAKE stream (FIPS 202) of the concatenated inputs.  Only the state and these pieces change.  `v` is the
implementation of Keccak chosen by the build. -/
theorem C57_shake (v : Sha3) {kd : Kind} {b : Nat} {m : Mem Byte} {c : HashC} {sel : Nat} {ins : List (CPtr × List Byte)}
    {outs : List (Ptr × Nat)} (hb : H.cells b = some ⟨kd, .bytes m⟩) (hm : m.length = 200)
    (hc : c.sponge.state = some ⟨b, 0⟩)
    (hi : ∀ x ∈ ins, BytesAt H x.1 x.2 ∧ Apart x.1 b ∧ x.2.length ≤ 2 ^ 32 - 200)
    (ho : ∀ x ∈ outs, Room H x.1 x.2 ∧ x.1.blk ≠ b ∧ x.2 ≤ 2 ^ 32 - 200) :
    ∃ c' H' m', hashRun v.sponge c sel (ins.map fun x => (x.1, x.2.length)) outs H = some (c', H') ∧
      H'.cells = storeAll (shakeX sel (ins.map Prod.snd).flatten) (upd H.cells b (some ⟨kd, .bytes m'⟩)) outs 0 := by
  obtain ⟨D, hD⟩ := C.sat_exists H hf
  obtain ⟨F, rfl⟩ := split1 hD hb
  have hv : ∀ x ∈ outs, Valid F x.1 x.2 := fun x hx => (ho x hx).1.valid hD (ho x hx).2.1
  obtain ⟨c', H', D', h1, h2, m', rfl⟩ := hashRun_t v.spec1 (kd := kd) (sel := sel) (F := F) (c := c) (ins := ins) (outs := outs) ⟨hc, hm⟩
    (fun x hx => ⟨RdAt.view (RdAt.rest ((hi x hx).1.rdAt hD) (hi x hx).2.1), by have := (hi x hx).2.2; constructor <;> omega⟩)
    (fun x hx => ⟨hv x hx, by have := (ho x hx).2.2; constructor <;> omega⟩) H hD
  exact ⟨c', H', m', h1, cells_all outs (hD.put (c' := ⟨kd, .bytes m'⟩)) h2 hv⟩

include hf in
/-- **C57, four states.** The same for the four interleaved states of `hash_*_x4`: stream `k` is the SHAKE stream of
the inputs of state `k`, provided the four destinations of one call do not overlap; with four states one after the
other (over words of 64 or of 32 bits) as with vectors of four lanes (`v`). -/
theorem C57_shake_x4 (v : Sha3) {kd : Kind} {b : Nat} {m : Mem Byte} {c : HashC} {sel : Nat}
    {ins : List ((Nat → CPtr × List Byte) × Nat)} {outs : List ((Nat → Ptr) × Nat)}
    (hb : H.cells b = some ⟨kd, .bytes m⟩) (hm : m.length = 800) (hc : c.sponge.state = some ⟨b, 0⟩)
    (hi : ∀ x ∈ ins, (∀ k, (x.1 k).2.length = x.2 ∧ (k < 4 → BytesAt H (x.1 k).1 (x.1 k).2 ∧ Apart (x.1 k).1 b)) ∧
      x.2 ≤ 2 ^ 32 - 200)
    (ho : ∀ x ∈ outs, (∀ k, k < 4 → Room H (x.1 k) x.2 ∧ (x.1 k).blk ≠ b) ∧
      (∀ i j, i < 4 → j < 4 → i ≠ j → C.Apart (x.1 i) x.2 (x.1 j) x.2) ∧ x.2 ≤ 2 ^ 32 - 200) :
    ∃ c' H' m', hashRun4 v.four c sel (ins.map fun x => (fun k => (x.1 k).1, x.2)) outs H = some (c', H') ∧
      H'.cells = storeAll4 (fun k => shakeX sel (ins.map fun x => (x.1 k).2).flatten) (upd H.cells b (some ⟨kd, .bytes m'⟩)) outs 0 := by
  obtain ⟨D, hD⟩ := C.sat_exists H hf
  obtain ⟨F, rfl⟩ := split1 hD hb
  have hv : ∀ x ∈ outs, ∀ k, k < 4 → Valid F (x.1 k) x.2 :=
    fun x hx k hk => ((ho x hx).1 k hk).1.valid hD ((ho x hx).1 k hk).2
  obtain ⟨c', H', D', h1, h2, m', rfl⟩ := hashRun4_t v.spec4 (kd := kd) (sel := sel) (F := F) (c := c) (ins := ins) (outs := outs) ⟨hc, hm⟩
    (fun x hx => ⟨fun k => ⟨((hi x hx).1 k).1, fun hk => RdAt.view (RdAt.rest ((((hi x hx).1 k).2 hk).1.rdAt hD) (((hi x hx).1 k).2 hk).2)⟩,
      by have := (hi x hx).2; constructor <;> omega⟩)
    (fun x hx => ⟨hv x hx, (ho x hx).2.1, by have := (ho x hx).2.2; constructor <;> omega⟩) H hD
  exact ⟨c', H', m', h1, cells_all4 outs (hD.put (c' := ⟨kd, .bytes m'⟩)) h2 hv⟩

end

/-! ### The oracles

`C.H0_init`, …, `C.H0_x4_final` are the hash operations on which the other translated files (vector_commitment.c,
faest.c) were proved; there a context is the string taken in so far.  Each of the translated functions of
random_oracle.c does on a context in memory what such an operation does on the string: if the operation takes the
blocks `F` and the string `a` to `F'` and `a'`, then the function takes blocks with the state of `a` to blocks with
the state of `a'`. -/

section
variable {kd : Kind} {b : Nat} {m : Mem Byte} {F F' : Blocks} {c : HashC} {a a' : HCtx}

/-- **C57, oracles, start.** -/
theorem C57_init (v : Sha3) {lambda : Nat} (h : Rep v.spec1 b a c m) (hr : Runs F (hinit a lambda) a' F') :
    ∀ f ∈ [GenH.H0_init v.sponge, GenH.H1_init v.sponge, GenH.H2_init v.sponge, GenH.H3_init v.sponge],
      T (bl kd b m + F) (f c lambda) fun c' D' => ∃ m', Rep v.spec1 b a' c' m' ∧ D' = bl kd b m' + F' := by
  intro f hf
  simp only [List.mem_cons, List.not_mem_nil, or_false] at hf
  rcases hf with rfl | rfl | rfl | rfl <;> exact H_init_t h hr

/-- **C57, oracles, input.** -/
theorem C57_update (v : Sha3) {n : Nat} {p : CPtr} (h : Rep v.spec1 b a c m) (hr : Runs F (hupdate a p n) a' F')
    (hn : ∀ s, a.st = some s → UpdateFits 64 (hashSel s.1) s.2.length n) :
    ∀ f ∈ [GenH.H0_update v.sponge, GenH.H1_update v.sponge, GenH.H2_update v.sponge, GenH.H3_update v.sponge],
      T (bl kd b m + F) (f c p n) fun c' D' => ∃ m', Rep v.spec1 b a' c' m' ∧ D' = bl kd b m' + F' := by
  intro f hf
  simp only [List.mem_cons, List.not_mem_nil, or_false] at hf
  rcases hf with rfl | rfl | rfl | rfl <;> exact H_update_t h hr hn

/-- **C57, oracles, output.** -/
theorem C57_final (v : Sha3) {n n' : Nat} {p p' : CPtr} (h : Rep v.spec1 b a c m) (hn : Small 64 n) (hn' : Small 64 n') :
    (Runs F (C.H0_final shakeX a p n p' n') a' F' →
      T (bl kd b m + F) (GenH.H0_final v.sponge c p n p' n') fun c' D' => ∃ m', Rep v.spec1 b a' c' m' ∧ D' = bl kd b m' + F') ∧
    (Runs F (C.H1_final shakeX a p n) a' F' →
      T (bl kd b m + F) (GenH.H1_final v.sponge c p n) fun c' D' => ∃ m', Rep v.spec1 b a' c' m' ∧ D' = bl kd b m' + F') ∧
    (Runs F (C.H2_final shakeX a p n) a' F' →
      T (bl kd b m + F) (GenH.H2_final v.sponge c p n) fun c' D' => ∃ m', Rep v.spec1 b a' c' m' ∧ D' = bl kd b m' + F') ∧
    (Runs F (C.H3_final shakeX a p n p') a' F' →
      T (bl kd b m + F) (GenH.H3_final v.sponge c p n p') fun c' D' => ∃ m', Rep v.spec1 b a' c' m' ∧ D' = bl kd b m' + F') :=
  ⟨fun hr => H0_final_t h hr hn hn', fun hr => H1_final_t h hr hn, fun hr => H2_final_t h hr hn, fun hr => H3_final_t h hr hn⟩

/-- **C57, oracles, four states.** Every implementation of the functions on four states. -/
theorem C57_x4 (v : Sha3) {a a' : HCtx4} (h : Rep4 v.spec4 b a c m) :
    (∀ lambda, Runs F (C.H0_x4_init a lambda) a' F' →
      T (bl kd b m + F) (GenH.H0_x4_init v.four c lambda) fun c' D' => ∃ m', Rep4 v.spec4 b a' c' m' ∧ D' = bl kd b m' + F') ∧
    (∀ p0 p1 p2 p3 n, Runs F (C.H0_x4_update a p0 p1 p2 p3 n) a' F' →
      (∀ s, a.st = some s → UpdateFits 64 (hashSel s.1) s.2.1.length n) →
      T (bl kd b m + F) (GenH.H0_x4_update v.four c p0 p1 p2 p3 n) fun c' D' => ∃ m', Rep4 v.spec4 b a' c' m' ∧ D' = bl kd b m' + F') ∧
    (∀ p0 p1 p2 p3 n p0' p1' p2' p3' n', Runs F (C.H0_x4_final shakeX a p0 p1 p2 p3 n p0' p1' p2' p3' n') a' F' →
      Small 64 n → Small 64 n' → Apart4 p0 p1 p2 p3 n → Apart4 p0' p1' p2' p3' n' →
      T (bl kd b m + F) (GenH.H0_x4_final v.four c p0 p1 p2 p3 n p0' p1' p2' p3' n') fun c' D' =>
        ∃ m', Rep4 v.spec4 b a' c' m' ∧ D' = bl kd b m' + F') :=
  ⟨fun _ hr => H0_x4_init_t h hr, fun _ _ _ _ _ hr hn => H0_x4_update_t h hr hn,
    fun _ _ _ _ _ _ _ _ _ _ hr hn hn' ha ha' => H0_x4_final_t h hr hn hn' ha ha'⟩

end

/-- The hypotheses are met: an uninitialised context at block 0, two inputs (in one block, overlapping) and two outputs. -/
example : ∃ c' H' m', hashRun Sha3.plain32.sponge ⟨⟨some ⟨0, 0⟩, none, none, none⟩, none, none⟩ 128 [(some ⟨1, 0⟩, 3), (some ⟨1, 1⟩, 2)]
      [(⟨2, 5⟩, 200), (⟨1, 0⟩, 2)]
      ⟨3, fun b => if b = 0 then some ⟨.stack, .bytes (malloc 200)⟩ else if b = 1 then some ⟨.heap, .bytes (ofList [7, 8, 9])⟩
        else if b = 2 then some ⟨.caller, .bytes (malloc 205)⟩ else none⟩ = some (c', H') ∧
    H'.cells = store (store (fun b => if b = 0 then some ⟨.stack, .bytes m'⟩ else if b = 1 then some ⟨.heap, .bytes (ofList [7, 8, 9])⟩
        else if b = 2 then some ⟨.caller, .bytes (malloc 205)⟩ else none) ⟨2, 5⟩ (tabP 200 fun j => shakeX 128 [7, 8, 9, 8, 9] (0 + j)))
      ⟨1, 0⟩ (tabP 2 fun j => shakeX 128 [7, 8, 9, 8, 9] (0 + 200 + j)) := by
  have key := C57_shake (v := .plain32)
    ⟨3, fun b => if b = 0 then some ⟨.stack, .bytes (malloc 200)⟩ else if b = 1 then some ⟨.heap, .bytes (ofList [7, 8, 9])⟩
        else if b = 2 then some ⟨.caller, .bytes (malloc 205)⟩ else none⟩
    (fun b hb => by
      have : 3 ≤ b := hb
      show (if b = 0 then _ else _) = none
      rw [if_neg (by omega), if_neg (by omega), if_neg (by omega)])
    (kd := .stack) (b := 0) (m := malloc 200) (c := ⟨⟨some ⟨0, 0⟩, none, none, none⟩, none, none⟩) (sel := 128)
    (ins := [(some ⟨1, 0⟩, [7, 8, 9]), (some ⟨1, 1⟩, [8, 9])]) (outs := [(⟨2, 5⟩, 200), (⟨1, 0⟩, 2)]) rfl
    List.length_replicate rfl
  refine Exists.imp (fun c' h => ?_) (key ?_ ?_)
  · obtain ⟨H', m', h1, h2⟩ := h
    refine ⟨H', m', h1, ?_⟩
    rw [h2]
    unfold storeAll storeAll storeAll
    refine congrArg (fun M => store (store M _ _) _ _) (funext fun b => ?_)
    unfold upd
    dsimp only
    split <;> rfl
  · intro x hx
    simp only [List.mem_cons, List.not_mem_nil, or_false] at hx
    rcases hx with rfl | rfl
    · refine ⟨⟨1, 0, .heap, ofList [7, 8, 9], rfl, rfl, by decide, ?_⟩, ?_, by decide⟩
      · intro i hi
        have : i < 3 := hi
        have : i = 0 ∨ i = 1 ∨ i = 2 := by omega
        rcases this with rfl | rfl | rfl <;> rfl
      · rintro q hq
        obtain rfl := Option.some.inj hq
        decide
    · refine ⟨⟨1, 1, .heap, ofList [7, 8, 9], rfl, rfl, by decide, ?_⟩, ?_, by decide⟩
      · intro i hi
        have : i < 2 := hi
        have : i = 0 ∨ i = 1 := by omega
        rcases this with rfl | rfl <;> rfl
      · rintro q hq
        obtain rfl := Option.some.inj hq
        decide
  · intro x hx
    simp only [List.mem_cons, List.not_mem_nil, or_false] at hx
    rcases hx with rfl | rfl
    · exact ⟨⟨.caller, malloc 205, rfl, by unfold malloc; rw [List.length_replicate]; decide⟩, by decide, by decide⟩
    · exact ⟨⟨.heap, ofList [7, 8, 9], rfl, by decide⟩, by decide, by decide⟩

/-- The hypothesis on a context is met by one which was not initialised, and by one which has taken in a string. -/
example : Rep sponge64Spec 0 {} ⟨⟨some ⟨0, 0⟩, none, none, none⟩, none, none⟩ (malloc 200) :=
  ⟨⟨rfl, List.length_replicate⟩, by rintro _ ⟨⟩⟩
example : Rep sponge64Spec 0 ⟨some (192, [1, 2, 3])⟩ ⟨⟨some ⟨0, 0⟩, some 1088, some 3, some 0⟩, some 0, some 0x1F⟩ (M1 (aM 256 [1, 2, 3]).1) := by
  have h : HAbsC sponge64Spec 256 [1, 2, 3] 0 ⟨⟨some ⟨0, 0⟩, some 1088, some 3, some 0⟩, some 0, some 0x1F⟩ (M1 (aM 256 [1, 2, 3]).1) := by
    refine ⟨?_, rfl⟩
    rw [aM_idx]
    rfl
  exact ⟨h.raw, by rintro _ ⟨⟩; exact h⟩

end Faest.Props
