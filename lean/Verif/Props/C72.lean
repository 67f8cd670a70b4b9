/-
C72: the generator of tools/rng.c is CTR_DRBG with AES-256 and without derivation function.
-/
import Verif.Proofs.Rng
import Verif.Props.C17

namespace Faest.Props
open Spec (byteFn)
open Rng

/-- The object `DRBG_ctx` holding a state of the specification. -/
def drbgImage (s : Spec.Drbg.State) : Ctx := ⟨ofList s.key, ofList (Spec.Drbg.toBytes s.v), s.reseed⟩

/-- A state with a key of 32 bytes and a value `V` below `2^128`. -/
def drbgWf (s : Spec.Drbg.State) : Prop := s.key.length = 32 ∧ s.v < 2 ^ 128

/-- The block cipher returns 16 bytes. -/
def isEcb (E : Ecb) : Prop := ∀ k c, (E k c).length = 16

/-- AES-256 of FIPS 197. -/
def aes256 : Ecb := fun k c => tabP 16 (Spec.encrypt 8 4 14 (byteFn k) (byteFn c))

theorem aes256_isEcb : isEcb aes256 := fun _ _ => tabP_length _ _

/-- A sequence of calls of `randombytes`, each with its buffer and its length: the values returned, the buffers and the
state. -/
def callMany (E : Ecb) : Ctx → List (Mem Byte × Nat) → Option (List (Int × Mem Byte) × Ctx)
  | ctx, [] => some ([], ctx)
  | ctx, (x, n) :: rs => do
    let (r, x, ctx) ← randombytes E ctx x n
    let (l, ctx) ← callMany E ctx rs
    pure ((r, x) :: l, ctx)

/-- **C72, initialisation.** Whatever the state was, `randombytes_init` instantiates the generator with the 48 bytes of
entropy and the personalization string, an absent one counting as zeros. -/
theorem C72_init {E : Ecb} (hE : isEcb E) (ctx : Ctx) (hk : ctx.key.length = 32) (hv : ctx.v.length = 16)
    (entropy : List Byte) (he : entropy.length = 48) (pers : Option (List Byte))
    (hp : ∀ p, pers = some p → p.length = 48) :
    randombytesInit E ctx (ofList entropy) (pers.map ofList)
      = some (drbgImage (Spec.Drbg.instantiate E entropy (pers.getD Spec.Drbg.zeros))) ∧
    drbgWf (Spec.Drbg.instantiate E entropy (pers.getD Spec.Drbg.zeros)) := by
  have hpl : (pers.getD Spec.Drbg.zeros).length = 48 := by
    cases pers with
    | none => rfl
    | some d => exact hp d rfl
  have hmid : (match pers.map ofList with
      | some p => xor48 (ofList entropy) p
      | none => some (ofList entropy))
      = some (ofList (List.zipWith (· ^^^ ·) entropy (pers.getD Spec.Drbg.zeros))) := by
    cases pers with
    | none =>
      have h := xor_zeros entropy
      rw [he] at h
      exact congrArg (fun l => some (ofList l)) h.symm
    | some d => exact xor48_ok he (hp d rfl)
  have hz : (0 : Nat) < 2 ^ 128 := by decide
  have hup := update_ok hE (k := List.replicate 32 0) (v := 0) (List.length_replicate ..) hz
    (some (List.zipWith (· ^^^ ·) entropy (pers.getD Spec.Drbg.zeros)))
    (fun d hd => by cases hd; rw [List.length_zipWith, he, hpl]; rfl)
  refine ⟨?_, hup.2⟩
  unfold randombytesInit
  rw [rdN_whole he]
  show (wrN (malloc 48) 0 entropy >>= _) = _
  rw [wrN_whole (by rw [he, malloc_length])]
  show ((match pers.map ofList with
      | some p => xor48 (ofList entropy) p
      | none => some (ofList entropy)) >>= _) = _
  rw [hmid]
  show (wrN ctx.key 0 _ >>= _) = _
  rw [wrN_whole (by rw [hk, List.length_replicate])]
  show (wrN ctx.v 0 _ >>= _) = _
  rw [wrN_whole (by rw [hv, List.length_replicate])]
  have h := hup.1
  rw [show Spec.Drbg.toBytes 0 = List.replicate 16 0 from by decide] at h
  simp only [Option.map_some, Option.getD_some] at h
  simp only [Option.bind_eq_bind, Option.bind_some, h]
  rfl

/-- **C72, one request.** For every request below `2^31` bytes `randombytes` returns 0, fills the buffer with the bytes
of the generator, changes nothing behind them and leaves the next state of the generator. -/
theorem C72_randombytes {E : Ecb} (hE : isEcb E) {s : Spec.Drbg.State} (hs : drbgWf s) (hr : s.reseed < 2 ^ 31 - 1)
    (x : Mem Byte) {n : Nat} (hn : n < 2 ^ 31) (hx : n ≤ x.length) :
    randombytes E (drbgImage s) x n
      = some (0, ofList (Spec.Drbg.generate E s n).1 ++ x.drop n, drbgImage (Spec.Drbg.generate E s n).2) ∧
    (Spec.Drbg.generate E s n).1.length = n ∧ drbgWf (Spec.Drbg.generate E s n).2 := by
  obtain ⟨hk, hv⟩ := hs
  have hl := loop_ok hE (v := s.v) hk (n + 1) 0 n x (by omega) hx (by omega)
  simp only [Nat.add_zero, Nat.zero_add, Nat.mul_zero, Nat.mod_eq_of_lt hv] at hl
  have hx0 : ofList (Spec.Drbg.blocks E s.key s.v 0) ++ x = x := rfl
  rw [hx0] at hl
  have hup := update_ok hE hk (v := (s.v + (n + 15) / 16) % 2 ^ 128) (Nat.mod_lt _ (by decide)) none
    (fun d hd => by cases hd)
  refine ⟨?_, ?_, hup.2⟩
  · have h : update E none (ofList s.key) (ofList (Spec.Drbg.toBytes ((s.v + (n + 15) / 16) % 2 ^ 128))) = _ := hup.1
    have hc : addInt (s.reseed : Int) 1 = some ((s.reseed + 1 : Nat) : Int) := by
      rw [addInt_ok (by omega)]; rfl
    unfold randombytes drbgImage
    dsimp only
    rw [hl, Option.bind_eq_bind, Option.bind_some]
    dsimp only
    rw [h, Option.bind_eq_bind, Option.bind_some]
    dsimp only
    rw [hc, Option.bind_some]
    rfl
  · show ((Spec.Drbg.blocks E s.key s.v ((n + 15) / 16)).take n).length = n
    rw [List.length_take, blocks_length hE]
    omega

/-- **C72, `rand_bytes`.** The function of randomness.c on top of it fills the buffer with the same bytes and reports
success. -/
theorem C72_rand_bytes {E : Ecb} (hE : isEcb E) {s : Spec.Drbg.State} (hs : drbgWf s) (hr : s.reseed < 2 ^ 31 - 1)
    (x : Mem Byte) {n : Nat} (hn : n < 2 ^ 31) (hx : n ≤ x.length) :
    randBytes E (drbgImage s) x n
      = some (0, ofList (Spec.Drbg.generate E s n).1 ++ x.drop n, drbgImage (Spec.Drbg.generate E s n).2) := by
  unfold randBytes
  rw [(C72_randombytes hE hs hr x hn hx).1]
  rfl

/-- **C72, every sequence of requests.** From every state of the generator, any number of requests (as long as the
counter of requests stays below `2^31`) gives the outputs and the final state of the specification. -/
theorem C72_sequence {E : Ecb} (hE : isEcb E) (rs : List (Mem Byte × Nat)) :
    ∀ {s : Spec.Drbg.State}, drbgWf s → s.reseed + rs.length < 2 ^ 31 →
    (∀ r ∈ rs, r.2 < 2 ^ 31 ∧ r.2 ≤ r.1.length) →
    callMany E (drbgImage s) rs
      = some (List.zipWith (fun r o => (0, ofList o ++ r.1.drop r.2)) rs
            (Spec.Drbg.requests E s (rs.map Prod.snd)).1,
          drbgImage (Spec.Drbg.requests E s (rs.map Prod.snd)).2) ∧
    (Spec.Drbg.requests E s (rs.map Prod.snd)).1.map List.length = rs.map Prod.snd := by
  induction rs with
  | nil => intro s _ _ _; exact ⟨rfl, rfl⟩
  | cons r rs ih =>
    intro s hs hr hb
    obtain ⟨x, n⟩ := r
    rw [List.length_cons] at hr
    obtain ⟨h1, h2⟩ := hb (x, n) List.mem_cons_self
    obtain ⟨e1, e2, e3⟩ := C72_randombytes hE hs (by omega) x h1 h2
    have hc : (Spec.Drbg.generate E s n).2.reseed = s.reseed + 1 := rfl
    obtain ⟨i1, i2⟩ := ih e3 (by rw [hc]; omega) fun r hr => hb r (List.mem_cons_of_mem _ hr)
    constructor
    · unfold callMany
      rw [e1]
      show (callMany E (drbgImage (Spec.Drbg.generate E s n).2) rs >>= _) = _
      rw [i1]
      rfl
    · show (Spec.Drbg.generate E s n).1.length :: _ = _
      rw [e2, i2]
      rfl

/-- **C72, the limit of a request.** For `2^31` bytes or more the behaviour is undefined, however large the buffer is:
the index is an `int`. -/
theorem C72_too_long {E : Ecb} (ctx : Ctx) (x : Mem Byte) {n : Nat} (hn : 2 ^ 31 ≤ n) :
    randombytes E ctx x n = none := by
  unfold randombytes
  rw [loop_big (n + 1) x ctx.v 0 n (by omega) rfl (by decide)]
  rfl

/-- **C72, the limit of the counter.** The behaviour of the request at which the counter is `2^31 - 1` is undefined. -/
theorem C72_counter {E : Ecb} (ctx : Ctx) (x : Mem Byte) (n : Nat) (h : ctx.reseed = 2 ^ 31 - 1) :
    randombytes E ctx x n = none := by
  unfold randombytes
  have hc : addInt ctx.reseed 1 = none := addInt_none (by rw [h]; decide)
  cases randombytesLoop E ctx.key (n + 1) x ctx.v 0 n with
  | none => rfl
  | some p =>
    simp only [Option.bind_eq_bind, Option.bind_some, hc]
    cases update E none ctx.key p.2 <;> rfl

/-- **C72, relation to the PRG.** With AES-256 the bytes of a request are those of FAEST's own PRG for the key `Key` and
the initial value `V + 1`. -/
theorem C72_prg {s : Spec.Drbg.State} (hs : drbgWf s) (n : Nat) :
    prg (ofList s.key) (ofList (Spec.Drbg.toBytes ((s.v + 1) % 2 ^ 128))) 256 n
      = some (Spec.Drbg.generate aes256 s n).1 := by
  have hk := has_byteFn s.key
  have hv := has_byteFn (Spec.Drbg.toBytes ((s.v + 1) % 2 ^ 128))
  rw [hs.1] at hk
  rw [Rng.toBytes_length] at hv
  rw [prg_ok (.inr (.inr rfl)) hk hv]
  show some _ = some ((Spec.Drbg.blocks aes256 s.key s.v ((n + 15) / 16)).take n)
  congr 1
  exact (tabP_take (by omega)).symm.trans (congrArg (List.take n) (blocks_prg s.key s.v ((n + 15) / 16)).symm)

/-- The hypotheses can be met: AES-256, the state after an initialisation without personalization string, a buffer
larger than the request, a request which is not a multiple of 16 bytes. -/
example (entropy : List Byte) (he : entropy.length = 48) :
    ∃ ctx, randombytesInit aes256 Rng.start (ofList entropy) none = some ctx ∧
      ∃ out ctx', randombytes aes256 ctx (malloc 50) 37 = some (0, ofList out ++ (malloc 50).drop 37, ctx') ∧
        out.length = 37 := by
  obtain ⟨h1, h2⟩ := C72_init aes256_isEcb Rng.start rfl rfl entropy he none (by simp)
  obtain ⟨h3, h4, _⟩ := C72_randombytes aes256_isEcb h2 (show 1 < 2 ^ 31 - 1 by decide) (malloc 50) (n := 37) (by decide)
    (by rw [malloc_length]; decide)
  exact ⟨_, h1, _, _, h3, h4⟩

/-- Three requests, one of them empty, with a cipher for which everything can be computed: the counter passes `2^128`. -/
example : (callMany (fun _ c => c) ⟨ofList (List.replicate 32 7), ofList (List.replicate 16 0xff), 5⟩
    [(malloc 20, 18), (malloc 0, 0), (malloc 1, 1)]).map (fun r => (r.1.map Prod.snd, r.2.reseed))
    = some ([ofList (List.replicate 17 0) ++ [some 0] ++ malloc 2, [], [some 0]], 8) := by
  decide +kernel

end Faest.Props
