/-
C74: the program making the files of known answers.
-/
import Verif.Proofs.KatRun

namespace Faest.Props
open KatGen
open Rng (Ecb)
open Spec.Drbg (generate)
open Spec.Kat (keyDraw keyState)

/-- **C74, finding.** If the marker (of at most 49 characters) occurs in the file, `FindMarker` returns 1 and has read up to the end of the
first occurrence. -/
theorem C74_find {marker pre rest : List Char} (hm : marker.length ≤ 49)
    (hfirst : ∀ k < pre.length, ((pre ++ marker).drop k).take marker.length ≠ marker) :
    findMarker (pre ++ marker ++ rest) marker = (true, rest) := find_found hm hfirst

/-- **C74, not finding.** If it does not occur, `FindMarker` returns 0 and has read the file to its end. -/
theorem C74_find_not {marker s : List Char} (hm : marker.length ≤ 49) (h : ¬ marker <:+: s) : findMarker s marker = (false, []) := by
  refine find_missing hm fun k hk he => h ⟨s.take k, s.drop (k + marker.length), ?_⟩
  conv_rhs => rw [← List.take_append_drop k s, ← List.take_append_drop marker.length (s.drop k), he, List.drop_drop]
  rw [List.append_assoc]

/-- **C74, bytes.** What `fprintBstr` writes for bytes (at least one, from a buffer of any size), `ReadHex` reads: behind any text in which the
marker occurs nowhere else, it stores the same bytes, for any earlier contents of the buffer, and has read up to the end of the line. -/
theorem C74_hex {marker pre rest : List Char} {l : List Byte} {A B : Mem Byte} (hm : marker.length ≤ 49)
    (hfirst : ∀ k < pre.length, ((pre ++ marker).drop k).take marker.length ≠ marker) (hl : 0 < l.length) (hA : A.length = l.length)
    (hB : rdN B 0 l.length = some l) :
    ∃ t, fprintBstr marker B l.length = some t ∧ readHex (pre ++ t ++ rest) A l.length marker = some (true, ofList l, rest) := by
  refine ⟨marker ++ l.flatMap hex2 ++ ['\n'], ?_, ?_⟩
  · unfold fprintBstr
    rw [hB, sb, if_neg (by omega), List.append_nil]
    rfl
  · refine readHex_ok rfl hl hA ?_
    rw [show pre ++ (marker ++ l.flatMap hex2 ++ ['\n']) ++ rest = pre ++ marker ++ (l.flatMap hex2 ++ '\n' :: rest) from by
      simp [List.append_assoc]]
    exact find_found hm hfirst

/-- **C74, the program.** For every block cipher, every parameter set and every name: if in each of the 100 records the request number `K j` is the first one
to give out a good key, the program returns 0, and the two files are those of the specification: seeds and messages from the generator with the
entropy input 0, 1, ..., 47, and in each record the key pair and the signed message for the generator with the seed of the record. -/
theorem C74_main {E : Ecb} (hE : isEcb E) (X : XOF) (i : ParamId) (name : List Char) {K : Nat → Nat} {kf fuel : Nat}
    (hK : ∀ j < 100, K j < 2 ^ 31 - 10 ∧ K j < kf ∧ Spec.skGood i (keyDraw E i j (K j)) ∧ ∀ k < K j, ¬Spec.skGood i (keyDraw E i j k))
    (hf : 100 < fuel) :
    KatGen.main E X i name kf fuel = some (0, Spec.Kat.requests E, Spec.Kat.responses E X i name K) := by
  obtain ⟨seed, hs, hreq⟩ := request_ok hE
  obtain ⟨c1, c2⟩ := image_lengths (state_facts hE 100 le_rfl).1
  have h := response_ok hE X hK 100 0 fuel [] (['#', ' '] ++ name ++ ['\n', '\n']) _ seed (malloc (params i).pkSize) (malloc (params i).skSize) (by omega) hf
    (Or.inl rfl) c1 c2 hs (malloc_length _) (malloc_length _)
  rw [List.nil_append, ← List.range_eq_range'] at h
  unfold KatGen.main
  rw [hreq, sb]
  dsimp only
  rw [show Spec.Kat.requests E = (List.range 100).flatMap (Spec.Kat.reqRecord E) from rfl, h, sb]
  rfl

/-- **C74, validity.** The signatures in the file are valid for the public keys in it. -/
theorem C74_valid {E : Ecb} (hE : isEcb E) (X : XOF) (i : ParamId) {j k : Nat} (hj : j < 100) (hk : k < 2 ^ 31 - 10) (hg : Spec.skGood i (keyDraw E i j k)) :
    ∃ s, Spec.Kat.signed E X i j k = Spec.Kat.msgAt E j ++ s ∧ Spec.ValidSig X i (Spec.pkOf i (keyDraw E i j k)) (Spec.Kat.msgAt E j) s := by
  have hsz : (params i).skSize < 2 ^ 31 := by cases i <;> decide
  have hw : ∀ k < 2 ^ 31 - 9, drbgWf (keyState E i j k) ∧ (keyState E i j k).reseed = k + 1 := by
    intro k
    induction k with
    | zero => intro _; exact ⟨(C72_init hE Rng.start rfl rfl _ (rec_lengths hE hj).1 none (by simp)).2, rfl⟩
    | succ k ih =>
      intro hk
      obtain ⟨h1, h2⟩ := ih (by omega)
      obtain ⟨-, -, h3⟩ := C72_randombytes hE h1 (by omega) (malloc (params i).skSize) hsz (by rw [malloc_length])
      exact ⟨h3, by show (keyState E i j k).reseed + 1 = _; rw [h2]⟩
  obtain ⟨h1, h2⟩ := hw k (by omega)
  obtain ⟨-, hl, -⟩ := C72_randombytes hE h1 (by omega) (malloc (params i).skSize) hsz (by rw [malloc_length])
  exact ⟨_, rfl, signature_valid X hl hg⟩

/-! ### The hypotheses are met -/

namespace KatExample

def a : List Byte := [4, 50, 114, 196, 40, 158, 38, 192, 108, 42, 250, 220, 208, 214, 238, 24]
def b : List Byte := [52, 138, 66, 92, 216, 182, 246, 152, 156, 2, 202, 244, 128, 110, 190, 112]

/-- A block cipher (a bad one) for which the keys can be computed: `a` for an even counter and `b` for an odd one. -/
def E : Ecb := fun _ c => if (c.getD 15 0).toNat % 2 = 0 then a else b

theorem isE : isEcb E := by
  intro k c
  unfold E
  split <;> rfl

theorem block_eq (k : List Byte) (v n : Nat) : Spec.Drbg.block E k v n = if (v + n) % 2 = 0 then a else b := by
  have h : ((Spec.Drbg.toBytes ((v + n) % 2 ^ 128)).getD 15 0).toNat % 2 = (v + n) % 2 := by
    have : (Spec.Drbg.toBytes ((v + n) % 2 ^ 128)).getD 15 0 = BitVec.ofNat 8 ((v + n) % 2 ^ 128) := by
      simp [Spec.Drbg.toBytes]
    rw [this, BitVec.toNat_ofNat]
    omega
  unfold Spec.Drbg.block E
  rw [h]

theorem good_of {sk : List Byte} (hl : sk.length = 32)
    (h : (owf .p128F (ofList (sk.drop 16)) (ofList sk)).map Prod.snd = some true) : Spec.skGood .p128F sk := by
  obtain ⟨ok, h1, h2⟩ := owf_sk (i := .p128F) (sk := sk) (by rw [hl]; decide)
  have h3 : owf .p128F (ofList (sk.drop 16)) (ofList sk) = _ := h1
  rw [h3] at h
  exact h2.1 (by simpa using h)

theorem good_ab : Spec.skGood .p128F (a ++ b) := good_of (by decide) (by decide +kernel)
theorem good_ba : Spec.skGood .p128F (b ++ a) := good_of (by decide) (by decide +kernel)

/-- In every record the first key is good. -/
theorem good (j : Nat) : Spec.skGood .p128F (keyDraw E .p128F j 0) := by
  have h : ∀ s : Spec.Drbg.State, (generate E s 32).1 = a ++ b ∨ (generate E s 32).1 = b ++ a := by
    intro s
    have : (generate E s 32).1 = (Spec.Drbg.block E s.key s.v 1 ++ Spec.Drbg.block E s.key s.v 2).take 32 := by
      show ((List.range 2).flatMap _).take 32 = _
      simp [List.range_succ]
    rw [this, block_eq, block_eq]
    rcases Nat.mod_two_eq_zero_or_one s.v with hv | hv
    · rw [if_neg (by omega), if_pos (by omega)]; exact Or.inr (by decide)
    · rw [if_pos (by omega), if_neg (by omega)]; exact Or.inl (by decide)
  rcases h (keyState E .p128F j 0) with h | h
  · show Spec.skGood .p128F (generate E (keyState E .p128F j 0) 32).1
    rw [h]; exact good_ab
  · show Spec.skGood .p128F (generate E (keyState E .p128F j 0) 32).1
    rw [h]; exact good_ba

end KatExample

-- "mlen = " is found behind a part of itself, and what follows is left
example : findMarker ['m', 'l', 'm', 'l', 'e', 'n', ' ', '=', ' ', '3'] tMlen = (true, ['3']) :=
  C74_find (pre := ['m', 'l']) (marker := tMlen) (rest := ['3']) (by decide) (by decide)
example : findMarker ['s', 'm', 'l', 'e', 'n', ' ', '=', '\n'] tMlen = (false, []) := C74_find_not (by decide) (by decide)
-- the text for two bytes
example : fprintBstr tMsg (ofList [0x0f, 0xa0, 0x11]) 2 = some ['m', 's', 'g', ' ', '=', ' ', '0', 'F', 'A', '0', '\n'] := by decide
example : readHex ['x', 'm', 's', 'g', ' ', '=', ' ', '0', 'F', 'A', '0', '\n', 'y'] (malloc 2) 2 tMsg = some (true, ofList [0x0f, 0xa0], ['y']) := by decide
example : dec 3300 = ['3', '3', '0', '0'] := by rw [dec_eq]; decide

-- the whole program, with the cipher above, for every hash
example (X : XOF) : KatGen.main KatExample.E X .p128F ['f', 'a', 'e', 's', 't'] 1 101 =
    some (0, Spec.Kat.requests KatExample.E, Spec.Kat.responses KatExample.E X .p128F ['f', 'a', 'e', 's', 't'] fun _ => 0) :=
  C74_main KatExample.isE X .p128F _ (fun j _ => ⟨by decide, by decide, KatExample.good j, fun k hk => absurd hk (Nat.not_lt_zero k)⟩) (by decide)
example (X : XOF) : ∃ s, Spec.Kat.signed KatExample.E X .p128F 99 0 = Spec.Kat.msgAt KatExample.E 99 ++ s ∧
    Spec.ValidSig X .p128F (Spec.pkOf .p128F (keyDraw KatExample.E .p128F 99 0)) (Spec.Kat.msgAt KatExample.E 99) s :=
  C74_valid KatExample.isE X .p128F (by decide) (by decide) (KatExample.good 99)
-- the hypotheses about the cipher hold for AES-256
example : isEcb aes256 := aes256_isEcb

end Faest.Props
