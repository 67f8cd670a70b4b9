/-
C43 to C47: the bundled Keccak code and the random oracles built on it compute SHAKE128 and SHAKE256 of
FIPS 202 (Spec/Keccak.lean), and the sizes for which they do not.

`w` is the number of bits of `size_t`.
-/
import Verif.Proofs.ShakeSizes

namespace Faest.Props
open Faest.Keccak
open Spec.Keccak (shake shakeX keccakP)

/-! ### C44: the permutation -/

/-- `KeccakP1600_Permute_24rounds` on a state of 25 lanes with any contents is KECCAK-p[1600,24]; bit `j` of the
state string is bit `j % 64` of lane `j / 64`. -/
theorem C44_permutation (L : List (BitVec 64)) (hL : L.length = 25) :
    ∃ L' : List (BitVec 64), permute24 (ofList L) 0 = some (ofList L') ∧ ∃ hL' : L'.length = 25,
      ∀ j : Fin 1600, (L'[j.val / 64]'(by omega)).getLsbD (j.val % 64)
        = keccakP (fun i => (L[i.val / 64]'(by omega)).getLsbD (i.val % 64)) j := by
  let B : Nat → Byte := bytesS (fun i => (L[i.val / 64]'(by omega)).getLsbD (i.val % 64))
  have hbit : ∀ t i (ht : t < 200) (hi : i < 8), (B t).getLsbD i = (L[(8 * t + i) / 64]'(by omega)).getLsbD ((8 * t + i) % 64) := by
    intro t i ht hi
    exact bytesS_bit _ t i ht hi
  have hlane : ∀ k (hk : k < 25), L[k] = packL B k := by
    intro k hk
    apply BitVec.eq_of_getLsbD_eq
    intro z hz
    rw [packL_bit B k z hz, hbit _ _ (by omega) (by omega)]
    have e1 : (8 * (8 * k + z / 8) + z % 8) / 64 = k := by omega
    have e2 : (8 * (8 * k + z / 8) + z % 8) % 64 = z := by omega
    simp only [e1, e2]
  have hhas : Has (ofList L) 0 25 (packL B) := by
    intro k hk
    rw [Nat.zero_add, rd_ofList, List.getElem?_eq_getElem (by omega), hlane k hk]
  obtain ⟨st, h1, h2⟩ := permute24_ok hhas
  have hlen : st.length = 25 := by rw [h2.len]; simpa using hL
  refine ⟨tabP 25 (packL (keccakB B)), ?_, by simp [tabP], ?_⟩
  · rw [h1, mem_ext_of_rd hlen h2.has]; rfl
  · intro j
    have hj := j.isLt
    have e : (tabP 25 (packL (keccakB B)))[j.val / 64]'(by simp [tabP]; omega) = packL (keccakB B) (j.val / 64) := by
      have := tabP_getElem? 25 (packL (keccakB B)) (j.val / 64)
      rw [if_pos (by omega), List.getElem?_eq_some_iff] at this
      exact this.2
    rw [e, packL_bit _ _ _ (by omega)]
    unfold keccakB
    rw [bytesS_bit _ _ _ (by omega) (by omega), bitsB_bytesS]
    congr 1
    apply Fin.ext
    show 8 * (8 * (j.val / 64) + j.val % 64 / 8) + j.val % 64 % 8 = j.val
    omega

/-- The all-zero state, first lane of the result as published by the designers. -/
example : (permute24 (ofList (List.replicate 25 0)) 0).bind (rdN · 0 1) = some [0xF1258F7940E1DDE7] := by
  decide +kernel

/-! ### C43: the hash interface -/

/-- For every division of the input into `hash_update` calls and every division of the output into
`hash_squeeze` calls, the concatenated output is SHAKE of the concatenated input. -/
theorem C43_streaming (w : Nat) (hw : 32 ≤ w) (sec : Nat) (chunks : List (List Byte)) (outs : List Nat)
    (hc : ∀ c ∈ chunks, c.length + 200 ≤ 2 ^ 32 ∧ 8 * c.length < 2 ^ w)
    (ho : ∀ n ∈ outs, n + 200 ≤ 2 ^ 32 ∧ 8 * n < 2 ^ w) :
    ∃ parts, runHash w sec chunks outs = some parts ∧ parts.map List.length = outs ∧
      parts.flatten = shake sec chunks.flatten outs.sum :=
  runHash_ok hw sec chunks outs hc ho

/-- `hash_init`, one `hash_update`, `hash_final`, one `hash_squeeze`, with the known answer for the empty input. -/
example : runHash 64 128 [[], []] [4, 2] = some [[0x7f, 0x9c, 0x2b, 0xa4], [0xe8, 0x8f]] := by decide +kernel

/-- SHAKE256 of "abc", in two updates. -/
example : runHash 64 256 [[0x61], [0x62, 0x63]] [4] = some [[0x48, 0x33, 0x66, 0x60]] := by decide +kernel

/-- The specification has the same known answers: it is not trivial. -/
example : shake 128 [] 6 = [0x7f, 0x9c, 0x2b, 0xa4, 0xe8, 0x8f] := by
  obtain ⟨parts, h1, -, h3⟩ := C43_streaming 64 (by omega) 128 [[], []] [4, 2] (by decide) (by decide)
  have h4 : runHash 64 128 [[], []] [4, 2] = some [[0x7f, 0x9c, 0x2b, 0xa4], [0xe8, 0x8f]] := by decide +kernel
  rw [h4] at h1
  cases h1
  exact h3.symm

/-! ### C45: four states -/

/-- The four-fold interface computes SHAKE of each of the four inputs. -/
theorem C45_streaming_x4 (w : Nat) (hw : 32 ≤ w) (sec : Nat) (chunks : List (Nat × (Nat → List Byte)))
    (outs : List Nat)
    (hc : ∀ c ∈ chunks, (c.1 + 200 ≤ 2 ^ 32 ∧ 8 * c.1 < 2 ^ w) ∧ ∀ k, k < 4 → (c.2 k).length = c.1)
    (ho : ∀ n ∈ outs, n + 200 ≤ 2 ^ 32 ∧ 8 * n < 2 ^ w) :
    ∃ parts, runHashX4 w sec chunks outs = some parts ∧ (∀ p ∈ parts, p.length = 4) ∧ ∀ k, k < 4 →
      parts.map (fun p => (p.getD k []).length) = outs ∧
      (parts.map (fun p => p.getD k [])).flatten = shake sec (chunks.map (fun c => c.2 k)).flatten outs.sum :=
  runHashX4_ok hw sec chunks outs hc ho

/-- The four-fold interface gives the outputs of four runs of the single one. -/
theorem C45_x4_eq_single (w : Nat) (hw : 32 ≤ w) (sec : Nat) (chunks : List (Nat × (Nat → List Byte)))
    (outs : List Nat)
    (hc : ∀ c ∈ chunks, (c.1 + 200 ≤ 2 ^ 32 ∧ 8 * c.1 < 2 ^ w) ∧ ∀ k, k < 4 → (c.2 k).length = c.1)
    (ho : ∀ n ∈ outs, n + 200 ≤ 2 ^ 32 ∧ 8 * n < 2 ^ w) :
    ∃ parts, runHashX4 w sec chunks outs = some parts ∧ ∀ k, k < 4 →
      runHash w sec (chunks.map (fun c => c.2 k)) outs = some (parts.map (fun p => p.getD k [])) := by
  obtain ⟨parts, h1, -, h2⟩ := C45_streaming_x4 w hw sec chunks outs hc ho
  refine ⟨parts, h1, ?_⟩
  intro k hk
  obtain ⟨p1, q1, q2, q3⟩ := C43_streaming w hw sec (chunks.map (fun c => c.2 k)) outs (by
    intro c hc'
    obtain ⟨c', h3, rfl⟩ := List.mem_map.1 hc'
    rw [(hc c' h3).2 k hk]
    exact (hc c' h3).1) ho
  rw [q1]
  congr 1
  obtain ⟨h3, h4⟩ := h2 k hk
  have key : ∀ a b : List (List Byte), a.map List.length = b.map List.length → a.flatten = b.flatten → a = b := by
    intro a
    induction a with
    | nil =>
      intro b h _
      cases b with
      | nil => rfl
      | cons _ _ => simp at h
    | cons x xs ih =>
      intro b h hf
      cases b with
      | nil => simp at h
      | cons y ys =>
        rw [List.map_cons, List.map_cons, List.cons.injEq] at h
        rw [List.flatten_cons, List.flatten_cons] at hf
        obtain ⟨e1, e2⟩ := List.append_inj hf h.1
        rw [e1, ih ys h.2 e2]
  refine key _ _ ?_ (by rw [q3, h4])
  rw [q2, List.map_map]
  exact h3.symm

/-- Four different inputs; buffer 2 gets the known answer for "abc". -/
example : (runHashX4 64 256 [(3, fun k => if k = 2 then [0x61, 0x62, 0x63] else [0, 1, 2])] [4]).map
    (fun p => p.map (fun y => y.getD 2 [])) = some [[0x48, 0x33, 0x66, 0x60]] := by decide +kernel

/-! ### C47: random_oracle.c and the hashing functions of faest.c -/

/-- `H0_init`, any updates, `H0_final`: the seed and the commitment are consecutive parts of SHAKE of the input
followed by the byte 0; this is the oracle used in the other models. -/
theorem C47_H0 (w : Nat) (hw : 32 ≤ w) (lambda : Nat) (chunks : List (List Byte)) (seedLen comLen : Nat)
    (hc : ∀ c ∈ chunks, c.length + 200 ≤ 2 ^ 32 ∧ 8 * c.length < 2 ^ w)
    (hs : seedLen < 2 ^ 29) (hm : comLen < 2 ^ 29) :
    runH0 w lambda chunks seedLen comLen = some (H0 shakeX lambda chunks.flatten seedLen comLen) ∧
      (H0 shakeX lambda chunks.flatten seedLen comLen).1 ++ (H0 shakeX lambda chunks.flatten seedLen comLen).2
        = shake (if lambda = 128 then 128 else 256) (chunks.flatten ++ [0]) (seedLen + comLen) := by
  refine ⟨runH0_ok hw lambda chunks seedLen comLen hc (small_of_lt hw hs) (small_of_lt hw hm), ?_⟩
  rw [shake_eq_X, tabP_add]
  unfold H0 squeeze
  simp only [Nat.zero_add]
  rfl

/-- `H1_init`, any updates, `H1_final`. -/
theorem C47_H1 (w : Nat) (hw : 32 ≤ w) (lambda : Nat) (chunks : List (List Byte)) (len : Nat)
    (hc : ∀ c ∈ chunks, c.length + 200 ≤ 2 ^ 32 ∧ 8 * c.length < 2 ^ w) (hl : len < 2 ^ 29) :
    runH1 w lambda chunks len = some (H1 shakeX lambda chunks.flatten len) ∧
      H1 shakeX lambda chunks.flatten len
        = shake (if lambda = 128 then 128 else 256) (chunks.flatten ++ [1]) len := by
  refine ⟨runH1_ok hw lambda chunks len hc (small_of_lt hw hl), ?_⟩
  rw [shake_eq_X]
  unfold H1 squeeze
  simp only [Nat.zero_add]
  rfl

/-- `H2_init`, any updates, `H2_final`. -/
theorem C47_H2 (w : Nat) (hw : 32 ≤ w) (lambda : Nat) (chunks : List (List Byte)) (len : Nat)
    (hc : ∀ c ∈ chunks, c.length + 200 ≤ 2 ^ 32 ∧ 8 * c.length < 2 ^ w) (hl : len < 2 ^ 29) :
    runH2 w lambda chunks len = some (H2 shakeX lambda chunks.flatten len) ∧
      H2 shakeX lambda chunks.flatten len
        = shake (if lambda = 128 then 128 else 256) (chunks.flatten ++ [2]) len := by
  refine ⟨runH2_ok hw lambda chunks len hc (small_of_lt hw hl), ?_⟩
  rw [shake_eq_X]
  unfold H2 squeeze
  simp only [Nat.zero_add]
  rfl

/-- `H3_init`, any updates, `H3_final`. -/
theorem C47_H3 (w : Nat) (hw : 32 ≤ w) (lambda : Nat) (chunks : List (List Byte)) (len : Nat)
    (hc : ∀ c ∈ chunks, c.length + 200 ≤ 2 ^ 32 ∧ 8 * c.length < 2 ^ w) (hl : len < 2 ^ 29) :
    runH3 w lambda chunks len = some (H3 shakeX lambda chunks.flatten len) ∧
      (H3 shakeX lambda chunks.flatten len).1 ++ (H3 shakeX lambda chunks.flatten len).2
        = shake (if lambda = 128 then 128 else 256) (chunks.flatten ++ [3]) (len + 16) := by
  refine ⟨runH3_ok hw lambda chunks len hc (small_of_lt hw hl), ?_⟩
  rw [shake_eq_X, tabP_add]
  unfold H3 squeeze
  simp only [Nat.zero_add]
  rfl

/-- `H0_x4_init`, any updates, `H0_x4_final`: four times `H0`. -/
theorem C47_H0_x4 (w : Nat) (hw : 32 ≤ w) (lambda : Nat) (chunks : List (Nat × (Nat → List Byte)))
    (seedLen comLen : Nat)
    (hc : ∀ c ∈ chunks, (c.1 + 200 ≤ 2 ^ 32 ∧ 8 * c.1 < 2 ^ w) ∧ ∀ k, k < 4 → (c.2 k).length = c.1)
    (hs : seedLen < 2 ^ 29) (hm : comLen < 2 ^ 29) :
    runH0x4 w lambda chunks seedLen comLen = some ((List.range 4).map (fun k =>
      H0 shakeX lambda (chunks.map (fun c => c.2 k)).flatten seedLen comLen)) :=
  runH0x4_ok hw lambda chunks seedLen comLen hc (small_of_lt hw hs) (small_of_lt hw hm)

/-- A use of `H3` as in `faest_sign`: three updates and two outputs, the sizes of FAEST-128. -/
example : ∃ d, runH3 64 128 [List.replicate 16 1, List.replicate 32 2, []] 16 = some d :=
  ⟨_, (C47_H3 64 (by omega) 128 _ 16 (by decide) (by omega)).1⟩

/-- The result of writing the first `n` bytes of a buffer. -/
theorem wrote_props {m m' : Mem Byte} {n sel : Nat} {M : List Byte} (h : Wrote m 0 n (fun i => shakeX sel M i) m')
    (hn : n ≤ m.length) :
    m'.length = m.length ∧ rdN m' 0 n = some (shake sel M n) ∧ ∀ j, n ≤ j → rd m' j = rd m j := by
  refine ⟨h.len, ?_, ?_⟩
  · rw [wrote_result h hn, shake_eq_X]
    unfold squeeze
    simp only [Nat.zero_add]
  · intro j hj
    rw [h.rd, if_neg (by omega)]

/-- `hash_mu` for messages of any permitted size (see C46): the digest of the two halves of the public key and the
message is written to the first bytes of `mu`, nothing else is written, and it is the value used in the models of
signing and verification. -/
theorem C47_hash_mu (w : Nat) (hw : 32 ≤ w) (mu owfInput owfOutput msg : Mem Byte) (n msglen lambda : Nat)
    (inp out m : List Byte) (hi : rdN owfInput 0 n = some inp) (ho : rdN owfOutput 0 n = some out)
    (hm : rdN msg 0 msglen = some m) (hn : n < 2 ^ 29) (hl : lambda < 2 ^ 29) (hmu : 2 * lambda / 8 ≤ mu.length)
    (hs : msglen + 200 ≤ 2 ^ 32) (hs8 : 8 * msglen < 2 ^ w) :
    ∃ mu', hashMuC w mu owfInput owfOutput n msg msglen lambda = some mu' ∧ mu'.length = mu.length ∧
      rdN mu' 0 (2 * lambda / 8)
        = some (shake (if lambda = 128 then 128 else 256) (inp ++ out ++ m ++ [1]) (2 * lambda / 8)) ∧
      rdN mu' 0 (2 * lambda / 8) = some (hashMu shakeX inp out m lambda) ∧
      ∀ j, 2 * lambda / 8 ≤ j → rd mu' j = rd mu j := by
  obtain ⟨mu', h1, h2⟩ := hashMuC_ok hw hi ho hm hn hl hmu (Small.update ⟨hs, hs8⟩)
  obtain ⟨a, b, c⟩ := wrote_props h2 hmu
  exact ⟨mu', h1, a, b, wrote_result h2 hmu, c⟩

/-- `hash_challenge_1`. -/
theorem C47_hash_challenge_1 (w : Nat) (hw : 32 ≤ w) (chall1 mu hcom c iv : Mem Byte) (lambda ell tau : Nat)
    (mu' hcom' c' iv' : List Byte) (h1 : rdN mu 0 (lambda / 8 * 2) = some mu')
    (h2 : rdN hcom 0 (lambda / 8 * 2) = some hcom')
    (h3 : rdN c 0 ((ell / 8 + lambda / 8 * 2 + 2) * (tau - 1)) = some c')
    (h4 : rdN iv 0 16 = some iv') (hl : lambda < 2 ^ 16) (he : ell < 2 ^ 16) (ht : tau < 2 ^ 8)
    (hc : 5 * (lambda / 8) + 8 ≤ chall1.length) :
    ∃ out, hashChallenge1C w chall1 mu hcom c iv lambda ell tau = some out ∧ out.length = chall1.length ∧
      rdN out 0 (5 * (lambda / 8) + 8) = some (shake (if lambda = 128 then 128 else 256)
        (mu' ++ hcom' ++ c' ++ iv' ++ [2]) (5 * (lambda / 8) + 8)) ∧
      rdN out 0 (5 * (lambda / 8) + 8) = some (hashChallenge1 shakeX mu' hcom' c' iv' lambda) ∧
      ∀ j, 5 * (lambda / 8) + 8 ≤ j → rd out j = rd chall1 j := by
  obtain ⟨o, g1, g2⟩ := hashChallenge1C_ok hw h1 h2 h3 h4 hl he ht hc
  obtain ⟨a, b, d⟩ := wrote_props g2 hc
  exact ⟨o, g1, a, b, wrote_result g2 hc, d⟩

/-- `hash_challenge_2`. -/
theorem C47_hash_challenge_2 (w : Nat) (hw : 32 ≤ w) (chall2 chall1 uTilde hV d : Mem Byte) (lambda ell : Nat)
    (chall1' uTilde' hV' d' : List Byte) (h1 : rdN chall1 0 (5 * (lambda / 8) + 8) = some chall1')
    (h2 : rdN uTilde 0 (lambda / 8 + 2) = some uTilde')
    (h3 : rdN hV 0 (2 * (lambda / 8)) = some hV') (h4 : rdN d 0 (ell / 8) = some d')
    (hl : lambda < 2 ^ 16) (he : ell < 2 ^ 16) (hc : 3 * (lambda / 8) + 8 ≤ chall2.length) :
    ∃ out, hashChallenge2C w chall2 chall1 uTilde hV d lambda ell = some out ∧ out.length = chall2.length ∧
      rdN out 0 (3 * (lambda / 8) + 8) = some (shake (if lambda = 128 then 128 else 256)
        (chall1' ++ uTilde' ++ hV' ++ d' ++ [2]) (3 * (lambda / 8) + 8)) ∧
      rdN out 0 (3 * (lambda / 8) + 8) = some (hashChallenge2 shakeX chall1' uTilde' hV' d' lambda) ∧
      ∀ j, 3 * (lambda / 8) + 8 ≤ j → rd out j = rd chall2 j := by
  obtain ⟨o, g1, g2⟩ := hashChallenge2C_ok hw h1 h2 h3 h4 hl he hc
  obtain ⟨a, b, d⟩ := wrote_props g2 hc
  exact ⟨o, g1, a, b, wrote_result g2 hc, d⟩

/-- `hash_challenge_3`. -/
theorem C47_hash_challenge_3 (w : Nat) (hw : 32 ≤ w) (chall3 chall2 aTilde bTilde : Mem Byte) (lambda : Nat)
    (chall2' aTilde' bTilde' : List Byte) (h1 : rdN chall2 0 (3 * (lambda / 8) + 8) = some chall2')
    (h2 : rdN aTilde 0 (lambda / 8) = some aTilde') (h3 : rdN bTilde 0 (lambda / 8) = some bTilde')
    (hl : lambda < 2 ^ 16) (hc : lambda / 8 ≤ chall3.length) :
    ∃ out, hashChallenge3C w chall3 chall2 aTilde bTilde lambda = some out ∧ out.length = chall3.length ∧
      rdN out 0 (lambda / 8) = some (shake (if lambda = 128 then 128 else 256)
        (chall2' ++ aTilde' ++ bTilde' ++ [2]) (lambda / 8)) ∧
      rdN out 0 (lambda / 8) = some (hashChallenge3 shakeX chall2' aTilde' bTilde' lambda) ∧
      ∀ j, lambda / 8 ≤ j → rd out j = rd chall3 j := by
  obtain ⟨o, g1, g2⟩ := hashChallenge3C_ok hw h1 h2 h3 hl hc
  obtain ⟨a, b, d⟩ := wrote_props g2 hc
  exact ⟨o, g1, a, b, wrote_result g2 hc, d⟩

/-- The hypotheses of `C47_hash_mu` for FAEST-128: halves of 16 bytes, any message of 1000 bytes. -/
example (m : List Byte) (hm : m.length = 1000) :
    ∃ mu', hashMuC 64 (malloc 64) (ofList (List.replicate 16 1)) (ofList (List.replicate 16 2)) 16 (ofList m) 1000 128
      = some mu' := by
  obtain ⟨mu', h, -⟩ := C47_hash_mu 64 (by omega) (malloc 64) (ofList (List.replicate 16 1))
    (ofList (List.replicate 16 2)) (ofList m) 16 1000 128 _ _ m (rdN_ofList (List.replicate 16 (1 : Byte)))
    (rdN_ofList (List.replicate 16 (2 : Byte))) (by rw [← hm]; exact rdN_ofList m) (by omega) (by omega) (by simp)
    (by omega) (by omega)
  exact ⟨mu', h⟩

/-! ### C46: sizes

The claim one would like is: for every `msglen` for which a buffer exists, `hash_mu` computes the digest.  It is
false, see `C46_mu_not_total` and `C46_wrap`. -/

/-- The number of bytes per block. -/
def rateBytes (lambda : Nat) : Nat := if lambda = 128 then 168 else 136

/-- The message lengths for which `hash_mu` works: the block is empty after the public key (`idx = 0`), or the sum
computed in `unsigned int` does not wrap, or the truncated remaining size still fills the block. -/
def GoodLength (r idx msglen : Nat) : Prop :=
  idx = 0 ∨ msglen + idx < 2 ^ 32 ∨ (r ≤ msglen % 2 ^ 32 + idx ∧ msglen % 2 ^ 32 + idx < 2 ^ 32)

/-- Where it works: exact condition on the length.  What is missing is the claim for the other lengths, which is
false. -/
theorem C46_mu_partial (w : Nat) (hw : 32 ≤ w) (mu owfInput owfOutput msg : Mem Byte) (n msglen lambda : Nat)
    (inp out m : List Byte) (hi : rdN owfInput 0 n = some inp) (ho : rdN owfOutput 0 n = some out)
    (hm : rdN msg 0 msglen = some m) (hn : n < 2 ^ 29) (hl : lambda < 2 ^ 29) (hmu : 2 * lambda / 8 ≤ mu.length)
    (hs8 : 8 * msglen < 2 ^ w) (hs : GoodLength (rateBytes lambda) (2 * n % rateBytes lambda) msglen) :
    ∃ mu', hashMuC w mu owfInput owfOutput n msg msglen lambda = some mu' ∧
      rdN mu' 0 (2 * lambda / 8)
        = some (shake (if lambda = 128 then 128 else 256) (inp ++ out ++ m ++ [1]) (2 * lambda / 8)) := by
  have hr : rateOf (hashSel lambda) = rateBytes lambda := by
    unfold rateOf hashSel rateBytes
    split <;> simp
  obtain ⟨mu', h1, h2⟩ := hashMuC_ok hw hi ho hm hn hl hmu ⟨hs8, by rw [hr]; exact hs⟩
  exact ⟨mu', h1, (wrote_props h2 hmu).2.1⟩

/-- `hash_mu` is defined for exactly these lengths. -/
theorem C46_mu_defined_iff (w : Nat) (hw : 32 ≤ w) (mu owfInput owfOutput msg : Mem Byte) (n msglen lambda : Nat)
    (inp out m : List Byte) (hi : rdN owfInput 0 n = some inp) (ho : rdN owfOutput 0 n = some out)
    (hm : rdN msg 0 msglen = some m) (hn : n < 2 ^ 29) (hl : lambda < 2 ^ 29) (hmu : 2 * lambda / 8 ≤ mu.length)
    (hs8 : 8 * msglen < 2 ^ w) :
    (hashMuC w mu owfInput owfOutput n msg msglen lambda).isSome ↔
      GoodLength (rateBytes lambda) (2 * n % rateBytes lambda) msglen := by
  have hr : rateOf (hashSel lambda) = rateBytes lambda := by
    unfold rateOf hashSel rateBytes
    split <;> simp
  constructor
  · intro h
    by_contra hc
    have hnone : hashMuC w mu owfInput owfOutput n msg msglen lambda = none := by
      unfold hashMuC
      obtain ⟨c0, e0, h0⟩ := roInit_ok lambda
      rw [e0, Option.bind_eq_bind, Option.bind_some]
      obtain ⟨c1, e1, h1⟩ := roUpdate_ok hw h0 hi (small_of_lt hw hn).update
      rw [e1, Option.bind_some]
      obtain ⟨c2, e2, h2⟩ := roUpdate_ok hw h1 ho (small_of_lt hw hn).update
      rw [e2, Option.bind_some]
      obtain ⟨d1, d2⟩ := data_of_rdN hm
      have l1 := (data_of_rdN hi).2
      have l2 := (data_of_rdN ho).2
      have hlen : ([] ++ inp ++ out).length = 2 * n := by simp; omega
      have : roUpdate w c2 msg msglen = none := by
        subst d2
        refine hashUpdate_none hw h2 d1 hs8 ?_
        rw [hlen]
        rintro ⟨-, g⟩
        rw [hr] at g
        exact hc g
      rw [this]
      rfl
    rw [hnone] at h
    simp at h
  · intro hs
    obtain ⟨mu', h, -⟩ := C46_mu_partial w hw mu owfInput owfOutput msg n msglen lambda inp out m hi ho hm hn hl hmu hs8 hs
    rw [h]; rfl

/-- Witnesses: with the public key of FAEST-128 (two halves of 16 bytes) and 64-bit `size_t`, every message of
`2^32 - 32 … 2^32 + 135` bytes makes `hash_mu` undefined. -/
theorem C46_mu_not_total (inp out m : List Byte) (hi : inp.length = 16) (ho : out.length = 16)
    (h1 : 2 ^ 32 - 32 ≤ m.length) (h2 : m.length ≤ 2 ^ 32 + 135) :
    hashMuC 64 (malloc 32) (ofList inp) (ofList out) 16 (ofList m) m.length 128 = none := by
  have h := C46_mu_defined_iff 64 (by omega) (malloc 32) (ofList inp) (ofList out) (ofList m) 16 m.length 128 inp out m
    (by rw [← hi]; exact rdN_ofList inp) (by rw [← ho]; exact rdN_ofList out) (rdN_ofList m) (by omega) (by omega)
    (by simp) (by omega)
  have hg : ¬ GoodLength (rateBytes 128) (2 * 16 % rateBytes 128) m.length := by
    unfold GoodLength rateBytes
    rw [if_pos rfl]
    omega
  rw [← h] at hg
  simpa using hg

/-- There are such messages, e.g. `2^32` zero bytes. -/
example : hashMuC 64 (malloc 32) (ofList (List.replicate 16 1)) (ofList (List.replicate 16 2)) 16
    (ofList (List.replicate (2 ^ 32) 0)) (2 ^ 32) 128 = none := by
  have := C46_mu_not_total (List.replicate 16 1) (List.replicate 16 2) (List.replicate (2 ^ 32) 0) (by simp) (by simp)
    (by rw [List.length_replicate]; omega) (by rw [List.length_replicate]; omega)
  rwa [List.length_replicate] at this

/-- For a remaining size which is a multiple of `2^32` and a partly filled block, one turn of the loop of
`SpongeAbsorb` changes neither the context nor the position: the call does not return. -/
theorem C46_loop_turn_changes_nothing (w sec : Nat) (hw : 32 ≤ w) (M : List Byte) (hM : M.length < 2 ^ 29)
    (hr : M.length % rateBytes sec ≠ 0) (data : Mem Byte) (len i : Nat) (hl : len ≤ data.length) (h8 : len < 2 ^ w)
    (hi : i < len) (hm : (len - i) % 2 ^ 32 = 0) :
    ∃ ctx, (do let c ← hashInit hashFresh sec; hashUpdate w c (ofList M) M.length) = some ctx ∧
      ∀ fuel, absorbLoop w data len (fuel + 1) ctx.sponge i = absorbLoop w data len fuel ctx.sponge i := by
  obtain ⟨f1, f2, f3⟩ := rateOf_facts sec
  have h0 : Ok (do let c ← hashInit hashFresh sec; hashUpdate w c (ofList M) M.length) (HAbs sec M) := by
    refine Ok.bind (hashInit_ok (by simp [hashFresh]) sec) ?_
    intro c hc
    have := hashUpdate_ok hw hc (data_ofList M) (small_of_lt hw hM).update
    rwa [List.nil_append] at this
  obtain ⟨ctx, e, h⟩ := h0
  refine ⟨ctx, e, fun fuel => ?_⟩
  refine absorbLoop_stuck (by omega) h.sp ?_ hl h8 hi hm fuel
  rw [idx_eq]
  exact hr

/-- With 32-bit `size_t` the length in bits wraps around: `hash_mu` of a message of `k + 2^29` bytes is `hash_mu`
of its first `k` bytes.  In general the multiple of `2^(w-3)` is lost. -/
theorem C46_wrap (w : Nat) (hw : 3 ≤ w) (mu owfInput owfOutput msg : Mem Byte) (n k q lambda : Nat) :
    hashMuC w mu owfInput owfOutput n msg (k + 2 ^ (w - 3) * q) lambda
      = hashMuC w mu owfInput owfOutput n msg k lambda := by
  unfold hashMuC roUpdate
  simp only [hashUpdate_wrap hw]

/-- On a 32-bit host two different messages get the same digest: here `k` bytes, and the same bytes followed by
`2^29` more. -/
theorem C46_collision32 (inp out m m' : List Byte) (hi : inp.length = 16) (ho : out.length = 16)
    (hm : m.length < 2 ^ 28) (hm' : m'.length = 2 ^ 29) :
    ∃ d, (hashMuC 32 (malloc 32) (ofList inp) (ofList out) 16 (ofList (m ++ m')) (m ++ m').length 128).bind
        (rdN · 0 32) = some d ∧
      (hashMuC 32 (malloc 32) (ofList inp) (ofList out) 16 (ofList m) m.length 128).bind (rdN · 0 32) = some d := by
  have hi' : rdN (ofList inp) 0 16 = some inp := by rw [← hi]; exact rdN_ofList inp
  have ho' : rdN (ofList out) 0 16 = some out := by rw [← ho]; exact rdN_ofList out
  have hpre : rdN (ofList (m ++ m')) 0 m.length = some m := by
    have e := list_eq_tabP m (fun i => m.getD i 0) m.length rfl (fun i hi => by
      rw [List.getD_eq_getElem?_getD, List.getElem?_eq_getElem hi]; rfl)
    conv_rhs => rw [e]
    refine rdN_eq ?_ (by simp)
    intro i hi
    beta_reduce
    rw [Nat.zero_add, rd_ofList, List.getElem?_append_left hi, List.getD_eq_getElem?_getD, List.getElem?_eq_getElem hi]
    rfl
  have g : ∀ msg : Mem Byte, rdN msg 0 m.length = some m →
      (hashMuC 32 (malloc 32) (ofList inp) (ofList out) 16 msg m.length 128).bind (rdN · 0 32)
        = some (shake 128 (inp ++ out ++ m ++ [1]) 32) := by
    intro msg h
    obtain ⟨mu', h1, -, h2, -⟩ := C47_hash_mu 32 (by omega) (malloc 32) (ofList inp) (ofList out) msg 16 m.length 128
      inp out m hi' ho' h (by omega) (by omega) (by simp) (by omega) (by omega)
    rw [h1, Option.bind_some]
    exact h2
  refine ⟨shake 128 (inp ++ out ++ m ++ [1]) 32, ?_, g _ (rdN_ofList m)⟩
  have hw := C46_wrap 32 (by omega) (malloc 32) (ofList inp) (ofList out) (ofList (m ++ m')) 16 m.length 1 128
  rw [List.length_append, hm', show 2 ^ 29 = 2 ^ (32 - 3) * 1 from rfl, hw]
  exact g _ hpre

end Faest.Props
