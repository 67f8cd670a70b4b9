/-
C02: generated key pairs.  C08, C09: the `crypto_sign` interface.  C27, C29: comparison and clearing.
C31: failures of the random source.
-/
import Verif.Props.C01
import Verif.Model.Randomness

namespace Faest.Props
open Spec (byteFn)

/-! ### C02 -/

/-- The bytes stored by call number `k` of the random source. -/
def draw (i : ParamId) (rand : Rand) (k : Nat) : List Byte :=
  (rand k (params i).skSize).2.take (params i).skSize

theorem wrN_ofList {s l : List Byte} (h : l.length ≤ s.length) :
    wrN (ofList s) 0 l = some (ofList (l ++ s.drop l.length)) := by
  unfold wrN
  rw [if_pos (by rw [ofList_length]; omega)]
  simp only [List.take_zero, List.nil_append, Nat.zero_add, ofList_drop]
  unfold ofList
  rw [List.map_append]

theorem wrN_whole {m : Mem Byte} {l : List Byte} (h : m.length = l.length) : wrN m 0 l = some (ofList l) := by
  unfold wrN
  rw [if_pos (by omega)]
  simp only [List.take_zero, List.nil_append, Nat.zero_add]
  rw [List.drop_eq_nil_of_le (by omega), List.append_nil]
  rfl

section keygen
variable {i : ParamId} {rand : Rand}

/-- One iteration on a secret key buffer which is initialised after the random source has written to it. -/
theorem keygenLoop_step {fuel k : Nat} {pk sk : Mem Byte} {s : List Byte} (hs : s.length = (params i).skSize)
    (hw : wrN sk 0 (draw i rand k) = some (ofList s)) (hpk : pk.length = (params i).pkSize) :
    ∃ pk', pk'.length = (params i).pkSize ∧
      HasL pk' ((params i).pkSize / 2) (tabP ((params i).pkSize / 2)
        (Spec.owf i (byteFn (s.drop ((params i).pkSize / 2))) (byteFn s))) ∧
      (Spec.skGood i s → keygenLoop i rand (fuel + 1) k pk sk = some (pk', ofList s)) ∧
      (¬Spec.skGood i s → keygenLoop i rand (fuel + 1) k pk sk = keygenLoop i rand fuel (k + 1) pk' (ofList s)) := by
  have hp2 := params_pk2 i
  obtain ⟨ok, h1, h2⟩ := owf_sk (i := i) hs.ge
  obtain ⟨c, h3, h4, h5, -⟩ := wrN_ok (m := pk) (off := (params i).pkSize / 2)
    (l := tabP ((params i).pkSize / 2) (Spec.owf i (byteFn (s.drop ((params i).pkSize / 2))) (byteFn s)))
    (by rw [tabP_length]; omega)
  have key : keygenLoop i rand (fuel + 1) k pk sk
      = if ok then some (c, ofList s) else keygenLoop i rand fuel (k + 1) c (ofList s) := by
    unfold draw at hw
    rw [keygenLoop, hw]
    show (ptr (ofList s) (half (params i)) >>= _) = _
    unfold half
    rw [ptr_ofList s (sk_half_le hs.ge)]
    show (owf i (ofList (s.drop ((params i).pkSize / 2))) (ofList s) >>= _) = _
    rw [h1]
    show (wrN pk ((params i).pkSize / 2) _ >>= _) = _
    rw [h3]
    rfl
  refine ⟨c, by omega, h5, fun hg => ?_, fun hg => ?_⟩
  · rw [key, if_pos (h2.2 hg)]
  · rw [key, if_neg (fun h => hg (h2.1 h))]

theorem draw_length_le (k : Nat) : (draw i rand k).length ≤ (params i).skSize := by
  unfold draw
  rw [List.length_take]
  omega

/-- If the loop stops, the secret key is accepted and the output half of the public key is set. -/
theorem keygenLoop_stops : ∀ (fuel k : Nat) (pk sk : Mem Byte) (s : List Byte), s.length = (params i).skSize →
    wrN sk 0 (draw i rand k) = some (ofList s) → pk.length = (params i).pkSize →
    ∀ pk' sk', keygenLoop i rand fuel k pk sk = some (pk', sk') →
    ∃ t : List Byte, t.length = (params i).skSize ∧ sk' = ofList t ∧ Spec.skGood i t ∧
      pk'.length = (params i).pkSize ∧
      HasL pk' ((params i).pkSize / 2) (tabP ((params i).pkSize / 2)
        (Spec.owf i (byteFn (t.drop ((params i).pkSize / 2))) (byteFn t))) := by
  intro fuel
  induction fuel with
  | zero => intro k pk sk s _ _ _ pk' sk' h; simp [keygenLoop] at h
  | succ fuel ih =>
    intro k pk sk s hs hw hpk pk' sk' h
    obtain ⟨c, h1, h2, h3, h4⟩ := keygenLoop_step (fuel := fuel) hs hw hpk
    by_cases hg : Spec.skGood i s
    · rw [h3 hg] at h
      obtain ⟨rfl, rfl⟩ := Prod.mk.inj (Option.some.inj h)
      exact ⟨s, hs, rfl, hg, h1, h2⟩
    · rw [h4 hg] at h
      have hl := draw_length_le (i := i) (rand := rand) (k + 1)
      exact ih (k + 1) c (ofList s) (draw i rand (k + 1) ++ s.drop (draw i rand (k + 1)).length)
        (by rw [List.length_append, List.length_drop]; omega) (wrN_ofList (by omega)) h1 _ _ h

/-- The input half of the public key completes the public key. -/
theorem keygen_finish {pk : Mem Byte} {t : List Byte} (ht : t.length = (params i).skSize)
    (hl : pk.length = (params i).pkSize)
    (h : HasL pk ((params i).pkSize / 2) (tabP ((params i).pkSize / 2)
        (Spec.owf i (byteFn (t.drop ((params i).pkSize / 2))) (byteFn t)))) :
    (do
      let inp ← rdN (ofList t) 0 (half (params i))
      let pk ← wrN pk 0 inp
      pure ((0 : Int), some pk, some (ofList t))) = some (0, some (ofList (Spec.pkOf i t)), some (ofList t)) := by
  have hh := sk_half_le (i := i) ht.ge
  have hp2 := params_pk2 i
  have hlt : (t.take ((params i).pkSize / 2)).length = (params i).pkSize / 2 := by
    rw [List.length_take]; omega
  unfold half
  rw [rdN_ofList_le t (by omega), List.drop_zero]
  obtain ⟨c, h1, h2, h3, h4⟩ := wrN_ok (m := pk) (off := 0) (l := t.take ((params i).pkSize / 2))
    (by rw [hlt]; omega)
  show (wrN pk 0 (t.take ((params i).pkSize / 2)) >>= _) = _
  rw [h1]
  show some ((0 : Int), some c, some (ofList t)) = _
  have hall : HasL c 0 (Spec.pkOf i t) := by
    unfold Spec.pkOf
    exact h3.append (h.keep h4 (by omega)) (by omega)
  have hpl := pkOf_length (i := i) ht.ge
  have : c = ofList (Spec.pkOf i t) := by
    refine mem_ext (by rw [ofList_length]; omega) fun p => ?_
    rw [rd_ofList]
    by_cases hp : p < (Spec.pkOf i t).length
    · have := hall p hp
      rwa [Nat.zero_add] at this
    · rw [rd_eq_none_of_ge (by omega), List.getElem?_eq_none (by omega)]
  rw [this]

end keygen

/-- **C02.** Whenever keygen returns (with code 0, if the pointers are not NULL), the two buffers hold a key pair
for which `validate_keypair` returns 0, whose input halves agree, and which signs and verifies: for every source
`rand` whose first call delivers all requested bytes (later calls may fail), or for any source if the caller's
buffer was initialised. -/
theorem C02_valid (i : ParamId) (rand : Rand) (fuel : Nat) (pk sk : Mem Byte) (pk' sk' : Option (Mem Byte)) (r : Int)
    (hpk : pk.length = (params i).pkSize) (hsk : sk.length = (params i).skSize)
    (hdel : (params i).skSize ≤ (rand 0 (params i).skSize).2.length ∨ ∃ s, sk = ofList s)
    (h : keygen i rand fuel (some pk) (some sk) = some (r, pk', sk')) :
    r = 0 ∧ ∃ p s : List Byte, pk' = some (ofList p) ∧ sk' = some (ofList s) ∧
      p.length = (params i).pkSize ∧ s.length = (params i).skSize ∧
      validateKeypair i pk' sk' = some 0 ∧
      p.take ((params i).pkSize / 2) = s.take ((params i).pkSize / 2) ∧
      ∀ (X : XOF) (m : List Byte) (rho : Option (List Byte)) (sig : Mem Byte) (n : Nat),
        (params i).sigSize ≤ n → n ≤ sig.length →
        ∃ sg : List Byte, sg.length = (params i).sigSize ∧
          signWithRandomness X i sk' (ofList m) m.length (rho.map ofList) (rho.getD []).length (some sig) (some n)
            = some ⟨0, some (ofList sg ++ sig.drop (params i).sigSize), some (params i).sigSize⟩ ∧
          verify X i pk' (ofList m) m.length (some (ofList sg)) (params i).sigSize = some 0 := by
  have hl := draw_length_le (i := i) (rand := rand) 0
  obtain ⟨s0, hs0, hw⟩ : ∃ s0 : List Byte, s0.length = (params i).skSize ∧
      wrN sk 0 (draw i rand 0) = some (ofList s0) := by
    rcases hdel with hd | ⟨s, rfl⟩
    · have : (draw i rand 0).length = (params i).skSize := by
        unfold draw
        rw [List.length_take]
        omega
      exact ⟨draw i rand 0, this, wrN_whole (by omega)⟩
    · rw [ofList_length] at hsk
      exact ⟨draw i rand 0 ++ s.drop (draw i rand 0).length, by rw [List.length_append, List.length_drop]; omega,
        wrN_ofList (by omega)⟩
  have h' : (keygenLoop i rand fuel 0 pk sk >>= fun x => do
      let inp ← rdN x.2 0 (half (params i))
      let pk ← wrN x.1 0 inp
      pure ((0 : Int), some pk, some x.2)) = some (r, pk', sk') := h
  cases hk : keygenLoop i rand fuel 0 pk sk with
  | none => rw [hk] at h'; exact absurd h' (by simp)
  | some x =>
    obtain ⟨p1, s1⟩ := x
    obtain ⟨t, ht, rfl, hg, h1, h2⟩ := keygenLoop_stops fuel 0 pk sk s0 hs0 hw hpk p1 s1 hk
    rw [hk] at h'
    have h3 := (keygen_finish ht h1 h2).symm.trans h'
    obtain ⟨rfl, h4⟩ := Prod.mk.inj (Option.some.inj h3)
    obtain ⟨rfl, rfl⟩ := Prod.mk.inj h4
    have hpl := pkOf_length (i := i) ht.ge
    have hv : validateKeypair i (some (ofList (Spec.pkOf i t))) (some (ofList t)) = some 0 := by
      obtain ⟨r, h5, -, -, h6, -⟩ := C03_codes i (Spec.pkOf i t) t hpl ht
      rw [h5, h6.2 ⟨hg, rfl⟩]
    refine ⟨rfl, Spec.pkOf i t, t, rfl, rfl, hpl, ht, hv, ?_, ?_⟩
    · unfold Spec.pkOf
      exact List.take_left' (by rw [List.length_take]; have := sk_half_le (i := i) ht.ge; omega)
    · intro X m rho sig n hn hb
      exact C01_sign_then_verify X i _ _ m rho sig n hpl ht hn hb hv

/-- **C02.** With a source which always delivers, keygen returns the first accepted draw and its public key. -/
theorem C02_first_accepted (i : ParamId) (rand : Rand) (fuel k : Nat) (pk sk : Mem Byte)
    (hpk : pk.length = (params i).pkSize) (hsk : sk.length = (params i).skSize)
    (hdel : ∀ k, (params i).skSize ≤ (rand k (params i).skSize).2.length) (hk : Spec.skGood i (draw i rand k))
    (hfirst : ∀ j, j < k → ¬Spec.skGood i (draw i rand j)) (hf : k < fuel) :
    keygen i rand fuel (some pk) (some sk)
      = some (0, some (ofList (Spec.pkOf i (draw i rand k))), some (ofList (draw i rand k))) := by
  have hlen : ∀ j, (draw i rand j).length = (params i).skSize := fun j => by
    unfold draw
    rw [List.length_take]
    have := hdel j
    omega
  have main : ∀ n j fuel (pk sk : Mem Byte), j + n = k → n < fuel → pk.length = (params i).pkSize →
      sk.length = (params i).skSize → ∃ pk', pk'.length = (params i).pkSize ∧
        HasL pk' ((params i).pkSize / 2) (tabP ((params i).pkSize / 2)
          (Spec.owf i (byteFn ((draw i rand k).drop ((params i).pkSize / 2))) (byteFn (draw i rand k)))) ∧
        keygenLoop i rand fuel j pk sk = some (pk', ofList (draw i rand k)) := by
    intro n
    induction n with
    | zero =>
      intro j fuel pk sk hj hf hpk hsk
      obtain rfl : j = k := by omega
      obtain ⟨fuel, rfl⟩ : ∃ f, fuel = f + 1 := ⟨fuel - 1, by omega⟩
      obtain ⟨c, h1, h2, h3, -⟩ := keygenLoop_step (fuel := fuel) (hlen j)
        (wrN_whole (by rw [hlen]; exact hsk)) hpk
      exact ⟨c, h1, h2, h3 hk⟩
    | succ n ih =>
      intro j fuel pk sk hj hf hpk hsk
      obtain ⟨fuel, rfl⟩ : ∃ f, fuel = f + 1 := ⟨fuel - 1, by omega⟩
      obtain ⟨c, h1, h2, -, h4⟩ := keygenLoop_step (fuel := fuel) (hlen j)
        (wrN_whole (by rw [hlen]; exact hsk)) hpk
      rw [h4 (hfirst j (by omega))]
      exact ih (j + 1) fuel c _ (by omega) (by omega) h1 (by rw [ofList_length, hlen])
  obtain ⟨p, h1, h2, h3⟩ := main k 0 fuel pk sk (by omega) hf hpk hsk
  have hfin := keygen_finish (hlen k) h1 h2
  show (keygenLoop i rand fuel 0 pk sk >>= _) = _
  rw [h3]
  exact hfin

/-- NULL pointers give -1 and change nothing. -/
theorem C02_null (i : ParamId) (rand : Rand) (fuel : Nat) (pk sk : Option (Mem Byte)) (h : pk = none ∨ sk = none) :
    keygen i rand fuel pk sk = some (-1, pk, sk) := by
  rcases h with rfl | rfl
  · rfl
  · cases pk <;> rfl

/-- A source delivering a rejected key first and the known-answer key then: keygen returns the latter. -/
example : keygen .p128F (fun k _ => (0, if k = 0 then List.replicate 32 0 else Concrete.sk)) 5 (some (malloc 32))
      (some (malloc 32)) = some (0, some (ofList Concrete.pk), some (ofList Concrete.sk)) := by
  have := C02_first_accepted .p128F (fun k _ => (0, if k = 0 then List.replicate 32 0 else Concrete.sk)) 5 1
    (malloc 32) (malloc 32) rfl rfl (fun k => by dsimp only; split <;> decide) Concrete.kat_good
    (fun j hj => by obtain rfl : j = 0 := (by omega); exact Concrete.zero_bad) (by decide)
  rw [this, ← Concrete.kat_owf.2]
  rfl

/-! ### C08 -/

/-- `sign` with a source delivering the requested bytes. -/
theorem sign_rand (X : XOF) {i : ParamId} {rand : Rand} {sk m : List Byte} {msg sig : Mem Byte} {msglen n : Nat}
    (hsk : sk.length = (params i).skSize) (hn : (params i).sigSize ≤ n) (hbuf : n ≤ sig.length)
    (hm : rdN msg 0 msglen = some m) (hdel : (params i).lambda / 8 ≤ (rand 0 ((params i).lambda / 8)).2.length)
    (hg : Spec.skGood i sk) :
    sign X i rand (some (ofList sk)) msg msglen (some sig) (some n)
      = some ⟨0, some (ofList (Spec.signature X i sk m ((rand 0 ((params i).lambda / 8)).2.take ((params i).lambda / 8)))
          ++ sig.drop (params i).sigSize), some (params i).sigSize⟩ := by
  have hl : ((rand 0 ((params i).lambda / 8)).2.take ((params i).lambda / 8)).length = (params i).lambda / 8 := by
    rw [List.length_take]; omega
  unfold sign
  dsimp only
  rw [if_neg (by omega), wrN_whole (by rw [malloc_length, hl])]
  generalize (rand 0 ((params i).lambda / 8)).2.take ((params i).lambda / 8) = r at hl
  have := rhoBytes_ofList (some r)
  exact sign_ok' X hsk hn hbuf hm (by rw [← hl]; exact this) (by simp) hg

theorem rdN_append {l : List Byte} {rest : Mem Byte} : rdN (ofList l ++ rest) 0 l.length = some l := by
  rw [← rdN_ofList l]
  unfold rdN
  rw [if_pos (by simp), if_pos (by simp)]
  simp only [List.drop_zero]
  rw [List.take_left' (by simp), List.take_of_length_le (by simp)]

theorem wrN_front {m : Mem Byte} {l : List Byte} (h : l.length ≤ m.length) :
    wrN m 0 l = some (ofList l ++ m.drop l.length) := by
  unfold wrN
  rw [if_pos (by omega)]
  simp only [List.take_zero, List.nil_append, Nat.zero_add]
  rfl

/-- **C08.** For a valid key pair, a message `m`, a buffer `sm` of `mlen + SIGNATURE_SIZE` bytes and every
internal randomness, `crypto_sign` returns 0, sets `*smlen` to `mlen + SIGNATURE_SIZE` and fills `sm` with `m`
followed by a string `s` of `SIGNATURE_SIZE` bytes; `crypto_sign_open` with the matching public key returns 0 on it,
sets `*mlen` and stores `m`. -/
theorem C08_round_trip (X : XOF) (i : ParamId) (rand : Rand) (pk sk m : List Byte) (sm : Mem Byte)
    (hpk : pk.length = (params i).pkSize) (hsk : sk.length = (params i).skSize)
    (hv : validateKeypair i (some (ofList pk)) (some (ofList sk)) = some 0)
    (hsm : sm.length = m.length + (params i).sigSize)
    (hdel : (params i).lambda / 8 ≤ (rand 0 ((params i).lambda / 8)).2.length) :
    ∃ s : List Byte, s.length = (params i).sigSize ∧
      cryptoSign X i rand sm (ofList m) m.length (some (ofList sk))
        = some (0, ofList (m ++ s), m.length + (params i).sigSize) ∧
      ∀ (buf : Mem Byte) (mlen : Nat), m.length ≤ buf.length →
        cryptoSignOpen X i buf mlen (ofList (m ++ s)) (m.length + (params i).sigSize) (some (ofList pk))
          = some (0, ofList m ++ buf.drop m.length, m.length) := by
  obtain ⟨r, h1, -, -, h2, -⟩ := C03_codes i pk sk hpk hsk
  rw [hv] at h1
  obtain ⟨hg, rfl⟩ := h2.1 (Option.some.inj h1).symm
  have hsl := signature_length X i sk m ((rand 0 ((params i).lambda / 8)).2.take ((params i).lambda / 8))
  refine ⟨_, hsl, ?_, ?_⟩
  · unfold cryptoSign
    rw [rdN_ofList]
    show (wrN sm 0 m >>= _) = _
    rw [wrN_front (by omega)]
    have hd : (ofList m ++ sm.drop m.length).drop m.length = sm.drop m.length :=
      List.drop_left' (ofList_length m)
    show (ptr (ofList m ++ sm.drop m.length) m.length >>= _) = _
    rw [ptr_eq (by rw [List.length_append, ofList_length]; omega), hd]
    show (sign X i rand (some (ofList sk)) (ofList m ++ sm.drop m.length) m.length
      (some (sm.drop m.length)) (some (params i).sigSize) >>= _) = _
    rw [sign_rand X hsk (Nat.le_refl _) (by rw [List.length_drop]; omega) rdN_append hdel hg]
    show some ((0 : Int), (ofList m ++ sm.drop m.length).take m.length ++ _, m.length + (params i).sigSize) = _
    rw [List.take_left' (ofList_length m), List.drop_drop, List.drop_eq_nil_of_le (by omega), List.append_nil]
    unfold ofList
    rw [List.map_append]
  · intro buf mlen hb
    generalize hr : (rand 0 ((params i).lambda / 8)).2.take ((params i).lambda / 8) = rho at hsl
    have e : ofList (m ++ Spec.signature X i sk m rho) = ofList m ++ ofList (Spec.signature X i sk m rho) := by
      unfold ofList; rw [List.map_append]
    unfold cryptoSignOpen
    rw [if_neg (by omega), Nat.add_sub_cancel, e]
    dsimp only
    rw [      ptr_eq (by rw [List.length_append, ofList_length]; omega), List.drop_left' (ofList_length m)]
    obtain ⟨r, h3, -, h4⟩ := verify_list X (i := i) (rest := []) (pkOf_length hsk.ge)
      (rdN_append (l := m) (rest := ofList (Spec.signature X i sk m rho))) hsl
    rw [List.append_nil] at h3
    show (verify X i _ _ m.length (some (ofList (Spec.signature X i sk m rho))) _ >>= _) = _
    rw [h3, h4.2 (signature_valid X hsk hg)]
    show (rdN (ofList m ++ _) 0 m.length >>= _) = _
    rw [rdN_append]
    show (wrN buf 0 m >>= _) = _
    rw [wrN_front hb]
    rfl

example (X : XOF) (rand : Rand) (m : List Byte) (hdel : 16 ≤ (rand 0 16).2.length) :
    ∃ s : List Byte, s.length = 6336 ∧
      cryptoSign X .p128F rand (malloc (m.length + 6336)) (ofList m) m.length
        (some (ofList Concrete.sk)) = some (0, ofList (m ++ s), m.length + 6336) ∧
      ∀ (buf : Mem Byte) (mlen : Nat), m.length ≤ buf.length →
        cryptoSignOpen X .p128F buf mlen (ofList (m ++ s)) (m.length + 6336)
          (some (ofList Concrete.pk)) = some (0, ofList m ++ buf.drop m.length, m.length) :=
  C08_round_trip X .p128F rand _ _ m (malloc (m.length + 6336)) rfl rfl Concrete.kat_valid (malloc_length _) hdel

/-! ### C09 -/

/-- **C09.** Too short a string is rejected and nothing changes. -/
theorem C09_short (X : XOF) (i : ParamId) (buf sm : Mem Byte) (mlen smlen : Nat) (pk : Option (Mem Byte))
    (h : smlen < (params i).sigSize) : cryptoSignOpen X i buf mlen sm smlen pk = some (-1, buf, mlen) := by
  unfold cryptoSignOpen
  rw [if_pos h]

/-- **C09.** Otherwise let `k = smlen - SIGNATURE_SIZE`.  Either `verify` accepts the last `SIGNATURE_SIZE` bytes as
signature of the first `k` bytes, and `crypto_sign_open` returns 0 and releases exactly those `k` bytes; or `verify`
returns -1, and `crypto_sign_open` returns -1 and changes neither the buffer nor `*mlen`.  (`pk` may be NULL.) -/
theorem C09_fails_closed (X : XOF) (i : ParamId) (buf : Mem Byte) (sm : List Byte) (mlen : Nat)
    (pk : Option (List Byte)) (hpk : ∀ p, pk = some p → p.length = (params i).pkSize)
    (h : (params i).sigSize ≤ sm.length) (hb : sm.length - (params i).sigSize ≤ buf.length) :
    let k := sm.length - (params i).sigSize
    let v := verify X i (pk.map ofList) (ofList (sm.take k)) k (some (ofList (sm.drop k))) (params i).sigSize
    (v = some 0 ∧ cryptoSignOpen X i buf mlen (ofList sm) sm.length (pk.map ofList)
        = some (0, ofList (sm.take k) ++ buf.drop k, k)) ∨
    (v = some (-1) ∧ cryptoSignOpen X i buf mlen (ofList sm) sm.length (pk.map ofList)
        = some (-1, buf, mlen)) := by
  intro k v
  have hkl : (sm.take k).length = k := by rw [List.length_take]; omega
  have hdl : (sm.drop k).length = (params i).sigSize := by rw [List.length_drop]; omega
  have hopen : cryptoSignOpen X i buf mlen (ofList sm) sm.length (pk.map ofList)
      = (verify X i (pk.map ofList) (ofList sm) k (some (ofList (sm.drop k))) (params i).sigSize >>= fun r =>
        if r ≠ 0 then pure (-1, buf, mlen)
        else do
          let msg ← rdN (ofList sm) 0 k
          let m ← wrN buf 0 msg
          pure ((0 : Int), m, k)) := by
    unfold cryptoSignOpen
    rw [if_neg (by omega)]
    dsimp only
    rw [ptr_ofList sm (by omega)]
    rfl
  cases pk with
  | none => exact .inr ⟨rfl, by rw [hopen]; rfl⟩
  | some p =>
    have hm1 : rdN (ofList sm) 0 k = some (sm.take k) := by
      rw [rdN_ofList_le sm (by omega), List.drop_zero]
    have hm2 : rdN (ofList (sm.take k)) 0 k = some (sm.take k) := by
      have := rdN_ofList (sm.take k)
      rwa [hkl] at this
    obtain ⟨r, h1, h2, h3⟩ := verify_list X (i := i) (rest := []) (hpk p rfl) hm1 hdl
    obtain ⟨r', h1', h2', h3'⟩ := verify_list X (i := i) (rest := []) (hpk p rfl) hm2 hdl
    rw [List.append_nil] at h1 h1'
    have hrr : r = 0 ↔ r' = 0 := h3.trans h3'.symm
    have hv : v = some r' := h1'
    rw [hopen, hv]
    show (some r' = _ ∧ (verify X i (some (ofList p)) _ _ _ _ >>= _) = _) ∨
      (some r' = _ ∧ (verify X i (some (ofList p)) _ _ _ _ >>= _) = _)
    rw [h1]
    rcases h2' with rfl | rfl
    · left
      obtain rfl : r = 0 := hrr.2 rfl
      refine ⟨rfl, ?_⟩
      show (rdN (ofList sm) 0 k >>= _) = _
      rw [hm1]
      show (wrN buf 0 (sm.take k) >>= _) = _
      rw [wrN_front (by omega), hkl]
      rfl
    · right
      have hr : r ≠ 0 := fun h => absurd (hrr.1 h) (by decide)
      refine ⟨rfl, ?_⟩
      show (if r ≠ 0 then pure (-1, buf, mlen) else _) = _
      rw [if_pos hr]
      rfl

/-- A 7000-byte string for FAEST-128f meets the hypotheses: `crypto_sign_open` returns 0 or -1. -/
example (X : XOF) : ∃ r buf mlen, (r = 0 ∧ mlen = 664 ∨ r = -1 ∧ buf = malloc 700 ∧ mlen = 5) ∧
    cryptoSignOpen X .p128F (malloc 700) 5 (ofList (List.replicate 7000 1)) 7000 (some (ofList Concrete.pk))
      = some (r, buf, mlen) := by
  have := C09_fails_closed X .p128F (malloc 700) (List.replicate 7000 1) 5 (some Concrete.pk)
    (by rintro p ⟨⟩; rfl) (by rw [List.length_replicate]; decide) (by rw [List.length_replicate, malloc_length]; decide)
  rw [List.length_replicate] at this
  rcases this with ⟨-, h⟩ | ⟨-, h⟩
  · exact ⟨0, _, 664, .inl ⟨rfl, rfl⟩, h⟩
  · exact ⟨-1, _, 5, .inr ⟨rfl, rfl, rfl⟩, h⟩

/-! ### C27 -/

/-- **C27.** The comparison returns 0 exactly if the buffers agree on the first `n` bytes; the result fits an `int`,
and the sequence of memory accesses is `a[0], b[0], a[1], b[1], …`, whatever the contents. -/
theorem C27_bcmp (a b : List Byte) (n : Nat) (ha : n ≤ a.length) (hb : n ≤ b.length) :
    ∃ r, timingsafeBcmpT (ofList a) (ofList b) n
        = some (r, (List.range n).flatMap fun t => [(false, t), (true, t)]) ∧
      timingsafeBcmp (ofList a) (ofList b) n = some r ∧ r < 2 ^ 31 ∧ (r = 0 ↔ a.take n = b.take n) := by
  obtain ⟨r, h1, h2, h3⟩ := bcmpT_ok (has_ofList_le a ha) (has_ofList_le b hb)
  refine ⟨r, ?_, ?_, by omega, ?_⟩
  · rw [h1, List.flatMap_def]
    rfl
  · unfold timingsafeBcmp
    rw [h1]
    rfl
  · rw [h3]
    constructor
    · intro h
      refine List.ext_getElem? fun p => ?_
      rw [List.getElem?_take, List.getElem?_take]
      split
      · rename_i hp
        rw [byteFn_getElem? rfl (by omega), byteFn_getElem? rfl (by omega), h p hp]
      · rfl
    · intro h t ht
      have := congrArg (fun l : List Byte => l[t]?) h
      simp only [List.getElem?_take, if_pos ht] at this
      unfold byteFn
      rw [this]

example : timingsafeBcmpT (ofList [1, 2, 3]) (ofList [1, 7, 3]) 3
    = some (5, [(false, 0), (true, 0), (false, 1), (true, 1), (false, 2), (true, 2)]) := by decide

/-! ### C29 -/

/-- **C29.** `clear_private_key` overwrites exactly the first `PRIVATE_KEY_SIZE` cells with zeros. -/
theorem C29_clear (i : ParamId) (mem : Mem Byte) (h : (params i).skSize ≤ mem.length) :
    ∃ mem', clearPrivateKey i mem = some mem' ∧ mem'.length = mem.length ∧
      (∀ p, p < (params i).skSize → mem'[p]? = some (some 0)) ∧
      (∀ p, (params i).skSize ≤ p → mem'[p]? = mem[p]?) := by
  suffices hs : ∀ n, n ≤ mem.length →
      explicitBzero mem n = some (List.replicate n (some 0) ++ mem.drop n) by
    refine ⟨_, hs _ h, ?_, fun p hp => ?_, fun p hp => ?_⟩
    · rw [List.length_append, List.length_replicate, List.length_drop]; omega
    · rw [List.getElem?_append_left (by rw [List.length_replicate]; exact hp), List.getElem?_replicate, if_pos hp]
    · rw [List.getElem?_append_right (by rw [List.length_replicate]; exact hp), List.getElem?_drop,
        List.length_replicate]
      congr 1
      omega
  intro n hn
  unfold explicitBzero
  induction n with
  | zero => rfl
  | succ n ih =>
    rw [forN_succ, ih (by omega)]
    show wr _ n 0 = _
    unfold wr
    rw [if_pos (by rw [List.length_append, List.length_replicate, List.length_drop]; omega)]
    congr 1
    rw [List.set_append_right _ _ (by rw [List.length_replicate]), List.length_replicate, Nat.sub_self,
      ← List.getElem_cons_drop (h := (by omega : n < mem.length)), List.set_cons_zero, List.replicate_succ',
      List.append_assoc]
    rfl

example : ∃ mem', clearPrivateKey .p128S (ofList (List.replicate 40 7)) = some mem' ∧ mem'[31]? = some (some 0) ∧
    mem'[32]? = some (some 7) := by
  obtain ⟨mem', h1, -, h2, h3⟩ := C29_clear .p128S (ofList (List.replicate 40 7)) (by decide)
  exact ⟨mem', h1, h2 31 (by decide), by rw [h3 32 (by decide)]; decide⟩

/-! ### C31

The claim is false of the code: `keygen` and `sign` ignore the value returned by `rand_bytes`. -/

/-- **C31, negation (keygen).** With a source for which every call fails and stores nothing, keygen returns 0 and
"generates" whatever the caller's buffer held. -/
theorem C31_keygen_ignores_failure : ∃ (rand : Rand) (pk sk : Mem Byte) (fuel : Nat),
    (∀ k len, rand k len = (-1, [])) ∧
    keygen .p128F rand fuel (some pk) (some sk) = some (0, some (ofList Concrete.pk), some sk) := by
  refine ⟨fun _ _ => (-1, []), malloc 32, ofList Concrete.sk, 1, fun _ _ => rfl, ?_⟩
  obtain ⟨c, h1, h2, h3, -⟩ := keygenLoop_step (i := .p128F) (rand := fun _ _ => (-1, [])) (fuel := 0) (k := 0)
    (pk := malloc 32) (sk := ofList Concrete.sk) (s := Concrete.sk) rfl rfl rfl
  have h4 := keygen_finish (i := .p128F) (t := Concrete.sk) rfl h1 h2
  rw [Concrete.kat_owf.2] at h4
  show (keygenLoop .p128F _ 1 0 _ _ >>= _) = _
  rw [h3 Concrete.kat_good]
  exact h4

/-- **C31, negation (sign).** If the source fails without storing any byte, `sign` with an accepted key does not
return an error: it goes on to read the uninitialised array `rho` (undefined in the model), for every parameter set,
key, message and hash. -/
theorem C31_sign_reads_unset_memory (X : XOF) (i : ParamId) (rand : Rand) (sk m : List Byte) (sig : Mem Byte) (n : Nat)
    (hsk : sk.length = (params i).skSize) (hn : (params i).sigSize ≤ n) (hg : Spec.skGood i sk)
    (hfail : ∀ k len, rand k len = (-1, [])) :
    sign X i rand (some (ofList sk)) (ofList m) m.length (some sig) (some n) = none := by
  obtain ⟨ok, h1, h2⟩ := owf_sk (i := i) hsk.ge
  obtain rfl : ok = true := h2.2 hg
  have hlam : 0 < (params i).lambda / 8 := by cases i <;> decide
  have hhalf := params_half_pos i
  obtain ⟨c, hw, hcl, hc, -⟩ := wrN_ok (m := malloc ((params i).pkSize / 2)) (off := 0)
    (l := tabP ((params i).pkSize / 2) (Spec.owf i (byteFn (sk.drop ((params i).pkSize / 2))) (byteFn sk)))
    (by rw [malloc_length, tabP_length]; omega)
  have hrho : rhoBytes (some (malloc ((params i).lambda / 8))) ((params i).lambda / 8) = none := by
    show (if _ then rdN _ 0 _ else _) = _
    rw [if_pos (by omega)]
    unfold rdN
    rw [if_pos (by simp), List.drop_zero, List.take_of_length_le (by simp)]
    obtain ⟨q, hq⟩ : ∃ q, (params i).lambda / 8 = q + 1 := ⟨(params i).lambda / 8 - 1, by omega⟩
    rw [hq]
    rfl
  unfold sign
  dsimp only
  rw [if_neg (by omega), hfail]
  show (wrN (malloc ((params i).lambda / 8)) 0 (List.take _ []) >>= _) = _
  rw [List.take_nil, show wrN (malloc ((params i).lambda / 8)) 0 ([] : List Byte)
    = some (malloc ((params i).lambda / 8)) by simp [wrN]]
  show signWithRandomness X i (some (ofList sk)) (ofList m) m.length (some (malloc ((params i).lambda / 8)))
    ((params i).lambda / 8) (some sig) (some n) = none
  unfold signWithRandomness
  dsimp only
  rw [if_neg (by rintro (h | ⟨h, -⟩); omega; simp at h)]
  unfold half
  rw [ptr_ofList sk (sk_half_le hsk.ge)]
  show (owf i (ofList (sk.drop ((params i).pkSize / 2))) (ofList sk) >>= _) = _
  rw [h1]
  show (wrN (malloc ((params i).pkSize / 2)) 0 _ >>= _) = _
  rw [hw]
  show (faestSign X (params i) sig (ofList m) m.length _ (ofList sk) c _ _ >>= _) = _
  unfold faestSign
  dsimp only
  rw [rdN_has (has_sk_inp hsk.ge) hhalf]
  have hc' := hc.has
  rw [tabP_length] at hc'
  show ((rdN c 0 ((params i).pkSize / 2) >>= _) >>= _) = _
  rw [rdN_has hc' hhalf]
  show ((rdN (ofList m) 0 m.length >>= _) >>= _) = _
  rw [rdN_ofList]
  show ((rdN (ofList (sk.drop ((params i).pkSize / 2))) 0 ((params i).lambda / 8) >>= _) >>= _) = _
  rw [rdN_has (has_sk_key hsk.ge) hlam]
  show ((rhoBytes _ _ >>= _) >>= _) = _
  rw [hrho]
  rfl

/-- **C31, what is true.** `rand_bytes` itself (in the `getrandom` version) reports failures: if the kernel stores
as many bytes as it says, the result is 0 exactly if all `len` bytes were stored. -/
theorem C31_rand_bytes_partial (dst : Mem Byte) (len : Nat) (ret : Int) (bytes : List Byte) (hdst : dst.length = len)
    (hos : (ret < 0 ∧ bytes = []) ∨ (ret = bytes.length ∧ bytes.length ≤ len)) :
    ∃ r dst', randBytesGetrandom dst len ret bytes = some (r, dst') ∧ (r = 0 ∨ r = -1) ∧
      (r = 0 ↔ bytes.length = len ∧ 0 ≤ ret) ∧ (r = 0 → dst' = ofList bytes) := by
  have hl : bytes.length ≤ len := by rcases hos with ⟨-, rfl⟩ | ⟨-, h⟩ <;> simp_all
  unfold randBytesGetrandom
  rw [wrN_front (by omega)]
  refine ⟨_, _, rfl, ?_, ?_, ?_⟩
  · split <;> simp
  · split
    · rename_i h
      constructor
      · intro h'; exact absurd h' (by decide)
      · rintro ⟨h1, h2⟩
        rcases hos with ⟨h3, -⟩ | ⟨rfl, -⟩
        · omega
        · omega
    · rename_i h
      refine ⟨fun _ => ?_, fun _ => rfl⟩
      rcases hos with ⟨h3, -⟩ | ⟨rfl, -⟩
      · omega
      · omega
  · split
    · intro h; exact absurd h (by decide)
    · rename_i h
      intro _
      have : bytes.length = len := by
        rcases hos with ⟨h3, -⟩ | ⟨rfl, -⟩
        · omega
        · omega
      rw [List.drop_eq_nil_of_le (by omega), List.append_nil]

/-- The bytes delivered by the calls of `read`. -/
def delivered : List ReadEv → List Byte
  | [] => []
  | .data bs :: es => bs ++ delivered es
  | _ :: es => delivered es

theorem urandomLoop_ok : ∀ (evs : List ReadEv) (dst : Mem Byte) (off len : Nat) (r : Int) (dst' : Mem Byte),
    urandomLoop evs dst off len = some (r, dst') →
    (r = 0 ∨ r = -1) ∧ (r = 0 → HasL dst' off ((delivered evs).take len) ∧ len ≤ (delivered evs).length ∧
      dst'.length = dst.length ∧ ∀ p, p < off → rd dst' p = rd dst p) := by
  intro evs
  induction evs with
  | nil =>
    intro dst off len r dst' h
    cases len with
    | zero =>
      obtain ⟨rfl, rfl⟩ := Prod.mk.inj (Option.some.inj h)
      exact ⟨.inl rfl, fun _ => ⟨fun i hi => by simp [delivered] at hi, Nat.zero_le _, rfl, fun _ _ => rfl⟩⟩
    | succ len => exact absurd h (by simp [urandomLoop])
  | cons e es ih =>
    intro dst off len r dst' h
    cases len with
    | zero =>
      have h : some ((0 : Int), dst) = some (r, dst') := by
        cases e <;> exact h
      obtain ⟨rfl, rfl⟩ := Prod.mk.inj (Option.some.inj h)
      exact ⟨.inl rfl, fun _ => ⟨fun i hi => by simp at hi, Nat.zero_le _, rfl, fun _ _ => rfl⟩⟩
    | succ len =>
      cases e with
      | error =>
        obtain ⟨rfl, rfl⟩ := Prod.mk.inj (Option.some.inj h)
        exact ⟨.inr rfl, fun h => absurd h (by decide)⟩
      | again => exact ih dst off (len + 1) r dst' h
      | data bs =>
        rw [urandomLoop] at h
        by_cases hb : bs.length ≤ len + 1
        · rw [if_pos hb] at h
          cases hw : wrN dst off bs with
          | none => rw [hw] at h; exact absurd h (by simp)
          | some d =>
            rw [hw] at h
            have hle : off + bs.length ≤ dst.length := by
              by_contra hc
              unfold wrN at hw
              rw [if_neg hc] at hw
              simp at hw
            obtain ⟨d', hw', hd1, hd2, hd3⟩ := wrN_ok hle
            rw [hw] at hw'
            obtain rfl := Option.some.inj hw'
            obtain ⟨h1, h2⟩ := ih d (off + bs.length) (len + 1 - bs.length) r dst' h
            refine ⟨h1, fun h0 => ?_⟩
            obtain ⟨h3, h4, h5, h6⟩ := h2 h0
            refine ⟨?_, ?_, by omega, fun p hp => ?_⟩
            · have e : (delivered (.data bs :: es)).take (len + 1)
                  = bs ++ (delivered es).take (len + 1 - bs.length) := by
                show (bs ++ delivered es).take (len + 1) = _
                rw [List.take_append, List.take_of_length_le hb]
              rw [e]
              refine HasL.append (fun p hp => ?_) h3 rfl
              rw [h6 (off + p) (by omega)]
              exact hd2 p hp
            · show len + 1 ≤ (bs ++ delivered es).length
              rw [List.length_append]
              omega
            · rw [h6 p (by omega), hd3 p (by omega)]
        · rw [if_neg hb] at h
          exact absurd h (by simp)

/-- **C31, what is true.** In the `/dev/urandom` version, whatever the outcomes of the system calls on which the loop
stops, the result is 0 or -1, and 0 means that `open` and `ioctl` succeeded and `dst` holds the first `len` bytes delivered by the device. -/
theorem C31_urandom_partial (opened ready : Bool) (evs : List ReadEv) (dst : Mem Byte) (len : Nat)
    (hdst : dst.length = len) (r : Int) (dst' : Mem Byte)
    (h : randBytesUrandom opened ready evs dst len = some (r, dst')) :
    (r = 0 ∨ r = -1) ∧ (r = 0 → opened = true ∧ ready = true ∧ len ≤ (delivered evs).length ∧
      dst' = ofList ((delivered evs).take len)) := by
  unfold randBytesUrandom at h
  split at h
  · rename_i hor
    obtain ⟨ho, hr⟩ := Bool.and_eq_true_iff.1 hor
    obtain ⟨h1, h2⟩ := urandomLoop_ok evs dst 0 len r dst' h
    refine ⟨h1, fun h0 => ?_⟩
    obtain ⟨h3, h4, h5, -⟩ := h2 h0
    refine ⟨ho, hr, h4, mem_ext (by rw [ofList_length, List.length_take]; omega) fun p => ?_⟩
    rw [rd_ofList]
    by_cases hp : p < ((delivered evs).take len).length
    · have := h3 p hp
      rwa [Nat.zero_add] at this
    · rw [List.getElem?_eq_none (by omega), rd_eq_none_of_ge (by rw [List.length_take] at hp; omega)]
  · obtain ⟨rfl, rfl⟩ := Prod.mk.inj (Option.some.inj h)
    exact ⟨.inr rfl, fun h => absurd h (by decide)⟩

example : randBytesUrandom true true [.data [1, 2], .again, .data [3]] (malloc 3) 3 = some (0, ofList [1, 2, 3]) ∧
    randBytesUrandom true true [.data [1, 2], .error] (malloc 3) 3 = some (-1, [some 1, some 2, none]) ∧
    randBytesGetrandom (malloc 3) 3 2 [1, 2] = some (-1, [some 1, some 2, none]) := by decide

end Faest.Props
