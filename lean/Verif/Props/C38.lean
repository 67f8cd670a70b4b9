/-
C38: signing and verification compute what the specification of the scheme (Spec/Scheme.lean, Spec/Api.lean) says.
C42: crypto_sign and crypto_sign_open work in place.
-/
import Verif.Model.ApiOverlap
import Verif.Props.C02

namespace Faest.Props
open Spec (byteFn)

/-! ### C38 -/

/-- **C38, signing.** For every accepted secret key, message, randomness and buffer which is large enough,
`sign_with_randomness` writes exactly the signature of the specification and nothing behind it. -/
theorem C38_sign (X : XOF) (i : ParamId) (sk m : List Byte) (rho : Option (List Byte)) (buf : Mem Byte) (n : Nat)
    (hsk : sk.length = (params i).skSize) (hg : Spec.skGood i sk) (hn : (params i).sigSize ≤ n) (hb : n ≤ buf.length) :
    signWithRandomness X i (some (ofList sk)) (ofList m) m.length (rho.map ofList) (rho.getD []).length
        (some buf) (some n)
      = some ⟨0, some (ofList (Spec.signature X i sk m (rho.getD [])) ++ buf.drop (params i).sigSize),
          some (params i).sigSize⟩ :=
  sign_ok' X hsk hn hb (rdN_ofList m) (rhoBytes_ofList rho) (rhoNull rho) hg

/-- **C38, verification.** For every public key, message and string of the length of a signature, `verify` returns
0 if the string is a valid signature according to the specification and -1 otherwise. -/
theorem C38_verify (X : XOF) (i : ParamId) (pk m sg : List Byte) (hpk : pk.length = (params i).pkSize)
    (hs : sg.length = (params i).sigSize) :
    (Spec.ValidSig X i pk m sg →
      verify X i (some (ofList pk)) (ofList m) m.length (some (ofList sg)) (params i).sigSize = some 0) ∧
    (¬Spec.ValidSig X i pk m sg →
      verify X i (some (ofList pk)) (ofList m) m.length (some (ofList sg)) (params i).sigSize = some (-1)) := by
  obtain ⟨r, h1, h2, h3⟩ := verify_list X (i := i) (rest := []) hpk (rdN_ofList m) hs
  rw [List.append_nil] at h1
  refine ⟨fun hv => by rw [h1, h3.2 hv], fun hv => ?_⟩
  rcases h2 with h | h
  · exact absurd (h3.1 h) hv
  · rw [h1, h]

/-- **C38, public keys.** Key generation writes the public key of the specification. -/
theorem C38_public_key (i : ParamId) (sk : List Byte) (rand : Rand) (fuel : Nat) (pkb skb : Mem Byte)
    (hsk : sk.length = (params i).skSize) (hpb : pkb.length = (params i).pkSize) (hsb : skb.length = (params i).skSize)
    (hr : ∀ k, (rand k (params i).skSize).2 = sk) (hg : Spec.skGood i sk) (hf : 0 < fuel) :
    keygen i rand fuel (some pkb) (some skb) = some (0, some (ofList (Spec.pkOf i sk)), some (ofList sk)) := by
  have hd : ∀ k, draw i rand k = sk := fun k => by unfold draw; rw [hr, ← hsk, List.take_length]
  have := C02_first_accepted i rand fuel 0 pkb skb hpb hsb (fun k => by rw [hr]; omega) (by rw [hd]; exact hg)
    (fun j hj => absurd hj (by omega)) hf
  rw [this, hd]

/-- The known-answer key of FAEST-128f: the signature written by `sign_with_randomness` is that of the specification,
it is valid, and `verify` accepts it. -/
example (X : XOF) (m rho : List Byte) :
    signWithRandomness X .p128F (some (ofList Concrete.sk)) (ofList m) m.length (some (ofList rho)) rho.length
        (some (malloc 6336)) (some 6336)
      = some ⟨0, some (ofList (Spec.signature X .p128F Concrete.sk m rho) ++ (malloc 6336).drop 6336), some 6336⟩ ∧
    verify X .p128F (some (ofList (Spec.pkOf .p128F Concrete.sk))) (ofList m) m.length
      (some (ofList (Spec.signature X .p128F Concrete.sk m rho))) 6336 = some 0 :=
  ⟨C38_sign X .p128F Concrete.sk m (some rho) (malloc 6336) 6336 rfl Concrete.kat_good (Nat.le_refl _)
      (by rw [malloc_length]),
    (C38_verify X .p128F _ m _ (pkOf_length (by decide)) (signature_length X .p128F Concrete.sk m rho)).1
      (signature_valid X rfl Concrete.kat_good)⟩

/-! ### C42 -/

theorem mapM_id_iff {c : List (Option Byte)} {l : List Byte} : c.mapM id = some l ↔ c = ofList l := by
  induction c generalizing l with
  | nil => cases l <;> simp [ofList]
  | cons a c ih =>
    rw [List.mapM_cons]
    cases a with
    | none => cases l <;> simp [ofList]
    | some a =>
      cases hc : c.mapM id with
      | none =>
        cases l with
        | nil => simp [ofList]
        | cons b l =>
          have : c ≠ ofList l := fun h => by rw [ih.2 h] at hc; exact absurd hc (by simp)
          simp [ofList] at this ⊢
          exact fun _ => this
      | some t =>
        have ht := ih.1 hc
        cases l with
        | nil => simp [ofList]
        | cons b l =>
          rw [ht]
          simp only [ofList, id_eq, Option.bind_eq_bind, Option.bind_some, Option.pure_def, Option.some.injEq,
            List.cons.injEq, List.map_cons]
          refine and_congr_right fun _ => ?_
          rw [List.map_inj_right fun _ _ h => Option.some.inj h]

theorem rdN_iff {m : Mem Byte} {off n : Nat} {l : List Byte} (h : off + n ≤ m.length) :
    rdN m off n = some l ↔ (m.drop off).take n = ofList l := by
  unfold rdN
  rw [if_pos h, mapM_id_iff]

theorem ofList_take (l : List Byte) (k : Nat) : (ofList l).take k = ofList (l.take k) := by
  unfold ofList; rw [List.map_take]

theorem rdN_drop_wr {buf : Mem Byte} {sm : Nat} {l : List Byte} (h : sm + l.length ≤ buf.length) :
    (buf.take sm ++ ofList l ++ buf.drop (sm + l.length)).drop sm = ofList l ++ buf.drop (sm + l.length) := by
  rw [List.append_assoc, List.drop_left' (by rw [List.length_take]; omega)]

/-- **C42, signing.** Message (at offset `m`) and signed message (at offset `sm`) lie in the same object, at any
distance.  The part of the object at `sm` is message and signature of the specification, as for separate objects;
nothing outside changes. -/
theorem C42_sign (X : XOF) (i : ParamId) (rand : Rand) (sk msg : List Byte) (buf : Mem Byte) (sm m : Nat)
    (hsk : sk.length = (params i).skSize) (hg : Spec.skGood i sk) (hm : rdN buf m msg.length = some msg)
    (hb : sm + msg.length + (params i).sigSize ≤ buf.length)
    (hdel : (params i).lambda / 8 ≤ (rand 0 ((params i).lambda / 8)).2.length) :
    let r := (rand 0 ((params i).lambda / 8)).2.take ((params i).lambda / 8)
    cryptoSignIn X i rand buf sm m msg.length (some (ofList sk))
      = some (0, buf.take sm ++ ofList (msg ++ Spec.signature X i sk msg r)
          ++ buf.drop (sm + msg.length + (params i).sigSize), msg.length + (params i).sigSize) := by
  intro r
  have hw : memmove buf sm m msg.length
      = some (buf.take sm ++ ofList msg ++ buf.drop (sm + msg.length)) := by
    unfold memmove
    rw [hm]
    show wrN buf sm msg = _
    unfold wrN
    rw [if_pos (by omega)]
    rfl
  have htl : (buf.take sm ++ ofList msg).length = sm + msg.length := by
    rw [List.length_append, List.length_take, ofList_length]; omega
  unfold cryptoSignIn
  dsimp only
  rw [hw]
  show (ptr (buf.take sm ++ ofList msg ++ buf.drop (sm + msg.length)) sm >>= _) = _
  rw [ptr_eq (by rw [List.length_append, htl]; omega), rdN_drop_wr (by omega)]
  show (ptr (buf.take sm ++ ofList msg ++ buf.drop (sm + msg.length)) (sm + msg.length) >>= _) = _
  rw [ptr_eq (by rw [List.length_append, htl]; omega), List.drop_left' htl]
  show (sign X i rand (some (ofList sk)) (ofList msg ++ buf.drop (sm + msg.length)) msg.length
    (some (buf.drop (sm + msg.length))) (some (params i).sigSize) >>= _) = _
  rw [sign_rand X hsk (Nat.le_refl _) (by rw [List.length_drop]; omega) rdN_append hdel hg]
  show some ((0 : Int), (buf.take sm ++ ofList msg ++ buf.drop (sm + msg.length)).take (sm + msg.length) ++ _,
    msg.length + (params i).sigSize) = _
  rw [List.take_left' htl, List.drop_drop]
  unfold ofList
  rw [List.map_append]
  simp only [List.append_assoc]
  rfl

/-- **C42, opening.** The signed message `s` lies at offset `sm`, the message buffer begins at offset `m` of the same
object.  If the end of `s` is a valid signature of its beginning, the beginning is moved to `m`, whatever the
distance, and nothing else changes; otherwise the result is -1 and nothing changes at all. -/
theorem C42_open (X : XOF) (i : ParamId) (pk s : List Byte) (buf : Mem Byte) (m mlen sm : Nat)
    (hpk : pk.length = (params i).pkSize) (hs : rdN buf sm s.length = some s) (hl : (params i).sigSize ≤ s.length)
    (hb : m + (s.length - (params i).sigSize) ≤ buf.length) :
    let k := s.length - (params i).sigSize
    (Spec.ValidSig X i pk (s.take k) (s.drop k) →
      cryptoSignOpenIn X i buf m mlen sm s.length (some (ofList pk))
        = some (0, buf.take m ++ ofList (s.take k) ++ buf.drop (m + k), k)) ∧
    (¬Spec.ValidSig X i pk (s.take k) (s.drop k) →
      cryptoSignOpenIn X i buf m mlen sm s.length (some (ofList pk)) = some (-1, buf, mlen)) := by
  intro k
  have hkl : (s.take k).length = k := by rw [List.length_take]; omega
  have hdl : (s.drop k).length = (params i).sigSize := by rw [List.length_drop]; omega
  have hlen : sm + s.length ≤ buf.length := by
    by_contra hc
    unfold rdN at hs
    rw [if_neg hc] at hs
    exact absurd hs (by simp)
  have hcells : (buf.drop sm).take s.length = ofList s := (rdN_iff hlen).1 hs
  have hsplit : buf.drop sm = ofList s ++ buf.drop (sm + s.length) := by
    rw [← hcells, ← List.drop_drop, List.take_append_drop]
  have hkt : (buf.drop sm).take k = ofList (s.take k) := by
    rw [← ofList_take, ← hcells, List.take_take, Nat.min_eq_left (by omega)]
  have hk1 : rdN (buf.drop sm) 0 k = some (s.take k) := by
    rw [rdN_iff (by rw [List.length_drop]; omega), List.drop_zero, hkt]
  have hk2 : rdN buf sm k = some (s.take k) := (rdN_iff (by omega)).2 hkt
  have hsg : buf.drop (sm + k) = ofList (s.drop k) ++ buf.drop (sm + s.length) := by
    rw [← List.drop_drop, hsplit, List.drop_append_of_le_length (by rw [ofList_length]; omega), ofList_drop]
  obtain ⟨r, h1, h2, h3⟩ := verify_list X (i := i) (rest := buf.drop (sm + s.length)) hpk hk1 hdl
  have hopen : cryptoSignOpenIn X i buf m mlen sm s.length (some (ofList pk))
      = if r ≠ 0 then some (-1, buf, mlen)
        else (memmove buf m sm k).bind fun b => some (0, b, k) := by
    unfold cryptoSignOpenIn
    rw [if_neg (by omega)]
    dsimp only
    rw [ptr_eq (by omega)]
    show (ptr buf (sm + k) >>= _) = _
    rw [ptr_eq (by omega), hsg]
    show (verify X i (some (ofList pk)) (buf.drop sm) k _ _ >>= _) = _
    rw [h1]
    rfl
  rw [hopen]
  refine ⟨fun hv => ?_, fun hv => ?_⟩
  · rw [h3.2 hv, if_neg (by simp)]
    unfold memmove
    rw [hk2]
    show (wrN buf m (s.take k)).bind _ = _
    unfold wrN
    rw [if_pos (by omega), hkl]
    rfl
  · rw [if_pos fun h => hv (h3.1 h)]

/-- **C42.** A string too short for a signature is rejected. -/
theorem C42_open_short (X : XOF) (i : ParamId) (buf : Mem Byte) (m mlen sm smlen : Nat) (pk : Option (Mem Byte))
    (h : smlen < (params i).sigSize) : cryptoSignOpenIn X i buf m mlen sm smlen pk = some (-1, buf, mlen) := by
  unfold cryptoSignOpenIn
  rw [if_pos h]

/-- **C42, round trip in place.** Signing at any overlap and opening the result at any overlap gives back the
message. -/
theorem C42_round_trip (X : XOF) (i : ParamId) (rand : Rand) (sk msg : List Byte) (buf : Mem Byte) (sm m d mlen : Nat)
    (hsk : sk.length = (params i).skSize) (hg : Spec.skGood i sk) (hm : rdN buf m msg.length = some msg)
    (hb : sm + msg.length + (params i).sigSize ≤ buf.length) (hd : d + msg.length ≤ buf.length)
    (hdel : (params i).lambda / 8 ≤ (rand 0 ((params i).lambda / 8)).2.length) :
    ∃ b b', cryptoSignIn X i rand buf sm m msg.length (some (ofList sk))
        = some (0, b, msg.length + (params i).sigSize) ∧
      cryptoSignOpenIn X i b d mlen sm (msg.length + (params i).sigSize) (some (ofList (Spec.pkOf i sk)))
        = some (0, b', msg.length) ∧
      b'.length = buf.length ∧ rdN b' d msg.length = some msg := by
  have h1 := C42_sign X i rand sk msg buf sm m hsk hg hm hb hdel
  generalize hr : (rand 0 ((params i).lambda / 8)).2.take ((params i).lambda / 8) = r at h1
  have hsl := signature_length X i sk msg r
  have hl : (msg ++ Spec.signature X i sk msg r).length = msg.length + (params i).sigSize := by
    rw [List.length_append, hsl]
  have hbl : (buf.take sm ++ ofList (msg ++ Spec.signature X i sk msg r)
      ++ buf.drop (sm + msg.length + (params i).sigSize)).length = buf.length := by
    rw [List.length_append, List.length_append, ofList_length, hl, List.length_take, List.length_drop]; omega
  have hrd : rdN (buf.take sm ++ ofList (msg ++ Spec.signature X i sk msg r)
      ++ buf.drop (sm + msg.length + (params i).sigSize)) sm (msg ++ Spec.signature X i sk msg r).length
      = some (msg ++ Spec.signature X i sk msg r) := by
    rw [rdN_iff (by omega), List.append_assoc, List.drop_left' (by rw [List.length_take]; omega),
      List.take_left' (ofList_length _)]
  have h2 := (C42_open X i (Spec.pkOf i sk) (msg ++ Spec.signature X i sk msg r) _ d mlen sm (pkOf_length hsk.ge) hrd
    (by omega) (by omega)).1
  rw [hl, Nat.add_sub_cancel, List.take_left' rfl, List.drop_left' rfl] at h2
  refine ⟨_, _, h1, h2 (signature_valid X hsk hg), ?_, ?_⟩
  · rw [List.length_append, List.length_append, ofList_length, List.length_take, List.length_drop]; omega
  · rw [rdN_iff (by rw [List.length_append, List.length_append, ofList_length, List.length_take, List.length_drop]; omega),
      List.append_assoc, List.drop_left' (by rw [List.length_take]; omega), List.take_left' (ofList_length _)]

/-- Signing in place with the buffers overlapping by all but one byte, and opening to a third place. -/
example (X : XOF) (rand : Rand) (hdel : 16 ≤ (rand 0 16).2.length) (buf : Mem Byte)
    (h : buf = ofList [1, 2, 3] ++ malloc 7000) :
    ∃ b b', cryptoSignIn X .p128F rand buf 1 0 3 (some (ofList Concrete.sk)) = some (0, b, 3 + 6336) ∧
      cryptoSignOpenIn X .p128F b 2 0 1 (3 + 6336) (some (ofList (Spec.pkOf .p128F Concrete.sk)))
        = some (0, b', 3) ∧
      b'.length = buf.length ∧ rdN b' 2 3 = some [1, 2, 3] := by
  have hl : buf.length = 7003 := by rw [h, List.length_append, malloc_length]; rfl
  have hm : rdN buf 0 [(1 : Byte), 2, 3].length = some [1, 2, 3] := by rw [h]; exact rdN_append
  exact C42_round_trip X .p128F rand Concrete.sk [1, 2, 3] buf 1 0 2 0 rfl Concrete.kat_good hm
    (by rw [hl]; decide) (by rw [hl]; decide) hdel

end Faest.Props
