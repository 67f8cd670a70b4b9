/-
Lemmas for tools/PQCgenKAT_sign.c: the program.
-/
import Verif.Proofs.KatGen

namespace Faest.KatGen
open Faest.Props
open Rng (Ecb Ctx)
open Spec (byteFn)
open Spec.Drbg (State generate instantiate)
open Spec.Kat (decimal hexadecimal stateAt seedAt msgAt keyState keyDraw mlen)

variable {E : Ecb} {i : ParamId}

/-! ### Keys and signatures -/

/-- A request which fills its buffer. -/
theorem rand_whole (hE : isEcb E) {s : State} (hs : drbgWf s) (hr : s.reseed < 2 ^ 31 - 1) {x : Mem Byte} {n : Nat} (hn : n < 2 ^ 31) (hx : x.length = n) :
    Rng.randBytes E (drbgImage s) x n = some (0, ofList (generate E s n).1, drbgImage (generate E s n).2) := by
  rw [C72_rand_bytes hE hs hr x hn hx.ge, List.drop_eq_nil_of_le hx.le, List.append_nil]

theorem keypairLoop_ok (hE : isEcb E) {st : Nat → State} (h0 : drbgWf (st 0)) (hr0 : (st 0).reseed = 1)
    (hst : ∀ k, st (k + 1) = (generate E (st k) (params i).skSize).2) (K : Nat) (hK : K < 2 ^ 31 - 10)
    (hg : Spec.skGood i (generate E (st K) (params i).skSize).1) (hb : ∀ k < K, ¬Spec.skGood i (generate E (st k) (params i).skSize).1) :
    (∀ k ≤ K + 1, drbgWf (st k) ∧ (st k).reseed = k + 1) ∧
    ∀ (fuel k : Nat) (pk sk : Mem Byte), k ≤ K → K < k + fuel → pk.length = (params i).pkSize → sk.length = (params i).skSize →
      ∃ pk', pk'.length = (params i).pkSize ∧
        HasL pk' ((params i).pkSize / 2) (tabP ((params i).pkSize / 2)
          (Spec.owf i (byteFn ((generate E (st K) (params i).skSize).1.drop ((params i).pkSize / 2))) (byteFn (generate E (st K) (params i).skSize).1))) ∧
        keypairLoop E i fuel (drbgImage (st k)) pk sk = some (pk', ofList (generate E (st K) (params i).skSize).1, drbgImage (st (K + 1))) := by
  have hsz : (params i).skSize < 2 ^ 31 := by cases i <;> decide
  have hwf : ∀ k ≤ K + 1, drbgWf (st k) ∧ (st k).reseed = k + 1 := by
    intro k
    induction k with
    | zero => intro _; exact ⟨h0, hr0⟩
    | succ k ih =>
      intro hk
      obtain ⟨h1, h2⟩ := ih (by omega)
      obtain ⟨-, -, h3⟩ := C72_randombytes hE h1 (by omega) (malloc (params i).skSize) hsz (by rw [malloc_length])
      rw [hst]
      exact ⟨h3, by rw [show (generate E (st k) (params i).skSize).2.reseed = (st k).reseed + 1 from rfl, h2]⟩
  refine ⟨hwf, ?_⟩
  intro fuel
  induction fuel with
  | zero => intro k pk sk h1 h2; omega
  | succ fuel ih =>
    intro k pk sk hkK hf hpk hsk
    obtain ⟨hw, hrs⟩ := hwf k (by omega)
    obtain ⟨-, hlen, -⟩ := C72_randombytes hE hw (by omega) (malloc (params i).skSize) hsz (by rw [malloc_length])
    have hrand := rand_whole hE hw (by omega) hsz hsk
    rw [← hst] at hrand
    generalize hs : (generate E (st k) (params i).skSize).1 = s at hrand hlen
    have hp2 := params_pk2 i
    obtain ⟨ok, h1, h2⟩ := owf_sk (i := i) hlen.ge
    obtain ⟨c, h3, h4, h5, -⟩ := wrN_ok (m := pk) (off := (params i).pkSize / 2)
      (l := tabP ((params i).pkSize / 2) (Spec.owf i (byteFn (s.drop ((params i).pkSize / 2))) (byteFn s)))
      (by rw [tabP_length]; omega)
    have key : keypairLoop E i (fuel + 1) (drbgImage (st k)) pk sk
        = if ok then some (c, ofList s, drbgImage (st (k + 1))) else keypairLoop E i fuel (drbgImage (st (k + 1))) c (ofList s) := by
      rw [keypairLoop, hrand]
      show (ptr (ofList s) (half (params i)) >>= _) = _
      unfold half
      rw [ptr_ofList s (sk_half_le hlen.ge)]
      show (owf i (ofList (s.drop ((params i).pkSize / 2))) (ofList s) >>= _) = _
      rw [h1]
      show (wrN pk ((params i).pkSize / 2) _ >>= _) = _
      rw [h3]
      rfl
    by_cases hkk : k = K
    · subst hkk
      rw [hs] at hg ⊢
      exact ⟨c, by omega, h5, by rw [key, if_pos (h2.2 hg)]⟩
    · have hbad : ¬Spec.skGood i s := by rw [← hs]; exact hb k (by omega)
      rw [key, if_neg fun h => hbad (h2.1 h)]
      exact ih (k + 1) c (ofList s) (by omega) (by omega) (by omega) (by rw [ofList_length, hlen])

theorem keypair_ok (hE : isEcb E) {st : Nat → State} (h0 : drbgWf (st 0)) (hr0 : (st 0).reseed = 1)
    (hst : ∀ k, st (k + 1) = (generate E (st k) (params i).skSize).2) {K kf : Nat} (hK : K < 2 ^ 31 - 10) (hkf : K < kf)
    (hg : Spec.skGood i (generate E (st K) (params i).skSize).1) (hb : ∀ k < K, ¬Spec.skGood i (generate E (st k) (params i).skSize).1)
    {pk sk : Mem Byte} (hpk : pk.length = (params i).pkSize) (hsk : sk.length = (params i).skSize) :
    keypair E i kf (drbgImage (st 0)) pk sk = some (0, ofList (Spec.pkOf i (generate E (st K) (params i).skSize).1),
      ofList (generate E (st K) (params i).skSize).1, drbgImage (st (K + 1))) ∧
    drbgWf (st (K + 1)) ∧ (st (K + 1)).reseed = K + 2 ∧ (generate E (st K) (params i).skSize).1.length = (params i).skSize := by
  have hsz : (params i).skSize < 2 ^ 31 := by cases i <;> decide
  obtain ⟨hwf, hl⟩ := keypairLoop_ok hE h0 hr0 hst K hK hg hb
  obtain ⟨hw, hrs⟩ := hwf K (by omega)
  obtain ⟨-, hlen, -⟩ := C72_randombytes hE hw (by omega) (malloc (params i).skSize) hsz (by rw [malloc_length])
  obtain ⟨pk', h1, h2, h3⟩ := hl kf 0 pk sk (by omega) (by omega) hpk hsk
  refine ⟨?_, (hwf (K + 1) le_rfl).1, (hwf (K + 1) le_rfl).2, hlen⟩
  have hfin := keygen_finish hlen h1 h2
  simp only [Option.bind_eq_bind, Option.bind_eq_some_iff, Option.pure_def, Option.some.injEq, Prod.mk.injEq, true_and, and_true] at hfin
  obtain ⟨inp, hi, p, hp, rfl⟩ := hfin
  unfold keypair
  rw [h3]
  simp only [Option.bind_eq_bind, Option.bind_some, hi, hp]
  rfl

theorem cryptoSign_exact (X : XOF) {rand : Rand} {sk m : List Byte} {sm : Mem Byte} (hsk : sk.length = (params i).skSize) (hg : Spec.skGood i sk)
    (hsm : sm.length = m.length + (params i).sigSize) (hdel : (params i).lambda / 8 ≤ (rand 0 ((params i).lambda / 8)).2.length) :
    cryptoSign X i rand sm (ofList m) m.length (some (ofList sk))
      = some (0, ofList (m ++ Spec.signature X i sk m ((rand 0 ((params i).lambda / 8)).2.take ((params i).lambda / 8))), m.length + (params i).sigSize) := by
  unfold cryptoSign
  rw [rdN_ofList]
  show (wrN sm 0 m >>= _) = _
  rw [wrN_front (by omega)]
  have hd : (ofList m ++ sm.drop m.length).drop m.length = sm.drop m.length :=
    List.drop_left' (ofList_length m)
  show (ptr (ofList m ++ sm.drop m.length) m.length >>= _) = _
  rw [ptr_eq (by rw [List.length_append, ofList_length]; omega), hd]
  show (sign X i rand (some (ofList sk)) (ofList m ++ sm.drop m.length) m.length
    (some (sm.drop m.length)) (some (params i).sigSize) >>= _) = _
  rw [sign_rand X hsk (Nat.le_refl _) (by rw [List.length_drop]; omega) rdN_append hdel hg]
  show some ((0 : Int), (ofList m ++ sm.drop m.length).take m.length ++ _, m.length + (params i).sigSize) = _
  rw [List.take_left' (ofList_length m), List.drop_drop, List.drop_eq_nil_of_le (by omega), List.append_nil]
  unfold ofList
  rw [List.map_append]

theorem open_exact (X : XOF) {sk m rho : List Byte} {buf : Mem Byte} {ml : Nat} (hsk : sk.length = (params i).skSize) (hg : Spec.skGood i sk)
    (hb : m.length ≤ buf.length) :
    cryptoSignOpen X i buf ml (ofList (m ++ Spec.signature X i sk m rho)) (m.length + (params i).sigSize) (some (ofList (Spec.pkOf i sk)))
      = some (0, ofList m ++ buf.drop m.length, m.length) := by
  have hsl := signature_length X i sk m rho
  have e : ofList (m ++ Spec.signature X i sk m rho) = ofList m ++ ofList (Spec.signature X i sk m rho) := by
    unfold ofList; rw [List.map_append]
  unfold cryptoSignOpen
  rw [if_neg (by omega), Nat.add_sub_cancel, e]
  dsimp only
  rw [ptr_eq (by rw [List.length_append, ofList_length]; omega), List.drop_left' (ofList_length m)]
  obtain ⟨r, h3, -, h4⟩ := verify_list X (i := i) (rest := []) (pkOf_length hsk.ge)
    (rdN_append (l := m) (rest := ofList (Spec.signature X i sk m rho))) hsl
  rw [List.append_nil] at h3
  show (verify X i _ _ m.length (some (ofList (Spec.signature X i sk m rho))) _ >>= _) = _
  rw [h3, h4.2 (signature_valid X hsk hg)]
  show (rdN (ofList m ++ _) 0 m.length >>= _) = _
  rw [rdN_append]
  show (wrN buf 0 m >>= _) = _
  rw [wrN_front hb]
  rfl

theorem csign_ok (hE : isEcb E) (X : XOF) {s : State} (hs : drbgWf s) (hr : s.reseed < 2 ^ 31 - 1) {sk m : List Byte} {sm : Mem Byte}
    (hsk : sk.length = (params i).skSize) (hg : Spec.skGood i sk) (hsm : sm.length = m.length + (params i).sigSize) :
    csign E X i (drbgImage s) sm (ofList m) m.length (ofList sk)
      = some (0, ofList (m ++ Spec.signature X i sk m (generate E s ((params i).lambda / 8)).1), m.length + (params i).sigSize,
          drbgImage (generate E s ((params i).lambda / 8)).2) ∧
    drbgWf (generate E s ((params i).lambda / 8)).2 := by
  have hsz : (params i).lambda / 8 < 2 ^ 31 := by cases i <;> decide
  obtain ⟨-, hlen, hw⟩ := C72_randombytes hE hs hr (malloc ((params i).lambda / 8)) hsz (by rw [malloc_length])
  refine ⟨?_, hw⟩
  unfold csign
  dsimp only
  rw [rand_whole hE hs hr hsz (malloc_length _)]
  simp only [Option.bind_eq_bind, Option.bind_some]
  rw [Rng.rdN_whole hlen, Option.bind_some, cryptoSign_exact X hsk hg hsm hlen.ge, Option.bind_some]
  dsimp only
  rw [List.take_of_length_le hlen.le]
  rfl

/-! ### The request file -/

theorem state_facts (hE : isEcb E) : ∀ j ≤ 100, drbgWf (stateAt E j) ∧ (stateAt E j).reseed = 2 * j + 1 := by
  intro j
  induction j with
  | zero =>
    intro _
    exact ⟨(C72_init hE Rng.start rfl rfl _ (by simp) none (by simp)).2, rfl⟩
  | succ j ih =>
    intro hj
    obtain ⟨h1, h2⟩ := ih (by omega)
    have hm : mlen j < 2 ^ 31 := by unfold mlen; omega
    obtain ⟨-, -, h3⟩ := C72_randombytes hE h1 (by omega) (malloc 48) (n := 48) (by decide) (by rw [malloc_length])
    have h4 : (generate E (stateAt E j) 48).2.reseed = 2 * j + 2 := by
      rw [show (generate E (stateAt E j) 48).2.reseed = (stateAt E j).reseed + 1 from rfl, h2]
    obtain ⟨-, -, h5⟩ := C72_randombytes hE h3 (by omega) (malloc (mlen j)) hm (by rw [malloc_length])
    refine ⟨h5, ?_⟩
    show (generate E (stateAt E j) 48).2.reseed + 1 = _
    rw [h4]
    omega

theorem rec_lengths (hE : isEcb E) {j : Nat} (hj : j < 100) : (seedAt E j).length = 48 ∧ (msgAt E j).length = mlen j := by
  obtain ⟨h1, h2⟩ := state_facts hE j (by omega)
  have hm : mlen j < 2 ^ 31 := by unfold mlen; omega
  obtain ⟨-, h0, h3⟩ := C72_randombytes hE h1 (by omega) (malloc 48) (n := 48) (by decide) (by rw [malloc_length])
  have h4 : (generate E (stateAt E j) 48).2.reseed = 2 * j + 2 := by
    rw [show (generate E (stateAt E j) 48).2.reseed = (stateAt E j).reseed + 1 from rfl, h2]
  obtain ⟨-, h5, -⟩ := C72_randombytes hE h3 (by omega) (malloc (mlen j)) hm (by rw [malloc_length])
  exact ⟨h0, h5⟩

/-- A record of the request file, in the pieces in which it is read. -/
theorem rec_text (j : Nat) (rest : Text) : Spec.Kat.reqRecord E j ++ rest
    = tCount ++ (dec j ++ '\n' :: (tSeed ++ ((seedAt E j).flatMap hex2 ++ '\n' :: (tMlen ++ (dec (mlen j) ++ '\n' ::
      (tMsg ++ ((msgAt E j).flatMap hex2 ++ '\n' :: (tEmpty ++ rest)))))))) := by
  rw [dec_eq, dec_eq, hex_eq, hex_eq]
  simp [Spec.Kat.reqRecord, Spec.Kat.common, Spec.Kat.line, Spec.Kat.blank, Spec.Kat.nCount, Spec.Kat.nSeed, Spec.Kat.nMlen, Spec.Kat.nMsg,
    Spec.Kat.nPk, Spec.Kat.nSk, Spec.Kat.nSmlen, Spec.Kat.nSm, tCount, tSeed, tMlen, tMsg, tEmpty, List.append_assoc]

theorem reqPass_ok (hE : isEcb E) {j : Nat} (hj : j < 100) {seed msg : Mem Byte} {req : Text} (hs : seed.length = 48) (hm : msg.length = 3300) :
    ∃ seed' msg', seed'.length = 48 ∧ msg'.length = 3300 ∧
      reqPass E j (drbgImage (stateAt E j), seed, msg, req) = some (drbgImage (stateAt E (j + 1)), seed', msg', req ++ Spec.Kat.reqRecord E j) := by
  obtain ⟨h1, h2⟩ := state_facts hE j (by omega)
  have hml : mlen j ≤ 3300 := by unfold mlen; omega
  obtain ⟨l1, l2⟩ := rec_lengths hE hj
  obtain ⟨e1, -, h3⟩ := C72_randombytes hE h1 (by omega) seed (n := 48) (by decide) (by omega)
  have h4 : (generate E (stateAt E j) 48).2.reseed = 2 * j + 2 := by
    rw [show (generate E (stateAt E j) 48).2.reseed = (stateAt E j).reseed + 1 from rfl, h2]
  obtain ⟨e2, -, -⟩ := C72_randombytes hE h3 (by omega) msg (n := mlen j) (by omega) (by omega)
  refine ⟨ofList (seedAt E j) ++ seed.drop 48, ofList (msgAt E j) ++ msg.drop (mlen j), ?_, ?_, ?_⟩
  rotate_left 2
  · unfold reqPass
    dsimp only
    rw [e1]
    simp only [Option.bind_eq_bind, Option.bind_some]
    rw [show (generate E (stateAt E j) 48).1 = seedAt E j from rfl, fprint_ok l1 (by decide), Option.bind_some]
    rw [show 33 * (j + 1) = mlen j from rfl, e2, Option.bind_some]
    dsimp only
    rw [show (generate E (generate E (stateAt E j) 48).2 (mlen j)).1 = msgAt E j from rfl, fprint_ok l2 (by unfold mlen; omega), Option.bind_some]
    rw [← List.append_nil (Spec.Kat.reqRecord E j), rec_text, ← hex_eq, ← hex_eq]
    simp only [List.append_assoc, List.cons_append, List.nil_append, List.append_nil]
    rfl
  · rw [List.length_append, ofList_length, l1, List.length_drop, hs]
  · rw [List.length_append, ofList_length, l2, List.length_drop, hm]; omega

theorem request_ok (hE : isEcb E) : ∃ seed, seed.length = 48 ∧
    request E = some (drbgImage (stateAt E 100), seed, Spec.Kat.requests E) := by
  have loop : ∀ n ≤ 100, ∃ seed msg, seed.length = 48 ∧ msg.length = 3300 ∧
      forN n (drbgImage (stateAt E 0), malloc 48, malloc 3300, []) (reqPass E)
        = some (drbgImage (stateAt E n), seed, msg, (List.range n).flatMap (Spec.Kat.reqRecord E)) := by
    intro n
    induction n with
    | zero => intro _; exact ⟨_, _, malloc_length _, malloc_length _, rfl⟩
    | succ n ih =>
      intro hn
      obtain ⟨seed, msg, h1, h2, h3⟩ := ih (by omega)
      obtain ⟨seed', msg', h4, h5, h6⟩ := reqPass_ok hE (j := n) (by omega) (req := (List.range n).flatMap (Spec.Kat.reqRecord E)) h1 h2
      refine ⟨seed', msg', h4, h5, ?_⟩
      unfold forN
      rw [h3, Option.bind_some, h6, List.range_succ, List.flatMap_append]
      simp
  obtain ⟨seed, msg, h1, -, h3⟩ := loop 100 le_rfl
  refine ⟨seed, h1, ?_⟩
  have he : forN 48 (malloc 48) (fun i e => wr e i (BitVec.ofNat 8 i)) = some (ofList ((List.range 48).map (BitVec.ofNat 8))) := by decide +kernel
  have hi := (C72_init hE Rng.start rfl rfl ((List.range 48).map (BitVec.ofNat 8)) (by simp) none (by simp)).1
  unfold request
  rw [he, Option.bind_eq_bind, Option.bind_some]
  rw [show (none : Option (Mem Byte)) = (none : Option (List Byte)).map ofList from rfl, hi, Option.bind_eq_bind, Option.bind_some]
  rw [show drbgImage (instantiate E ((List.range 48).map (BitVec.ofNat 8)) ((none : Option (List Byte)).getD Spec.Drbg.zeros)) = drbgImage (stateAt E 0) from rfl, h3]
  rfl

/-! ### The response file -/

theorem find_count {pre rest : Text} (h : pre = [] ∨ pre = tEmpty) : findMarker (pre ++ (tCount ++ rest)) tCount = (true, rest) := by
  rw [← List.append_assoc]
  rcases h with rfl | rfl
  · exact find_found (by decide) (by decide)
  · exact find_found (by decide) (by decide)

theorem find_end {pre : Text} (h : pre = [] ∨ pre = tEmpty) : findMarker pre tCount = (false, []) := by
  rcases h with rfl | rfl <;> rfl

theorem find_seed {rest : Text} : findMarker ('\n' :: (tSeed ++ rest)) tSeed = (true, rest) :=
  find_found (pre := ['\n']) (marker := tSeed) (rest := rest) (by decide) (by decide)

theorem find_mlen {rest : Text} : findMarker (tMlen ++ rest) tMlen = (true, rest) :=
  find_found (pre := []) (marker := tMlen) (rest := rest) (by decide) (by decide)

theorem find_msg {rest : Text} : findMarker ('\n' :: (tMsg ++ rest)) tMsg = (true, rest) :=
  find_found (pre := ['\n']) (marker := tMsg) (rest := rest) (by decide) (by decide)

theorem image_lengths {s : State} (h : drbgWf s) : (drbgImage s).key.length = 32 ∧ (drbgImage s).v.length = 16 :=
  ⟨by rw [← h.1]; exact ofList_length _, by show (ofList _).length = 16; rw [ofList_length]; unfold Spec.Drbg.toBytes; simp⟩

theorem sb {α β : Type} {a : α} {f : α → Option β} : (some a >>= f) = f a := rfl

/-- One pass through the loop. -/
theorem response_step (hE : isEcb E) (X : XOF) {j K kf fuel : Nat} (hj : j < 100) (hK : K < 2 ^ 31 - 10) (hkf : K < kf)
    (hg : Spec.skGood i (keyDraw E i j K)) (hb : ∀ k < K, ¬Spec.skGood i (keyDraw E i j k)) {pre rest rsp : Text} (hpre : pre = [] ∨ pre = tEmpty)
    {ctx : Ctx} (hck : ctx.key.length = 32) (hcv : ctx.v.length = 16) {seed pk sk : Mem Byte} (hs : seed.length = 48) (hpk : pk.length = (params i).pkSize)
    (hsk : sk.length = (params i).skSize) :
    ∃ (ctx' : Ctx) (seed' pk' sk' : Mem Byte), ctx'.key.length = 32 ∧ ctx'.v.length = 16 ∧ seed'.length = 48 ∧ pk'.length = (params i).pkSize ∧
      sk'.length = (params i).skSize ∧
      response E X i kf (fuel + 1) (pre ++ (Spec.Kat.reqRecord E j ++ rest)) rsp ctx seed pk sk
        = response E X i kf fuel (tEmpty ++ rest) (rsp ++ Spec.Kat.rspRecord E X i j K) ctx' seed' pk' sk' := by
  obtain ⟨l1, l2⟩ := rec_lengths hE hj
  have hm0 : 0 < mlen j := by unfold mlen; omega
  have hm1 : mlen j ≤ 3300 := by unfold mlen; omega
  have hp0 : 0 < (params i).pkSize := by cases i <;> decide
  have hs0 : 0 < (params i).skSize := by cases i <;> decide
  obtain ⟨hinit, hwf⟩ := C72_init hE ctx hck hcv (seedAt E j) l1 none (by simp)
  have h0 : drbgWf (keyState E i j 0) := hwf
  obtain ⟨hkp, hw1, hr1, lk⟩ := keypair_ok hE (i := i) (st := keyState E i j) h0 rfl (fun _ => rfl) hK hkf hg hb hpk hsk
  rw [show (generate E (keyState E i j K) (params i).skSize).1 = keyDraw E i j K from rfl] at hkp lk
  obtain ⟨hcs, hw2⟩ := csign_ok hE X (i := i) (s := keyState E i j (K + 1)) hw1 (by omega) (sk := keyDraw E i j K) (m := msgAt E j)
    (sm := calloc (mlen j + (params i).sigSize) 0) lk hg (by rw [l2]; exact List.length_replicate ..)
  have hop := open_exact X (i := i) (sk := keyDraw E i j K) (m := msgAt E j) (rho := (generate E (keyState E i j (K + 1)) ((params i).lambda / 8)).1)
    (buf := calloc (mlen j + (params i).sigSize) 0) (ml := 0) lk hg (by rw [l2]; show _ ≤ (List.replicate _ _).length; rw [List.length_replicate]; omega)
  rw [l2] at hcs hop
  have lp : (Spec.pkOf i (keyDraw E i j K)).length = (params i).pkSize := pkOf_length lk.ge
  have lsg : (Spec.Kat.signed E X i j K).length = mlen j + (params i).sigSize := by
    unfold Spec.Kat.signed
    rw [List.length_append, l2, signature_length]
  rw [show msgAt E j ++ Spec.signature X i (keyDraw E i j K) (msgAt E j) (generate E (keyState E i j (K + 1)) ((params i).lambda / 8)).1
    = Spec.Kat.signed E X i j K from rfl] at hcs hop
  obtain ⟨c1, c2⟩ := image_lengths hw2
  refine ⟨drbgImage (generate E (keyState E i j (K + 1)) ((params i).lambda / 8)).2, ofList (seedAt E j), ofList (Spec.pkOf i (keyDraw E i j K)),
    ofList (keyDraw E i j K), c1, c2, by rw [ofList_length, l1], by rw [ofList_length, lp], by rw [ofList_length, lk], ?_⟩
  rw [response, rec_text]
  dsimp only
  rw [find_count hpre]
  dsimp only
  rw [if_pos rfl, scan_dec (by omega), sb]
  dsimp only
  rw [readHex_ok l1 (by decide) hs find_seed, sb]
  dsimp only
  rw [if_pos rfl, fprint_whole l1 (by decide), sb]
  rw [show (none : Option (Mem Byte)) = (none : Option (List Byte)).map ofList from rfl, hinit, sb, find_mlen]
  dsimp only
  rw [if_pos rfl, scan_dec (by omega), sb]
  dsimp only
  rw [readHex_ok (A := calloc (mlen j) 0) l2 hm0 (List.length_replicate ..) find_msg, sb]
  dsimp only
  rw [if_pos rfl, fprint_whole l2 hm0, sb]
  rw [show instantiate E (seedAt E j) ((none : Option (List Byte)).getD Spec.Drbg.zeros) = keyState E i j 0 from rfl, hkp, sb]
  dsimp only
  rw [if_neg (by simp), fprint_whole lp hp0, sb, fprint_whole lk hs0, sb, hcs, sb]
  dsimp only
  rw [if_neg (by simp), fprint_whole lsg (by omega), sb, hop, sb]
  dsimp only
  rw [if_neg (by simp), if_neg (by simp), Rng.rdN_whole l2, sb, ← l2, rdN_append, sb, if_neg (by simp), l2]
  congr 1
  rw [dec_eq, dec_eq, dec_eq]
  simp [Spec.Kat.rspRecord, Spec.Kat.common, Spec.Kat.line, Spec.Kat.nCount, Spec.Kat.nSeed, Spec.Kat.nMlen, Spec.Kat.nMsg,
    Spec.Kat.nPk, Spec.Kat.nSk, Spec.Kat.nSmlen, Spec.Kat.nSm, tCount, tSeed, tMlen, tMsg, tPk, tSk, tSmlen, tSm, List.append_assoc]

theorem response_ok (hE : isEcb E) (X : XOF) {kf : Nat} {K : Nat → Nat} (hK : ∀ j < 100, K j < 2 ^ 31 - 10 ∧ K j < kf ∧ Spec.skGood i (keyDraw E i j (K j)) ∧
      ∀ k < K j, ¬Spec.skGood i (keyDraw E i j k)) : ∀ (r j fuel : Nat) (pre rsp : Text) (ctx : Ctx) (seed pk sk : Mem Byte),
    j + r = 100 → r < fuel → (pre = [] ∨ pre = tEmpty) → ctx.key.length = 32 → ctx.v.length = 16 → seed.length = 48 → pk.length = (params i).pkSize →
    sk.length = (params i).skSize →
    response E X i kf fuel (pre ++ (List.range' j r).flatMap (Spec.Kat.reqRecord E)) rsp ctx seed pk sk
      = some (0, rsp ++ (List.range' j r).flatMap fun j => Spec.Kat.rspRecord E X i j (K j)) := by
  intro r
  induction r with
  | zero =>
    intro j fuel pre rsp ctx seed pk sk hj hf hpre h1 h2 h3 h4 h5
    obtain ⟨fuel, rfl⟩ := Nat.exists_eq_succ_of_ne_zero (n := fuel) (by omega)
    rw [List.range'_zero, List.flatMap_nil, List.flatMap_nil, List.append_nil, List.append_nil, Nat.succ_eq_add_one, response]
    dsimp only
    rw [find_end hpre]
    rfl
  | succ r ih =>
    intro j fuel pre rsp ctx seed pk sk hj hf hpre h1 h2 h3 h4 h5
    obtain ⟨fuel, rfl⟩ := Nat.exists_eq_succ_of_ne_zero (n := fuel) (by omega)
    obtain ⟨a, b, c, d⟩ := hK j (by omega)
    rw [List.range'_succ, List.flatMap_cons, List.flatMap_cons, Nat.succ_eq_add_one]
    obtain ⟨ctx', seed', pk', sk', q1, q2, q3, q4, q5, e⟩ := response_step hE X (i := i) (fuel := fuel) (rest := (List.range' (j + 1) r).flatMap (Spec.Kat.reqRecord E))
      (rsp := rsp) (by omega) a b c d hpre h1 h2 h3 h4 h5
    rw [e, ih (j + 1) fuel tEmpty _ ctx' seed' pk' sk' (by omega) (by omega) (Or.inr rfl) q1 q2 q3 q4 q5, List.append_assoc]

end Faest.KatGen
