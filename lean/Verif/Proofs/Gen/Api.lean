/-
The translated faest_param.c.in, crypto_sign.c.in and compat.c.
-/
import Verif.Proofs.Gen.FaestSign
import Verif.Proofs.Gen.FaestVerify
import Verif.Proofs.Gen.Owf
import Verif.Model.GenApi
import Verif.Props.C50

set_option linter.unusedVariables false

namespace Faest.C
open Spec (byteFn)

/-! ### The text of the functions with the parameter set as a variable -/

/-- owf.h:25-37: the macros. -/
def gOwf (i : ParamId) : CPtr → CPtr → CPtr → CM Bool :=
  match i with
  | .p128S | .p128F => Gen.owf_128
  | .p192S | .p192F => Gen.owf_192
  | .p256S | .p256F => Gen.owf_256
  | .pEM128S | .pEM128F => Gen.owf_em_128
  | .pEM192S | .pEM192F => Gen.owf_em_192
  | .pEM256S | .pEM256F => Gen.owf_em_256

def gKeygenBody (i : ParamId) (R pk sk : CPtr) (_ : Bool) : CM Bool := do
  let _ ← rand_bytes R sk (params i).skSize
  let e ← gOwf i (padd sk ((params i).pkSize / 2)) sk (padd pk ((params i).pkSize / 2))
  let done : Bool := e
  pure done

def gKeygen (i : ParamId) (R pk sk : CPtr) : CM Nat := do
  if (¬ (pk.isSome = true)) ∨ (¬ (sk.isSome = true)) then (do
    pure 4294967295)
  else (do
    let _ ← cwhile (fun s => decide (¬ (s = true))) (gKeygenBody i R pk sk) false
    memcpy (α := Byte) pk sk ((params i).pkSize / 2)
    pure 0)

def gValidate (i : ParamId) (pk sk : CPtr) : CM Nat := do
  if (¬ (sk.isSome = true)) ∨ (¬ (pk.isSome = true)) then (do
    pure 4294967295)
  else (do
    let pk_check ← alloc .stack (malloc (params i).pkSize : Mem Byte)
    let e1 ← gOwf i (padd sk ((params i).pkSize / 2)) sk (padd pk_check ((params i).pkSize / 2))
    if (¬ (e1 = true)) then (do
      cfree .stack pk_check
      pure 1)
    else (do
      memcpy (α := Byte) pk_check sk ((params i).pkSize / 2)
      let e2 ← Gen.faest_timingsafe_bcmp pk_check pk (params i).pkSize
      cfree .stack pk_check
      pure (if e2 = 0 then 0 else 2)))

def gLenBad (i : ParamId) (sk sig siglen : CPtr) : CM Bool :=
  if ((¬ (sk.isSome = true)) ∨ (¬ (sig.isSome = true))) ∨ (¬ (siglen.isSome = true)) then pure true
    else (do
      let e1 : Nat ← ld siglen 0
      pure (decide (e1 < (params i).sigSize)))

def gSwr (i : ParamId) (I : HImpl) (sk msg : CPtr) (len : Nat) (rho : CPtr) (rholen : Nat) (sig siglen : CPtr) : CM Nat := do
  let e2 : Bool ← gLenBad i sk sig siglen
  if (e2 = true) ∨ ((¬ (rho.isSome = true)) ∧ (rholen ≠ 0)) then (do
    pure 4294967295)
  else (do
    let owf_output ← alloc .stack (malloc ((params i).pkSize / 2) : Mem Byte)
    let e3 ← gOwf i (padd sk ((params i).pkSize / 2)) sk owf_output
    if (¬ (e3 = true)) then (do
      cfree .stack owf_output
      pure 4294967295)
    else (do
      Gen.faest_sign I sig msg len (padd sk ((params i).pkSize / 2)) sk owf_output rho rholen (params i)
      st siglen 0 (params i).sigSize
      cfree .stack owf_output
      pure 0))

def gSign (i : ParamId) (I : HImpl) (R sk msg : CPtr) (len : Nat) (sig siglen : CPtr) : CM Nat := do
  let e2 : Bool ← gLenBad i sk sig siglen
  if e2 = true then (do
    pure 4294967295)
  else (do
    let rho ← alloc .stack (malloc ((params i).lambda / 8) : Mem Byte)
    let _ ← rand_bytes R rho ((params i).lambda / 8)
    let e4 ← gSwr i I sk msg len rho ((params i).lambda / 8) sig siglen
    cfree .stack rho
    pure e4)

def gVerify (i : ParamId) (I : HImpl) (pk msg : CPtr) (len : Nat) (sig : CPtr) (siglen : Nat) : CM Nat := do
  if ((¬ (pk.isSome = true)) ∨ (¬ (sig.isSome = true))) ∨ (siglen ≠ (params i).sigSize) then (do
    pure 4294967295)
  else (do
    let e1 ← Gen.faest_verify I msg len sig pk (padd pk ((params i).pkSize / 2)) (params i)
    pure e1)

def gCryptoSign (i : ParamId) (I : HImpl) (R sm smlen m : CPtr) (mlen : Nat) (sk : CPtr) : CM Nat := do
  st smlen 0 ((mlen + (params i).sigSize) % U64)
  memmove sm m mlen
  let signature_len ← alloc .stack (malloc 1 : Mem Nat)
  st signature_len 0 (params i).sigSize
  let e1 ← gSign i I R sk sm mlen (padd sm mlen) signature_len
  cfree .stack signature_len
  pure e1

def gCryptoSignOpen (i : ParamId) (I : HImpl) (m mlen sm : CPtr) (smlen : Nat) (pk : CPtr) : CM Nat := do
  if smlen < (params i).sigSize then (do
    pure 4294967295)
  else (do
    let e1 ← gVerify i I pk sm ((smlen + U64 - (params i).sigSize) % U64) (padd sm ((smlen + U64 - (params i).sigSize) % U64))
      (params i).sigSize
    if e1 ≠ 0 then (do
      pure 4294967295)
    else (do
      st mlen 0 ((smlen + U64 - (params i).sigSize) % U64)
      memmove m sm ((smlen + U64 - (params i).sigSize) % U64)
      pure 0))

theorem keygen_eq (i : ParamId) : GenApi.keygen i = gKeygen i := by cases i <;> rfl
theorem validate_eq (i : ParamId) : GenApi.validateKeypair i = gValidate i := by cases i <;> rfl
theorem swr_eq (i : ParamId) : GenApi.signWithRandomness i = gSwr i := by cases i <;> rfl
theorem sign_eq (i : ParamId) : GenApi.sign i = gSign i := by cases i <;> rfl
theorem verify_eq (i : ParamId) : GenApi.verify i = gVerify i := by cases i <;> rfl
theorem clear_eq (i : ParamId) (key : CPtr) :
    GenApi.clearPrivateKey i key = (do Gen.faest_explicit_bzero key (params i).skSize; pure ()) := by cases i <;> rfl
theorem ckeypair_eq (i : ParamId) (R pk sk : CPtr) :
    GenApi.cryptoSignKeypair i R pk sk = gKeygen i R pk sk := by cases i <;> rfl
theorem csign_eq (i : ParamId) : GenApi.cryptoSign i = gCryptoSign i := by cases i <;> rfl
theorem copen_eq (i : ParamId) : GenApi.cryptoSignOpen i = gCryptoSignOpen i := by cases i <;> rfl

section
variable {D E F : Blocks} {δ : Type} {Q : δ → Blocks → Prop} {kd : Kind}

/-! ### compat.c -/

/-- The value of `res` in `faest_timingsafe_bcmp`. -/
def bcmpAcc (f g : Nat → Byte) : Nat → Nat
  | 0 => 0
  | n + 1 => bcmpAcc f g n ||| ((f n).toNat ^^^ (g n).toNat)

theorem xor_zero {a b : Nat} : a ^^^ b = 0 ↔ a = b := by
  constructor
  · intro h
    have := congrArg (· ^^^ b) h
    simpa [Nat.xor_assoc] using this
  · rintro rfl
    exact Nat.xor_self _

theorem bcmpAcc_eq (f g : Nat → Byte) (n : Nat) : bcmpAcc f g n = 0 ↔ ∀ t, t < n → f t = g t := by
  induction n with
  | zero => simp [bcmpAcc]
  | succ n ih =>
    rw [bcmpAcc, Nat.or_eq_zero_iff, ih, xor_zero]
    constructor
    · rintro ⟨h1, h2⟩ t ht
      rcases Nat.lt_or_ge t n with h | h
      · exact h1 t h
      · obtain rfl : t = n := by omega
        exact BitVec.eq_of_toNat_eq h2
    · exact fun h => ⟨fun t ht => h t (by omega), congrArg _ (h n (by omega))⟩

theorem bcmp_run {n : Nat} {f g : Nat → Byte} {p q : CPtr} (hn : n < 2 ^ 64) (hp : View F p (full n f)) (hq : View F q (full n g)) :
    Runs F (Gen.faest_timingsafe_bcmp p q n) (bcmpAcc f g n) F := by
  unfold Gen.faest_timingsafe_bcmp
  refine t_while n (fun i => (n - i, padd p i, padd q i, bcmpAcc f g i)) (fun _ => F) (by omega)
    (by simp [padd_zero, bcmpAcc]) rfl (fun i hi => by simp; omega) (by simp) (fun i hi => ?_) ?_
  · simp only
    refine t_ld (x := f i) hp.padd (by rw [rd_drop]; simpa using has_full n f i hi) ?_
    refine t_ld (x := g i) hq.padd (by rw [rd_drop]; simpa using has_full n g i hi) (t_pure ⟨?_, rfl⟩)
    rw [padd_padd, padd_padd, show (n - i + 18446744073709551616 - 1) % 18446744073709551616 = n - (i + 1) by omega]
    rfl
  · exact t_pure ⟨rfl, rfl⟩

theorem bzero_run {n s o : Nat} {m : Mem Byte} (hn : n < 2 ^ 64) (ho : o + n ≤ m.length) :
    Runs (bl kd s m + F) (Gen.faest_explicit_bzero (some ⟨s, o⟩) n) () (bl kd s (W m o (List.replicate n 0)) + F) := by
  unfold Gen.faest_explicit_bzero
  refine t_while n (fun i => (n - i, some ⟨s, o + i⟩)) (fun i => bl kd s (W m o ((List.replicate n 0).take i)) + F) (by omega)
    (by simp) (by simp [W_nil]) (fun i hi => by simp; omega) (by simp) (fun i hi => ?_) ?_
  · simp only
    refine t_st rfl (wr_W (by simpa using ho) (by simp [hi])) (t_pure ⟨?_, rfl⟩)
    rw [show (n - i + 18446744073709551616 - 1) % 18446744073709551616 = n - (i + 1) by omega]
    rfl
  · rw [List.take_of_length_le (by simp)]
    exact t_pure ⟨rfl, rfl⟩

/-! ### randomness.h, owf.h -/

theorem t_rand {kr : Kind} {s o sr or' n c : Nat} {m m' : Mem Byte} {mr mr' : Mem (List (Nat × List Byte))} {bs : List Byte}
    {t : List (Nat × List Byte)} {g : Nat → CM δ} (hD : D = bl kd s m + (bl kr sr mr + F)) (hr : rd mr or' = some ((c, bs) :: t))
    (hr' : wr mr or' t = some mr') (hw : wrN m o (bs.take n) = some m')
    (k : T (bl kd s m' + (bl kr sr mr' + F)) (g c) Q) :
    T D (rand_bytes (some ⟨sr, or'⟩) (some ⟨s, o⟩) n >>= g) Q := by
  subst hD
  unfold rand_bytes
  refine t_assoc (t_ld (x := (c, bs) :: t) (View.there View.here) (by rw [rd_drop]; simpa using hr) ?_)
  refine t_assoc (t_lft rfl ?_)
  refine t_assoc (t_st (by hfind1) (by simpa using hr') ?_)
  refine t_assoc (t_stN (by hfind1) hw ?_)
  refine t_pbind (t_perm (by hfind) k)

theorem gOwf_run (i : ParamId) {s o : Nat} {m m' key inp : Mem Byte} {out : List Byte} {ok : Bool} {pk pi : CPtr} (hk : View F pk key)
    (hi : View F pi inp) (h : owf i key inp = some (out, ok)) (hw : wrN m o out = some m') :
    Runs (bl kd s m + F) (gOwf i pk pi (some ⟨s, o⟩)) ok (bl kd s m' + F) := by
  cases i
  case p128S => exact owf_128_run hk hi h hw
  case p128F => exact owf_128_run hk hi h hw
  case p192S => exact owf_192_run hk hi h hw
  case p192F => exact owf_192_run hk hi h hw
  case p256S => exact owf_256_run hk hi h hw
  case p256F => exact owf_256_run hk hi h hw
  case pEM128S => exact owf_em_128_run hk hi h hw
  case pEM128F => exact owf_em_128_run hk hi h hw
  case pEM192S => exact owf_em_192_run hk hi h hw
  case pEM192F => exact owf_em_192_run hk hi h hw
  case pEM256S => exact owf_em_256_run hk hi h hw
  case pEM256F => exact owf_em_256_run hk hi h hw

/-- The one-way function of a secret key. -/
def owfOut (i : ParamId) (sk : List Byte) : List Byte :=
  tabP ((params i).pkSize / 2) (Spec.owf i (byteFn (sk.drop ((params i).pkSize / 2))) (byteFn sk))

theorem owfOut_length (i : ParamId) (sk : List Byte) : (owfOut i sk).length = (params i).pkSize / 2 := tabP_length _ _

theorem gOwf_sk (i : ParamId) {s o : Nat} {m : Mem Byte} {sk : List Byte} {psk : CPtr} (hsk : sk.length = (params i).skSize)
    (hv : View F psk (ofList sk)) (hm : o + (params i).pkSize / 2 ≤ m.length) :
    ∃ ok, (ok = true ↔ Spec.skGood i sk) ∧ Runs (bl kd s m + F) (gOwf i (padd psk ((params i).pkSize / 2)) psk (some ⟨s, o⟩)) ok
      (bl kd s (W m o (owfOut i sk)) + F) := by
  obtain ⟨ok, h1, h2⟩ := owf_sk (i := i) (sk := sk) (by omega)
  refine ⟨ok, h2, gOwf_run i (hv.ptr (ptr_ofList sk (sk_half_le (i := i) (by omega)))) hv h1 (wrN_W ?_)⟩
  rw [tabP_length]
  exact hm

theorem view_W {kd : Kind} {s o : Nat} {m : Mem Byte} {l : List Byte} (h : o + l.length ≤ m.length) :
    View (bl kd s (W m o l) + E) (some ⟨s, o⟩) (ofList l) := by
  refine ⟨s, o, kd, W m o l, rfl, by simp [bl], ?_, fun i x hi => ?_⟩
  · rw [List.length_drop, length_W h, ofList_length]; omega
  · have hlt := rd_lt hi
    rw [ofList_length] at hlt
    rw [rd_ofList] at hi
    rw [rd_drop, rd_W h, if_pos (by omega), Nat.add_sub_cancel_left, hi]

theorem set_self {α : Type} {m : Mem α} {o : Nat} {x : α} (h : rd m o = some x) : m.set o (some x) = m := by
  have hlt := rd_lt h
  have : m[o] = some x := by
    unfold rd at h
    rw [List.getElem?_eq_getElem hlt] at h
    simpa using h
  rw [← this, List.set_getElem_self]

theorem rd_set {α : Type} {m : Mem α} {o : Nat} {x : α} (h : o < m.length) : rd (m.set o (some x)) o = some x := by
  unfold rd
  rw [List.getElem?_set_self h]
  rfl

theorem wr_set {α : Type} {m : Mem α} {o : Nat} {x y : α} (h : o < m.length) : wr (m.set o (some x)) o y = some (m.set o (some y)) := by
  unfold wr
  rw [if_pos (by rw [List.length_set]; exact h), List.set_set]

theorem W_before {m : Mem Byte} {o n : Nat} {a b : List Byte} (h : o + (n + b.length) ≤ m.length) (ha : a.length = n) :
    W (W m (o + n) b) o a = W m o (a ++ b) := by
  subst ha
  have h1 : o + a.length + b.length ≤ m.length := by omega
  have h2 : o + (a ++ b).length ≤ m.length := by simpa using h
  have h3 : o + a.length ≤ (W m (o + a.length) b).length := by rw [length_W h1]; omega
  refine mem_ext (by rw [length_W h3, length_W h1, length_W h2]) fun i hi => ?_
  rw [getElem?_W h3, getElem?_W h2, getElem?_W h1, List.length_append]
  by_cases hc : o ≤ i ∧ i < o + a.length
  · rw [if_pos hc, if_pos (by omega), List.getElem?_append_left (by omega)]
  · rw [if_neg hc]
    by_cases hd : o + a.length ≤ i ∧ i < o + a.length + b.length
    · rw [if_pos hd, if_pos (by omega), List.getElem?_append_right (by omega), Nat.sub_sub]
    · rw [if_neg hd, if_neg (by omega)]

/-! ### Keys -/

theorem half_le (i : ParamId) : (params i).pkSize / 2 + (params i).pkSize / 2 = (params i).pkSize ∧
    (params i).pkSize / 2 ≤ (params i).skSize ∧ 0 < (params i).pkSize / 2 ∧ (params i).pkSize < 2 ^ 64 ∧
    (params i).skSize < 2 ^ 64 ∧ 0 < (params i).lambda / 8 := by cases i <;> decide

section keygen
variable {kp ks kr : Kind} {sp op ss os sr or' : Nat} {ms mp : Mem Byte} {mr : Mem (List (Nat × List Byte))} {good : List Byte}
  {c : Nat} {rest : List (Nat × List Byte)}

theorem keygenBody_run (i : ParamId) {e : List Byte} (he : e.length = (params i).skSize) (hms : os + (params i).skSize ≤ ms.length)
    (hmp : op + (params i).pkSize ≤ mp.length) (hmr : or' < mr.length) {d : Bool} :
    ∃ ok, (ok = true ↔ Spec.skGood i e) ∧
      Runs (bl kp sp mp + (bl ks ss ms + (bl kr sr (mr.set or' (some ((c, e) :: rest))) + F)))
        (gKeygenBody i (some ⟨sr, or'⟩) (some ⟨sp, op⟩) (some ⟨ss, os⟩) d) ok
        (bl kp sp (W mp (op + (params i).pkSize / 2) (owfOut i e)) + (bl ks ss (W ms os e) + (bl kr sr (mr.set or' (some rest)) + F))) := by
  have hh := half_le i
  obtain ⟨ok, h1, h2⟩ := gOwf_sk (kd := kp) (s := sp) (F := bl ks ss (W ms os e) + (bl kr sr (mr.set or' (some rest)) + F)) i he
    (view_W (s := ss) (by omega)) (o := op + (params i).pkSize / 2) (m := mp) (by omega)
  refine ⟨ok, h1, ?_⟩
  unfold gKeygenBody
  refine t_rand (s := ss) (F := bl kp sp mp + F) (by hfind) (rd_set hmr) (wr_set hmr) (wrN_W (l := e.take (params i).skSize) (by simp; omega)) ?_
  rw [List.take_of_length_le (by omega)]
  exact t_run (by hfind) h2 (t_pure ⟨rfl, rfl⟩)

theorem keygen_loop (i : ParamId) (hg : good.length = (params i).skSize) (hgood : Spec.skGood i good) (hmr : or' < mr.length) :
    ∀ (bad : List (Nat × List Byte)) (k : Nat) (ms mp : Mem Byte), bad.length + 1 < k → os + (params i).skSize ≤ ms.length →
      op + (params i).pkSize ≤ mp.length → (∀ e ∈ bad, e.2.length = (params i).skSize ∧ ¬ Spec.skGood i e.2) →
      Runs (bl kp sp mp + (bl ks ss ms + (bl kr sr (mr.set or' (some (bad ++ (c, good) :: rest))) + F)))
        (cwhileF k (fun s => decide (¬ (s = true))) (gKeygenBody i (some ⟨sr, or'⟩) (some ⟨sp, op⟩) (some ⟨ss, os⟩)) false) true
        (bl kp sp (W mp (op + (params i).pkSize / 2) (owfOut i good)) + (bl ks ss (W ms os good) + (bl kr sr (mr.set or' (some rest)) + F))) := by
  have hh := half_le i
  intro bad
  induction bad with
  | nil =>
    intro k ms mp hk hms hmp _
    obtain ⟨k, rfl⟩ : ∃ k', k = k' + 1 + 1 := ⟨k - 2, by simp at hk; omega⟩
    obtain ⟨ok, h1, h2⟩ := keygenBody_run (F := F) (kp := kp) (ks := ks) (kr := kr) (sp := sp) (ss := ss) (sr := sr) (c := c) (rest := rest) (d := false) i hg hms hmp hmr
    rw [h1.2 hgood] at h2
    rw [cwhileF_step (by decide)]
    exact t_run rfl h2 (t_pure ⟨rfl, rfl⟩)
  | cons e bad ih =>
    intro k ms mp hk hms hmp hb
    obtain ⟨k, rfl⟩ : ∃ k', k = k' + 1 := ⟨k - 1, by simp at hk; omega⟩
    obtain ⟨he, hne⟩ := hb e (List.mem_cons_self ..)
    obtain ⟨ec, eb⟩ := e
    replace he : eb.length = (params i).skSize := he
    obtain ⟨ok, h1, h2⟩ := keygenBody_run (F := F) (kp := kp) (ks := ks) (kr := kr) (sp := sp) (ss := ss) (sr := sr) (c := ec) (rest := bad ++ (c, good) :: rest) (d := false) i he hms hmp hmr
    obtain rfl : ok = false := by
      cases ok
      · rfl
      · exact absurd (h1.1 rfl) hne
    rw [cwhileF_step (by decide)]
    refine t_run rfl h2 ?_
    have hlo := owfOut_length i eb
    have hlg := owfOut_length i good
    have h3 := ih k (W ms os eb) (W mp (op + (params i).pkSize / 2) (owfOut i eb)) (by simp at hk; omega)
      (by rw [length_W (by omega)]; omega) (by rw [length_W (by omega)]; omega) (fun e he => hb e (List.mem_cons_of_mem _ he))
    rw [W_W (by omega) (by omega), W_W (by omega) (by omega)] at h3
    exact h3

theorem gKeygen_run (i : ParamId) (hg : good.length = (params i).skSize) (hgood : Spec.skGood i good)
    (bad : List (Nat × List Byte)) (hb : ∀ e ∈ bad, e.2.length = (params i).skSize ∧ ¬ Spec.skGood i e.2) (hlen : bad.length < 2 ^ 63)
    (hr : rd mr or' = some (bad ++ (c, good) :: rest)) (hms : os + (params i).skSize ≤ ms.length) (hmp : op + (params i).pkSize ≤ mp.length) :
    Runs (bl kp sp mp + (bl ks ss ms + (bl kr sr mr + F))) (gKeygen i (some ⟨sr, or'⟩) (some ⟨sp, op⟩) (some ⟨ss, os⟩)) 0
      (bl kp sp (W mp op (Spec.pkOf i good)) + (bl ks ss (W ms os good) + (bl kr sr (mr.set or' (some rest)) + F))) := by
  have hh := half_le i
  have hl := owfOut_length i good
  unfold gKeygen
  rw [if_neg (by simp)]
  have h := keygen_loop (F := F) (kp := kp) (ks := ks) (kr := kr) (sp := sp) (ss := ss) (sr := sr) (c := c) (rest := rest) i hg hgood
    (rd_lt hr) bad 18446744073709551616 ms mp (by omega) hms hmp hb
  rw [set_self hr] at h
  refine t_run rfl h ?_
  have h1 : rdN (ofList good) 0 ((params i).pkSize / 2) = some (good.take ((params i).pkSize / 2)) := by
    rw [rdN_ofList_le _ (by omega)]; rfl
  refine t_memcpy rfl (view_W (by omega)) (by omega) h1 (wrN_W (by rw [length_W (by omega)]; simp; omega)) (t_pure ⟨rfl, ?_⟩)
  rw [W_before (by omega) (by simp; omega)]
  rfl

end keygen

theorem View.full {p : CPtr} {l : List Byte} (h : View F p (ofList l)) : View F p (Faest.full l.length (byteFn l)) := by
  obtain ⟨b, o, kd, m, rfl, hm, hle⟩ := h
  refine ⟨b, o, kd, m, rfl, hm, ?_, fun i x hi => hle.dat i x ?_⟩
  · have := hle.len
    rw [ofList_length] at this
    rwa [full_length]
  · have hlt := rd_lt hi
    rw [full_length] at hlt
    rw [← hi]
    have h1 := has_byteFn l i hlt
    have h2 := has_full l.length (byteFn l) i hlt
    rw [Nat.zero_add] at h1 h2
    rw [h1, h2]

theorem gValidate_run (i : ParamId) {pk sk : List Byte} {ppk psk : CPtr} (hpk : pk.length = (params i).pkSize)
    (hsk : sk.length = (params i).skSize) (hp : View F ppk (ofList pk)) (hs : View F psk (ofList sk)) :
    ∃ r, Runs F (gValidate i ppk psk) r F ∧ (¬ Spec.skGood i sk → r = 1) ∧
      (Spec.skGood i sk → (pk = Spec.pkOf i sk → r = 0) ∧ (pk ≠ Spec.pkOf i sk → r = 2)) := by
  have hh := half_le i
  have hl := owfOut_length i sk
  have hn1 : ppk.isSome = true := by obtain ⟨_, _, _, _, rfl, _⟩ := hp; rfl
  have hn2 : psk.isSome = true := by obtain ⟨_, _, _, _, rfl, _⟩ := hs; rfl
  have hml : (malloc (params i).pkSize : Mem Byte).length = (params i).pkSize := malloc_length _
  have hrun : ∀ t, ∃ ok, (ok = true ↔ Spec.skGood i sk) ∧ Runs (bl .stack t (malloc (params i).pkSize) + F)
      (gOwf i (padd psk ((params i).pkSize / 2)) psk (padd (some ⟨t, 0⟩) ((params i).pkSize / 2))) ok
      (bl .stack t (W (malloc (params i).pkSize) (0 + (params i).pkSize / 2) (owfOut i sk)) + F) := fun t =>
    gOwf_sk (o := 0 + (params i).pkSize / 2) i hsk hs (by omega)
  by_cases hg : Spec.skGood i sk
  · have hlp : (Spec.pkOf i sk).length = (params i).pkSize := pkOf_length (by omega)
    refine ⟨if bcmpAcc (byteFn (Spec.pkOf i sk)) (byteFn pk) (params i).pkSize = 0 then 0 else 2, ?_, fun h => absurd hg h, fun _ => ⟨fun he => ?_, fun he => ?_⟩⟩
    · unfold gValidate
      rw [if_neg (by simp [hn1, hn2])]
      refine t_alloc fun t => ?_
      obtain ⟨ok, h1, h2⟩ := hrun t
      obtain rfl := h1.2 hg
      refine t_run rfl h2 ?_
      rw [if_neg (by simp)]
      have h1 : rdN (ofList sk) 0 ((params i).pkSize / 2) = some (sk.take ((params i).pkSize / 2)) := by
        rw [rdN_ofList_le _ (by omega)]; rfl
      refine t_memcpy rfl hs (by omega) h1 (wrN_W (by rw [length_W (by omega)]; simp; omega)) ?_
      rw [W_before (by omega) (by simp; omega)]
      have hv := View.full (view_W (kd := .stack) (s := t) (o := 0) (m := malloc (params i).pkSize) (l := Spec.pkOf i sk) (E := F) (by omega))
      have hv' := View.full hp
      rw [hlp] at hv
      rw [hpk] at hv'
      refine t_run rfl (bcmp_run (by omega) hv hv'.there) ?_
      exact t_free rfl (t_pure ⟨rfl, rfl⟩)
    · rw [if_pos]
      rw [bcmpAcc_eq, he]
      exact fun _ _ => rfl
    · rw [if_neg]
      rw [bcmpAcc_eq]
      intro h
      apply he
      have h1 := list_eq_tabP pk (byteFn pk) (params i).pkSize hpk fun t ht => byteFn_getElem? hpk ht
      have h2 := list_eq_tabP (Spec.pkOf i sk) (byteFn (Spec.pkOf i sk)) (params i).pkSize hlp fun t ht => byteFn_getElem? hlp ht
      rw [h1, h2]
      exact tabP_congr fun t ht => (h t ht).symm
  · refine ⟨1, ?_, fun _ => rfl, fun h => absurd h hg⟩
    unfold gValidate
    rw [if_neg (by simp [hn1, hn2])]
    refine t_alloc fun t => ?_
    obtain ⟨ok, h1, h2⟩ := hrun t
    obtain rfl : ok = false := by
      cases ok
      · rfl
      · exact absurd (h1.1 rfl) hg
    refine t_run rfl h2 ?_
    rw [if_pos (by simp)]
    exact t_free rfl (t_pure ⟨rfl, rfl⟩)

/-! ### Signing -/

theorem RdAt.sub {A : Blocks} {p : CPtr} {n : Nat} {l : List Byte} (h : RdAt A p n l) (hs : ∀ x, x ∈ A → x ∈ D) : RdAt D p n l := by
  obtain ⟨b, o, k, m, e, hm, hr⟩ := h
  exact ⟨b, o, k, m, e, hs _ hm, hr⟩

theorem flat_sign (X : XOF) (i : ParamId) (sk m : List Byte) (rho : Option (List Byte)) (buf : Mem Byte)
    (hsk : sk.length = (params i).skSize) (hg : Spec.skGood i sk) (hb : (params i).sigSize ≤ buf.length) :
    Flat.faestSign X (params i) buf (ofList m) m.length (ofList (sk.drop ((params i).pkSize / 2))) (ofList sk) (ofList (owfOut i sk))
        (rho.map ofList) (rho.getD []).length
      = some (ofList (Spec.signature X i sk m (rho.getD [])) ++ buf.drop (params i).sigSize) := by
  have h := Props.C50_sign X i sk m rho buf (params i).sigSize hsk hg (Nat.le_refl _) hb
  obtain ⟨ok, h1, h2⟩ := owf_sk (i := i) (sk := sk) (by omega)
  obtain rfl := h2.2 hg
  unfold Flat.signWithRandomness at h
  simp only at h
  rw [if_neg (by cases rho <;> simp)] at h
  unfold half at h
  rw [ptr_ofList sk (sk_half_le (i := i) (by omega))] at h
  simp only [Option.bind_eq_bind, Option.bind_some] at h
  rw [h1] at h
  simp only [Option.bind_some] at h
  rw [wrN_W (by rw [tabP_length, malloc_length]; omega)] at h
  simp only [Option.bind_some, Bool.not_true, Bool.false_eq_true, if_false] at h
  obtain ⟨sig, h3, h4⟩ := Option.bind_eq_some_iff.1 h
  have he : W (malloc ((params i).pkSize / 2)) 0 (tabP ((params i).pkSize / 2) (Spec.owf i (byteFn (sk.drop ((params i).pkSize / 2))) (byteFn sk)))
      = ofList (owfOut i sk) := by
    unfold W owfOut
    rw [tabP_length]
    simp [malloc, ofList]
  rw [he] at h3
  rw [h3]
  simp only [pure, Option.some.injEq, SignResult.mk.injEq] at h4
  rw [h4.2.1]

section sign
variable {I : HImpl} {X : XOF} {kg kl kr : Kind} {sg og sl ol sr or' n : Nat} {M : Mem Byte} {ml : Mem Nat} {sk m : List Byte} {psk pm pr : CPtr}

theorem lenBad_run (i : ParamId) (hs : psk.isSome = true) (hn : View D (some ⟨sl, ol⟩) ml) (hr : rd ml 0 = some n) :
    Runs D (gLenBad i psk (some ⟨sg, og⟩) (some ⟨sl, ol⟩)) (decide (n < (params i).sigSize)) D := by
  unfold gLenBad
  rw [if_neg (by simp [hs])]
  exact t_ld hn hr (t_pure ⟨rfl, rfl⟩)

theorem signature_len (X : XOF) (i : ParamId) (sk m r : List Byte) : (Spec.signature X i sk m r).length = (params i).sigSize :=
  signature_length X i sk m r

theorem gSwr_run (S : HSpec I X) (i : ParamId) {rho : Option (List Byte)} (hsk : sk.length = (params i).skSize) (hg : Spec.skGood i sk)
    (hs : View F psk (ofList sk)) (hm : RdAt (bl kg sg M + (bl kl sl ml + F)) pm m.length m)
    (hrho : (rho = none ∧ pr = none) ∨ ∃ r, rho = some r ∧ View (bl kg sg M + (bl kl sl ml + F)) pr (ofList r))
    (hn : rd ml ol = some n) (hle : (params i).sigSize ≤ n) (hM : og + (params i).sigSize ≤ M.length)
    (hf1 : S.Msg i m.length) (hf2 : rho ≠ none → S.Rho i (rho.getD []).length) :
    Runs (bl kg sg M + (bl kl sl ml + F)) (gSwr i I psk pm m.length pr (rho.getD []).length (some ⟨sg, og⟩) (some ⟨sl, ol⟩)) 0
      (bl kg sg (W M og (Spec.signature X i sk m (rho.getD []))) + (bl kl sl (ml.set ol (some (params i).sigSize)) + F)) := by
  have hh := half_le i
  have hl := owfOut_length i sk
  have hn2 : psk.isSome = true := by obtain ⟨_, _, _, _, rfl, _⟩ := hs; rfl
  unfold gSwr
  refine t_run rfl (lenBad_run i hn2 (View.there View.here) (n := n) (by rw [rd_drop]; exact hn)) ?_
  rw [if_neg (by
    simp only [decide_eq_true_eq]
    rintro (h | ⟨h1, h2⟩)
    · omega
    · rcases hrho with ⟨rfl, _⟩ | ⟨r, rfl, b, o, k, mm, rfl, _⟩
      · simp at h2
      · simp at h1)]
  refine t_alloc fun t => ?_
  obtain ⟨ok, h1, h2⟩ := gOwf_sk (kd := .stack) (s := t) (o := 0) (m := malloc ((params i).pkSize / 2)) i hsk (hs.there.there (E := bl kg sg M) (D := bl kl sl ml + F)) (by rw [malloc_length]; omega)
  obtain rfl := h1.2 hg
  refine t_run rfl h2 ?_
  rw [if_neg (by simp)]
  have hpre : (M.take og).length = og := by simp; omega
  have hsig := flat_sign X i sk m rho (M.drop og) hsk hg (by rw [List.length_drop]; omega)
  have hrun := sign_run (S := S) (F := bl .stack t (W (malloc ((params i).pkSize / 2)) 0 (owfOut i sk)) + (bl kl sl ml + F)) (kg := kg) (sg := sg) (pre := M.take og) (pm := pm) i (hs.ptr (ptr_ofList sk (sk_half_le (i := i) (by omega)))).there.there hs.there.there
    (view_W (by rw [malloc_length]; omega)) (pr := pr) (fun l hl => ?_) ?_ hsig hf1 (fun h => hf2 (by rintro rfl; exact h rfl))
  · rw [hpre, List.take_append_drop] at hrun
    refine t_run (by hfind) hrun ?_
    refine t_st (by hfind1) (m' := ml.set ol (some (params i).sigSize)) (if_pos (rd_lt hn)) ?_
    refine t_free (by hfind1) (t_pure ⟨rfl, ?_⟩)
    have : W M og (Spec.signature X i sk m (rho.getD [])) = M.take og ++ (ofList (Spec.signature X i sk m (rho.getD [])) ++ (M.drop og).drop (params i).sigSize) := by
      unfold W
      rw [signature_len, List.drop_drop, List.append_assoc]
      rfl
    rw [this, add_left_comm]
  · rw [List.take_append_drop]
    have : l = m := by
      rw [rdN_ofList_le _ (by omega)] at hl
      simpa using hl.symm
    subst this
    exact hm.sub (by hsub)
  · rw [List.take_append_drop]
    rcases hrho with ⟨rfl, h⟩ | ⟨r, rfl, h⟩
    · exact Or.inl ⟨rfl, h⟩
    · refine Or.inr ⟨_, rfl, ?_⟩
      exact h.sub (by hsub)

/-- A key which the one-way function refuses. -/
theorem gSwr_bad (i : ParamId) {len rholen : Nat} (hsk : sk.length = (params i).skSize) (hg : ¬ Spec.skGood i sk)
    (hs : View D psk (ofList sk)) (hl : View D (some ⟨sl, ol⟩) ml) (hn : rd ml 0 = some n) (hle : (params i).sigSize ≤ n)
    (hr : pr.isSome = true ∨ rholen = 0) :
    Runs D (gSwr i I psk pm len pr rholen (some ⟨sg, og⟩) (some ⟨sl, ol⟩)) 4294967295 D := by
  have hh := half_le i
  have hn2 : psk.isSome = true := by obtain ⟨_, _, _, _, rfl, _⟩ := hs; rfl
  unfold gSwr
  refine t_run rfl (lenBad_run i hn2 hl hn) ?_
  rw [if_neg (by
    simp only [decide_eq_true_eq]
    rintro (h | ⟨h1, h2⟩)
    · omega
    · rcases hr with h | h
      · exact h1 h
      · exact h2 h)]
  refine t_alloc fun t => ?_
  obtain ⟨ok, h1, h2⟩ := gOwf_sk (kd := .stack) (s := t) (o := 0) (m := malloc ((params i).pkSize / 2)) i hsk hs (by rw [malloc_length]; omega)
  obtain rfl : ok = false := by
    cases ok
    · rfl
    · exact absurd (h1.1 rfl) hg
  refine t_run rfl h2 ?_
  rw [if_pos (by simp)]
  exact t_free rfl (t_pure ⟨rfl, rfl⟩)

/-- Calls refused because of their arguments. -/
theorem lenBad_rej (i : ParamId) {sig siglen : CPtr}
    (h : psk = none ∨ sig = none ∨ siglen = none ∨ ∃ n, View D siglen [some n] ∧ n < (params i).sigSize) :
    Runs D (gLenBad i psk sig siglen) true D := by
  unfold gLenBad
  by_cases hc : ((¬ (psk.isSome = true)) ∨ (¬ (sig.isSome = true))) ∨ (¬ (siglen.isSome = true))
  · rw [if_pos hc]
    exact t_pure ⟨rfl, rfl⟩
  · rw [if_neg hc]
    rcases h with rfl | rfl | rfl | ⟨n, hv, hlt⟩
    · simp at hc
    · simp at hc
    · simp at hc
    · exact t_ld hv (x := n) rfl (t_pure ⟨by simpa using hlt, rfl⟩)

theorem gSwr_rej (i : ParamId) {len rholen : Nat} {sig siglen : CPtr}
    (h : psk = none ∨ sig = none ∨ siglen = none ∨ ∃ n, View D siglen [some n] ∧ (n < (params i).sigSize ∨ (pr = none ∧ rholen ≠ 0))) :
    Runs D (gSwr i I psk pm len pr rholen sig siglen) 4294967295 D := by
  unfold gSwr
  by_cases hb : psk = none ∨ sig = none ∨ siglen = none ∨ ∃ n, View D siglen [some n] ∧ n < (params i).sigSize
  · refine t_run rfl (lenBad_rej i hb) ?_
    rw [if_pos (by simp)]
    exact t_pure ⟨rfl, rfl⟩
  · obtain ⟨hb1, hb⟩ := not_or.1 hb
    obtain ⟨hb2, hb⟩ := not_or.1 hb
    obtain ⟨hb3, hb4⟩ := not_or.1 hb
    rcases h with h | h | h | ⟨n, hv, h⟩
    · exact absurd h hb1
    · exact absurd h hb2
    · exact absurd h hb3
    · rcases h with h | ⟨rfl, h⟩
      · exact absurd ⟨n, hv, h⟩ hb4
      · obtain ⟨q, rfl⟩ := Option.ne_none_iff_exists'.1 hb2
        obtain ⟨q', rfl⟩ := Option.ne_none_iff_exists'.1 hb3
        obtain ⟨q'', rfl⟩ := Option.ne_none_iff_exists'.1 hb1
        refine t_run rfl (lenBad_run i rfl hv (n := n) rfl) ?_
        rw [if_pos (Or.inr ⟨by simp, h⟩)]
        exact t_pure ⟨rfl, rfl⟩

theorem gSign_rej (i : ParamId) {R : CPtr} {len : Nat} {sig siglen : CPtr}
    (h : psk = none ∨ sig = none ∨ siglen = none ∨ ∃ n, View D siglen [some n] ∧ n < (params i).sigSize) :
    Runs D (gSign i I R psk pm len sig siglen) 4294967295 D := by
  unfold gSign
  refine t_run rfl (lenBad_rej i h) ?_
  rw [if_pos rfl]
  exact t_pure ⟨rfl, rfl⟩

section
variable {mr : Mem (List (Nat × List Byte))} {c : Nat} {bs : List Byte} {rest : List (Nat × List Byte)}

theorem gSign_run (S : HSpec I X) (i : ParamId) (hsk : sk.length = (params i).skSize) (hg : Spec.skGood i sk)
    (hs : View F psk (ofList sk)) (hm : RdAt (bl kg sg M + F) pm m.length m)
    (hn : rd ml ol = some n) (hle : (params i).sigSize ≤ n) (hM : og + (params i).sigSize ≤ M.length)
    (hr : rd mr or' = some ((c, bs) :: rest)) (hbs : bs.length = (params i).lambda / 8) (hf : S.Msg i m.length) :
    Runs (bl kg sg M + (bl kl sl ml + (bl kr sr mr + F))) (gSign i I (some ⟨sr, or'⟩) psk pm m.length (some ⟨sg, og⟩) (some ⟨sl, ol⟩)) 0
      (bl kg sg (W M og (Spec.signature X i sk m bs)) + (bl kl sl (ml.set ol (some (params i).sigSize)) +
        (bl kr sr (mr.set or' (some rest)) + F))) := by
  have hh := half_le i
  have hn2 : psk.isSome = true := by obtain ⟨_, _, _, _, rfl, _⟩ := hs; rfl
  unfold gSign
  refine t_run rfl (lenBad_run i hn2 (View.there View.here) (n := n) (by rw [rd_drop]; exact hn)) ?_
  rw [if_neg (by simp; omega)]
  refine t_alloc fun t => ?_
  refine t_rand (kr := kr) (sr := sr) (mr := mr) (F := bl kg sg M + (bl kl sl ml + F)) (by hfind) hr (if_pos (rd_lt hr))
    (wrN_W (l := bs.take ((params i).lambda / 8)) (by simp [malloc_length])) ?_
  rw [List.take_of_length_le (by omega)]
  have hrun := gSwr_run (S := S) (F := bl .stack t (W (malloc ((params i).lambda / 8)) 0 bs) + (bl kr sr (mr.set or' (some rest)) + F)) (kg := kg) (sg := sg) (M := M) (kl := kl) (sl := sl) (pm := pm) (m := m) (pr := some ⟨t, 0⟩)
    (rho := some bs) i hsk hg hs.there.there (hm.sub (by hsub)) (Or.inr ⟨bs, rfl, (view_W (by rw [malloc_length]; omega)).there.there⟩) hn hle hM
    hf (fun _ => S.fits_small (by have := (sizeP i).lb; rw [Option.getD_some]; omega))
  simp only [Option.getD_some] at hrun
  rw [hbs] at hrun
  refine t_run (by hfind) hrun ?_
  exact t_free (by hfind1) (t_pure ⟨rfl, rfl⟩)

theorem gSign_bad (i : ParamId) {len : Nat} (hsk : sk.length = (params i).skSize) (hg : ¬ Spec.skGood i sk)
    (hs : View F psk (ofList sk)) (hl : View F (some ⟨sl, ol⟩) ml) (hn : rd ml 0 = some n) (hle : (params i).sigSize ≤ n)
    (hr : rd mr or' = some ((c, bs) :: rest)) :
    Runs (bl kr sr mr + F) (gSign i I (some ⟨sr, or'⟩) psk pm len (some ⟨sg, og⟩) (some ⟨sl, ol⟩)) 4294967295
      (bl kr sr (mr.set or' (some rest)) + F) := by
  have hh := half_le i
  have hn2 : psk.isSome = true := by obtain ⟨_, _, _, _, rfl, _⟩ := hs; rfl
  unfold gSign
  refine t_run rfl (lenBad_run i hn2 hl.there hn) ?_
  rw [if_neg (by simp; omega)]
  refine t_alloc fun t => ?_
  refine t_rand (kr := kr) (sr := sr) (mr := mr) (F := F) (by hfind) hr (if_pos (rd_lt hr))
    (wrN_W (l := bs.take ((params i).lambda / 8)) (by simp [malloc_length])) ?_
  refine t_run rfl (gSwr_bad i hsk hg hs.there.there hl.there.there hn hle (Or.inl rfl)) ?_
  exact t_free rfl (t_pure ⟨rfl, rfl⟩)

end

end sign

/-! ### Verification -/

theorem flat_verify (X : XOF) (i : ParamId) (pk m sg : List Byte) (hpk : pk.length = (params i).pkSize)
    (hs : sg.length = (params i).sigSize) :
    ∃ r, Flat.faestVerify X (params i) (ofList m) m.length (ofList sg) (ofList pk) (ofList (pk.drop ((params i).pkSize / 2))) = some r ∧
      (r = 0 ↔ Spec.ValidSig X i pk m sg) := by
  obtain ⟨h1, h2⟩ := Props.C50_verify X i pk m sg hpk hs
  have hu : Flat.verify X i (some (ofList pk)) (ofList m) m.length (some (ofList sg)) (params i).sigSize
      = Flat.faestVerify X (params i) (ofList m) m.length (ofList sg) (ofList pk) (ofList (pk.drop ((params i).pkSize / 2))) := by
    unfold Flat.verify
    simp only
    rw [if_neg (by simp)]
    unfold half
    rw [ptr_ofList pk (by have := half_le i; omega)]
    rfl
  rw [hu] at h1 h2
  by_cases hv : Spec.ValidSig X i pk m sg
  · exact ⟨0, h1 hv, fun _ => hv, fun _ => rfl⟩
  · exact ⟨-1, h2 hv, fun h => by simp at h, fun h => absurd h hv⟩

section verify
variable {I : HImpl} {X : XOF} {pk m sig : List Byte} {ppk pm ps : CPtr}

theorem gVerify_run (S : HSpec I X) (i : ParamId) (hpk : pk.length = (params i).pkSize) (hsg : sig.length = (params i).sigSize)
    (hp : View F ppk (ofList pk)) (hs : View F ps (ofList sig)) (hm : RdAt F pm m.length m) (hf : S.Msg i m.length) :
    ∃ r, Runs F (gVerify i I ppk pm m.length ps (params i).sigSize) r F ∧ (Spec.ValidSig X i pk m sig → r = 0) ∧
      (¬ Spec.ValidSig X i pk m sig → r = 4294967295) := by
  obtain ⟨r, h1, h2⟩ := flat_verify X i pk m sig hpk hsg
  have hn1 : ppk.isSome = true := by obtain ⟨_, _, _, _, rfl, _⟩ := hp; rfl
  have hn2 : ps.isSome = true := by obtain ⟨_, _, _, _, rfl, _⟩ := hs; rfl
  obtain ⟨⟨sb, so⟩, rfl⟩ := Option.isSome_iff_exists.1 hn2
  refine ⟨if r = 0 then 0 else 4294967295, ?_, fun h => if_pos (h2.2 h), fun h => if_neg fun h' => h (h2.1 h')⟩
  unfold gVerify
  rw [if_neg (by simp [hn1])]
  refine t_mono (verify_run i S hs hp (hp.ptr (ptr_ofList pk (by have := half_le i; omega))) (fun l hl => ?_) h1 hf) fun _ _ h => h
  have : l = m := by
    rw [rdN_ofList_le _ (by omega)] at hl
    simpa using hl.symm
  subst this
  exact hm

theorem gVerify_rej (i : ParamId) {len siglen : Nat} (h : ppk = none ∨ ps = none ∨ siglen ≠ (params i).sigSize) :
    Runs D (gVerify i I ppk pm len ps siglen) 4294967295 D := by
  unfold gVerify
  rw [if_pos (by
    rcases h with rfl | rfl | h
    · exact Or.inl (Or.inl (by simp))
    · exact Or.inl (Or.inr (by simp))
    · exact Or.inr h)]
  exact t_pure ⟨rfl, rfl⟩

end verify

/-! ### crypto_sign.c.in -/

theorem rdN_prefix {m : Mem Byte} {o n n' : Nat} {l : List Byte} (h : rdN m o n = some l) (hn : n' ≤ n) : rdN m o n' = some (l.take n') := by
  unfold rdN at h ⊢
  split at h
  · rw [if_pos (by omega)]
    have : (m.drop o).take n' = ((m.drop o).take n).take n' := by rw [List.take_take, Nat.min_eq_left hn]
    rw [this]
    generalize (m.drop o).take n = x at h
    clear this
    induction x generalizing l n' with
    | nil => simp at h; subst h; simp
    | cons a x ih =>
      rw [List.mapM_cons] at h
      obtain ⟨b, hb, h⟩ := Option.bind_eq_some_iff.1 h
      obtain ⟨bs, hbs, h⟩ := Option.bind_eq_some_iff.1 h
      obtain rfl := Option.some.inj h
      cases n' with
      | zero => simp
      | succ k =>
        rw [List.take_succ_cons, List.mapM_cons, hb, ih (n' := k) (Nat.le_of_succ_le hn) hbs]
        rfl
  · cases h

theorem t_memmove {s o n : Nat} {m m' : Mem Byte} {src : CPtr} {l : List Byte} {g : Unit → CM δ} (hD : D = bl kd s m + F)
    (hr : RdAt D src n l) (hw : wrN m o l = some m') (k : T (bl kd s m' + F) (g ()) Q) :
    T D (memmove (some ⟨s, o⟩) src n >>= g) Q := by
  obtain ⟨b, o', k', m0, rfl, hm, hl⟩ := hr
  unfold memmove ldN
  refine t_assoc (t_assoc (t_lft rfl (t_assoc (t_run rfl (runs_blk (α := Byte) hm) (t_lft hl ?_)))))
  exact t_stN hD hw k

section crypto
variable {I : HImpl} {X : XOF} {kg kl kr : Kind} {sg og sl ol sr or' n : Nat} {M : Mem Byte} {ml : Mem Nat} {sk m : List Byte} {psk pm : CPtr}
  {mr : Mem (List (Nat × List Byte))} {c : Nat} {bs : List Byte} {rest : List (Nat × List Byte)}

theorem rdN_W_self {m : Mem Byte} {o : Nat} {l : List Byte} (h : o + l.length ≤ m.length) : rdN (W m o l) o l.length = some l := by
  rw [rdN_eq (g := byteFn l) (fun t ht => ?_) (by rw [length_W h]; exact h)]
  · congr 1
    exact (list_eq_tabP l (byteFn l) l.length rfl fun t ht => byteFn_getElem? rfl ht).symm
  · rw [rd_W h, if_pos (by omega), Nat.add_sub_cancel_left]
    exact byteFn_getElem? rfl ht

theorem gCryptoSign_run (S : HSpec I X) (i : ParamId) (hsk : sk.length = (params i).skSize) (hg : Spec.skGood i sk)
    (hs : View F psk (ofList sk)) (hm : RdAt (bl kg sg M + F) pm m.length m)
    (hlt : m.length + (params i).sigSize < 2 ^ 64) (hol : ol < ml.length) (hM : og + (m.length + (params i).sigSize) ≤ M.length)
    (hr : rd mr or' = some ((c, bs) :: rest)) (hbs : bs.length = (params i).lambda / 8) (hf : S.Msg i m.length) :
    Runs (bl kg sg M + (bl kl sl ml + (bl kr sr mr + F))) (gCryptoSign i I (some ⟨sr, or'⟩) (some ⟨sg, og⟩) (some ⟨sl, ol⟩) pm m.length psk) 0
      (bl kg sg (W M og (m ++ Spec.signature X i sk m bs)) + (bl kl sl (ml.set ol (some (m.length + (params i).sigSize))) +
        (bl kr sr (mr.set or' (some rest)) + F))) := by
  have hls := signature_len X i sk m bs
  unfold gCryptoSign
  rw [Nat.mod_eq_of_lt (by omega)]
  refine t_st (by hfind1) (m' := ml.set ol (some (m.length + (params i).sigSize))) (if_pos hol) ?_
  refine t_memmove (s := sg) (m := M) (l := m) (by hfind1) (hm.sub (by hsub)) (wrN_W (by omega)) ?_
  refine t_alloc fun t => ?_
  refine t_st (by hfind1) (m' := [some (params i).sigSize]) rfl ?_
  have hrun := gSign_run (S := S) (F := bl kl sl (ml.set ol (some (m.length + (params i).sigSize))) + F) (kg := kg) (sg := sg) (M := W M og m) (og := og + m.length)
    (kl := .stack) (sl := t) (ol := 0) (ml := [some (params i).sigSize]) (pm := some ⟨sg, og⟩) (m := m) (n := (params i).sigSize)
    (kr := kr) (sr := sr) i hsk hg hs.there (RdAt.here (rdN_W_self (by omega))) rfl (Nat.le_refl _) (by rw [length_W (by omega)]; omega) hr hbs hf
  refine t_run (by hfind) hrun ?_
  refine t_free (m := List.set [some (params i).sigSize] 0 (some (params i).sigSize)) (by hfind1) (t_pure ⟨rfl, ?_⟩)
  have : W (W M og m) (og + m.length) (Spec.signature X i sk m bs) = W M og (m ++ Spec.signature X i sk m bs) := by
    have h1 := wrN_W_append (m := M) (o := og) (xs := m) (ys := Spec.signature X i sk m bs) (by omega)
    rw [wrN_W (by rw [length_W (by omega)]; omega)] at h1
    exact Option.some.inj h1
  rw [this]
  hfind

theorem gCryptoSign_bad (i : ParamId) (hsk : sk.length = (params i).skSize) (hg : ¬ Spec.skGood i sk)
    (hs : View F psk (ofList sk)) (hm : RdAt (bl kg sg M + F) pm m.length m)
    (hlt : m.length + (params i).sigSize < 2 ^ 64) (hol : ol < ml.length) (hM : og + m.length ≤ M.length)
    (hr : rd mr or' = some ((c, bs) :: rest)) :
    Runs (bl kg sg M + (bl kl sl ml + (bl kr sr mr + F))) (gCryptoSign i I (some ⟨sr, or'⟩) (some ⟨sg, og⟩) (some ⟨sl, ol⟩) pm m.length psk) 4294967295
      (bl kg sg (W M og m) + (bl kl sl (ml.set ol (some (m.length + (params i).sigSize))) +
        (bl kr sr (mr.set or' (some rest)) + F))) := by
  unfold gCryptoSign
  rw [Nat.mod_eq_of_lt (by omega)]
  refine t_st (by hfind1) (m' := ml.set ol (some (m.length + (params i).sigSize))) (if_pos hol) ?_
  refine t_memmove (s := sg) (m := M) (l := m) (by hfind1) (hm.sub (by hsub)) (wrN_W (by omega)) ?_
  refine t_alloc fun t => ?_
  refine t_st (by hfind1) (m' := [some (params i).sigSize]) rfl ?_
  have hrun := gSign_bad (F := bl .stack t [some (params i).sigSize] + (bl kg sg (W M og m) + (bl kl sl (ml.set ol (some (m.length + (params i).sigSize))) + F)))
    (sg := sg) (og := og + m.length) (sl := t) (ol := 0) (ml := [some (params i).sigSize]) (I := I) (pm := some ⟨sg, og⟩) (len := m.length) (n := (params i).sigSize)
    (kr := kr) (sr := sr) i hsk hg hs.there.there.there View.here0 rfl (Nat.le_refl _) hr
  refine t_run (by hfind) hrun ?_
  exact t_free (m := [some (params i).sigSize]) (by hfind1) (t_pure ⟨rfl, by hfind⟩)

theorem gCryptoSignOpen_run (S : HSpec I X) (i : ParamId) {pk sig : List Byte} {ppk psm : CPtr} (hpk : pk.length = (params i).pkSize)
    (hsg : sig.length = (params i).sigSize) (hlt : m.length + (params i).sigSize < 2 ^ 64)
    (hp : View (bl kg sg M + F) ppk (ofList pk)) (hsm : RdAt (bl kg sg M + F) psm (m.length + (params i).sigSize) (m ++ sig))
    (hol : ol < ml.length) (hM : og + m.length ≤ M.length) (hf : S.Msg i m.length) :
    (Spec.ValidSig X i pk m sig → Runs (bl kg sg M + (bl kl sl ml + F))
      (gCryptoSignOpen i I (some ⟨sg, og⟩) (some ⟨sl, ol⟩) psm (m.length + (params i).sigSize) ppk) 0
      (bl kg sg (W M og m) + (bl kl sl (ml.set ol (some m.length)) + F))) ∧
    (¬ Spec.ValidSig X i pk m sig → ∀ pm' pl, Runs (bl kg sg M + (bl kl sl ml + F))
      (gCryptoSignOpen i I pm' pl psm (m.length + (params i).sigSize) ppk) 4294967295
      (bl kg sg M + (bl kl sl ml + F))) := by
  have hmod : (m.length + (params i).sigSize + 18446744073709551616 - (params i).sigSize) % 18446744073709551616 = m.length := by omega
  have hsm' : RdAt (bl kg sg M + (bl kl sl ml + F)) psm (m.length + (params i).sigSize) (m ++ sig) := hsm.sub (by hsub)
  have hmsg : RdAt (bl kg sg M + (bl kl sl ml + F)) psm m.length m := by
    obtain ⟨b, o, k, mm, e, hmem, hr⟩ := hsm'
    refine ⟨b, o, k, mm, e, hmem, ?_⟩
    have := rdN_prefix hr (n' := m.length) (by omega)
    simpa using this
  have hsv : View (bl kg sg M + (bl kl sl ml + F)) (padd psm m.length) (ofList sig) := by
    have := hsm'.view.padd (k := m.length)
    rwa [ofList_drop, List.drop_left] at this
  obtain ⟨r, h1, h2, h3⟩ := gVerify_run S i hpk hsg (hp.sub (D := bl kg sg M + (bl kl sl ml + F)) (by hsub)) hsv hmsg hf
  constructor
  · intro hv
    obtain rfl := h2 hv
    unfold gCryptoSignOpen
    rw [if_neg (by omega), hmod]
    refine t_run rfl h1 ?_
    rw [if_neg (by simp)]
    refine t_st (by hfind1) (m' := ml.set ol (some m.length)) (if_pos hol) ?_
    refine t_memmove (s := sg) (m := M) (l := m) (by hfind1) ?_ (wrN_W (by omega)) (t_pure ⟨rfl, rfl⟩)
    obtain ⟨b, o, k, mm, e, hmem, hr⟩ := hsm
    refine ⟨b, o, k, mm, e, ?_, ?_⟩
    · simp only [Multiset.mem_add] at hmem ⊢
      tauto
    · have := rdN_prefix hr (n' := m.length) (by omega)
      simpa using this
  · intro hv pm' pl
    obtain rfl := h3 hv
    unfold gCryptoSignOpen
    rw [if_neg (by omega), hmod]
    refine t_run rfl h1 ?_
    rw [if_pos (by simp)]
    exact t_pure ⟨rfl, rfl⟩

theorem gCryptoSignOpen_rej (i : ParamId) {smlen : Nat} {pm pl psm ppk : CPtr} (h : smlen < (params i).sigSize) :
    Runs D (gCryptoSignOpen i I pm pl psm smlen ppk) 4294967295 D := by
  unfold gCryptoSignOpen
  rw [if_pos h]
  exact t_pure ⟨rfl, rfl⟩

end crypto

end

end Faest.C
