/-
aes.c, translated: block encryption, `prg` and `aes_extend_witness`.
-/
import Verif.Proofs.Gen.Aes

namespace Faest.C

section
variable {D F : Blocks} {kd : Kind}

theorem storeState_length {st : Mem Byte} {bw : Nat} {l : List Byte} (h : storeState st bw = some l) :
    l.length = bw * 4 := tabM_length h

/-- `aes128_init_round_keys`. -/
theorem aes128_init_run {s : Nat} {rk key : Mem Byte} {z : Bool} {p : CPtr} (hv : View F p key)
    (h : expandKey key 4 4 10 = some (rk, z)) :
    Runs (bl kd s (malloc 480 : Mem Byte) + F) (Gen.aes128_init_round_keys (some ⟨s, 0⟩) p) z.toNat (bl kd s rk + F) := by
  unfold Gen.aes128_init_round_keys
  exact expand_key_run hv h (by decide) (by decide) (by decide)

/-- `aes192_init_round_keys`. -/
theorem aes192_init_run {s : Nat} {rk key : Mem Byte} {z : Bool} {p : CPtr} (hv : View F p key)
    (h : expandKey key 6 4 12 = some (rk, z)) :
    Runs (bl kd s (malloc 480 : Mem Byte) + F) (Gen.aes192_init_round_keys (some ⟨s, 0⟩) p) z.toNat (bl kd s rk + F) := by
  unfold Gen.aes192_init_round_keys
  exact expand_key_run hv h (by decide) (by decide) (by decide)

/-- `aes256_init_round_keys`. -/
theorem aes256_init_run {s : Nat} {rk key : Mem Byte} {z : Bool} {p : CPtr} (hv : View F p key)
    (h : expandKey key 8 4 14 = some (rk, z)) :
    Runs (bl kd s (malloc 480 : Mem Byte) + F) (Gen.aes256_init_round_keys (some ⟨s, 0⟩) p) z.toNat (bl kd s rk + F) := by
  unfold Gen.aes256_init_round_keys
  exact expand_key_run hv h (by decide) (by decide) (by decide)

/-- `rijndael192_init_round_keys`. -/
theorem rijndael192_init_run {s : Nat} {rk key : Mem Byte} {z : Bool} {p : CPtr} (hv : View F p key)
    (h : expandKey key 6 6 12 = some (rk, z)) :
    Runs (bl kd s (malloc 480 : Mem Byte) + F) (Gen.rijndael192_init_round_keys (some ⟨s, 0⟩) p) z.toNat (bl kd s rk + F) := by
  unfold Gen.rijndael192_init_round_keys
  exact expand_key_run hv h (by decide) (by decide) (by decide)

/-- `rijndael256_init_round_keys`. -/
theorem rijndael256_init_run {s : Nat} {rk key : Mem Byte} {z : Bool} {p : CPtr} (hv : View F p key)
    (h : expandKey key 8 8 14 = some (rk, z)) :
    Runs (bl kd s (malloc 480 : Mem Byte) + F) (Gen.rijndael256_init_round_keys (some ⟨s, 0⟩) p) z.toNat (bl kd s rk + F) := by
  unfold Gen.rijndael256_init_round_keys
  exact expand_key_run hv h (by decide) (by decide) (by decide)

/-- `aes128_encrypt_block`. -/
theorem aes128_encrypt_block_run {s o : Nat} {m m' rk μ : Mem Byte} {l : List Byte} {z : Bool} {p q : CPtr}
    (hv : View (bl kd s m + F) p rk) (hq : View (bl kd s m + F) q μ) (h : encryptBlock rk μ 0 4 10 = some (l, z))
    (hw : wrN m o l = some m') :
    Runs (bl kd s m + F) (Gen.aes128_encrypt_block p q (some ⟨s, o⟩)) z.toNat (bl kd s m' + F) := by
  unfold encryptBlock at h
  inv h
  obtain ⟨s0, h0, ⟨s1, z1⟩, h1, l', h2, h3⟩ := h
  simp only [Prod.mk.injEq] at h3
  obtain ⟨rfl, rfl⟩ := h3
  unfold Gen.aes128_encrypt_block
  refine t_alloc fun t => ?_
  refine t_run rfl (load_state_run hq h0 (by decide)) ?_
  refine t_run rfl (aes_encrypt_run hv h1 (by decide) (by decide)) ?_
  refine t_run (by hfind) (store_state_run (kd := kd) (s := s) (m := m) (F := bl .stack t s1 + F) View.here0 h2 hw (by decide)) ?_
  exact t_free (by hfind) (t_pure ⟨rfl, rfl⟩)

/-- `aes192_encrypt_block`. -/
theorem aes192_encrypt_block_run {s o : Nat} {m m' rk μ : Mem Byte} {l : List Byte} {z : Bool} {p q : CPtr}
    (hv : View (bl kd s m + F) p rk) (hq : View (bl kd s m + F) q μ) (h : encryptBlock rk μ 0 4 12 = some (l, z))
    (hw : wrN m o l = some m') :
    Runs (bl kd s m + F) (Gen.aes192_encrypt_block p q (some ⟨s, o⟩)) z.toNat (bl kd s m' + F) := by
  unfold encryptBlock at h
  inv h
  obtain ⟨s0, h0, ⟨s1, z1⟩, h1, l', h2, h3⟩ := h
  simp only [Prod.mk.injEq] at h3
  obtain ⟨rfl, rfl⟩ := h3
  unfold Gen.aes192_encrypt_block
  refine t_alloc fun t => ?_
  refine t_run rfl (load_state_run hq h0 (by decide)) ?_
  refine t_run rfl (aes_encrypt_run hv h1 (by decide) (by decide)) ?_
  refine t_run (by hfind) (store_state_run (kd := kd) (s := s) (m := m) (F := bl .stack t s1 + F) View.here0 h2 hw (by decide)) ?_
  exact t_free (by hfind) (t_pure ⟨rfl, rfl⟩)

/-- `aes256_encrypt_block`. -/
theorem aes256_encrypt_block_run {s o : Nat} {m m' rk μ : Mem Byte} {l : List Byte} {z : Bool} {p q : CPtr}
    (hv : View (bl kd s m + F) p rk) (hq : View (bl kd s m + F) q μ) (h : encryptBlock rk μ 0 4 14 = some (l, z))
    (hw : wrN m o l = some m') :
    Runs (bl kd s m + F) (Gen.aes256_encrypt_block p q (some ⟨s, o⟩)) z.toNat (bl kd s m' + F) := by
  unfold encryptBlock at h
  inv h
  obtain ⟨s0, h0, ⟨s1, z1⟩, h1, l', h2, h3⟩ := h
  simp only [Prod.mk.injEq] at h3
  obtain ⟨rfl, rfl⟩ := h3
  unfold Gen.aes256_encrypt_block
  refine t_alloc fun t => ?_
  refine t_run rfl (load_state_run hq h0 (by decide)) ?_
  refine t_run rfl (aes_encrypt_run hv h1 (by decide) (by decide)) ?_
  refine t_run (by hfind) (store_state_run (kd := kd) (s := s) (m := m) (F := bl .stack t s1 + F) View.here0 h2 hw (by decide)) ?_
  exact t_free (by hfind) (t_pure ⟨rfl, rfl⟩)

/-- `rijndael192_encrypt_block`. -/
theorem rijndael192_encrypt_block_run {s o : Nat} {m m' rk μ : Mem Byte} {l : List Byte} {z : Bool} {p q : CPtr}
    (hv : View (bl kd s m + F) p rk) (hq : View (bl kd s m + F) q μ) (h : encryptBlock rk μ 0 6 12 = some (l, z))
    (hw : wrN m o l = some m') :
    Runs (bl kd s m + F) (Gen.rijndael192_encrypt_block p q (some ⟨s, o⟩)) z.toNat (bl kd s m' + F) := by
  unfold encryptBlock at h
  inv h
  obtain ⟨s0, h0, ⟨s1, z1⟩, h1, l', h2, h3⟩ := h
  simp only [Prod.mk.injEq] at h3
  obtain ⟨rfl, rfl⟩ := h3
  unfold Gen.rijndael192_encrypt_block
  refine t_alloc fun t => ?_
  refine t_run rfl (load_state_run hq h0 (by decide)) ?_
  refine t_run rfl (aes_encrypt_run hv h1 (by decide) (by decide)) ?_
  refine t_run (by hfind) (store_state_run (kd := kd) (s := s) (m := m) (F := bl .stack t s1 + F) View.here0 h2 hw (by decide)) ?_
  exact t_free (by hfind) (t_pure ⟨rfl, rfl⟩)

/-- `rijndael256_encrypt_block`. -/
theorem rijndael256_encrypt_block_run {s o : Nat} {m m' rk μ : Mem Byte} {l : List Byte} {z : Bool} {p q : CPtr}
    (hv : View (bl kd s m + F) p rk) (hq : View (bl kd s m + F) q μ) (h : encryptBlock rk μ 0 8 14 = some (l, z))
    (hw : wrN m o l = some m') :
    Runs (bl kd s m + F) (Gen.rijndael256_encrypt_block p q (some ⟨s, o⟩)) z.toNat (bl kd s m' + F) := by
  unfold encryptBlock at h
  inv h
  obtain ⟨s0, h0, ⟨s1, z1⟩, h1, l', h2, h3⟩ := h
  simp only [Prod.mk.injEq] at h3
  obtain ⟨rfl, rfl⟩ := h3
  unfold Gen.rijndael256_encrypt_block
  refine t_alloc fun t => ?_
  refine t_run rfl (load_state_run hq h0 (by decide)) ?_
  refine t_run rfl (aes_encrypt_run hv h1 (by decide) (by decide)) ?_
  refine t_run (by hfind) (store_state_run (kd := kd) (s := s) (m := m) (F := bl .stack t s1 + F) View.here0 h2 hw (by decide)) ?_
  exact t_free (by hfind) (t_pure ⟨rfl, rfl⟩)

/-- The common part of the three branches of `prg`. -/
def prgBr (iiv rkp : CPtr) (rounds : Nat) (out : CPtr) (outlen : Nat) : CM Unit := do
  let e2 : CPtr × Nat ← cwhile
      (fun _s1 =>
        let outlen : Nat := _s1.2
        decide (outlen ≥ 16))
      (fun _s1 => do
        let out : CPtr := _s1.1
        let outlen : Nat := _s1.2
        let state ← alloc .stack (malloc 32 : Mem Byte)
        Gen.load_state state iiv 4
        let e3 ← Gen.aes_encrypt rkp state 4 rounds
        Gen.store_state out state 4
        Gen.aes_increment_iv iiv
        cfree .stack state
        let outlen : Nat := (outlen + U64 - 16) % U64
        let out : CPtr := padd out 16
        pure (out, outlen))
      (out, outlen)
  let out : CPtr := e2.1
  let outlen : Nat := e2.2
  let e4 : Unit ← (
    if outlen ≠ 0 then (do
      let state ← alloc .stack (malloc 32 : Mem Byte)
      Gen.load_state state iiv 4
      let e5 ← Gen.aes_encrypt rkp state 4 rounds
      let tmp ← alloc .stack (malloc 16 : Mem Byte)
      Gen.store_state tmp state 4
      memcpy (α := Byte) out tmp outlen
      cfree .stack tmp
      cfree .stack state
      pure ())
    else (do
      pure ()))
  cfree .stack rkp
  cfree .stack iiv
  pure ()

/-- The model of the same part. -/
def prgModel (rk : Mem Byte) (ivl : List Byte) (rounds outlen : Nat) : Option (List Byte) := do
  let (out, iiv) ← forN (outlen / 16) (([] : List Byte), ofList ivl) (fun _ s => do
    let (blk, _) ← encryptBlock rk s.2 0 4 rounds
    let iiv ← aesIncrementIv s.2
    pure (s.1 ++ blk, iiv))
  if outlen % 16 ≠ 0 then do
    let (blk, _) ← encryptBlock rk iiv 0 4 rounds
    let tail ← rdN (ofList blk) 0 (outlen % 16)
    pure (out ++ tail)
  else pure out

theorem prg_br {i r s o rounds n : Nat} {rk m m' : Mem Byte} {ivl l : List Byte}
    (h : prgModel rk ivl rounds n = some l) (hw : wrN m o l = some m') (hn : n < 18446744073709551616)
    (hr : 1 ≤ rounds ∧ rounds < 4294967295) :
    Runs (bl .stack i (ofList ivl) + (bl .stack r rk + (bl kd s m + F))) (prgBr (some ⟨i, 0⟩) (some ⟨r, 0⟩) rounds (some ⟨s, o⟩) n) ()
      (bl kd s m' + F) := by
  unfold prgModel at h
  obtain ⟨⟨out, iv⟩, h0, h1⟩ := Option.bind_eq_some_iff.1 h
  obtain ⟨g, g0, gn, hg⟩ := forN_seq h0
  obtain ⟨hm, rfl⟩ := wrN_eq_W hw
  have hstep : ∀ j, j < n / 16 → ∃ st0 st1 z blk iv', loadState (g j).2 0 4 = some st0 ∧
      aesEncrypt rk st0 4 rounds = some (st1, z) ∧ storeState st1 4 = some blk ∧ aesIncrementIv (g j).2 = some iv' ∧
      g (j + 1) = ((g j).1 ++ blk, iv') := by
    intro j hj
    have hb := hg j hj
    unfold encryptBlock at hb
    inv hb
    obtain ⟨_, ⟨st0, h0, ⟨st1, z⟩, h1, blk, h2, rfl⟩, iv', hi, hb⟩ := hb
    exact ⟨st0, st1, z, blk, iv', h0, h1, h2, hi, hb.symm⟩
  have hlen : ∀ j, j ≤ n / 16 → (g j).1.length = 16 * j := by
    intro j
    induction j with
    | zero => intro _; rw [g0]; rfl
    | succ j ih =>
      intro hj
      obtain ⟨st0, st1, z, blk, iv', -, -, h2, -, hb⟩ := hstep j (by omega)
      rw [hb, List.length_append, ih (by omega), storeState_length h2]
      omega
  have hout : out.length = 16 * (n / 16) := by have := hlen _ (Nat.le_refl _); rw [gn] at this; exact this
  have hl : l.length = n := by
    by_cases hz : n % 16 = 0
    · simp only [hz, ne_eq, not_true, if_false, Option.pure_def, Option.some.injEq] at h1
      rw [← h1, hout]; omega
    · simp only [hz, ne_eq, not_false_eq_true, if_true] at h1
      inv h1
      obtain ⟨_, _, t, ht, rfl⟩ := h1
      rw [List.length_append, hout, rdN_length ht]; omega
  unfold prgBr
  refine t_while (n / 16) (fun j => (some ⟨s, o + 16 * j⟩, n - 16 * j))
    (fun j => bl kd s (W m o (g j).1) + (bl .stack i (g j).2 + (bl .stack r rk + F))) (by omega) rfl
    (by rw [g0]; simp only [W_nil]; hfind) (fun j hj => by simp; omega) (by simp; omega) (fun j hj => ?_) ?_
  · obtain ⟨st0, st1, z, blk, iv', h0, h1, h2, hi, hb⟩ := hstep j hj
    have hj' := hlen j (by omega)
    have hbl := storeState_length h2
    refine t_alloc fun t => ?_
    refine t_run rfl (load_state_run (View.there View.here0) h0 (by decide)) ?_
    refine t_run rfl (aes_encrypt_run (View.there (View.there View.here0)) h1 (by decide) hr) ?_
    have hww : wrN (W m o (g j).1) (o + 16 * j) blk = some (W m o ((g j).1 ++ blk)) := by
      rw [← hj']; exact wrN_W_append (by rw [hj', hbl]; omega)
    refine t_run (by hfind1) (store_state_run View.here0 h2 hww (by decide)) ?_
    refine t_run (by hfind1) (increment_iv_run hi) ?_
    refine t_free (by hfind1) (t_pure ⟨?_, ?_⟩)
    · simp only [Prod.mk.injEq]
      refine ⟨rfl, ?_⟩
      rw [subw64 (by omega) (by omega)]; omega
    · rw [hb]; hfind
  · rw [gn]
    refine t_run (E := bl kd s (W m o l) + (bl .stack i iv + (bl .stack r rk + F))) (b := ()) rfl ?_ ?_
    · by_cases hz : n % 16 = 0
      · rw [if_neg (by show ¬ n - 16 * (n / 16) ≠ 0; omega)]
        simp only [hz, ne_eq, not_true, if_false, Option.pure_def, Option.some.injEq] at h1
        rw [← h1]
        exact t_pure ⟨rfl, rfl⟩
      · rw [if_pos (by show n - 16 * (n / 16) ≠ 0; omega)]
        simp only [hz, ne_eq, not_false_eq_true, if_true] at h1
        unfold encryptBlock at h1
        inv h1
        obtain ⟨_, ⟨st0, h0, ⟨st1, z⟩, h1, blk, h2, rfl⟩, tl, htl, hl1⟩ := h1
        simp only at htl
        have hbl := storeState_length h2
        have htlen := rdN_length htl
        refine t_alloc fun t => ?_
        refine t_run rfl (load_state_run (View.there View.here0) h0 (by decide)) ?_
        refine t_run rfl (aes_encrypt_run (View.there (View.there View.here0)) h1 (by decide) hr) ?_
        refine t_alloc fun u => ?_
        refine t_run rfl (store_state_run (m' := ofList blk) View.here0 h2 ?_ (by decide)) ?_
        · rw [wrN_W (by simp [malloc, hbl])]
          simp [W, malloc, hbl, ofList]
        refine t_memcpy (D := _) (by hfind1) View.here0 (by omega) (l := tl) ?_ (m' := W m o l) ?_ ?_
        · rw [show n - 16 * (n / 16) = n % 16 by omega]; exact htl
        · rw [← hl1, ← hout]; exact wrN_W_append (by rw [hout, htlen]; omega)
        refine t_free (by hfind1) (t_free (by hfind1) (t_pure ⟨rfl, ?_⟩))
        rfl
    · refine t_free (by hfind1) (t_free (by hfind1) (t_pure ⟨rfl, rfl⟩))

theorem prg_run {s o lam n : Nat} {m m' κ ι : Mem Byte} {l : List Byte} {key iv : CPtr}
    (hk : View (bl kd s m + F) key κ) (hi : View (bl kd s m + F) iv ι) (h : Faest.prg κ ι lam n = some l)
    (hw : wrN m o l = some m') (hn : n < 18446744073709551616) :
    Runs (bl kd s m + F) (Gen.prg key iv (some ⟨s, o⟩) lam n) () (bl kd s m' + F) := by
  unfold Faest.prg at h
  obtain ⟨ivl, hivl, h⟩ := Option.bind_eq_some_iff.1 h
  obtain ⟨⟨rk, z⟩, hrk, h⟩ := Option.bind_eq_some_iff.1 h
  have hil := rdN_length hivl
  unfold Gen.prg
  refine t_alloc fun i => ?_
  refine t_memcpy (m' := ofList ivl) rfl hi (by decide) hivl ?_ ?_
  · rw [wrN_W (by simp [malloc, hil])]
    simp [W, malloc, hil, ofList]
  refine t_alloc fun r => ?_
  by_cases h256 : lam = 256
  · subst h256
    rw [if_pos rfl]
    refine t_run rfl (aes256_init_run (View.there hk) hrk) ?_
    exact t_perm (by hfind) (prg_br h hw hn (by decide))
  rw [if_neg h256]
  by_cases h192 : lam = 192
  · subst h192
    rw [if_pos rfl]
    refine t_run rfl (aes192_init_run (View.there hk) hrk) ?_
    exact t_perm (by hfind) (prg_br h hw hn (by decide))
  rw [if_neg h192]
  have e1 : aesKeyWords lam = 4 := by unfold aesKeyWords; rw [if_neg h256, if_neg h192]
  have e2 : aesRounds lam = 10 := by unfold aesRounds; rw [if_neg h256, if_neg h192]
  rw [e1, e2] at hrk
  rw [e2] at h
  refine t_run rfl (aes128_init_run (View.there hk) hrk) ?_
  exact t_perm (by hfind) (prg_br h hw hn (by decide))

theorem loadState_drop (μ : Mem Byte) (o bw : Nat) : loadState μ o bw = loadState (μ.drop o) 0 bw := by
  unfold loadState
  refine forN_congr fun i hi => ?_
  funext st
  rw [rd_drop, Nat.zero_add]

/-- The sizes which occur in `aes_extend_witness`. -/
structure WitOk (P : Params) : Prop where
  lam : P.lambda = 128 ∨ P.lambda = 192 ∨ P.lambda = 256
  l : P.l < 65536
  r : 1 ≤ P.R ∧ P.R ≤ 14
  nwd : P.Nwd ≤ 8
  ske : P.Ske ≤ 256
  bw : (witnessShape P).1 = 4 ∨ (witnessShape P).1 = 6 ∨ (witnessShape P).1 = 8
  beta : (witnessShape P).2 ≤ 2

theorem witOk (i : ParamId) : WitOk (params i) := by
  cases i <;> exact ⟨by decide, by decide, by decide, by decide, by decide, by decide, by decide⟩

theorem schedule_run {P : Params} {s : Nat} {rk key : Mem Byte} {z : Bool} {p : CPtr} {δ : Type} {Q : δ → Blocks → Prop}
    {g : Unit → CM δ} (hv : View F p key)
    (h : witnessSchedule P (witnessShape P).1 key = some (rk, z)) (k : T (bl kd s rk + F) (g ()) Q) :
    T (bl kd s (malloc 480 : Mem Byte) + F) ((if P.lambda = 256 then (do
      let _ : Unit ← (
        if (witnessShape P).1 = 8 then (do
          let _ ← Gen.rijndael256_init_round_keys (some ⟨s, 0⟩) p
          pure ())
        else (do
          let _ ← Gen.aes256_init_round_keys (some ⟨s, 0⟩) p
          pure ()))
      pure ())
    else (if P.lambda = 192 then (do
      let _ : Unit ← (
        if (witnessShape P).1 = 6 then (do
          let _ ← Gen.rijndael192_init_round_keys (some ⟨s, 0⟩) p
          pure ())
        else (do
          let _ ← Gen.aes192_init_round_keys (some ⟨s, 0⟩) p
          pure ()))
      pure ())
    else (do
      let _ ← Gen.aes128_init_round_keys (some ⟨s, 0⟩) p
      pure ()))) >>= g) Q := by
  unfold witnessSchedule at h
  refine t_run (E := bl kd s rk + F) (b := ()) rfl ?_ k
  by_cases h1 : P.lambda = 256
  · rw [if_pos h1] at h ⊢
    by_cases h2 : (witnessShape P).1 = 8
    · rw [if_pos h2] at h ⊢
      exact t_assoc (t_run rfl (rijndael256_init_run hv h) (t_pbind (t_pure ⟨rfl, rfl⟩)))
    · rw [if_neg h2] at h ⊢
      exact t_assoc (t_run rfl (aes256_init_run hv h) (t_pbind (t_pure ⟨rfl, rfl⟩)))
  rw [if_neg h1] at h ⊢
  by_cases h1 : P.lambda = 192
  · rw [if_pos h1] at h ⊢
    by_cases h2 : (witnessShape P).1 = 6
    · rw [if_pos h2] at h ⊢
      exact t_assoc (t_run rfl (rijndael192_init_run hv h) (t_pbind (t_pure ⟨rfl, rfl⟩)))
    · rw [if_neg h2] at h ⊢
      exact t_assoc (t_run rfl (aes192_init_run hv h) (t_pbind (t_pure ⟨rfl, rfl⟩)))
  rw [if_neg h1] at h ⊢
  exact t_run rfl (aes128_init_run hv h) (t_pure ⟨rfl, rfl⟩)

theorem extend_witness_run {P : Params} {key inp w : Mem Byte} {p q : CPtr} (hP : WitOk P) (hk : View D p key) (hi : View D q inp)
    (h : aesExtendWitness key inp P = some w) :
    T D (Gen.aes_extend_witness p q P) (fun r D' => ∃ b, r = some ⟨b, 0⟩ ∧ D' = bl .heap b w + D) := by
  obtain ⟨hlam, hl, hR, hnwd, hske, hbw, hbeta⟩ := hP
  unfold aesExtendWitness at h
  inv h
  obtain ⟨⟨rk, z⟩, hrk, ⟨w0, pos⟩, hw0, ⟨w1, pos1⟩, hw1, rfl⟩ := h
  unfold Gen.aes_extend_witness
  refine t_alloc fun b => ?_
  refine t_run (b := witnessShape P) (E := _) rfl (?_ : Runs _ _ _ (bl .heap b (malloc ((P.l + 7) / 8) : Mem Byte) + D)) ?_
  · have e : ((P.l + 7) % 4294967296) / 8 = (P.l + 7) / 8 := by omega
    rw [e]
    unfold witnessShape
    generalize P.id = x
    rcases x with _ | x
    · simp; exact t_pure ⟨rfl, rfl⟩
    · cases x <;> simp <;> exact t_pure ⟨rfl, rfl⟩
  refine t_run (b := (if P.Lke = 0 then q else p, if P.Lke = 0 then p else q)) (E := _) rfl
    (?_ : Runs _ _ _ (bl .heap b (malloc ((P.l + 7) / 8) : Mem Byte) + D)) ?_
  · by_cases h0 : P.Lke = 0
    · simp [h0]; exact t_pure ⟨rfl, rfl⟩
    · simp [h0]; exact t_pure ⟨rfl, rfl⟩
  have hk' : View D (if P.Lke = 0 then q else p) (if P.Lke = 0 then inp else key) := by split <;> assumption
  have hi' : View D (if P.Lke = 0 then p else q) (if P.Lke = 0 then key else inp) := by split <;> assumption
  revert hk' hi' hrk hw0 hw1
  generalize (if P.Lke = 0 then q else p) = kp
  generalize (if P.Lke = 0 then p else q) = ip
  generalize (if P.Lke = 0 then inp else key) = κ
  generalize (if P.Lke = 0 then key else inp) = ι
  intro hrk hw0 hw1 hkv hiv
  refine t_alloc fun r => ?_
  refine schedule_run (View.there hkv) hrk ?_
  refine t_run (b := some ⟨b, pos⟩) (E := bl .stack r rk + (bl .heap b w0 + D)) rfl ?_ ?_
  · unfold witnessKey at hw0
    by_cases hke : P.Lke > 0
    · rw [if_pos hke] at hw0 ⊢
      inv hw0
      obtain ⟨⟨u, p1⟩, hu, ⟨v, p2, ik⟩, hv, hfin⟩ := hw0
      obtain ⟨g, g0, gn, hg⟩ := forN_seq hu
      obtain ⟨f, f0, fn, hf⟩ := forN_seq hv
      simp only [Prod.mk.injEq] at hfin
      obtain ⟨rfl, rfl⟩ := hfin
      refine t_while P.Nwd (fun i => (some ⟨b, (g i).2⟩, i)) (fun i => bl .heap b (g i).1 + (bl .stack r rk + D)) (by omega)
        (by rw [g0]) (by rw [g0]; hfind) (fun i hi => by simp; omega) (by simp) (fun i hi => ?_) ?_
      · have hb := hg i hi
        inv hb
        obtain ⟨wd, hwd, u', hu', hb⟩ := hb
        have e1 : rkIdx (i / 4) (i % 4) 0 = 0 + (32 * (i / 4) + 4 * (i % 4)) := by unfold rkIdx; omega
        rw [e1] at hwd
        refine t_memcpy rfl View.here (by decide) (rdN_at hwd) hu' (t_pure ⟨?_, by rw [← hb]⟩)
        rw [← hb]
        simp only [Prod.mk.injEq]
        exact ⟨rfl, by omega⟩
      rw [gn]
      have hik : ∀ j, j ≤ P.Ske / 4 → (f j).2.2 ≤ P.Nwd + 6 * j := by
        intro j
        induction j with
        | zero => intro _; rw [f0]; simp
        | succ j ih =>
          intro hj
          have hb := hf j (by omega)
          inv hb
          obtain ⟨wd, hwd, u', hu', hb⟩ := hb
          rw [← hb]
          have := ih (by omega)
          simp only
          split <;> omega
      refine t_while (P.Ske / 4) (fun j => (some ⟨b, (f j).2.1⟩, j, (f j).2.2)) (fun i => bl .heap b (f i).1 + (bl .stack r rk + D)) (by omega)
        (by rw [f0]) (by rw [f0]) (fun i hi => by simp; omega) (by simp) (fun i hi => ?_) ?_
      · have hb := hf i hi
        have hik' := hik i (by omega)
        inv hb
        obtain ⟨wd, hwd, u', hu', hb⟩ := hb
        have e1 : rkIdx ((f i).2.2 / 4) ((f i).2.2 % 4) 0 = 0 + (32 * ((f i).2.2 / 4) + 4 * ((f i).2.2 % 4)) := by
          unfold rkIdx; omega
        rw [e1] at hwd
        refine t_memcpy rfl View.here (by decide) (rdN_at hwd) hu' (t_pure ⟨?_, by rw [← hb]⟩)
        rw [← hb]
        simp only [Prod.mk.injEq]
        refine ⟨rfl, by omega, ?_⟩
        split <;> omega
      rw [fn]
      exact t_pure ⟨rfl, by hfind⟩
    · rw [if_neg hke] at hw0 ⊢
      inv hw0
      obtain ⟨wd, hwd, u, hu, hfin⟩ := hw0
      simp only [Prod.mk.injEq] at hfin
      obtain ⟨rfl, rfl⟩ := hfin
      refine t_memcpy (by hfind1) (View.there hiv) (by omega) hwd hu (t_pure ⟨?_, by hfind⟩)
      simp [padd]
  obtain ⟨g, g0, gn, hg⟩ := forN_seq hw1
  refine t_while (witnessShape P).2 (fun i => (padd ip (4 * (witnessShape P).1 * i), some ⟨b, (g i).2⟩, i))
    (fun i => bl .heap b (g i).1 + (bl .stack r rk + D)) (by omega)
    (by rw [g0]; simp [padd_zero]) (by rw [g0]; hfind) (fun i hi => by simp; omega) (by simp) (fun i hi => ?_) ?_
  · have hb := hg i hi
    unfold witnessBlock at hb
    inv hb
    obtain ⟨s0, h0, s1, h1, ⟨s2, w2, p2⟩, h2, hb⟩ := hb
    rw [loadState_drop] at h0
    refine t_alloc fun t => ?_
    refine t_run rfl (load_state_run (View.there (View.there hiv.padd)) h0 (by omega)) ?_
    refine t_run rfl (add_round_key_run (View.there View.here0) h1 (by omega)) ?_
    obtain ⟨f, f0, fn, hf⟩ := forR_seq h2
    refine t_while (P.R - 1) (fun i => (some ⟨b, (f i).2.2⟩, 1 + i))
      (fun i => bl .stack t (f i).1 + (bl .heap b (f i).2.1 + (bl .stack r rk + D))) (by omega)
      (by rw [f0]) (by rw [f0]) (fun i hi => by simp; omega) (by simp; omega) (fun i hi => ?_) ?_
    · have hb := hf i hi
      unfold witnessRound at hb
      inv hb
      obtain ⟨⟨t1, z1⟩, e1, t2, e2, o, e3, w', e4, t3, e5, t4, e6, hb⟩ := hb
      refine t_run rfl (sub_bytes_run e1 (by omega)) ?_
      refine t_run rfl (shift_row_run e2 hbw) ?_
      refine t_run (by hfind1) (store_state_run View.here0 e3 e4 (by omega)) ?_
      refine t_run (by hfind1) (mix_column_run e5 (by omega)) ?_
      refine t_run rfl (add_round_key_run (by hview) e6 (by omega)) ?_
      refine t_pure ⟨?_, ?_⟩
      · rw [← hb]
        simp only [Prod.mk.injEq]
        refine ⟨?_, by omega⟩
        rw [Nat.mod_eq_of_lt (by omega)]
        rfl
      · rw [← hb]
    rw [fn]
    refine t_free (by hfind1) (t_pure ⟨?_, ?_⟩)
    · rw [← hb, padd_padd, Nat.mod_eq_of_lt (a := 4 * (witnessShape P).1) (by omega), Nat.mul_succ,
        Nat.mod_eq_of_lt (a := i + 1) (by omega)]
    · rw [← hb]
  rw [gn]
  exact t_free (by hfind1) (t_pure ⟨b, rfl, rfl⟩)

end

end Faest.C
