/-
faest_aes.c and vole.c, translated: `ChalDec`, the correction of `Q`, and the seeds of the hash contexts.
-/
import Verif.Proofs.Gen.FaCom

namespace Faest.C

section
variable {D F : Blocks} {kd kd' : Kind} {P : Params} {δ : Type} {Q : δ → Blocks → Prop} {n : Nat}

/-! ### The seed pointer of a hash context does not change -/

theorem zkUpdate_sd {z : ZkCtx n} {v : BF n} : (zkUpdate z v).sd = z.sd := rfl

theorem seq_inv {S α : Type} {N : Nat} {g : Nat → S} (φ : S → α) (h : ∀ i, i < N → φ (g (i + 1)) = φ (g i)) :
    ∀ i, i ≤ N → φ (g i) = φ (g 0) := by
  intro i
  induction i with
  | zero => intro _; rfl
  | succ i ih => intro hi; rw [h i (by omega), ih (by omega)]

theorem forN_inv {S α : Type} {N : Nat} {s s' : S} {f : Nat → S → Option S} (φ : S → α) (h : forN N s f = some s')
    (hf : ∀ i s s', f i s = some s' → φ s' = φ s) : φ s' = φ s := by
  obtain ⟨g, g0, gN, hg⟩ := forN_seq h
  rw [← gN, ← g0]
  exact seq_inv φ (fun i hi => hf i _ _ (hg i hi)) N (Nat.le_refl _)

theorem ksConstraints0_sd {w k : Mem Byte} {v vk : Mem (BF n)} {c c' : ZkCtx n × ZkCtx n}
    (h : ksConstraints0 P w v c = some (c', k, vk)) : (c'.1.sd, c'.2.sd) = (c.1.sd, c.2.sd) := by
  unfold ksConstraints0 at h
  inv h
  obtain ⟨_, -, _, -, _, -, _, -, ⟨cc, iw, rt⟩, h5, e⟩ := h
  obtain ⟨rfl, -, -⟩ : cc = c' ∧ _ ∧ _ := by simpa using e
  have := forN_inv (fun s : (ZkCtx n × ZkCtx n) × Nat × Bool => (s.1.1.sd, s.1.2.sd)) h5 (fun i s s' hs => by
    unfold ksConstr0Step at hs
    inv hs
    obtain ⟨_, -, _, -, _, -, _, -, x, hx, e⟩ := hs
    rw [← e]
    exact forN_inv (fun s : ZkCtx n × ZkCtx n => (s.1.sd, s.2.sd)) hx (fun i s s' hs => by
      inv hs
      obtain ⟨_, -, _, -, _, -, _, -, e⟩ := hs
      rw [← e]; rfl))
  exact this

theorem ksConstraints1_sd {d : Mem Byte} {v vk : Mem (BF n)} {c c' : ZkCtx n}
    (h : ksConstraints1 P v d c = some (c', vk)) : c'.sd = c.sd := by
  unfold ksConstraints1 at h
  inv h
  obtain ⟨_, -, _, -, _, -, ⟨cc, iw, rt⟩, h5, e⟩ := h
  obtain ⟨rfl, -⟩ : cc = c' ∧ _ := by simpa using e
  exact forN_inv (fun s : ZkCtx n × Nat × Bool => s.1.sd) h5 (fun i s s' hs => by
    unfold ksConstr1Step at hs
    inv hs
    obtain ⟨_, -, _, -, x, hx, e⟩ := hs
    rw [← e]
    exact forN_inv (fun s : ZkCtx n => s.sd) hx (fun i s s' hs => by
      inv hs
      obtain ⟨_, -, _, -, e⟩ := hs
      rw [← e]; rfl))

theorem hashLoop0_sd {N : Nat} {s vs sd vsd : Mem (BF n)} {c c' : ZkCtx n × ZkCtx n}
    (h : hashLoop0 N s vs sd vsd c = some c') : (c'.1.sd, c'.2.sd) = (c.1.sd, c.2.sd) := by
  unfold hashLoop0 at h
  exact forN_inv (fun s : ZkCtx n × ZkCtx n => (s.1.sd, s.2.sd)) h (fun i s s' hs => by
    inv hs
    obtain ⟨_, -, _, -, _, -, _, -, e⟩ := hs
    rw [← e]; rfl)

theorem hashLoop1_sd {N : Nat} {s vs : Mem (BF n)} {d2 : BF n} {c c' : ZkCtx n}
    (h : hashLoop1 N s vs d2 c = some c') : c'.sd = c.sd := by
  unfold hashLoop1 at h
  exact forN_inv (fun s : ZkCtx n => s.sd) h (fun i s s' hs => by
    inv hs
    obtain ⟨_, -, _, -, e⟩ := hs
    rw [← e]; rfl)

theorem encConstraints0_sd {inp out w k : Mem Byte} {v vk : Mem (BF n)} {ino oo wo vo : Nat} {c c' : ZkCtx n × ZkCtx n}
    (h : encConstraints0 P inp ino out oo w wo v vo k vk c = some c') : (c'.1.sd, c'.2.sd) = (c.1.sd, c.2.sd) := by
  unfold encConstraints0 at h
  inv h
  obtain ⟨_, -, _, -, _, -, _, -, h⟩ := h
  exact hashLoop0_sd h

theorem encConstraints1_sd {inp out d : Mem Byte} {v vk : Mem (BF n)} {ino oo vo : Nat} {c c' : ZkCtx n}
    (h : encConstraints1 P inp ino out oo v vo vk d c = some c') : c'.sd = c.sd := by
  unfold encConstraints1 at h
  inv h
  obtain ⟨_, -, _, -, _, -, h⟩ := h
  exact hashLoop1_sd h

theorem encConstraints0Snd_sd {inp out w k : Mem Byte} {v vk : Mem (BF n)} {c c' : ZkCtx n × ZkCtx n}
    (h : encConstraints0Snd P inp out w v k vk c = some c') : (c'.1.sd, c'.2.sd) = (c.1.sd, c.2.sd) := by
  unfold encConstraints0Snd at h
  split at h
  · exact encConstraints0_sd h
  · cases h; rfl

theorem encConstraints1Snd_sd {inp out d : Mem Byte} {v vk : Mem (BF n)} {c c' : ZkCtx n}
    (h : encConstraints1Snd P inp out v vk d c = some c') : c'.sd = c.sd := by
  unfold encConstraints1Snd at h
  split at h
  · exact encConstraints1_sd h
  · cases h; rfl

theorem emConstraints0_sd {out x w : Mem Byte} {v : Mem (BF n)} {c c' : ZkCtx n × ZkCtx n}
    (h : emConstraints0 P out x w v c = some c') : (c'.1.sd, c'.2.sd) = (c.1.sd, c.2.sd) := by
  unfold emConstraints0 at h
  inv h
  obtain ⟨_, -, _, -, _, -, _, -, _, -, h⟩ := h
  exact hashLoop0_sd h

theorem zkInit_sd {sd : Mem Byte} {z : ZkCtx n} (h : zkInit n sd = some z) : z.sd = sd := by
  unfold zkInit at h
  inv h
  obtain ⟨_, -, _, -, rfl⟩ := h
  rfl

theorem wrN_ofList {α : Type} {l l' : List α} (h : l'.length = l.length) : wrN (ofList l) 0 l' = some (ofList l') := by
  rw [wrN_W (by simp [ofList_length, h])]
  simp [W, ofList, h]

/-! ### `ChalDec` -/

/-- The parameters of the challenge. -/
structure ChalP (P : Params) : Prop where
  tau : P.tau = P.t0 + P.t1
  taul : P.tau ≤ 64
  k0 : P.k0 ≤ 12
  k1 : P.k1 ≤ 12

theorem mulb {a b A B : Nat} (h1 : a ≤ A) (h2 : b ≤ B) : a * b ≤ A * B := Nat.mul_le_mul h1 h2

theorem ChalDec_run {s i k0 t0 k1 t1 r : Nat} {ch m m' : Mem Byte} {pc : CPtr} (hv : View F pc ch)
    (h : chalDec ch i k0 t0 k1 t1 m = some (r, m')) (ht : t0 + t1 ≤ 64) (hk0 : k0 ≤ 12) (hk1 : k1 ≤ 12) (hi : i ≤ 64) :
    Runs (bl kd s m + F) (Gen.ChalDec pc i k0 t0 k1 t1 (some ⟨s, 0⟩)) r (bl kd s m' + F) := by
  unfold chalDec at h
  unfold Gen.ChalDec
  have ht' : (t0 + t1) % 4294967296 = t0 + t1 := Nat.mod_eq_of_lt (by omega)
  by_cases hc : i ≥ t0 + t1
  · rw [if_pos hc] at h
    obtain ⟨rfl, rfl⟩ : 0 = r ∧ m = m' := by simpa using h
    rw [if_pos (by omega)]
    exact t_pure ⟨rfl, rfl⟩
  rw [if_neg hc] at h
  rw [if_neg (by omega)]
  have b1 : i * k0 ≤ 64 * 12 := mulb hi hk0
  have b2 : (i + 1) * k0 ≤ 65 * 12 := mulb (by omega) hk0
  have b3 : t0 * k0 ≤ 64 * 12 := mulb (by omega) hk0
  have b4 : (i - t0) * k1 ≤ 64 * 12 := mulb (by omega) hk1
  have b5 : (i - t0 + 1) * k1 ≤ 65 * 12 := mulb (by omega) hk1
  have c1 : i * k0 ≤ (i + 1) * k0 := Nat.mul_le_mul_right _ (by omega)
  have c2 : (i - t0) * k1 ≤ (i - t0 + 1) * k1 := Nat.mul_le_mul_right _ (by omega)
  simp only at h
  refine t_run (b := (if i < t0 then i * k0 else t0 * k0 + (i - t0) * k1, if i < t0 then (i + 1) * k0 else t0 * k0 + (i - t0 + 1) * k1))
    (E := bl kd s m + F) rfl ?_ ?_
  · by_cases hl : i < t0
    · simp only [if_pos hl]
      nowrap
      exact t_pure ⟨rfl, rfl⟩
    · simp only [if_neg hl]
      have e1 : (i + 4294967296 - t0) % 4294967296 = i - t0 := subw32 (by omega) (by omega)
      rw [e1]
      nowrap
      exact t_pure ⟨rfl, rfl⟩
  simp only
  have hlo : (if i < t0 then i * k0 else t0 * k0 + (i - t0) * k1) ≤ (if i < t0 then (i + 1) * k0 else t0 * k0 + (i - t0 + 1) * k1) := by
    split_ifs <;> omega
  have hhi : (if i < t0 then (i + 1) * k0 else t0 * k0 + (i - t0 + 1) * k1) ≤ 2000 := by
    split_ifs <;> omega
  generalize (if i < t0 then i * k0 else t0 * k0 + (i - t0) * k1) = lo at *
  generalize (if i < t0 then (i + 1) * k0 else t0 * k0 + (i - t0 + 1) * k1) = hi' at *
  by_cases hd : hi' - lo = k0 ∨ hi' - lo = k1
  · rw [if_pos hd] at h
    inv h
    obtain ⟨o, ho, e⟩ := h
    obtain ⟨rfl, rfl⟩ : 1 = r ∧ o = m' := by simpa using e
    obtain ⟨g, g0, gN, hg⟩ := forR_seq ho
    rw [subw32 hlo (by omega)]
    refine t_assert (by simpa using hd) ?_
    refine t_while (hi' - lo) (fun i => lo + i) (fun i => bl kd s (g i) + F) (by omega) rfl (by rw [g0]) (fun i hi => by simp; omega)
      (by simp; omega) (fun j hj => ?_) ?_
    · have hb := hg j hj
      unfold ptrGetBit at hb
      inv hb
      obtain ⟨b, ⟨x, hx, rfl⟩, hw⟩ := hb
      nowrap
      refine t_ld (by hview) hx (t_st rfl (by rw [getBit_nat]; wrx hw) (t_pure ⟨?_, rfl⟩))
      first
        | omega
        | trivial
    · rw [gN]; exact t_pure ⟨rfl, rfl⟩
  · rw [if_neg hd] at h; cases h

/-! ### The correction of `Q` -/

/-- The number of columns before index `i`. -/
def colAt (P : Params) (i : Nat) : Nat := min i P.t0 * P.k0 + (i - P.t0) * P.k1

theorem colAt_succ (P : Params) (i : Nat) : colAt P (i + 1) = colAt P i + (if i < P.t0 then P.k0 else P.k1) := by
  unfold colAt
  split_ifs with h
  · rw [Nat.min_eq_left (by omega), Nat.min_eq_left (by omega), Nat.sub_eq_zero_of_le (by omega), Nat.sub_eq_zero_of_le (by omega)]
    rw [Nat.add_mul]; omega
  · rw [Nat.min_eq_right (by omega), Nat.min_eq_right (by omega), show i + 1 - P.t0 = (i - P.t0) + 1 by omega, Nat.add_mul]; omega

theorem colAt_mono (P : Params) {i j : Nat} (h : i ≤ j) : colAt P i ≤ colAt P j := by
  induction j with
  | zero => rw [Nat.le_zero.1 h]
  | succ j ih =>
    by_cases hj : i = j + 1
    · rw [hj]
    · have := ih (by omega)
      rw [colAt_succ]; omega

theorem colAt_end {P : Params} (h : P.tau = P.t0 + P.t1) : colAt P P.tau = P.t0 * P.k0 + P.t1 * P.k1 := by
  unfold colAt
  rw [h, Nat.min_eq_right (by omega), Nat.add_sub_cancel_left]

theorem t_correctQ {sq stride cnt nb : Nat} {d ch Qm Qm' : Mem Byte} {pd pc pQ : CPtr} {g : Nat × Nat → CM δ} (hP : ChalP P)
    (hcnt : P.t0 * P.k0 + P.t1 * P.k1 ≤ cnt) (hcl : cnt ≤ 256) (hnb : nb < 65536) (hD : D = bl kd sq Qm + F)
    (hd : View F pd d) (hc : View F pc ch) (hQ : Cols F pQ (some ⟨sq, 0⟩) stride cnt)
    (h : Flat.correctQ P d ch nb Qm stride = some Qm') (k : ∀ r, T (bl kd sq Qm' + F) (g r) Q) :
    T D (cwhile
      (fun _s1 => decide (_s1.1 < P.tau))
      (fun _s1 => do
        let decoded_challenge ← alloc .stack (malloc 12 : Mem Byte)
        let _ ← Gen.ChalDec pc _s1.1 P.k0 P.t0 P.k1 P.t1 decoded_challenge
        let e3 : Nat × Nat ← cwhile
            (fun _s2 => decide (_s2.2 < (if _s1.1 < P.t0 then P.k0 else P.k1)))
            (fun _s2 => do
              let e4 : Byte ← ld decoded_challenge _s2.2
              let _ : Unit ← (
                if e4.toNat = 1 then (do
                  let e6 : CPtr ← ld pQ _s2.1
                  let e7 : CPtr ← ld pQ _s2.1
                  Gen.xor_u8_array pd e6 e7 nb
                  pure ())
                else (do
                  pure ()))
              pure ((_s2.1 + 1) % 4294967296, (_s2.2 + 1) % 4294967296))
            (_s1.2, 0)
        cfree .stack decoded_challenge
        pure ((_s1.1 + 1) % 4294967296, e3.1))
      (0, 0) >>= g) Q := by
  unfold Flat.correctQ at h
  inv h
  obtain ⟨⟨Q1, col⟩, h, rfl⟩ := h
  obtain ⟨f, f0, fN, hf⟩ := forN_seq h
  obtain ⟨μ, hμ, hμc⟩ := hQ
  have hcol : ∀ i, i ≤ P.tau → (f i).2 = colAt P i := by
    intro i
    induction i with
    | zero => intro _; rw [f0]; simp [colAt]
    | succ i ih =>
      intro hi
      have hb := hf i (by omega)
      inv hb
      obtain ⟨⟨_, dec⟩, -, hb⟩ := hb
      obtain ⟨u, u0, uN, hu⟩ := forN_seq hb
      have : ∀ j, j ≤ (if i < P.t0 then P.k0 else P.k1) → (u j).2 = (f i).2 + j := by
        intro j
        induction j with
        | zero => intro _; rw [u0]; rfl
        | succ j ihj =>
          intro hj
          have hb := hu j (by omega)
          inv hb
          obtain ⟨b, -, hb⟩ := hb
          split at hb
          · inv hb
            obtain ⟨_, -, _, -, _, -, e⟩ := hb
            rw [← e]; simp only; rw [ihj (by omega)]; omega
          · inv hb
            rw [← hb]; simp only; rw [ihj (by omega)]; omega
      have := this _ (Nat.le_refl _)
      rw [uN] at this
      rw [this, ih (by omega), colAt_succ]
  have hcole : ∀ i, i ≤ P.tau → colAt P i ≤ cnt := fun i hi => by
    have h1 := colAt_mono P hi
    rw [colAt_end hP.tau] at h1
    omega
  refine t_while P.tau (fun i => (i, (f i).2)) (fun i => bl kd sq (f i).1 + F) (by have := hP.taul; omega) (by rw [f0])
    (by rw [f0]; exact hD) (fun i hi => by simpa using hi) (by simp) (fun i hi => ?_) ?_
  · have hb := hf i hi
    have hci := hcol i (by omega)
    have hce := hcole (i + 1) (by omega)
    have hcs := colAt_succ P i
    have htl := hP.taul
    have hd12 : (if i < P.t0 then P.k0 else P.k1) ≤ 12 := by
      have := hP.k0; have := hP.k1; split_ifs <;> omega
    inv hb
    obtain ⟨⟨r, dec⟩, hdec, hb⟩ := hb
    obtain ⟨u, u0, uN, hu⟩ := forN_seq hb
    have hucol : ∀ j, j ≤ (if i < P.t0 then P.k0 else P.k1) → (u j).2 = (f i).2 + j := by
      intro j
      induction j with
      | zero => intro _; rw [u0]; rfl
      | succ j ihj =>
        intro hj
        have hb := hu j (by omega)
        inv hb
        obtain ⟨b, -, hb⟩ := hb
        split at hb
        · inv hb
          obtain ⟨_, -, _, -, _, -, e⟩ := hb
          rw [← e]; simp only; rw [ihj (by omega)]; omega
        · inv hb
          rw [← hb]; simp only; rw [ihj (by omega)]; omega
    refine t_alloc fun t => ?_
    refine t_run rfl (ChalDec_run (F := bl kd sq (f i).1 + F) (by hview) hdec (by have := hP.tau; omega) hP.k0 hP.k1 (by omega)) ?_
    simp only
    simp only at hb hu hucol uN hd12 hcs
    generalize (if i < P.t0 then P.k0 else P.k1) = depth at *
    refine t_while depth (fun j => ((u j).2, j)) (fun j => bl .stack t dec + (bl kd sq (u j).1 + F)) (by omega) (by rw [u0])
      (by rw [u0]) (fun j hj => by simpa using hj) (by simp) (fun j hj => ?_) ?_
    · have hb := hu j hj
      have hc1 := hucol j (by omega)
      have hc2 := hucol (j + 1) (by omega)
      inv hb
      obtain ⟨b, hbr, hb⟩ := hb
      refine t_ld (by hview) hbr ?_
      refine t_run (b := ()) (E := bl .stack t dec + (bl kd sq (u (j + 1)).1 + F)) rfl ?_ ?_
      · by_cases h1 : b = 1
        · rw [if_pos h1] at hb
          rw [if_pos ((byte_one b).2 h1)]
          inv hb
          obtain ⟨col, hpc, x, hx, Qn, hQn, e⟩ := hb
          have hp := hμc (u j).2 (by omega)
          refine t_ld (by hview) hp (t_ld (by hview) hp ?_)
          have e2 : padd (some ⟨sq, 0⟩) ((u j).2 * stride) = some ⟨sq, (u j).2 * stride⟩ := by
            simp [padd]
          rw [e2]
          have hcd : col = (u j).1.drop ((u j).2 * stride) := by
            unfold ptr at hpc
            split at hpc
            · injection hpc with e; exact e.symm
            · cases hpc
          refine t_run (by hfind1) (xor_run (F := bl .stack t dec + F) (Or.inl (by hview)) (Or.inr ⟨_, rfl, by rw [hcd]; exact Le.rfl, Or.inl (Nat.le_refl _)⟩) hx hQn (by omega)) ?_
          refine t_pure ⟨rfl, ?_⟩
          rw [← e]
          hfind
        · rw [if_neg h1] at hb
          rw [if_neg (fun h => h1 ((byte_one b).1 h))]
          inv hb
          rw [← hb]
          exact t_pure ⟨rfl, rfl⟩
      · nowrap
        refine t_pure ⟨?_, rfl⟩
        rw [hc2, hc1]; rfl
    · rw [uN]
      nowrap
      exact t_free rfl (t_pure ⟨rfl, rfl⟩)
  · rw [fN]; exact k _

end

end Faest.C
