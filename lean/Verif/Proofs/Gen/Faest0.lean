/-
The translated faest.c: positions in the signature, hashes, arrays of columns.
-/
import Verif.Proofs.Gen.FaTop
import Verif.Proofs.Gen.Vole
import Verif.Model.Gen.Faest

set_option linter.unusedVariables false

namespace Faest.C

section
variable {D E F : Blocks} {δ : Type} {Q : δ → Blocks → Prop} {kd : Kind}

/-! ### Positions -/

theorem sig_iv (id : ParamId) (b o : Nat) :
    Gen.signature_iv (some ⟨b, o⟩) (params id) = pure (some ⟨b, o + offIv (params id)⟩) := by
  cases id <;> simp [Gen.signature_iv, psub, padd, offIv, params, IV_SIZE]

theorem sig_chall_3 (id : ParamId) (b o : Nat) :
    Gen.signature_chall_3 (some ⟨b, o⟩) (params id) = pure (some ⟨b, o + offChall3 (params id)⟩) := by
  cases id <;> simp [Gen.signature_chall_3, psub, padd, offChall3, params, IV_SIZE]

theorem isub_pure {a b : Nat} (h : b ≤ a) : isub a b = pure (a - b) := by
  unfold isub
  rw [if_pos h]
  rfl

/-- Bounds on the parameters. -/
structure SizeP (P : Params) : Prop where
  lam : LamOk P.lambda
  l : 0 < P.l ∧ P.l ≤ 8192 ∧ P.l % 8 = 0
  tau : 1 ≤ P.tau ∧ P.tau ≤ 32
  k0 : 1 ≤ P.k0 ∧ P.k0 ≤ 12
  k1 : 1 ≤ P.k1 ∧ P.k1 ≤ 12
  t : P.t0 + P.t1 = P.tau
  pk : 0 < P.pkSize / 2 ∧ P.pkSize ≤ 64

theorem sizeP (id : ParamId) : SizeP (params id) := by
  cases id <;> exact ⟨by unfold LamOk; decide, by decide, by decide, by decide, by decide, by decide, by decide⟩

theorem SizeP.lb {P : Params} (h : SizeP P) : 16 ≤ P.lambda / 8 ∧ P.lambda / 8 ≤ 32 ∧ P.lambda / 8 * 8 = P.lambda := by
  rcases h.lam with hl | hl | hl <;> rw [hl] <;> decide

theorem sig_c (id : ParamId) (b o : Nat) {i : Nat} (hi : i ≤ 32) :
    Gen.signature_c (some ⟨b, o⟩) i (params id) = pure (some ⟨b, o + offC (params id) i⟩) := by
  have hs := sizeP id
  generalize params id = P at *
  have h1 := hs.lb
  have h2 := hs.l
  unfold Gen.signature_c
  have w1 : (P.l / 8 + 2 * (P.lambda / 8) % 18446744073709551616) % 18446744073709551616 + 2 = P.l / 8 + 2 * (P.lambda / 8) + 2 := by
    omega
  have hb : P.l / 8 + 2 * (P.lambda / 8) + 2 ≤ 2048 := by omega
  have w2 := Nat.mul_le_mul hi hb
  simp only [w1]
  rw [Nat.mod_eq_of_lt (by omega : P.l / 8 + 2 * (P.lambda / 8) + 2 < _), Nat.mod_eq_of_lt (by omega)]
  rfl

theorem base_w {P : Params} (hs : SizeP P) :
    ((P.tau - 1) * (((P.l / 8 + 2 * (P.lambda / 8) % 18446744073709551616) % 18446744073709551616 + 2) % 18446744073709551616)) % 18446744073709551616
      = (P.tau - 1) * P.ellHatBytesSig ∧ (P.lambda / 8 + 2) % 18446744073709551616 = P.lambda / 8 + 2 ∧ (P.tau - 1) * P.ellHatBytesSig ≤ 65536 := by
  have h1 := hs.lb
  have h2 := hs.l
  have h3 := hs.tau
  have w1 : (P.l / 8 + 2 * (P.lambda / 8) % 18446744073709551616) % 18446744073709551616 + 2 = P.l / 8 + 2 * (P.lambda / 8) + 2 := by
    omega
  have hb : P.l / 8 + 2 * (P.lambda / 8) + 2 ≤ 2048 := by omega
  have w2 := Nat.mul_le_mul (by omega : P.tau - 1 ≤ 32) hb
  simp only [w1]
  rw [Nat.mod_eq_of_lt (by omega : P.l / 8 + 2 * (P.lambda / 8) + 2 < _), Nat.mod_eq_of_lt (by omega)]
  exact ⟨rfl, by omega, w2⟩

theorem sig_u_tilde (id : ParamId) (b o : Nat) :
    Gen.signature_u_tilde (some ⟨b, o⟩) (params id) = pure (some ⟨b, o + offUTilde (params id)⟩) := by
  have hs := sizeP id
  generalize params id = P at *
  obtain ⟨w1, w2, -⟩ := base_w hs
  unfold Gen.signature_u_tilde
  simp only [isub_pure hs.tau.1, pure_bind, w1]
  rfl

theorem sig_d (id : ParamId) (b o : Nat) :
    Gen.signature_d (some ⟨b, o⟩) (params id) = pure (some ⟨b, o + offD (params id)⟩) := by
  have hs := sizeP id
  generalize params id = P at *
  obtain ⟨w1, w2, -⟩ := base_w hs
  unfold Gen.signature_d
  simp only [isub_pure hs.tau.1, pure_bind, w1, w2, padd_padd]
  rfl

theorem sig_a_tilde (id : ParamId) (b o : Nat) :
    Gen.signature_a_tilde (some ⟨b, o⟩) (params id) = pure (some ⟨b, o + offATilde (params id)⟩) := by
  have hs := sizeP id
  generalize params id = P at *
  obtain ⟨w1, w2, -⟩ := base_w hs
  unfold Gen.signature_a_tilde
  simp only [isub_pure hs.tau.1, pure_bind, w1, w2, padd_padd]
  rfl

theorem sig_pdec (id : ParamId) (b o : Nat) {i : Nat} (hi : i < (params id).tau) :
    Gen.signature_pdec (some ⟨b, o⟩) i (params id) = pure (some ⟨b, o + offPdec (params id) i⟩) := by
  have hs := sizeP id
  generalize params id = P at *
  obtain ⟨w1, w2, w3⟩ := base_w hs
  have h1 := hs.lb
  have h2 := hs.l
  have h3 := hs.tau
  have h4 := hs.t
  have h5 := hs.k0
  have h6 := hs.k1
  unfold Gen.signature_pdec offPdec
  simp only [isub_pure hs.tau.1, pure_bind, w1, w2, padd_padd]
  generalize (P.tau - 1) * P.ellHatBytesSig = z at *
  have m1 : P.t0 * (P.k0 + 2) ≤ 32 * 14 := Nat.mul_le_mul (by omega) (by omega)
  have w4 : (((z + (P.lambda / 8 + 2)) % 18446744073709551616 + P.l / 8) % 18446744073709551616 + P.lambda / 8) % 18446744073709551616
      = z + (P.lambda / 8 + 2) + P.l / 8 + P.lambda / 8 := by omega
  simp only [w4, padd, Option.map_some]
  by_cases hc : i < P.t0
  · have m2 : i * (P.k0 + 2) ≤ 32 * 14 := Nat.mul_le_mul (by omega) (by omega)
    have m3 := Nat.mul_le_mul m2 h1.2.1
    rw [if_pos hc, if_pos hc, Nat.mod_eq_of_lt (by omega : i * (P.k0 + 2) < _), Nat.mod_eq_of_lt (by omega)]
    rfl
  · have m2 : (i - P.t0) * (P.k1 + 2) ≤ 32 * 14 := Nat.mul_le_mul (by omega) (by omega)
    have w5 : (i + 4294967296 - P.t0) % 4294967296 = i - P.t0 := by omega
    have m3 := Nat.mul_le_mul (by omega : (i - P.t0) * (P.k1 + 2) + P.t0 * (P.k0 + 2) ≤ 896) h1.2.1
    rw [if_neg hc, if_neg hc, w5, Nat.mod_eq_of_lt (by omega : (i - P.t0) * (P.k1 + 2) < _),
      Nat.mod_eq_of_lt (by omega : P.t0 * (P.k0 + 2) < _), Nat.mod_eq_of_lt (by omega : (i - P.t0) * (P.k1 + 2) + P.t0 * (P.k0 + 2) < _),
      Nat.mod_eq_of_lt (by omega)]
    rfl

theorem sig_com (id : ParamId) (b o : Nat) {i : Nat} (hi : i < (params id).tau) :
    Gen.signature_com (some ⟨b, o⟩) i (params id) = pure (some ⟨b, o + offCom (params id) i⟩) := by
  have hs := sizeP id
  generalize params id = P at *
  obtain ⟨w1, w2, w3⟩ := base_w hs
  have h1 := hs.lb
  have h2 := hs.l
  have h3 := hs.tau
  have h4 := hs.t
  have h5 := hs.k0
  have h6 := hs.k1
  unfold Gen.signature_com offCom
  simp only [isub_pure hs.tau.1, pure_bind, w1, w2, padd_padd]
  generalize (P.tau - 1) * P.ellHatBytesSig = z at *
  have m1 : P.t0 * (P.k0 + 2) ≤ 32 * 14 := Nat.mul_le_mul (by omega) (by omega)
  have w4 : (((z + (P.lambda / 8 + 2)) % 18446744073709551616 + P.l / 8) % 18446744073709551616 + P.lambda / 8) % 18446744073709551616
      = z + (P.lambda / 8 + 2) + P.l / 8 + P.lambda / 8 := by omega
  simp only [w4, padd, Option.map_some]
  by_cases hc : i < P.t0
  · have m2 : i * (P.k0 + 2) ≤ 32 * 14 := Nat.mul_le_mul (by omega) (by omega)
    have m3 := Nat.mul_le_mul (by omega : i * (P.k0 + 2) + P.k0 ≤ 512) h1.2.1
    rw [if_pos hc, if_pos hc, Nat.mod_eq_of_lt (by omega : i * (P.k0 + 2) < _), Nat.mod_eq_of_lt (by omega : i * (P.k0 + 2) + P.k0 < _),
      Nat.mod_eq_of_lt (by omega)]
    rfl
  · have m2 : (i - P.t0) * (P.k1 + 2) ≤ 32 * 14 := Nat.mul_le_mul (by omega) (by omega)
    have w5 : (i + 4294967296 - P.t0) % 4294967296 = i - P.t0 := by omega
    have m3 := Nat.mul_le_mul (by omega : (i - P.t0) * (P.k1 + 2) + P.k1 + P.t0 * (P.k0 + 2) ≤ 1024) h1.2.1
    rw [if_neg hc, if_neg hc, w5, Nat.mod_eq_of_lt (by omega : (i - P.t0) * (P.k1 + 2) < _),
      Nat.mod_eq_of_lt (by omega : (i - P.t0) * (P.k1 + 2) + P.k1 < _),
      Nat.mod_eq_of_lt (by omega : P.t0 * (P.k0 + 2) < _), Nat.mod_eq_of_lt (by omega : (i - P.t0) * (P.k1 + 2) + P.k1 + P.t0 * (P.k0 + 2) < _),
      Nat.mod_eq_of_lt (by omega)]
    rfl

theorem dsig_iv (id : ParamId) (b o : Nat) :
    Gen.dsignature_iv (some ⟨b, o⟩) (params id) = pure (some ⟨b, o + dOffIv (params id)⟩) := sig_iv id b o
theorem dsig_chall_3 (id : ParamId) (b o : Nat) :
    Gen.dsignature_chall_3 (some ⟨b, o⟩) (params id) = pure (some ⟨b, o + dOffChall3 (params id)⟩) := sig_chall_3 id b o
theorem dsig_c (id : ParamId) (b o : Nat) {i : Nat} (hi : i ≤ 32) :
    Gen.dsignature_c (some ⟨b, o⟩) i (params id) = pure (some ⟨b, o + dOffC (params id) i⟩) := sig_c id b o hi
theorem dsig_u_tilde (id : ParamId) (b o : Nat) :
    Gen.dsignature_u_tilde (some ⟨b, o⟩) (params id) = pure (some ⟨b, o + dOffUTilde (params id)⟩) := sig_u_tilde id b o
theorem dsig_d (id : ParamId) (b o : Nat) :
    Gen.dsignature_d (some ⟨b, o⟩) (params id) = pure (some ⟨b, o + dOffD (params id)⟩) := sig_d id b o
theorem dsig_a_tilde (id : ParamId) (b o : Nat) :
    Gen.dsignature_a_tilde (some ⟨b, o⟩) (params id) = pure (some ⟨b, o + dOffATilde (params id)⟩) := sig_a_tilde id b o
theorem dsig_pdec (id : ParamId) (b o : Nat) {i : Nat} (hi : i < (params id).tau) :
    Gen.dsignature_pdec (some ⟨b, o⟩) i (params id) = pure (some ⟨b, o + dOffPdec (params id) i⟩) := sig_pdec id b o hi
theorem dsig_com (id : ParamId) (b o : Nat) {i : Nat} (hi : i < (params id).tau) :
    Gen.dsignature_com (some ⟨b, o⟩) i (params id) = pure (some ⟨b, o + dOffCom (params id) i⟩) := sig_com id b o hi

theorem voleP (id : ParamId) : VoleP (params id) (params id).lambda := by
  have h := chalP_params id
  cases id <;> exact ⟨h, by unfold LamOk; decide, by decide, by decide, by decide⟩

/-! ### Hashes -/

theorem hash_mu_run {I : HImpl} {X : XOF} (S : HSpec I X) {s n len lam : Nat} {inp out : Mem Byte} {a b c : List Byte} {m m' : Mem Byte} {pi po pm : CPtr}
    (hi : View F pi inp) (ho : View F po out) (hm : RdAt F pm len c) (hn : 0 < n) (hl : lam ≤ 256)
    (ha : rdN inp 0 n = some a) (hb : rdN out 0 n = some b) (hw : wrN m 0 (hashMu X a b c lam) = some m') (hf : S.fits lam (n + n) len) (hn2 : n ≤ 1000) :
    Runs (bl kd s m + F) (Gen.hash_mu I (some ⟨s, 0⟩) pi po n pm len lam) () (bl kd s m' + F) := by
  unfold Gen.hash_mu
  refine t_hnew S fun c0 D0 hr0 => t_hinit1 S hr0 fun h => ?_
  refine t_hupd1 S hi.there hn ha (by omega) (t_hupd1 S ho.there hn hb (by omega) ?_)
  refine t_hupdF1 S hm.there ?_ ?_
  · rw [List.nil_append, List.length_append, rdN_length ha, rdN_length hb]
    exact hf
  rw [Nat.mod_eq_of_lt (by omega)]
  exact t_H1_final S rfl hw (by omega) fun c1 D1 hr1 => t_hdrop S hr1 (t_pure ⟨rfl, rfl⟩)

theorem hash_1_run {I : HImpl} {X : XOF} (S : HSpec I X) {s lam ell tau : Nat} {mu hcom c iv : List Byte} {m m' : Mem Byte} {pm ph pc pi : CPtr}
    (hm : RdAt F pm (lam / 8 * 2) mu) (hh : RdAt F ph (lam / 8 * 2) hcom)
    (hc : RdAt F pc ((ell / 8 + lam / 8 * 2 + 2) * (tau - 1)) c) (hi : RdAt F pi 16 iv)
    (hl : lam ≤ 256) (he : ell ≤ 8192) (ht : 1 ≤ tau ∧ tau ≤ 32)
    (hw : wrN m 0 (hashChallenge1 X mu hcom c iv lam) = some m') :
    Runs (bl kd s m + F) (Gen.hash_challenge_1 I (some ⟨s, 0⟩) pm ph pc pi lam ell tau) () (bl kd s m' + F) := by
  unfold Gen.hash_challenge_1
  have w1 : lam / 8 * 2 % 4294967296 = lam / 8 * 2 := by omega
  have w2 : ((ell / 8 + lam / 8 * 2) % 4294967296 + 2) % 4294967296 = ell / 8 + lam / 8 * 2 + 2 := by omega
  have w3 : (tau + 4294967296 - 1) % 4294967296 = tau - 1 := by omega
  have w4 := Nat.mul_le_mul (by omega : ell / 8 + lam / 8 * 2 + 2 ≤ 2048) (by omega : tau - 1 ≤ 32)
  have w5 : (ell / 8 + lam / 8 * 2 + 2) * (tau - 1) % 4294967296 = (ell / 8 + lam / 8 * 2 + 2) * (tau - 1) :=
    Nat.mod_eq_of_lt (by omega)
  have w6 : (5 * (lam / 8) % 4294967296 + 8) % 4294967296 = 5 * (lam / 8) + 8 := by omega
  simp only [w1, w2, w3, w5, w6]
  refine t_hnew S fun c0 D0 hr0 => t_hinit2 S hr0 fun h => ?_
  refine t_hupdR2 S hm.there (by omega) (t_hupdR2 S hh.there (by omega) (t_hupdR2 S hc.there (by omega) (t_hupdR2 S hi.there (by omega) ?_)))
  exact t_H2_final S rfl hw (by omega) fun c1 D1 hr1 => t_hdrop S hr1 (t_pure ⟨rfl, rfl⟩)

theorem hash_2_run {I : HImpl} {X : XOF} (S : HSpec I X) {s lam ell : Nat} {c1 ut hv d : List Byte} {m m' : Mem Byte} {p1 pu ph pd : CPtr}
    (h1 : RdAt F p1 (5 * (lam / 8) + 8) c1) (hu : RdAt F pu (lam / 8 + 2) ut) (hh : RdAt F ph (2 * (lam / 8)) hv)
    (hd : RdAt F pd (ell / 8) d) (hl : lam ≤ 256) (he : ell ≤ 8192)
    (hw : wrN m 0 (hashChallenge2 X c1 ut hv d lam) = some m') :
    Runs (bl kd s m + F) (Gen.hash_challenge_2 I (some ⟨s, 0⟩) p1 pu ph pd lam ell) () (bl kd s m' + F) := by
  unfold Gen.hash_challenge_2
  have w1 : (5 * (lam / 8) % 4294967296 + 8) % 4294967296 = 5 * (lam / 8) + 8 := by omega
  have w2 : (lam / 8 + 2) % 4294967296 = lam / 8 + 2 := by omega
  have w3 : 2 * (lam / 8) % 4294967296 = 2 * (lam / 8) := by omega
  have w4 : (3 * (lam / 8) % 4294967296 + 8) % 4294967296 = 3 * (lam / 8) + 8 := by omega
  simp only [w1, w2, w3, w4]
  refine t_hnew S fun c0 D0 hr0 => t_hinit2 S hr0 fun h => ?_
  refine t_hupdR2 S h1.there (by omega) (t_hupdR2 S hu.there (by omega) (t_hupdR2 S hh.there (by omega) (t_hupdR2 S hd.there (by omega) ?_)))
  exact t_H2_final S rfl hw (by omega) fun c1 D1 hr1 => t_hdrop S hr1 (t_pure ⟨rfl, rfl⟩)

theorem hash_3_run {I : HImpl} {X : XOF} (S : HSpec I X) {s o lam : Nat} {c2 a b : List Byte} {m m' : Mem Byte} {p2 pa pb : CPtr}
    (h2 : RdAt (bl kd s m + F) p2 (3 * (lam / 8) + 8) c2) (ha : RdAt (bl kd s m + F) pa (lam / 8) a)
    (hb : RdAt (bl kd s m + F) pb (lam / 8) b) (hl : lam ≤ 256)
    (hw : wrN m o (hashChallenge3 X c2 a b lam) = some m') :
    Runs (bl kd s m + F) (Gen.hash_challenge_3 I (some ⟨s, o⟩) p2 pa pb lam) () (bl kd s m' + F) := by
  unfold Gen.hash_challenge_3
  have w4 : (3 * (lam / 8) % 4294967296 + 8) % 4294967296 = 3 * (lam / 8) + 8 := by omega
  simp only [w4]
  refine t_hnew S fun c0 D0 hr0 => t_hinit2 S hr0 fun h => ?_
  refine t_hupdR2 S h2 (by omega) (t_hupdR2 S ha (by omega) (t_hupdR2 S hb (by omega) ?_))
  exact t_H2_final S rfl hw (by omega) fun c1 D1 hr1 => t_hdrop S hr1 (t_pure ⟨rfl, rfl⟩)

/-! ### Arrays of columns -/

theorem t_cols {s n stride : Nat} {base : CPtr} {g : Nat → CM δ} (hn : 0 < n ∧ n ≤ 256) (hs : stride ≤ 65536)
    (k : ∀ μ : Mem CPtr, (∀ i, i < n → rd μ i = some (padd base (i * stride))) → T (bl kd s μ + F) (g n) Q) :
    T (bl kd s (malloc n : Mem CPtr) + F)
      (st (some ⟨s, 0⟩) 0 base >>= fun _ => cwhile (fun i : Nat => decide (i < n))
        (fun i => do
          let e13 : CPtr ← ld (some ⟨s, 0⟩) 0
          st (some ⟨s, 0⟩) i (padd e13 ((i * stride) % 4294967296))
          let i : Nat := (i + 1) % 4294967296
          pure i) 1 >>= g) Q := by
  let μ : Nat → Mem CPtr := fun j => (List.range n).map fun i => if i < j then some (padd base (i * stride)) else none
  have hμl : ∀ j, (μ j).length = n := fun j => by simp [μ]
  have hμr : ∀ j i, i < j → i < n → rd (μ j) i = some (padd base (i * stride)) := by
    intro j i hi hn
    simp [μ, rd, List.getElem?_range hn, hi]
  have hμw : ∀ j, j < n → wr (μ j) j (padd base (j * stride)) = some (μ (j + 1)) := by
    intro j hj
    unfold wr
    rw [if_pos (by rw [hμl]; exact hj)]
    congr 1
    refine List.ext_getElem? fun i => ?_
    rw [List.getElem?_set]
    by_cases hin : i < n
    · simp only [μ, List.getElem?_map, List.getElem?_range hin, Option.map_some, List.length_map, List.length_range]
      by_cases hij : j = i
      · subst hij
        rw [if_pos rfl, if_pos hin, if_pos (by omega)]
      · rw [if_neg hij]
        by_cases h2 : i < j
        · rw [if_pos h2, if_pos (by omega)]
        · rw [if_neg h2, if_neg (by omega)]
    · rw [if_neg (by omega), List.getElem?_eq_none (by rw [hμl]; omega), List.getElem?_eq_none (by rw [hμl]; omega)]
  have h0 : (malloc n : Mem CPtr) = μ 0 := by
    simp [μ, malloc]
  rw [h0]
  refine t_st (m' := μ 1) rfl (by have := hμw 0 hn.1; simpa [padd_zero] using this) ?_
  refine t_while (n - 1) (fun i => 1 + i) (fun i => bl kd s (μ (1 + i)) + F) (by omega) rfl rfl (fun i hi => by simp; omega)
    (by simp; omega) (fun i hi => ?_) ?_
  · refine t_ld View.here0 (hμr (1 + i) 0 (by omega) (by omega)) ?_
    have m1 := Nat.mul_le_mul (by omega : 1 + i ≤ 256) hs
    rw [Nat.zero_mul, padd_zero, Nat.mod_eq_of_lt (by omega : (1 + i) * stride < _), Nat.mod_eq_of_lt (by omega)]
    refine t_st (m' := μ (1 + i + 1)) rfl (by rw [Nat.zero_add]; exact hμw (1 + i) (by omega)) (t_pure ⟨by omega, ?_⟩)
    rw [show 1 + i + 1 = 1 + (i + 1) by omega]
  · rw [show 1 + (n - 1) = n by omega]
    exact k (μ n) fun i hi => hμr n i hi hi

/-! ### A destination behind a prefix -/

theorem wrN_pre {pre m m' : Mem Byte} {o : Nat} {l : List Byte} (h : wrN m o l = some m') :
    wrN (pre ++ m) (pre.length + o) l = some (pre ++ m') := by
  unfold wrN at h ⊢
  by_cases hc : o + l.length ≤ m.length
  · rw [if_pos hc] at h
    cases h
    rw [if_pos (by rw [List.length_append]; omega), List.take_append, List.drop_append, List.take_of_length_le (by omega),
      List.drop_eq_nil_of_le (by omega)]
    rw [show pre.length + o - pre.length = o by omega, show pre.length + o + l.length - pre.length = o + l.length by omega]
    simp
  · rw [if_neg hc] at h
    cases h

theorem forN_map {S S' : Type} (φ : S → S') {f : Nat → S → Option S} {f' : Nat → S' → Option S'}
    (hf : ∀ i t t', f i t = some t' → f' i (φ t) = some (φ t')) :
    ∀ {N : Nat} {s s' : S}, forN N s f = some s' → forN N (φ s) f' = some (φ s')
  | 0, s, s', h => by cases h; rfl
  | N + 1, s, s', h => by
    obtain ⟨t, ht, h⟩ := Option.bind_eq_some_iff.1 h
    exact Option.bind_eq_some_iff.2 ⟨φ t, forN_map φ hf ht, hf _ _ _ h⟩

theorem voleCommit_pre {X : XOF} {root dst dst' mu mv : Mem Byte} {iv : List Byte} {ellhat offC : Nat} {P : Params}
    {vc : Flat.VoleCom} (pre : Mem Byte) (h : Flat.voleCommit X root iv ellhat P dst offC mu mv = some (vc, dst')) :
    Flat.voleCommit X root iv ellhat P (pre ++ dst) (pre.length + offC) mu mv = some (vc, pre ++ dst') := by
  unfold Flat.voleCommit at h ⊢
  obtain ⟨x1, h1, h⟩ := Option.bind_eq_some_iff.1 h
  obtain ⟨x2, h2, h⟩ := Option.bind_eq_some_iff.1 h
  obtain ⟨x3, h3, h⟩ := Option.bind_eq_some_iff.1 h
  obtain ⟨x4, h4, h⟩ := Option.bind_eq_some_iff.1 h
  obtain ⟨x5, h5, h⟩ := Option.bind_eq_some_iff.1 h
  obtain ⟨x6, h6, h⟩ := Option.bind_eq_some_iff.1 h
  obtain ⟨x7, h7, h⟩ := Option.bind_eq_some_iff.1 h
  obtain ⟨rfl, rfl⟩ : _ = vc ∧ x7 = dst' := by simpa using h
  refine Option.bind_eq_some_iff.2 ⟨x1, h1, Option.bind_eq_some_iff.2 ⟨x2, h2, Option.bind_eq_some_iff.2 ⟨x3, h3,
    Option.bind_eq_some_iff.2 ⟨x4, h4, Option.bind_eq_some_iff.2 ⟨x5, h5, Option.bind_eq_some_iff.2 ⟨x6, h6,
    Option.bind_eq_some_iff.2 ⟨pre ++ x7, ?_, rfl⟩⟩⟩⟩⟩⟩⟩
  refine forN_map (pre ++ ·) (fun i t t' h => ?_) h7
  obtain ⟨p, hp, h⟩ := Option.bind_eq_some_iff.1 h
  obtain ⟨x, hx, h⟩ := Option.bind_eq_some_iff.1 h
  refine Option.bind_eq_some_iff.2 ⟨p, hp, Option.bind_eq_some_iff.2 ⟨x, hx, ?_⟩⟩
  rw [Nat.add_assoc]
  exact wrN_pre h

theorem vectorOpen_pre {k com b dst dst' : Mem Byte} {oc om depth lb : Nat} (pre : Mem Byte)
    (h : Flat.vectorOpen k com b dst oc om depth lb = some dst') :
    Flat.vectorOpen k com b (pre ++ dst) (pre.length + oc) (pre.length + om) depth lb = some (pre ++ dst') := by
  unfold Flat.vectorOpen at h ⊢
  obtain ⟨x1, h1, h⟩ := Option.bind_eq_some_iff.1 h
  obtain ⟨⟨x2, y2⟩, h2, h⟩ := Option.bind_eq_some_iff.1 h
  obtain ⟨x3, h3, h⟩ := Option.bind_eq_some_iff.1 h
  refine Option.bind_eq_some_iff.2 ⟨x1, h1, Option.bind_eq_some_iff.2 ⟨(pre ++ x2, y2), ?_, Option.bind_eq_some_iff.2 ⟨x3, h3, wrN_pre h⟩⟩⟩
  refine forN_map (fun s : Mem Byte × Nat => (pre ++ s.1, s.2)) (fun i t t' h => ?_) h2
  obtain ⟨z1, g1, h⟩ := Option.bind_eq_some_iff.1 h
  obtain ⟨z2, g2, h⟩ := Option.bind_eq_some_iff.1 h
  obtain ⟨z3, g3, h⟩ := Option.bind_eq_some_iff.1 h
  obtain ⟨z4, g4, h⟩ := Option.bind_eq_some_iff.1 h
  cases h
  refine Option.bind_eq_some_iff.2 ⟨z1, g1, Option.bind_eq_some_iff.2 ⟨z2, g2, Option.bind_eq_some_iff.2 ⟨z3, g3,
    Option.bind_eq_some_iff.2 ⟨pre ++ z4, ?_, rfl⟩⟩⟩⟩
  rw [Nat.add_assoc]
  exact wrN_pre g4

end

end Faest.C
