/-
universal_hashing.c, translated.
-/
import Verif.Model.Gen.UHash
import Verif.Model.UHash
import Verif.Proofs.Gen.Utils
import Verif.Proofs.LoadStore

namespace Faest.C

section
variable {D F : Blocks} {kd : Kind}

theorem compute_h1_run {lambda ell to_ : Nat} {sd x : Mem Byte} {p q : CPtr} {r : BF 64}
    (hlam : lambda = 128 ∨ lambda = 192 ∨ lambda = 256) (he : ell < 1048576) (he8 : ell % 8 = 0)
    (hs : View D p sd) (hx : View D q x) (h : computeH1 sd to_ x lambda ell = some r) :
    Runs D (Gen.compute_h1 (padd p to_) q lambda ell) r D := by
  unfold computeH1 at h
  inv h
  obtain ⟨bt, hbt, last, hlast, tmp, htmp, ⟨i, s⟩, hl1, ⟨i2, s2⟩, hl2, rfl⟩ := h
  obtain ⟨N, g, g0, gN, rfl, hN, hg⟩ := forStep_seq hl1
  obtain ⟨M, f, f0, fM, rfl, hM, hf⟩ := forStep_seq hl2
  simp only at hf hM f0 fM
  unfold Gen.compute_h1
  refine t_bf_load (by decide) hs hbt ?_
  refine t_cdiv (by omega) ?_
  refine t_alloc fun t => ?_
  refine t_cmod (by omega) ?_
  have hLL : ((((((ell + lambda) % 4294967296) + lambda) % 4294967296) + 4294967296 - 1) % 4294967296) = ell + lambda + lambda - 1 := by omega
  have hel : (ell + lambda) % 4294967296 = ell + lambda := by omega
  rw [hLL, hel]
  have hlb : lambda / 8 ≤ 32 := by omega
  have hLL2 : (ell + lambda + lambda - 1) / lambda ≤ 1048578 := by
    rcases hlam with rfl | rfl | rfl <;> omega
  have hLL1 : 1 ≤ (ell + lambda + lambda - 1) / lambda := by
    rcases hlam with rfl | rfl | rfl <;> omega
  have hprod : (ell + lambda + lambda - 1) / lambda * (lambda / 8) ≤ 1048578 * 32 := Nat.mul_le_mul hLL2 hlb
  have hprod' : ((ell + lambda + lambda - 1) / lambda - 1) * (lambda / 8) ≤ 1048578 * 32 :=
    Nat.mul_le_mul (by omega) hlb
  have hge : lambda / 8 ≤ (ell + lambda + lambda - 1) / lambda * (lambda / 8) := Nat.le_mul_of_pos_left _ hLL1
  have hg8 : ∃ c, (ell + lambda + lambda - 1) / lambda * (lambda / 8) = 8 * c := by
    rcases hlam with rfl | rfl | rfl
    · exact ⟨(ell + 128 + 128 - 1) / 128 * 2, by omega⟩
    · exact ⟨(ell + 192 + 192 - 1) / 192 * 3, by omega⟩
    · exact ⟨(ell + 256 + 256 - 1) / 256 * 4, by omega⟩
  have hlast0 : 0 < (if (ell + lambda) % lambda = 0 then lambda / 8 else (ell + lambda) % lambda / 8) := by
    rcases hlam with rfl | rfl | rfl <;> split <;> omega
  have hlb8 : ∃ c, lambda / 8 = 8 * c := by
    rcases hlam with rfl | rfl | rfl
    · exact ⟨2, rfl⟩
    · exact ⟨3, rfl⟩
    · exact ⟨4, rfl⟩
  generalize (ell + lambda + lambda - 1) / lambda = L at *
  refine t_run (b := (if (ell + lambda) % lambda = 0 then lambda / 8 else (ell + lambda) % lambda / 8))
    (E := bl .stack t (calloc 32 zeroed : Mem Byte) + D) rfl ?_ ?_
  · by_cases h0 : (ell + lambda) % lambda = 0
    · rw [if_pos h0, if_pos h0]; exact t_pure ⟨rfl, rfl⟩
    · rw [if_neg h0, if_neg h0]; exact t_cmod (by omega) (t_pure ⟨rfl, rfl⟩)
  nowrap
  refine t_memcpy rfl hx.padd hlast0 (rdN_at hlast) htmp ?_
  generalize lambda / 8 = lb at *
  generalize L * lb = PL at *
  obtain ⟨c1, rfl⟩ := hlb8
  obtain ⟨c2, rfl⟩ := hg8
  have hNb : N ≤ 4194304 := by
    by_contra hc
    have := (hg 4194304 (by omega)).1
    omega
  have hMb : M ≤ 8388608 := by
    by_contra hc
    have := (hf 8388608 (by omega)).1
    omega
  refine t_while N (fun i => ((g i).1, (g i).2, 8 * i)) (fun _ => bl .stack t tmp + D) (by omega) (by rw [g0]) rfl
    (fun i hi => by have := (hg i hi).1; simp; omega) (by simp; omega) (fun i hi => ?_) ?_
  · obtain ⟨hlt, hb⟩ := hg i hi
    inv hb
    obtain ⟨y, hy, hb⟩ := hb
    nowrap
    refine t_bf_load (by decide) View.here0 (by blx hy) (t_pure ⟨?_, rfl⟩)
    rw [← hb]
    simp only [Prod.mk.injEq, true_and]
    omega
  rw [gN, ← f0]
  refine t_while M (fun i => ((f i).1, (f i).2, 8 * (N + i))) (fun _ => bl .stack t tmp + D) (by omega) (by rw [f0]; rfl) rfl
    (fun i hi => by have := (hf i hi).1; simp; omega) (by simp; omega) (fun i hi => ?_) ?_
  · obtain ⟨hlt, hb⟩ := hf i hi
    inv hb
    obtain ⟨y, hy, hb⟩ := hb
    nowrap
    refine t_bf_load (by decide) (View.there hx) (by blx hy) (t_pure ⟨?_, rfl⟩)
    rw [← hb]
    simp only [Prod.mk.injEq, true_and]
    omega
  refine t_free rfl (t_pure ⟨?_, rfl⟩)
  rw [fM]

theorem vole_hash_128_run {ell s o : Nat} {sd x m m' : Mem Byte} {p q : CPtr} {l : List Byte}
    (he : ell < 1048576) (he8 : ell % 8 = 0)
    (hs : View F p sd) (hx : View F q x) (h : voleHashN 128 sd x ell = some l) (hw : wrN m o l = some m') :
    Runs (bl kd s m + F) (Gen.vole_hash_128 (some ⟨s, o⟩) p q ell) () (bl kd s m' + F) := by
  unfold voleHashN at h
  inv h
  simp only [Nat.reduceDiv, Nat.reduceMul, UNIVERSAL_HASH_B, Nat.reduceAdd] at h
  obtain ⟨last, hlast, tmp, htmp, h0, hh0, bs, hbs, ⟨h0', rs⟩, hl1, h1, hh1, r0, hr0, r1, hr1, r2, hr2, r3, hr3, x1, hx1, hxor⟩ := h
  obtain ⟨g, g0, gN, hg⟩ := forR_seq hl1
  simp only at hxor
  unfold Gen.vole_hash_128
  refine t_alloc fun t => ?_
  nowrap
  have hv : View (bl .stack t (calloc 16 zeroed : Mem Byte) + (bl kd s m + F)) q x := by hview
  have hlast0 : 0 < (if (ell + 128) % 128 = 0 then 16 else (ell + 128) % 128 / 8) := by split <;> omega
  refine t_memcpy rfl (View.there hx.padd) hlast0 (rdN_at hlast) htmp ?_
  refine t_bf_load0 (by decide) View.here0 hh0 ?_
  refine t_bf_load (by decide) (View.there (View.there hs)) hbs ?_
  refine t_while ((ell + 256 - 1) / 128 - 1) (fun i => ((g i).1, (g i).2, 1 + i)) (fun _ => bl .stack t tmp + (bl kd s m + F)) (by omega)
    (by rw [g0]) rfl (fun i hi => by simp; omega) (by simp; omega) (fun i hi => ?_) ?_
  · have hb := hg i hi
    inv hb
    obtain ⟨y, hy, hb⟩ := hb
    nowrap
    refine t_bf_load (by decide) (View.there (View.there hx)) (by blx hy) (t_pure ⟨?_, rfl⟩)
    rw [← hb]
    simp only [Prod.mk.injEq, true_and]
    omega
  rw [gN]
  refine t_run rfl (compute_h1_run (by decide) he he8 (View.there (View.there hs)) (View.there (View.there hx)) hh1) ?_
  refine t_bf_load0 (by decide) (View.there (View.there hs)) hr0 ?_
  refine t_bf_load (by decide) (View.there (View.there hs)) hr1 ?_
  refine t_bf_load (by decide) (View.there (View.there hs)) hr2 ?_
  refine t_bf_load (by decide) (View.there (View.there hs)) hr3 ?_
  obtain ⟨hm, rfl⟩ := wrN_eq_W hw
  have hl : l.length = 18 := tabM_length hxor
  have htl : tmp.length = 16 := by rw [(wrN_inv htmp).2.1]; simp [calloc]
  have e2 : ∀ a : BF 128, a.toBytes.length = 16 := fun a => by rw [toBytes_eq, tabP_length]
  refine t_bf_store (by hfind1) (wrN_W (by rw [e2]; omega)) ?_
  refine t_bf_store (m' := W tmp 0 _) (by hfind1) (wrN_W (by rw [e2]; omega)) ?_
  refine t_memcpy (o := o + 16) (by hfind1) View.here0 (by decide)
    (l := (bfAdd (bfMul r2 h0') (bfMul64 r3 h1)).toBytes.take 2) ?_ (m' := W m o ((bfAdd (bfMul r0 h0') (bfMul64 r1 h1)).toBytes
      ++ (bfAdd (bfMul r2 h0') (bfMul64 r3 h1)).toBytes.take 2)) ?_ ?_
  · have : W tmp 0 (bfAdd (bfMul r2 h0') (bfMul64 r3 h1)).toBytes = ofList (bfAdd (bfMul r2 h0') (bfMul64 r3 h1)).toBytes := by
      unfold W; rw [e2]; simp [ofList, htl]
    rw [this]
    exact rdN_ofList_take _ (by rw [e2]; decide)
  · have := wrN_W_append (m := m) (o := o) (xs := (bfAdd (bfMul r0 h0') (bfMul64 r1 h1)).toBytes)
      (ys := (bfAdd (bfMul r2 h0') (bfMul64 r3 h1)).toBytes.take 2) (by simp [e2]; omega)
    rw [e2] at this
    exact this
  have hcl : ((bfAdd (bfMul r0 h0') (bfMul64 r1 h1)).toBytes ++ (bfAdd (bfMul r2 h0') (bfMul64 r3 h1)).toBytes.take 2).length = 18 := by
    simp [e2]
  refine t_run rfl (xor_run (Or.inr ⟨o, rfl, le_W (by rw [hcl]; omega), Or.inl (Nat.le_refl _)⟩) (Or.inl (View.there (hx.ptr hx1))) hxor
    (wrN_over (by rw [hcl]; omega) (by rw [hcl, hl]) hw) (by decide)) ?_
  exact t_free (by hfind1) (t_pure ⟨trivial, rfl⟩)

theorem zk_hash_128_init_run {c : ZkC 128} {sd : Mem Byte} {p : CPtr} {z : ZkCtx 128} (hs : View D p sd)
    (h : zkInit 128 sd = some z) :
    Runs D (Gen.zk_hash_128_init c p) ⟨some z.h0, some z.h1, some z.s, some z.t, some p⟩ D := by
  unfold zkInit at h
  inv h
  obtain ⟨s, hs', t, ht, rfl⟩ := h
  unfold Gen.zk_hash_128_init
  exact t_bf_load (by decide) hs hs' (t_bf_load (by decide) hs ht (t_pure ⟨rfl, rfl⟩))

theorem zk_hash_128_update_run {z : ZkCtx 128} {p : CPtr} {v : BF 128} :
    Runs D (Gen.zk_hash_128_update ⟨some z.h0, some z.h1, some z.s, some z.t, some p⟩ v)
      ⟨some (zkUpdate z v).h0, some (zkUpdate z v).h1, some (zkUpdate z v).s, some (zkUpdate z v).t, some p⟩ D := by
  unfold Gen.zk_hash_128_update
  exact t_uget rfl (t_uget rfl (t_uget rfl (t_uget rfl (t_pure ⟨rfl, rfl⟩))))

theorem zk_hash_128_finalize_run {s o : Nat} {m m' : Mem Byte} {z : ZkCtx 128} {p : CPtr} {x : BF 128} {l : List Byte}
    (hs : View (bl kd s m + F) p z.sd) (h : zkFinalize z x = some l) (hw : wrN m o l = some m') :
    T (bl kd s m + F) (Gen.zk_hash_128_finalize (some ⟨s, o⟩) ⟨some z.h0, some z.h1, some z.s, some z.t, some p⟩ x)
      (fun _ D' => D' = bl kd s m' + F) := by
  unfold zkFinalize at h
  inv h
  obtain ⟨r0, hr0, r1, hr1, rfl⟩ := h
  unfold Gen.zk_hash_128_finalize
  refine t_uget rfl (t_uget rfl (t_bf_load0 (by decide) hs hr0 (t_uget rfl (t_bf_load (by decide) hs hr1 (t_uget rfl ?_)))))
  exact t_bf_store rfl hw (t_pure rfl)

theorem vole_hash_192_run {ell s o : Nat} {sd x m m' : Mem Byte} {p q : CPtr} {l : List Byte}
    (he : ell < 1048576) (he8 : ell % 8 = 0)
    (hs : View F p sd) (hx : View F q x) (h : voleHashN 192 sd x ell = some l) (hw : wrN m o l = some m') :
    Runs (bl kd s m + F) (Gen.vole_hash_192 (some ⟨s, o⟩) p q ell) () (bl kd s m' + F) := by
  unfold voleHashN at h
  inv h
  simp only [Nat.reduceDiv, Nat.reduceMul, UNIVERSAL_HASH_B, Nat.reduceAdd] at h
  obtain ⟨last, hlast, tmp, htmp, h0, hh0, bs, hbs, ⟨h0', rs⟩, hl1, h1, hh1, r0, hr0, r1, hr1, r2, hr2, r3, hr3, x1, hx1, hxor⟩ := h
  obtain ⟨g, g0, gN, hg⟩ := forR_seq hl1
  simp only at hxor
  unfold Gen.vole_hash_192
  refine t_alloc fun t => ?_
  nowrap
  have hv : View (bl .stack t (calloc 24 zeroed : Mem Byte) + (bl kd s m + F)) q x := by hview
  have hlast0 : 0 < (if (ell + 192) % 192 = 0 then 24 else (ell + 192) % 192 / 8) := by split <;> omega
  refine t_memcpy rfl (View.there hx.padd) hlast0 (rdN_at hlast) htmp ?_
  refine t_bf_load0 (by decide) View.here0 hh0 ?_
  refine t_bf_load (by decide) (View.there (View.there hs)) hbs ?_
  refine t_while ((ell + 384 - 1) / 192 - 1) (fun i => ((g i).1, (g i).2, 1 + i)) (fun _ => bl .stack t tmp + (bl kd s m + F)) (by omega)
    (by rw [g0]) rfl (fun i hi => by simp; omega) (by simp; omega) (fun i hi => ?_) ?_
  · have hb := hg i hi
    inv hb
    obtain ⟨y, hy, hb⟩ := hb
    nowrap
    refine t_bf_load (by decide) (View.there (View.there hx)) (by blx hy) (t_pure ⟨?_, rfl⟩)
    rw [← hb]
    simp only [Prod.mk.injEq, true_and]
    omega
  rw [gN]
  refine t_run rfl (compute_h1_run (by decide) he he8 (View.there (View.there hs)) (View.there (View.there hx)) hh1) ?_
  refine t_bf_load0 (by decide) (View.there (View.there hs)) hr0 ?_
  refine t_bf_load (by decide) (View.there (View.there hs)) hr1 ?_
  refine t_bf_load (by decide) (View.there (View.there hs)) hr2 ?_
  refine t_bf_load (by decide) (View.there (View.there hs)) hr3 ?_
  obtain ⟨hm, rfl⟩ := wrN_eq_W hw
  have hl : l.length = 26 := tabM_length hxor
  have htl : tmp.length = 24 := by rw [(wrN_inv htmp).2.1]; simp [calloc]
  have e2 : ∀ a : BF 192, a.toBytes.length = 24 := fun a => by rw [toBytes_eq, tabP_length]
  refine t_bf_store (by hfind1) (wrN_W (by rw [e2]; omega)) ?_
  refine t_bf_store (m' := W tmp 0 _) (by hfind1) (wrN_W (by rw [e2]; omega)) ?_
  refine t_memcpy (o := o + 24) (by hfind1) View.here0 (by decide)
    (l := (bfAdd (bfMul r2 h0') (bfMul64 r3 h1)).toBytes.take 2) ?_ (m' := W m o ((bfAdd (bfMul r0 h0') (bfMul64 r1 h1)).toBytes
      ++ (bfAdd (bfMul r2 h0') (bfMul64 r3 h1)).toBytes.take 2)) ?_ ?_
  · have : W tmp 0 (bfAdd (bfMul r2 h0') (bfMul64 r3 h1)).toBytes = ofList (bfAdd (bfMul r2 h0') (bfMul64 r3 h1)).toBytes := by
      unfold W; rw [e2]; simp [ofList, htl]
    rw [this]
    exact rdN_ofList_take _ (by rw [e2]; decide)
  · have := wrN_W_append (m := m) (o := o) (xs := (bfAdd (bfMul r0 h0') (bfMul64 r1 h1)).toBytes)
      (ys := (bfAdd (bfMul r2 h0') (bfMul64 r3 h1)).toBytes.take 2) (by simp [e2]; omega)
    rw [e2] at this
    exact this
  have hcl : ((bfAdd (bfMul r0 h0') (bfMul64 r1 h1)).toBytes ++ (bfAdd (bfMul r2 h0') (bfMul64 r3 h1)).toBytes.take 2).length = 26 := by
    simp [e2]
  refine t_run rfl (xor_run (Or.inr ⟨o, rfl, le_W (by rw [hcl]; omega), Or.inl (Nat.le_refl _)⟩) (Or.inl (View.there (hx.ptr hx1))) hxor
    (wrN_over (by rw [hcl]; omega) (by rw [hcl, hl]) hw) (by decide)) ?_
  exact t_free (by hfind1) (t_pure ⟨trivial, rfl⟩)

theorem zk_hash_192_init_run {c : ZkC 192} {sd : Mem Byte} {p : CPtr} {z : ZkCtx 192} (hs : View D p sd)
    (h : zkInit 192 sd = some z) :
    Runs D (Gen.zk_hash_192_init c p) ⟨some z.h0, some z.h1, some z.s, some z.t, some p⟩ D := by
  unfold zkInit at h
  inv h
  obtain ⟨s, hs', t, ht, rfl⟩ := h
  unfold Gen.zk_hash_192_init
  exact t_bf_load (by decide) hs hs' (t_bf_load (by decide) hs ht (t_pure ⟨rfl, rfl⟩))

theorem zk_hash_192_update_run {z : ZkCtx 192} {p : CPtr} {v : BF 192} :
    Runs D (Gen.zk_hash_192_update ⟨some z.h0, some z.h1, some z.s, some z.t, some p⟩ v)
      ⟨some (zkUpdate z v).h0, some (zkUpdate z v).h1, some (zkUpdate z v).s, some (zkUpdate z v).t, some p⟩ D := by
  unfold Gen.zk_hash_192_update
  exact t_uget rfl (t_uget rfl (t_uget rfl (t_uget rfl (t_pure ⟨rfl, rfl⟩))))

theorem zk_hash_192_finalize_run {s o : Nat} {m m' : Mem Byte} {z : ZkCtx 192} {p : CPtr} {x : BF 192} {l : List Byte}
    (hs : View (bl kd s m + F) p z.sd) (h : zkFinalize z x = some l) (hw : wrN m o l = some m') :
    T (bl kd s m + F) (Gen.zk_hash_192_finalize (some ⟨s, o⟩) ⟨some z.h0, some z.h1, some z.s, some z.t, some p⟩ x)
      (fun _ D' => D' = bl kd s m' + F) := by
  unfold zkFinalize at h
  inv h
  obtain ⟨r0, hr0, r1, hr1, rfl⟩ := h
  unfold Gen.zk_hash_192_finalize
  refine t_uget rfl (t_uget rfl (t_bf_load0 (by decide) hs hr0 (t_uget rfl (t_bf_load (by decide) hs hr1 (t_uget rfl ?_)))))
  exact t_bf_store rfl hw (t_pure rfl)

theorem vole_hash_256_run {ell s o : Nat} {sd x m m' : Mem Byte} {p q : CPtr} {l : List Byte}
    (he : ell < 1048576) (he8 : ell % 8 = 0)
    (hs : View F p sd) (hx : View F q x) (h : voleHashN 256 sd x ell = some l) (hw : wrN m o l = some m') :
    Runs (bl kd s m + F) (Gen.vole_hash_256 (some ⟨s, o⟩) p q ell) () (bl kd s m' + F) := by
  unfold voleHashN at h
  inv h
  simp only [Nat.reduceDiv, Nat.reduceMul, UNIVERSAL_HASH_B, Nat.reduceAdd] at h
  obtain ⟨last, hlast, tmp, htmp, h0, hh0, bs, hbs, ⟨h0', rs⟩, hl1, h1, hh1, r0, hr0, r1, hr1, r2, hr2, r3, hr3, x1, hx1, hxor⟩ := h
  obtain ⟨g, g0, gN, hg⟩ := forR_seq hl1
  simp only at hxor
  unfold Gen.vole_hash_256
  refine t_alloc fun t => ?_
  nowrap
  have hv : View (bl .stack t (calloc 32 zeroed : Mem Byte) + (bl kd s m + F)) q x := by hview
  have hlast0 : 0 < (if (ell + 256) % 256 = 0 then 32 else (ell + 256) % 256 / 8) := by split <;> omega
  refine t_memcpy rfl (View.there hx.padd) hlast0 (rdN_at hlast) htmp ?_
  refine t_bf_load0 (by decide) View.here0 hh0 ?_
  refine t_bf_load (by decide) (View.there (View.there hs)) hbs ?_
  refine t_while ((ell + 512 - 1) / 256 - 1) (fun i => ((g i).1, (g i).2, 1 + i)) (fun _ => bl .stack t tmp + (bl kd s m + F)) (by omega)
    (by rw [g0]) rfl (fun i hi => by simp; omega) (by simp; omega) (fun i hi => ?_) ?_
  · have hb := hg i hi
    inv hb
    obtain ⟨y, hy, hb⟩ := hb
    nowrap
    refine t_bf_load (by decide) (View.there (View.there hx)) (by blx hy) (t_pure ⟨?_, rfl⟩)
    rw [← hb]
    simp only [Prod.mk.injEq, true_and]
    omega
  rw [gN]
  refine t_run rfl (compute_h1_run (by decide) he he8 (View.there (View.there hs)) (View.there (View.there hx)) hh1) ?_
  refine t_bf_load0 (by decide) (View.there (View.there hs)) hr0 ?_
  refine t_bf_load (by decide) (View.there (View.there hs)) hr1 ?_
  refine t_bf_load (by decide) (View.there (View.there hs)) hr2 ?_
  refine t_bf_load (by decide) (View.there (View.there hs)) hr3 ?_
  obtain ⟨hm, rfl⟩ := wrN_eq_W hw
  have hl : l.length = 34 := tabM_length hxor
  have htl : tmp.length = 32 := by rw [(wrN_inv htmp).2.1]; simp [calloc]
  have e2 : ∀ a : BF 256, a.toBytes.length = 32 := fun a => by rw [toBytes_eq, tabP_length]
  refine t_bf_store (by hfind1) (wrN_W (by rw [e2]; omega)) ?_
  refine t_bf_store (m' := W tmp 0 _) (by hfind1) (wrN_W (by rw [e2]; omega)) ?_
  refine t_memcpy (o := o + 32) (by hfind1) View.here0 (by decide)
    (l := (bfAdd (bfMul r2 h0') (bfMul64 r3 h1)).toBytes.take 2) ?_ (m' := W m o ((bfAdd (bfMul r0 h0') (bfMul64 r1 h1)).toBytes
      ++ (bfAdd (bfMul r2 h0') (bfMul64 r3 h1)).toBytes.take 2)) ?_ ?_
  · have : W tmp 0 (bfAdd (bfMul r2 h0') (bfMul64 r3 h1)).toBytes = ofList (bfAdd (bfMul r2 h0') (bfMul64 r3 h1)).toBytes := by
      unfold W; rw [e2]; simp [ofList, htl]
    rw [this]
    exact rdN_ofList_take _ (by rw [e2]; decide)
  · have := wrN_W_append (m := m) (o := o) (xs := (bfAdd (bfMul r0 h0') (bfMul64 r1 h1)).toBytes)
      (ys := (bfAdd (bfMul r2 h0') (bfMul64 r3 h1)).toBytes.take 2) (by simp [e2]; omega)
    rw [e2] at this
    exact this
  have hcl : ((bfAdd (bfMul r0 h0') (bfMul64 r1 h1)).toBytes ++ (bfAdd (bfMul r2 h0') (bfMul64 r3 h1)).toBytes.take 2).length = 34 := by
    simp [e2]
  refine t_run rfl (xor_run (Or.inr ⟨o, rfl, le_W (by rw [hcl]; omega), Or.inl (Nat.le_refl _)⟩) (Or.inl (View.there (hx.ptr hx1))) hxor
    (wrN_over (by rw [hcl]; omega) (by rw [hcl, hl]) hw) (by decide)) ?_
  exact t_free (by hfind1) (t_pure ⟨trivial, rfl⟩)

theorem zk_hash_256_init_run {c : ZkC 256} {sd : Mem Byte} {p : CPtr} {z : ZkCtx 256} (hs : View D p sd)
    (h : zkInit 256 sd = some z) :
    Runs D (Gen.zk_hash_256_init c p) ⟨some z.h0, some z.h1, some z.s, some z.t, some p⟩ D := by
  unfold zkInit at h
  inv h
  obtain ⟨s, hs', t, ht, rfl⟩ := h
  unfold Gen.zk_hash_256_init
  exact t_bf_load (by decide) hs hs' (t_bf_load (by decide) hs ht (t_pure ⟨rfl, rfl⟩))

theorem zk_hash_256_update_run {z : ZkCtx 256} {p : CPtr} {v : BF 256} :
    Runs D (Gen.zk_hash_256_update ⟨some z.h0, some z.h1, some z.s, some z.t, some p⟩ v)
      ⟨some (zkUpdate z v).h0, some (zkUpdate z v).h1, some (zkUpdate z v).s, some (zkUpdate z v).t, some p⟩ D := by
  unfold Gen.zk_hash_256_update
  exact t_uget rfl (t_uget rfl (t_uget rfl (t_uget rfl (t_pure ⟨rfl, rfl⟩))))

theorem zk_hash_256_finalize_run {s o : Nat} {m m' : Mem Byte} {z : ZkCtx 256} {p : CPtr} {x : BF 256} {l : List Byte}
    (hs : View (bl kd s m + F) p z.sd) (h : zkFinalize z x = some l) (hw : wrN m o l = some m') :
    T (bl kd s m + F) (Gen.zk_hash_256_finalize (some ⟨s, o⟩) ⟨some z.h0, some z.h1, some z.s, some z.t, some p⟩ x)
      (fun _ D' => D' = bl kd s m' + F) := by
  unfold zkFinalize at h
  inv h
  obtain ⟨r0, hr0, r1, hr1, rfl⟩ := h
  unfold Gen.zk_hash_256_finalize
  refine t_uget rfl (t_uget rfl (t_bf_load0 (by decide) hs hr0 (t_uget rfl (t_bf_load (by decide) hs hr1 (t_uget rfl ?_)))))
  exact t_bf_store rfl hw (t_pure rfl)

theorem vole_hash_run {ell s o lambda : Nat} {sd x m m' : Mem Byte} {p q : CPtr} {l : List Byte}
    (he : ell < 1048576) (he8 : ell % 8 = 0)
    (hs : View F p sd) (hx : View F q x) (h : voleHash sd x ell lambda = some l) (hw : wrN m o l = some m') :
    Runs (bl kd s m + F) (Gen.vole_hash (some ⟨s, o⟩) p q ell lambda) () (bl kd s m' + F) := by
  unfold voleHash fieldBits at h
  unfold Gen.vole_hash
  by_cases h1 : lambda = 256
  · rw [if_pos h1] at h ⊢
    exact t_run rfl (t_run rfl (vole_hash_256_run he he8 hs hx h hw) (t_pure ⟨rfl, rfl⟩)) (t_pure ⟨rfl, rfl⟩)
  rw [if_neg h1] at h ⊢
  by_cases h2 : lambda = 192
  · rw [if_pos h2] at h ⊢
    exact t_run rfl (t_run rfl (vole_hash_192_run he he8 hs hx h hw) (t_pure ⟨rfl, rfl⟩)) (t_pure ⟨rfl, rfl⟩)
  rw [if_neg h2] at h ⊢
  exact t_run rfl (t_run rfl (vole_hash_128_run he he8 hs hx h hw) (t_pure ⟨rfl, rfl⟩)) (t_pure ⟨rfl, rfl⟩)

end

end Faest.C
