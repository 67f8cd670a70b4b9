/-
The universal hash code against `Spec/UHash.lean`; linearity.
-/
import Verif.Model.UHash
import Verif.Proofs.VoleRefine
import Verif.Spec.UHash

namespace Faest
open Spec (padded elt polyHash uhBlocks uhH0 uhH1 lift64 listHash zkHash)

variable {n : Nat}

namespace BF

theorem mul64_eq (hn : 64 ≤ n) (a : BF n) (b : BF 64) : bfMul64 a b = a * lift64 n b := by
  rw [mul64_eq_sum, mul_eq_sum _ _ (by omega)]
  have : ∀ i, (lift64 n b).v.getLsbD i = (decide (i < n) && b.v.getLsbD i) := by
    intro i; unfold lift64; rw [BitVec.getLsbD_setWidth]
  rw [← Finset.sum_subset (Finset.range_subset_range.2 hn)]
  · refine Finset.sum_congr rfl fun i hi => ?_
    have hi := Finset.mem_range.1 hi
    rw [this i, decide_eq_true (by omega : i < n), Bool.true_and]
  · intro i _ h2
    have h2 : ¬ i < 64 := fun h => h2 (Finset.mem_range.2 h)
    rw [this i, BitVec.getLsbD_of_ge _ _ (by omega)]
    simp

end BF

theorem polyHash_add {m : Nat} (key : BF n) (y z : Nat → BF n) :
    polyHash key (fun i => y i + z i) m = polyHash key y m + polyHash key z m := by
  unfold polyHash
  rw [← Finset.sum_add_distrib]
  exact Finset.sum_congr rfl fun i _ => by ring

theorem polyHash_congr {m : Nat} {key : BF n} {y z : Nat → BF n} (h : ∀ i, i < m → y i = z i) :
    polyHash key y m = polyHash key z m :=
  Finset.sum_congr rfl fun i hi => by rw [h _ (by have := Finset.mem_range.1 hi; omega)]

theorem elt_xor (hn : 8 ∣ n) (g h : Nat → Byte) (i : Nat) :
    elt n (fun t => g t ^^^ h t) i = elt n g i + elt n h i := loadF_xor hn _ _

theorem padded_xor (g h : Nat → Byte) (L : Nat) :
    padded (fun t => g t ^^^ h t) L = fun t => padded g L t ^^^ padded h L t := by
  funext t
  unfold padded
  by_cases ht : t < L
  · simp only [if_pos ht]
  · simp only [if_neg ht]; decide

theorem lift64_add (a b : BF 64) : lift64 n (a + b) = lift64 n a + lift64 n b := by
  ext1
  show BitVec.setWidth n (a.v ^^^ b.v) = BitVec.setWidth n a.v ^^^ BitVec.setWidth n b.v
  exact BitVec.setWidth_xor ..

theorem byteAt_add (a b : BF n) (t : Nat) : byteAt (a + b) t = byteAt a t ^^^ byteAt b t := by
  apply BitVec.eq_of_getLsbD_eq
  intro k hk
  rw [BitVec.getLsbD_xor, byteAt_getLsbD _ _ _ hk, byteAt_getLsbD _ _ _ hk, byteAt_getLsbD _ _ _ hk,
    BF.add_v, BitVec.getLsbD_xor]

theorem uhH0_xor (hn : 8 ∣ n) (ell : Nat) (sd x y : Nat → Byte) :
    uhH0 n ell sd (fun t => x t ^^^ y t) = uhH0 n ell sd x + uhH0 n ell sd y := by
  unfold uhH0
  rw [padded_xor, ← polyHash_add]
  exact polyHash_congr fun i _ => elt_xor hn _ _ i

theorem uhH1_xor (ell : Nat) (sd x y : Nat → Byte) :
    uhH1 n ell sd (fun t => x t ^^^ y t) = uhH1 n ell sd x + uhH1 n ell sd y := by
  unfold uhH1
  rw [padded_xor, ← polyHash_add]
  exact polyHash_congr fun i _ => elt_xor (by decide) _ _ i

theorem voleHash_xor (hn : 8 ∣ n) (ell : Nat) (sd x y : Nat → Byte) (t : Nat) :
    Spec.voleHash n ell sd (fun t => x t ^^^ y t) t
      = Spec.voleHash n ell sd x t ^^^ Spec.voleHash n ell sd y t := by
  unfold Spec.voleHash
  rw [uhH0_xor hn, uhH1_xor, lift64_add]
  have e : ∀ (r s h h' : BF n) (k k' : BF n),
      r * (h + h') + s * (k + k') = (r * h + s * k) + (r * h' + s * k') := by
    intros; ring
  rw [e, e]
  by_cases ht : t < n / 8
  · simp only [if_pos ht, byteAt_add]; ac_rfl
  · simp only [if_neg ht, byteAt_add]; ac_rfl

theorem elt_zero (hn : 8 ∣ n) (i : Nat) : elt n (fun _ => 0) i = 0 := by
  have := elt_xor hn (fun _ => 0) (fun _ => 0) i
  rwa [show (fun _ : Nat => (0 : Byte) ^^^ 0) = fun _ => 0 from rfl, BF.add_self] at this

theorem voleHash_congr {ell : Nat} {sd x y : Nat → Byte} {t : Nat}
    (ht : t < n / 8 + 2) (h : ∀ i, i < (ell + n) / 8 + n / 8 + 2 → x i = y i) :
    Spec.voleHash n ell sd x t = Spec.voleHash n ell sd y t := by
  have e : padded x ((ell + n) / 8) = padded y ((ell + n) / 8) := by
    funext i
    unfold padded
    by_cases hi : i < (ell + n) / 8
    · rw [if_pos hi, if_pos hi, h i (by omega)]
    · rw [if_neg hi, if_neg hi]
  unfold Spec.voleHash uhH0 uhH1
  rw [e, h _ (by omega)]

/-! ### The code -/

/-- Sizes of the universal hash. -/
theorem uh_sizes (hl : BF.LamSize n) {ell : Nat} (h8 : ell % 8 = 0) :
    ∃ nb m cnt L : Nat, nb = n / 8 ∧ n = nb * 8 ∧ n / 64 * 8 = nb ∧ 16 ≤ nb ∧ nb ≤ 32 ∧
      m = uhBlocks n ell ∧
      (ell + 2 * nb * 8 - 1) / (nb * 8) = m ∧ (ell + nb * 8 + nb * 8 - 1) / (nb * 8) = m ∧
      cnt = (if (ell + nb * 8) % (nb * 8) = 0 then nb else ((ell + nb * 8) % (nb * 8)) / 8) ∧
      L = (ell + n) / 8 ∧ 1 ≤ m ∧ 0 < cnt ∧ cnt ≤ nb ∧ (m - 1) * nb + cnt = L ∧
      nb * 8 / 8 = nb := by
  have hb : uhBlocks n ell = (ell + n + n - 1) / n := rfl
  refine ⟨n / 8, uhBlocks n ell, _, (ell + n) / 8, rfl, ?_, ?_, ?_, ?_, rfl, ?_, ?_, rfl, rfl, ?_, ?_, ?_,
    ?_, ?_⟩
  all_goals
    rcases hl with rfl | rfl | rfl
    all_goals
      try simp only [show 128 / 8 = 16 from rfl, show 192 / 8 = 24 from rfl, show 256 / 8 = 32 from rfl,
        show 16 * 8 = 128 from rfl, show 24 * 8 = 192 from rfl, show 32 * 8 = 256 from rfl]
      all_goals first
        | omega
        | (split <;> omega)

/-- The copy of the last block, padded with zeros. -/
theorem uh_tmp {x : Mem Byte} {xf : Nat → Byte} {nb m cnt L sz : Nat} (hx : Has x 0 L xf)
    (hcnt : 0 < cnt) (hL : (m - 1) * nb + cnt = L) (hsz : nb ≤ sz) (hc : cnt ≤ nb) {β : Type}
    {f : List Byte → Option β} {Q : β → Prop} {g : List Byte → Mem Byte → Option β}
    (hf : f = fun last => (wrN (calloc sz 0) 0 last).bind (g last))
    (hg : ∀ l tmp, Has tmp 0 nb (fun k => padded xf L ((m - 1) * nb + k)) → Ok (g l tmp) Q) :
    Ok ((rdN x ((m - 1) * nb) cnt).bind f) Q := by
  have hx' : Has x ((m - 1) * nb) cnt (fun k => xf ((m - 1) * nb + k)) := by
    intro k hk
    exact hx.rd0 (by omega)
  rw [rdN_has hx' hcnt, Option.bind_some, hf]
  refine Ok.bind' (Ok.wrN (Q := fun tmp => Has tmp 0 nb (fun k => padded xf L ((m - 1) * nb + k)))
    (by simp; omega) ?_) (hg _)
  intro t _ h2 k hk
  rw [Nat.zero_add, h2, tabP_length]
  simp only [padded]
  by_cases hkc : k < cnt
  · rw [if_pos (by omega), tabP_getElem?, if_pos (by omega), Nat.sub_zero, if_pos (by omega)]
  · rw [if_neg (by omega), rd_calloc (by omega), if_neg (by omega)]

theorem polyHash_step {key : BF n} {y : Nat → BF n} {m i : Nat} {h p : BF n}
    (hh : h = ∑ j ∈ Finset.range i, y (m - 1 - j) * key ^ j) (hp : p = key ^ i) :
    bfAdd h (bfMul p (y (m - 1 - i))) = ∑ j ∈ Finset.range (i + 1), y (m - 1 - j) * key ^ j ∧
      bfMul p key = key ^ (i + 1) := by
  rw [← BF.add_def, ← BF.mul_def, ← BF.mul_def, hh, hp, Finset.sum_range_succ, pow_succ]
  exact ⟨by rw [mul_comm (key ^ i)], rfl⟩

theorem computeH1_ok (hl : BF.LamSize n) {ell : Nat} (h8 : ell % 8 = 0) {sd x : Mem Byte}
    {sdf xf : Nat → Byte} (hsd : Has sd 0 (5 * (n / 8) + 8) sdf) (hx : Has x 0 ((ell + n) / 8) xf) :
    computeH1 sd (5 * (n / 8)) x (n / 8 * 8) ell = some (uhH1 n ell sdf xf) := by
  obtain ⟨nb, m, cnt, L, e1, e2, e3, b1, b2, e4, e5, e6, e7, e8, b3, b4, b5, e9, e10⟩ := uh_sizes hl h8
  apply Ok.eq
  unfold computeH1 uhH1
  rw [← e1, ← e4, ← e8]
  rw [← e1] at hsd
  rw [← e8] at hx
  refine Ok.step (bfLoad_ok (g := fun k => sdf (5 * nb + k)) (by decide) (by
    intro k hk
    exact hsd.rd0 (by omega))) ?_
  simp only [e10, e6, ← e7]
  refine uh_tmp hx b4 e9 (by show nb ≤ 32; omega) b5 rfl ?_
  intro _ tmp htmp
  generalize hk : (loadF 64 fun k => sdf (5 * nb + k)) = key
  -- word `j` counted from the end
  have hN : m * (n / 64) * 8 = m * nb := by rw [Nat.mul_assoc, e3]
  generalize hNN : m * (n / 64) = N at hN
  have hm1 : (m - 1) * nb + nb = m * nb := by
    rw [← Nat.succ_mul, Nat.succ_eq_add_one, Nat.sub_add_cancel b3]
  let y := elt 64 (padded xf L)
  let I : Nat → BF 64 × BF 64 → Prop := fun i s => i % 8 = 0 ∧ i ≤ m * nb ∧
    s.1 = ∑ j ∈ Finset.range (i / 8), y (N - 1 - j) * key ^ j ∧ s.2 = key ^ (i / 8)
  have hstep : ∀ (i : Nat) (s : BF 64 × BF 64) (w : BF 64), I i s → i < m * nb →
      w = y (N - 1 - i / 8) → I (i + 8) (bfAdd s.1 (bfMul s.2 w), bfMul s.2 key) := by
    rintro i s w ⟨h1, h2, h3, h4⟩ hi rfl
    obtain ⟨g1, g2⟩ := polyHash_step (key := key) (y := y) (m := N) (i := i / 8) h3 h4
    refine ⟨by omega, by omega, ?_, ?_⟩
    · show bfAdd _ _ = _
      rw [g1, show (i + 8) / 8 = i / 8 + 1 by omega]
    · show bfMul _ _ = _
      rw [g2, show (i + 8) / 8 = i / 8 + 1 by omega]
  have hnb8 : nb % 8 = 0 := by omega
  refine Ok.bind (Ok.forStep (fun i s => I i s ∧ i ≤ nb) (by decide) ?_ _ 0 _ ?_ ?_) ?_
  · rintro i hi s ⟨hI, _⟩
    have hi8 := hI.1
    refine Ok.step (bfLoad_ok (g := fun k => padded xf L ((m - 1) * nb + (nb - i - 8 + k))) (by decide) ?_) ?_
    · intro k hk
      exact htmp.rd0 (k := nb - i - 8 + k) (by omega)
    · refine Ok.pure ⟨hstep i s _ hI (by omega) ?_, by omega⟩
      show _ = loadF 64 _
      refine loadF_congr fun k hk => ?_
      congr 1
      have : (N - 1 - i / 8) * (64 / 8) = m * nb - 8 - i := by omega
      rw [this]
      omega
  · have : 1 * nb ≤ m * nb := Nat.mul_le_mul_right _ b3
    omega
  · exact ⟨⟨rfl, Nat.zero_le _, by simp; rfl, by simp; rfl⟩, Nat.zero_le _⟩
  rintro ⟨i, s⟩ ⟨hi1, hI, hi2⟩
  simp only at hi1 hI hi2 ⊢
  refine Ok.bind (Ok.forStep (fun i s => I i s ∧ nb ≤ i) (by decide) ?_ _ i _ (by omega) ⟨hI, hi1⟩) ?_
  · rintro i hi s ⟨hI, hni⟩
    have hi8 := hI.1
    have hmod : m * nb % 8 = 0 := by omega
    refine Ok.step (bfLoad_ok (g := fun k => xf (m * nb - i - 8 + k)) (by decide) ?_) ?_
    · intro k hk
      exact hx.rd0 (k := m * nb - i - 8 + k) (by omega)
    · refine Ok.pure ⟨hstep i s _ hI hi ?_, by omega⟩
      show _ = loadF 64 _
      refine loadF_congr fun k hk => ?_
      have : (N - 1 - i / 8) * (64 / 8) = m * nb - i - 8 := by omega
      show _ = padded xf L _
      unfold padded
      rw [this, if_pos (by omega)]
  · rintro ⟨i, s⟩ ⟨hi1, ⟨h1, h2, h3, h4⟩, _⟩
    simp only at hi1 h1 h2 h3 h4 ⊢
    refine Ok.pure ?_
    have : i / 8 = N := by omega
    rw [h3, this]
    rfl

theorem voleHashN_ok (hl : BF.LamSize n) {ell : Nat} (h8 : ell % 8 = 0) {sd x : Mem Byte}
    {sdf xf : Nat → Byte} (hsd : Has sd 0 (5 * (n / 8) + 8) sdf)
    (hx : Has x 0 (ell / 8 + 2 * (n / 8) + 2) xf) :
    voleHashN n sd x ell = some (tabP (n / 8 + 2) (Spec.voleHash n ell sdf xf)) := by
  unfold Spec.voleHash
  have hcode := computeH1_ok hl h8 hsd (x := x) (xf := xf) (hx.mono (by
    rcases hl with rfl | rfl | rfl <;> omega))
  obtain ⟨nb, m, cnt, L, e1, e2, e3, b1, b2, e4, e5, e6, e7, e8, b3, b4, b5, e9, e10⟩ := uh_sizes hl h8
  have hn8 : 8 ∣ n := ⟨nb, by omega⟩
  have hLx : ell / 8 + nb = L := by omega
  apply Ok.eq
  unfold voleHashN
  rw [← e1] at hcode hsd hx ⊢
  rw [← e8]
  simp only [e5, ← e7]
  have hld : ∀ i, i < 5 → bfLoad n sd (i * nb) = some (elt n sdf i) := by
    intro i hi
    have h1 := bfLoad_ok (n := n) (src := sd) (off := i * nb) (g := fun k => sdf (i * nb + k)) (by omega) (by
      intro k hk
      have : i * nb ≤ 4 * nb := Nat.mul_le_mul_right _ (by omega)
      exact hsd.rd0 (by omega))
    rw [h1]
    unfold elt
    rw [← e1]
  refine uh_tmp (hx.mono (by omega)) b4 e9 (Nat.le_refl _) b5 rfl ?_
  intro _ tmp htmp
  refine Ok.step (bfLoad_ok (g := fun k => padded xf L ((m - 1) * nb + k)) (by omega) (by
    intro k hk
    exact htmp k (by omega))) ?_
  refine Ok.step (hld 4 (by decide)) ?_
  let y := elt n (padded xf L)
  refine Ok.bind (Ok.forR (fun i s => s.1 = ∑ j ∈ Finset.range i, y (m - 1 - j) * elt n sdf 4 ^ j ∧
      s.2 = elt n sdf 4 ^ i) b3 ?_ ?_) ?_
  · refine ⟨?_, by simp⟩
    simp only [Finset.sum_range_one, pow_zero, mul_one, Nat.sub_zero]
    show _ = elt n _ _
    unfold elt
    rw [← e1]
  · rintro i hi1 hi2 s ⟨h1, h2⟩
    refine Ok.step (bfLoad_ok (g := fun k => padded xf L ((m - 1 - i) * nb + k)) (by omega) ?_) ?_
    · intro k hk
      have : (m - 1 - i + 1) * nb ≤ (m - 1) * nb := Nat.mul_le_mul_right _ (by omega)
      rw [Nat.succ_mul] at this
      rw [hx.rd0 (by omega)]
      simp only [padded]
      rw [if_pos (by omega)]
    · have := polyHash_step (key := elt n sdf 4) (y := y) (m := m) (i := i) h1 h2
      refine Ok.pure ?_
      have ey : (loadF n fun k => padded xf L ((m - 1 - i) * nb + k)) = y (m - 1 - i) := by
        show _ = elt n _ _
        unfold elt
        rw [← e1]
      rw [ey]
      exact this
  rintro ⟨h0, sp⟩ ⟨h1, _⟩
  simp only at h1 ⊢
  have hh0 : h0 = uhH0 n ell sdf xf := by
    rw [h1, uhH0, ← e4, ← e8]
    rfl
  rw [hh0]
  refine Ok.step hcode ?_
  have hld0 := hld 0 (by decide)
  rw [Nat.zero_mul] at hld0
  refine Ok.step hld0 (Ok.step (hld 1 (by decide)) (Ok.step (hld 2 (by decide)) (Ok.step (hld 3 (by decide)) ?_)))
  have hxl := hx.le (by omega)
  refine Ok.step (ptr_eq (by omega)) ?_
  rw [BF.mul64_eq (by omega), BF.mul64_eq (by omega), ← BF.mul_def, ← BF.mul_def, ← BF.add_def, ← BF.add_def]
  have hx1 : Has (x.drop ((ell + nb * 8) / 8)) 0 (nb + 2) (fun t => xf (L + t)) := by
    rw [has_drop]
    intro t ht
    rw [show (ell + nb * 8) / 8 + 0 + t = L + t by omega]
    exact hx.rd0 (by omega)
  generalize elt n sdf 0 * uhH0 n ell sdf xf + elt n sdf 1 * lift64 n (uhH1 n ell sdf xf) = A
  generalize elt n sdf 2 * uhH0 n ell sdf xf + elt n sdf 3 * lift64 n (uhH1 n ell sdf xf) = B
  have hab : Has (ofList (A.toBytes ++ B.toBytes.take UNIVERSAL_HASH_B)) 0 (nb + 2)
      (fun t => if t < nb then byteAt A t else byteAt B (t - nb)) := by
    intro t ht
    rw [Nat.zero_add, rd_ofList, toBytes_eq, toBytes_eq, ← e1]
    by_cases h : t < nb
    · rw [List.getElem?_append_left (by rw [tabP_length]; exact h), tabP_getElem?, if_pos h]
      simp only [if_pos h]
      rfl
    · rw [List.getElem?_append_right (by rw [tabP_length]; omega), tabP_length, List.getElem?_take,
        if_pos (by show _ < 2; omega), tabP_getElem?, if_pos (by omega)]
      simp only [if_neg h]
      rfl
  exact Ok.of_eq (xorArr_ok hab hx1) rfl

/-! ### The ZK hash -/

theorem listHash_append (key : BF n) (ys zs : List (BF n)) :
    listHash key (ys ++ zs) = listHash key ys * key ^ zs.length + listHash key zs := by
  induction ys with
  | nil => simp [listHash]
  | cons y ys ih =>
    rw [List.cons_append, listHash, listHash, ih, List.length_append, pow_add]
    ring

theorem listHash_snoc (key : BF n) (ys : List (BF n)) (v : BF n) :
    listHash key (ys ++ [v]) = listHash key ys * key + v := by
  rw [listHash_append]; simp [listHash]

theorem listHash_linear (key a b : BF n) : ∀ (ys zs : List (BF n)), ys.length = zs.length →
    listHash key (List.zipWith (fun y z => a * y + b * z) ys zs)
      = a * listHash key ys + b * listHash key zs
  | [], [], _ => by simp [listHash]
  | y :: ys, z :: zs, h => by
    have h' : ys.length = zs.length := by simpa using h
    rw [List.zipWith_cons_cons, listHash, listHash, listHash, listHash_linear key a b ys zs h',
      List.length_zipWith, ← h', Nat.min_self]
    ring

theorem zkHash_linear (sd : Nat → Byte) (a b : BF n) {ys zs : List (BF n)} (h : ys.length = zs.length)
    (x y : BF n) :
    zkHash n sd (List.zipWith (fun y z => a * y + b * z) ys zs) (a * x + b * y)
      = a * zkHash n sd ys x + b * zkHash n sd zs y := by
  unfold zkHash
  rw [listHash_linear _ _ _ _ _ h, listHash_linear _ _ _ _ _ h]
  ring

/-- A hash context which has absorbed the values `ys`. -/
structure ZkOk (sdf : Nat → Byte) (ys : List (BF n)) (ctx : ZkCtx n) : Prop where
  sd : Has ctx.sd 0 (3 * (n / 8) + 8) sdf
  s : ctx.s = elt n sdf 2
  t : ctx.t = loadF 64 fun k => sdf (3 * (n / 8) + k)
  h0 : ctx.h0 = listHash (elt n sdf 2) ys
  h1 : ctx.h1 = listHash (lift64 n (loadF 64 fun k => sdf (3 * (n / 8) + k))) ys

theorem elt_load {sd : Mem Byte} {sdf : Nat → Byte} {len i : Nat} (hn : 8 ≤ n) (hsd : Has sd 0 len sdf)
    (hi : (i + 1) * (n / 8) ≤ len) : bfLoad n sd (i * (n / 8)) = some (elt n sdf i) := by
  rw [Nat.succ_mul] at hi
  refine bfLoad_ok hn ?_
  intro k hk
  exact hsd.rd0 (by omega)

theorem zkInit_ok (hn : 64 ≤ n) {sd : Mem Byte} {sdf : Nat → Byte}
    (hsd : Has sd 0 (3 * (n / 8) + 8) sdf) : Ok (zkInit n sd) (ZkOk sdf []) := by
  unfold zkInit
  refine Ok.step (elt_load (by omega) hsd (by omega)) ?_
  refine Ok.step (bfLoad_ok (g := fun k => sdf (3 * (n / 8) + k)) (by decide) ?_) ?_
  · intro k hk
    exact hsd.rd0 (by omega)
  · exact Ok.pure ⟨hsd, rfl, rfl, rfl, rfl⟩

theorem zkUpdate_ok (hn : 64 ≤ n) {sdf : Nat → Byte} {ys : List (BF n)} {ctx : ZkCtx n}
    (h : ZkOk sdf ys ctx) (v : BF n) : ZkOk sdf (ys ++ [v]) (zkUpdate ctx v) := by
  refine ⟨h.sd, h.s, h.t, ?_, ?_⟩
  · show bfAdd (bfMul ctx.h0 ctx.s) v = _
    rw [h.h0, h.s, listHash_snoc]; rfl
  · show bfAdd (bfMul64 ctx.h1 ctx.t) v = _
    rw [h.h1, h.t, listHash_snoc, BF.mul64_eq hn]; rfl

theorem zkUpdates_ok (hn : 64 ≤ n) {sdf : Nat → Byte} {ys : List (BF n)} {ctx : ZkCtx n}
    (h : ZkOk sdf ys ctx) (zs : List (BF n)) : ZkOk sdf (ys ++ zs) (zs.foldl zkUpdate ctx) := by
  induction zs generalizing ys ctx with
  | nil => rwa [List.append_nil]
  | cons z zs ih =>
    have := ih (zkUpdate_ok hn h z)
    rwa [List.append_assoc] at this

theorem zkFinalize_ok (hn : 64 ≤ n) {sdf : Nat → Byte} {ys : List (BF n)} {ctx : ZkCtx n}
    (h : ZkOk sdf ys ctx) (x1 : BF n) :
    zkFinalize ctx x1 = some (zkHash n sdf ys x1).toBytes := by
  unfold zkFinalize
  have h0 := elt_load (n := n) (i := 0) (by omega) h.sd (by omega)
  have h1 := elt_load (n := n) (i := 1) (by omega) h.sd (by omega)
  rw [Nat.zero_mul] at h0
  rw [Nat.one_mul] at h1
  rw [h0, h1, h.h0, h.h1]
  rfl

end Faest
