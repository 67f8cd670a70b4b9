/-
The translated state functions of sha3/opt64 on a big-endian host (Model/Gen/KeccakBe.lean): byte `j` of a lane is the byte
`7 - j` of the eight bytes in memory.
-/
import Verif.Model.Gen.KeccakBe
import Verif.Proofs.Gen.KeccakSponge

namespace Faest.GenB
open Faest.C Faest.Keccak
open Faest.GenH (pk pk_packL wordBytes_pk wordBytes_length t_ld64 t_st64 t_st64n St st_len st_has st_st st_congr st_lane rounds24_pure has_from
  absorb_block xor_lanes padd_padd padd_zero up_tab)

/-! ### Words -/

theorem laneByte_bswap (x : BitVec 64) {j : Nat} (hj : j < 8) : laneByte (bswap64 x) j = laneByte x (7 - j) := by
  apply BitVec.eq_of_getLsbD_eq
  intro i hi
  rw [laneByte_bit, laneByte_bit]
  unfold bswap64
  interval_cases j <;> interval_cases i <;> simp

theorem bswap_bswap (x : BitVec 64) : bswap64 (bswap64 x) = x := by
  refine u64_ext fun j hj => ?_
  rw [laneByte_bswap _ hj, laneByte_bswap _ (by omega), show 7 - (7 - j) = j by omega]

theorem tab8_reverse (f : Nat → Byte) : (tabP 8 f).reverse = tabP 8 fun j => f (7 - j) := rfl

theorem wordBytes_bswap (x : BitVec 64) : (wordBytes x).reverse = wordBytes (bswap64 x) := by
  unfold wordBytes
  rw [tab8_reverse]
  exact tabP_congr fun j hj => (laneByte_bswap x hj).symm

theorem st64be_eq (p : CPtr) (o : Nat) (x : BitVec 64) : st64be p o x = st64 p o (bswap64 x) := by
  unfold st64be st64
  rw [wordBytes_bswap]

/-- The bytes of each lane in reverse order. -/
def rv (B : Nat → Byte) : Nat → Byte := fun t => B (8 * (t / 8) + (7 - t % 8))

theorem rv_rv (B : Nat → Byte) : rv (rv B) = B := by
  funext t
  unfold rv
  rw [show (8 * (t / 8) + (7 - t % 8)) / 8 = t / 8 by omega, show (8 * (t / 8) + (7 - t % 8)) % 8 = 7 - t % 8 by omega,
    show 8 * (t / 8) + (7 - (7 - t % 8)) = t by omega]

theorem rv_zero : (rv fun _ => 0) = fun _ => 0 := rfl

theorem rv_lane (B : Nat → Byte) {k j : Nat} (hj : j < 8) : rv B (8 * k + j) = B (8 * k + (7 - j)) := by
  unfold rv
  rw [show (8 * k + j) / 8 = k by omega, show (8 * k + j) % 8 = j by omega]

theorem bswap_pk (B : Nat → Byte) (k : Nat) : bswap64 (pk (rv B) (8 * k)) = packL B k := by
  refine u64_ext fun j hj => ?_
  rw [laneByte_bswap _ hj, pk_packL, laneByte_packL _ _ _ (by omega), laneByte_packL _ _ _ hj, rv_lane _ (by omega),
    show 7 - (7 - j) = j by omega]

theorem bswap_packL (B : Nat → Byte) (k : Nat) : bswap64 (packL B k) = pk (rv B) (8 * k) := by
  rw [← bswap_pk, bswap_bswap]

section
variable {δ : Type} {D F : Blocks} {Q : δ → Blocks → Prop}

theorem t_ld64be {p : CPtr} {o N : Nat} {μ : Mem Byte} {G : Nat → Byte} {g : BitVec 64 → CM δ} (hv : View D p μ)
    (hm : Has μ 0 N G) (ho : o + 8 ≤ N) (k : T D (g (bswap64 (pk G o))) Q) : T D (ld64be p o >>= g) Q := by
  unfold ld64be
  refine t_assoc (t_ldN (l := tabP 8 fun j => G (o + j)) hv.padd (by decide) ?_ (t_pbind ?_))
  · have h : Has μ o 8 fun j => G (o + j) := fun i hi => by rw [← hm (o + i) (by omega), Nat.zero_add]
    exact rdN_at (rdN_has h (by decide))
  · have e : leWord (tabP 8 fun j => G (o + j)).reverse = bswap64 (pk G o) := by
      refine u64_ext fun j hj => ?_
      unfold pk
      rw [laneByte_bswap _ hj, laneByte_leWord _ _ hj, laneByte_leWord _ _ (by omega), tab8_reverse, List.getD_eq_getElem?_getD,
        List.getD_eq_getElem?_getD, tabP_getElem?, tabP_getElem?, if_pos hj, if_pos (by omega)]
    rw [e]
    exact k

/-- A lane of the state. -/
theorem t_ldLane {kd : Kind} {b w k o : Nat} {m : Mem Byte} {B : Nat → Byte} {g : BitVec 64 → CM δ}
    (hD : D = bl kd b (St m w (rv B)) + F) (hl : w + 200 ≤ m.length) (hk : k < 25) (ho : o = 8 * k)
    (h : T D (g (packL B k)) Q) : T D (ld64be (some ⟨b, w⟩) o >>= g) Q := by
  subst hD ho
  refine t_ld64be (μ := (St m w (rv B)).drop w) (N := 200) (G := rv B) View.here (fun i hi => ?_) (by omega) ?_
  · rw [rd_drop, Nat.zero_add]
    exact st_has hl _ i hi
  · rw [bswap_pk]; exact h

theorem t_stLane {kd : Kind} {b w n k : Nat} {m : Mem Byte} {B : Nat → Byte} {x : BitVec 64} {g : Unit → CM δ}
    (hD : D = bl kd b (W m w (tabP n (rv B))) + F) (hl : w + (n + 8) ≤ m.length) (hn : n = 8 * k) (hx : x = packL B k)
    (h : T (bl kd b (W m w (tabP (n + 8) (rv B))) + F) (g ()) Q) : T D (st64be (some ⟨b, w⟩) n x >>= g) Q := by
  rw [st64be_eq]
  exact t_st64n hD hl (by rw [hx, bswap_packL, hn]) h

/-- The next byte of the output. -/
theorem t_stU {A : Blocks} {q : Ptr} {n o N a : Nat} {G : Nat → Byte} {x : Byte}
    {g : Unit → CM δ} (hv : Valid F q N) (hN : n + 1 ≤ N) (hp : a + o = q.off + n) (hx : x = G n)
    (k : T (A + up F q (tabP (n + 1) G)) (g ()) Q) : T (A + up F q (tabP n G)) (st (some ⟨q.blk, a⟩) o x >>= g) Q := by
  have e0 : (st (some ⟨q.blk, a⟩) o x : CM Unit) = stN (some ⟨q.blk, q.off + n⟩) [x] := by
    have hw : ∀ m : Mem Byte, wr m (a + o) x = wrN m (q.off + n) [x] := by
      intro m
      rw [hp]
      unfold wr wrN
      by_cases h : q.off + n < m.length
      · rw [if_pos h, if_pos (by simpa using h), List.set_eq_take_append_cons_drop, if_pos h]
        simp
      · rw [if_neg h, if_neg (by simpa using h)]
    show (blk ⟨q.blk, a⟩ >>= fun m => lft (wr m (a + o) x) >>= fun m' => put ⟨q.blk, a⟩ m') = _
    simp only [hw]
    rfl
  rw [e0]
  refine t_nd fun hnd => ?_
  have hF : ND F := ND.of_up hnd.right
  have hv2 : Valid (up F q (tabP n G)) ⟨q.blk, q.off + n⟩ 1 :=
    (hv.sub (a := n) (k := 1) hN).up (by rw [tabP_length]; exact hv.mono (by omega)) hF
  refine t_up (l := [x]) hv2.right ?_
  rw [up_frame hnd hv2]
  have e := up_append (F := F) (q := q) (l := tabP n G) (l' := tabP 1 fun j => G (n + j))
    (by rw [tabP_length, tabP_length]; exact hv.mono hN) hF
  rw [tabP_length, ← tabP_add] at e
  rw [show [x] = tabP 1 fun j => G (n + j) by rw [hx]; rfl, e]
  exact k

end

section
variable {kd : Kind} {b w : Nat} {m : Mem Byte} {B : Nat → Byte} {F : Blocks}

theorem copyFrom_runs (hl : w + 200 ≤ m.length) :
    Runs (bl kd b (St m w (rv B)) + F) (copyFromState (some ⟨b, w⟩)) (lanesOf (packL B)) (bl kd b (St m w (rv B)) + F) := by
  unfold copyFromState
  refine t_ldLane (k := 0) rfl hl (by decide) rfl ?_
  refine t_ldLane (k := 1) rfl hl (by decide) rfl ?_
  refine t_ldLane (k := 2) rfl hl (by decide) rfl ?_
  refine t_ldLane (k := 3) rfl hl (by decide) rfl ?_
  refine t_ldLane (k := 4) rfl hl (by decide) rfl ?_
  refine t_ldLane (k := 5) rfl hl (by decide) rfl ?_
  refine t_ldLane (k := 6) rfl hl (by decide) rfl ?_
  refine t_ldLane (k := 7) rfl hl (by decide) rfl ?_
  refine t_ldLane (k := 8) rfl hl (by decide) rfl ?_
  refine t_ldLane (k := 9) rfl hl (by decide) rfl ?_
  refine t_ldLane (k := 10) rfl hl (by decide) rfl ?_
  refine t_ldLane (k := 11) rfl hl (by decide) rfl ?_
  refine t_ldLane (k := 12) rfl hl (by decide) rfl ?_
  refine t_ldLane (k := 13) rfl hl (by decide) rfl ?_
  refine t_ldLane (k := 14) rfl hl (by decide) rfl ?_
  refine t_ldLane (k := 15) rfl hl (by decide) rfl ?_
  refine t_ldLane (k := 16) rfl hl (by decide) rfl ?_
  refine t_ldLane (k := 17) rfl hl (by decide) rfl ?_
  refine t_ldLane (k := 18) rfl hl (by decide) rfl ?_
  refine t_ldLane (k := 19) rfl hl (by decide) rfl ?_
  refine t_ldLane (k := 20) rfl hl (by decide) rfl ?_
  refine t_ldLane (k := 21) rfl hl (by decide) rfl ?_
  refine t_ldLane (k := 22) rfl hl (by decide) rfl ?_
  refine t_ldLane (k := 23) rfl hl (by decide) rfl ?_
  refine t_ldLane (k := 24) rfl hl (by decide) rfl ?_
  exact t_pure ⟨rfl, rfl⟩

theorem copyTo_runs (hl : w + 200 ≤ m.length) :
    Runs (bl kd b m + F) (copyToState (some ⟨b, w⟩) (lanesOf (packL B))) () (bl kd b (St m w (rv B)) + F) := by
  unfold copyToState
  refine t_perm (D' := bl kd b (W m w (tabP 0 (rv B))) + F) (by rw [show tabP 0 (rv B) = [] from rfl, W_nil]) ?_
  refine t_stLane (k := 0) rfl (by omega) rfl rfl ?_
  refine t_stLane (k := 1) rfl (by omega) rfl rfl ?_
  refine t_stLane (k := 2) rfl (by omega) rfl rfl ?_
  refine t_stLane (k := 3) rfl (by omega) rfl rfl ?_
  refine t_stLane (k := 4) rfl (by omega) rfl rfl ?_
  refine t_stLane (k := 5) rfl (by omega) rfl rfl ?_
  refine t_stLane (k := 6) rfl (by omega) rfl rfl ?_
  refine t_stLane (k := 7) rfl (by omega) rfl rfl ?_
  refine t_stLane (k := 8) rfl (by omega) rfl rfl ?_
  refine t_stLane (k := 9) rfl (by omega) rfl rfl ?_
  refine t_stLane (k := 10) rfl (by omega) rfl rfl ?_
  refine t_stLane (k := 11) rfl (by omega) rfl rfl ?_
  refine t_stLane (k := 12) rfl (by omega) rfl rfl ?_
  refine t_stLane (k := 13) rfl (by omega) rfl rfl ?_
  refine t_stLane (k := 14) rfl (by omega) rfl rfl ?_
  refine t_stLane (k := 15) rfl (by omega) rfl rfl ?_
  refine t_stLane (k := 16) rfl (by omega) rfl rfl ?_
  refine t_stLane (k := 17) rfl (by omega) rfl rfl ?_
  refine t_stLane (k := 18) rfl (by omega) rfl rfl ?_
  refine t_stLane (k := 19) rfl (by omega) rfl rfl ?_
  refine t_stLane (k := 20) rfl (by omega) rfl rfl ?_
  refine t_stLane (k := 21) rfl (by omega) rfl rfl ?_
  refine t_stLane (k := 22) rfl (by omega) rfl rfl ?_
  refine t_stLane (k := 23) rfl (by omega) rfl rfl ?_
  refine t_stLane (k := 24) rfl (by omega) rfl rfl ?_
  exact t_pure ⟨rfl, rfl⟩

theorem permute_runs (hl : w + 200 ≤ m.length) :
    Runs (bl kd b (St m w (rv B)) + F) (KeccakP1600_Permute_24rounds (some ⟨b, w⟩)) () (bl kd b (St m w (rv (keccakB B))) + F) := by
  unfold KeccakP1600_Permute_24rounds
  refine t_run rfl (copyFrom_runs hl) ?_
  dsimp only
  rw [rounds24_pure, rounds24_eq]
  refine t_pbind ?_
  refine t_run rfl (copyTo_runs (by rw [st_len hl]; exact hl)) ?_
  rw [st_st hl]
  exact t_pure ⟨rfl, rfl⟩

theorem init_runs (hl : w + 200 ≤ m.length) :
    Runs (bl kd b m + F) (KeccakP1600_Initialize (some ⟨b, w⟩)) () (bl kd b (St m w (rv fun _ => 0)) + F) := by
  unfold KeccakP1600_Initialize
  refine t_memset0 rfl (m' := St m w (rv fun _ => 0)) ?_ (t_pure ⟨rfl, rfl⟩)
  rw [wrN_W (by rw [List.length_replicate]; exact hl)]
  have e : List.replicate 200 (0 : Byte) = tabP 200 fun _ => 0 := by
    refine List.ext_getElem? fun i => ?_
    rw [List.getElem?_replicate, tabP_getElem?]
  unfold St
  rw [rv_zero, ← e]

/-- Adding one lane. -/
theorem t_xor {δ : Type} {Q : δ → Blocks → Prop} {g : Unit → CM δ} {D : Blocks} {x : BitVec 64} {k o off n : Nat}
    {d : Nat → Byte} (hl : w + 200 ≤ m.length) (hk : k < 25) (ho : o = 8 * k) (hn : off + n ≤ 8)
    (hx : ∀ j, j < 8 → laneByte x j = if off ≤ j ∧ j < off + n then d (j - off) else 0)
    (hD : D = bl kd b (St m w (rv B)) + F)
    (h : T (bl kd b (St m w (rv (xorB B (8 * k + off) n d))) + F) (g ()) Q) :
    T D (st64be (some ⟨b, w⟩) o (packL B k ^^^ x) >>= g) Q := by
  subst ho
  rw [st64be_eq]
  refine t_st64 hD (by rw [st_len hl]; omega) ?_
  rw [st_lane hl hk (B' := rv (xorB B (8 * k + off) n d))]
  · exact h
  · intro j hj
    rw [laneByte_bswap _ hj, laneByte_xor, hx _ (by omega), laneByte_packL _ _ _ (by omega), rv_lane _ hj]
    unfold xorB
    by_cases e : off ≤ 7 - j ∧ 7 - j < off + n
    · rw [if_pos e, if_pos (by omega), show 8 * k + (7 - j) - (8 * k + off) = 7 - j - off by omega]
    · rw [if_neg e, if_neg (by omega)]
      simp
  · intro t _ hne
    unfold rv xorB
    rw [if_neg (by omega)]

theorem laneByte_or (x y : BitVec 64) (j : Nat) : laneByte (x ||| y) j = laneByte x j ||| laneByte y j := by
  apply BitVec.eq_of_getLsbD_eq
  intro i hi
  rw [BitVec.getLsbD_or, laneByte_bit, laneByte_bit, laneByte_bit, BitVec.getLsbD_or]
  simp [hi]

/-- A byte at a position in a word. -/
theorem laneByte_put (c : Byte) (o : Nat) {j : Nat} (hj : j < 8) :
    laneByte (BitVec.setWidth 64 c <<< (8 * o)) j = if j = o then c else 0 := by
  rw [laneByte_shl _ _ _ hj]
  have := laneByte_zeroExtend c (j - o)
  rw [show c.zeroExtend 64 = c.setWidth 64 from rfl] at this
  rw [this]
  by_cases e : j = o
  · subst e; simp
  · rw [if_neg e]
    by_cases h : o ≤ j
    · rw [if_pos h, if_neg (by omega)]
    · rw [if_neg h]

theorem addLane_runs {data : CPtr} {μ : Mem Byte} {d : Nat → Byte} {N lp off n : Nat} (hl : w + 200 ≤ m.length)
    (hv : View F data μ) (hd : Has μ 0 N d) (hN : n ≤ N) (hlp : lp < 25) (ho : off < 8) (hn : off + n ≤ 8) :
    Runs (bl kd b (St m w (rv B)) + F) (KeccakP1600_AddBytesInLane (some ⟨b, w⟩) lp data off n) ()
      (bl kd b (St m w (rv (xorB B (8 * lp + off) n d))) + F) := by
  unfold KeccakP1600_AddBytesInLane
  dsimp only
  refine t_whileI (I := fun s D => s.2 ≤ n ∧
      (∀ j, j < 8 → laneByte s.1 j = if off ≤ j ∧ j < off + s.2 then d (j - off) else 0) ∧
      D = bl kd b (St m w (rv B)) + F) (μ := fun s => n - s.2)
    ⟨Nat.zero_le _, fun j _ => by dsimp only; rw [if_neg (by omega)]; simp [laneByte], rfl⟩ (by dsimp only; omega) ?_ ?_
  · rintro ⟨lane, i⟩ D ⟨hi, hj, rfl⟩ hb
    dsimp only at hi hj hb ⊢
    rw [decide_eq_true_eq] at hb
    refine t_ld hv.there (hd.rd0 (k := i) (by omega)) ?_
    rw [show (i + off) % 4294967296 * 8 % 4294967296 = 8 * (off + i) by omega, show (i + 1) % 4294967296 = i + 1 by omega]
    refine t_lft (if_pos (by omega)) ?_
    refine t_pure ⟨⟨by omega, fun j h8 => ?_, rfl⟩, by dsimp only; omega⟩
    dsimp only
    rw [laneByte_or, hj j h8, laneByte_put _ _ h8]
    by_cases e : j = off + i
    · rw [if_neg (by omega), if_pos e, if_pos (by omega), show j - off = i by omega]
      simp
    · rw [if_neg e]
      by_cases e2 : off ≤ j ∧ j < off + i
      · rw [if_pos e2, if_pos (by omega)]; simp
      · rw [if_neg e2, if_neg (by omega)]; simp
  · rintro ⟨lane, i⟩ D ⟨hi, hj, rfl⟩ hb
    dsimp only at hi hj hb ⊢
    rw [decide_eq_false_iff_not] at hb
    obtain rfl : i = n := by omega
    refine t_ldLane (k := lp) rfl hl hlp rfl ?_
    exact t_xor hl hlp rfl hn hj rfl (t_pure ⟨rfl, rfl⟩)

theorem addByte_runs {c : Byte} {i : Nat} (hl : w + 200 ≤ m.length) (hi : i < 200) :
    Runs (bl kd b (St m w (rv B)) + F) (KeccakP1600_AddByte (some ⟨b, w⟩) c i) ()
      (bl kd b (St m w (rv (xorB B i 1 fun _ => c))) + F) := by
  unfold KeccakP1600_AddByte
  dsimp only
  rw [show i % 8 * 8 % 4294967296 = 8 * (i % 8) by omega]
  refine t_lft (if_pos (by omega)) ?_
  refine t_ldLane (k := i / 8) rfl hl (by omega) rfl ?_
  refine t_xor (off := i % 8) (n := 1) (d := fun _ => c) hl (by omega) rfl (by omega) (fun j hj => ?_) rfl ?_
  · rw [laneByte_put _ _ hj]
    by_cases e : j = i % 8
    · rw [if_pos e, if_pos (by omega)]
    · rw [if_neg e, if_neg (by omega)]
  · rw [show 8 * (i / 8) + i % 8 = i by omega]
    exact t_pure ⟨rfl, rfl⟩

theorem addLanes_runs {data : CPtr} {μ : Mem Byte} {d : Nat → Byte} {N c : Nat} (hl : w + 200 ≤ m.length)
    (hv : View F data μ) (hd : Has μ 0 N d) (hN : 8 * c ≤ N) (hc : c ≤ 25) :
    Runs (bl kd b (St m w (rv B)) + F) (KeccakP1600_AddLanes (some ⟨b, w⟩) data c) ()
      (bl kd b (St m w (rv (xorB B 0 (8 * c) d))) + F) := by
  unfold KeccakP1600_AddLanes
  dsimp only
  refine t_whileI (I := fun s D => s.1 ≤ c ∧ s.2 = padd data (8 * s.1) ∧
      D = bl kd b (St m w (rv (xorB B 0 (8 * s.1) d))) + F) (μ := fun s => c - s.1)
    ⟨Nat.zero_le _, by cases data <;> rfl, by rw [Nat.mul_zero, xorB_zero]⟩ (by dsimp only; omega) ?_ ?_
  · rintro ⟨i, p⟩ D ⟨hi, h1, rfl⟩ hb
    dsimp only at hi h1 hb ⊢
    rw [decide_eq_true_eq] at hb
    subst h1
    have hv2 : View (bl kd b (St m w (rv (xorB B 0 (8 * i) d))) + F) (padd data (8 * i)) (μ.drop (8 * i)) := hv.there.padd
    have hd2 : Has (μ.drop (8 * i)) 0 8 fun j => d (8 * i + j) := has_from hd (by omega)
    refine t_ld hv2 (hd2.rd0 (k := 0) (by omega)) ?_
    refine t_ld hv2 (hd2.rd0 (k := 1) (by omega)) ?_
    refine t_ld hv2 (hd2.rd0 (k := 2) (by omega)) ?_
    refine t_ld hv2 (hd2.rd0 (k := 3) (by omega)) ?_
    refine t_ld hv2 (hd2.rd0 (k := 4) (by omega)) ?_
    refine t_ld hv2 (hd2.rd0 (k := 5) (by omega)) ?_
    refine t_ld hv2 (hd2.rd0 (k := 6) (by omega)) ?_
    refine t_ld hv2 (hd2.rd0 (k := 7) (by omega)) ?_
    refine t_ldLane (k := i) rfl hl (by omega) rfl ?_
    refine t_xor (off := 0) (n := 8) (d := fun j => d (8 * i + j)) hl (by omega) rfl (by omega) (fun j hj => ?_) rfl ?_
    · rw [if_pos (by omega), Nat.sub_zero]
      have h0 := laneByte_put (d (8 * i + 0)) 0 hj
      have h1 := laneByte_put (d (8 * i + 1)) 1 hj
      have h2 := laneByte_put (d (8 * i + 2)) 2 hj
      have h3 := laneByte_put (d (8 * i + 3)) 3 hj
      have h4 := laneByte_put (d (8 * i + 4)) 4 hj
      have h5 := laneByte_put (d (8 * i + 5)) 5 hj
      have h6 := laneByte_put (d (8 * i + 6)) 6 hj
      have h7 := laneByte_put (d (8 * i + 7)) 7 hj
      simp only [Nat.mul_zero, BitVec.shiftLeft_zero] at h0
      simp only [laneByte_or]
      rw [h0, h1, h2, h3, h4, h5, h6, h7]
      interval_cases j <;> simp
    · rw [show (i + 1) % 4294967296 = i + 1 by omega, GenH.padd_padd]
      refine t_pure ⟨⟨by omega, rfl, ?_⟩, by dsimp only; omega⟩
      have := xorB_xorB B 0 (8 * i) 8 d
      rw [Nat.zero_add] at this
      dsimp only
      rw [Nat.add_zero, this, Nat.mul_succ]
  · rintro ⟨i, p⟩ D ⟨hi, h1, rfl⟩ hb
    dsimp only at hi h1 hb ⊢
    rw [decide_eq_false_iff_not] at hb
    obtain rfl : i = c := by omega
    exact t_pure ⟨rfl, rfl⟩

theorem addBytes_runs {data : CPtr} {μ : Mem Byte} {d : Nat → Byte} {off n : Nat} (hl : w + 200 ≤ m.length)
    (hv : View F data μ) (hd : Has μ 0 n d) (hn : off + n ≤ 200) (h200 : off = 0 → n < 200) :
    Runs (bl kd b (St m w (rv B)) + F) (KeccakP1600_AddBytes (some ⟨b, w⟩) data off n) ()
      (bl kd b (St m w (rv (xorB B off n d))) + F) := by
  unfold KeccakP1600_AddBytes
  dsimp only
  by_cases h0 : off = 0
  · subst h0
    have hn := h200 rfl
    refine t_ite_pos rfl ?_
    refine t_assoc (t_run rfl (addLanes_runs hl hv hd (by omega) (by omega)) ?_)
    rw [Nat.mod_eq_of_lt (by omega : n / 8 * 8 < U32)]
    refine t_assoc (t_run rfl (addLane_runs (d := fun j => d (8 * (n / 8) + j)) hl (hv.padd (k := n / 8 * 8))
      (N := n % 8) ?_ (by omega) (by omega) (by omega) (by omega)) ?_)
    · refine has_drop.2 ?_
      intro j hj
      have := hd (n / 8 * 8 + j) (by omega)
      dsimp only
      rw [show 8 * (n / 8) + j = n / 8 * 8 + j by omega]
      rw [← this]
      congr 1
      omega
    · refine t_pbind ?_
      have := xorB_xorB B 0 (8 * (n / 8)) (n % 8) d
      rw [Nat.zero_add, show 8 * (n / 8) + n % 8 = n by omega] at this
      rw [Nat.add_zero, this]
      exact t_pure ⟨rfl, rfl⟩
  · refine t_ite_neg h0 ?_
    refine t_assoc ?_
    refine t_whileI (I := fun s D => ∃ t, t ≤ n ∧ s.1 = n - t ∧ s.2.2.2 = padd data t ∧
      (t < n → 8 * s.2.1 + s.2.2.1 = off + t ∧ s.2.2.1 < 8) ∧
      D = bl kd b (St m w (rv (xorB B off t d))) + F) (μ := fun s => s.1)
      ⟨0, by omega, rfl, by cases data <;> rfl, fun _ => ⟨by dsimp only; omega, by dsimp only; omega⟩, by rw [xorB_zero]⟩
      (by dsimp only; omega) ?_ ?_
    · rintro ⟨sl, lp, ol, cd⟩ D ⟨t, ht, h1, h2, h3, rfl⟩ hb
      dsimp only at h1 h2 h3 hb ⊢
      rw [decide_eq_true_eq] at hb
      subst h1 h2
      obtain ⟨h3, h4⟩ := h3 (by omega)
      rw [show (8 + 4294967296 - ol) % 4294967296 = 8 - ol by omega]
      have key : ∀ k, 0 < k → k ≤ n - t → k ≤ 8 - ol → (k = 8 - ol ∨ k = n - t) →
          T (bl kd b (St m w (rv (xorB B off t d))) + F) (do
            KeccakP1600_AddBytesInLane (some ⟨b, w⟩) lp (padd data t) ol k
            pure ((n - t + 4294967296 - k) % 4294967296, (lp + 1) % 4294967296, 0, padd (padd data t) k))
          fun s' D' => (∃ t, t ≤ n ∧ s'.1 = n - t ∧ s'.2.2.2 = padd data t ∧
            (t < n → 8 * s'.2.1 + s'.2.2.1 = off + t ∧ s'.2.2.1 < 8) ∧
            D' = bl kd b (St m w (rv (xorB B off t d))) + F) ∧ s'.1 < n - t := by
        intro k hk0 hk1 hk2 hk3
        refine t_run rfl (addLane_runs (d := fun j => d (t + j)) hl (hv.padd (k := t)) (N := k) ?_
          (by omega) (by omega) (by omega) (by omega)) ?_
        · refine has_drop.2 fun j hj => ?_
          have := hd (t + j) (by omega)
          rw [← this]
          congr 1
          omega
        · rw [h3, xorB_xorB]
          refine t_pure ⟨⟨t + k, by omega, by dsimp only; omega, ?_, fun h => ⟨by dsimp only; omega, by dsimp only; omega⟩, rfl⟩,
            by dsimp only; omega⟩
          cases data
          · rfl
          · simp [padd, Nat.add_assoc]
      by_cases e : 8 - ol > n - t
      · refine t_ite_pos e ?_
        exact t_pbind (key _ (by omega) (by omega) (by omega) (by omega))
      · refine t_ite_neg e ?_
        exact t_pbind (key _ (by omega) (by omega) (by omega) (by omega))
    · rintro ⟨sl, lp, ol, cd⟩ D ⟨t, ht, h1, h2, h3, rfl⟩ hb
      dsimp only at h1 h2 h3 hb ⊢
      rw [decide_eq_false_iff_not] at hb
      rw [show t = n by omega]
      exact t_pbind (t_pure ⟨rfl, rfl⟩)

/-! ### Reading the state -/

theorem byte_and (x : BitVec 64) : BitVec.setWidth 8 (x &&& 255) = laneByte x 0 := by
  apply BitVec.eq_of_getLsbD_eq
  intro i hi
  rw [laneByte_bit]
  interval_cases i <;> simp

theorem laneByte_shr (x : BitVec 64) (o j : Nat) : laneByte (x >>> (8 * o)) j = laneByte x (o + j) := by
  apply BitVec.eq_of_getLsbD_eq
  intro i hi
  rw [laneByte_bit, laneByte_bit, BitVec.getLsbD_ushiftRight, show 8 * o + (8 * j + i) = 8 * (o + j) + i by omega]

theorem extractLane_runs {q : Ptr} {lp off n : Nat} (hl : w + 200 ≤ m.length) (hv : Valid F q n) (hlp : lp < 25)
    (ho : off < 8) (hn : off + n ≤ 8) :
    Runs (bl kd b (St m w (rv B)) + F) (KeccakP1600_ExtractBytesInLane (some ⟨b, w⟩) lp (some q) off n) ()
      (bl kd b (St m w (rv B)) + up F q (tabP n fun j => B (8 * lp + off + j))) := by
  unfold KeccakP1600_ExtractBytesInLane
  refine t_ldLane (k := lp) rfl hl hlp rfl ?_
  dsimp only
  rw [show off * 8 % 4294967296 = 8 * off by omega]
  refine t_lft (if_pos (by omega)) ?_
  refine t_whileI (I := fun s D => s.2 ≤ n ∧ (∀ j, laneByte s.1 j = laneByte (packL B lp) (off + s.2 + j)) ∧
      D = bl kd b (St m w (rv B)) + up F q (tabP s.2 fun j => B (8 * lp + off + j))) (μ := fun s => n - s.2)
    ⟨Nat.zero_le _, fun j => laneByte_shr _ _ _, by
      rw [show (tabP 0 fun j => B (8 * lp + off + j)) = [] from rfl, up_nil]⟩ (by dsimp only; omega) ?_ ?_
  · rintro ⟨lane, i⟩ D ⟨hi, hj, rfl⟩ hb
    dsimp only at hi hj hb ⊢
    rw [decide_eq_true_eq] at hb
    refine t_stU hv (by omega) rfl ?_ ?_
    · rw [byte_and, hj, laneByte_packL _ _ _ (by omega)]
      exact congrArg B (by omega)
    · rw [show (i + 1) % 4294967296 = i + 1 by omega]
      refine t_pure ⟨⟨by omega, fun j => ?_, rfl⟩, by dsimp only; omega⟩
      have := laneByte_shr lane 1 j
      rw [Nat.mul_one] at this
      dsimp only
      rw [this, hj]
      exact congrArg _ (by omega)
  · rintro ⟨lane, i⟩ D ⟨hi, hj, rfl⟩ hb
    dsimp only at hi hj hb ⊢
    rw [decide_eq_false_iff_not] at hb
    obtain rfl : i = n := by omega
    exact t_pure ⟨rfl, rfl⟩

theorem extractLanes_runs {q : Ptr} {c : Nat} (hl : w + 200 ≤ m.length) (hv : Valid F q (8 * c)) (hc : c ≤ 25) :
    Runs (bl kd b (St m w (rv B)) + F) (KeccakP1600_ExtractLanes (some ⟨b, w⟩) (some q) c) ()
      (bl kd b (St m w (rv B)) + up F q (tabP (8 * c) B)) := by
  unfold KeccakP1600_ExtractLanes
  dsimp only
  refine t_whileI (I := fun i D => i ≤ c ∧ D = bl kd b (St m w (rv B)) + up F q (tabP (8 * i) B)) (μ := fun i => c - i)
    ⟨Nat.zero_le _, by rw [show tabP (8 * 0) B = [] from rfl, up_nil]⟩ (by omega) ?_ ?_
  · rintro i D ⟨hi, rfl⟩ hb
    rw [decide_eq_true_eq] at hb
    refine t_ldLane (k := i) rfl hl (by omega) rfl ?_
    rw [show i * 8 % 4294967296 = 8 * i by omega, show (i + 1) % 4294967296 = i + 1 by omega]
    have key : Runs (bl kd b (St m w (rv B)) + up F q (tabP (8 * i) B)) (fromWordToBytes (some ⟨q.blk, q.off + 8 * i⟩) (packL B i)) ()
        (bl kd b (St m w (rv B)) + up F q (tabP (8 * (i + 1)) B)) := by
      unfold fromWordToBytes
      dsimp only
      refine t_whileI (I := fun k D => k ≤ 8 ∧ D = bl kd b (St m w (rv B)) + up F q (tabP (8 * i + k) B)) (μ := fun k => 8 - k)
        ⟨Nat.zero_le _, rfl⟩ (by decide) ?_ ?_
      · rintro k D ⟨hk, rfl⟩ hb
        rw [decide_eq_true_eq] at hb
        rw [show 8 * k % 4294967296 = 8 * k by omega, show (k + 1) % 4294967296 = k + 1 by omega]
        refine t_lft (if_pos (by omega)) ?_
        refine t_stU hv (by omega) (by omega) ?_ ?_
        · rw [byte_and, laneByte_shr, Nat.add_zero, laneByte_packL _ _ _ hb]
        · exact t_pure ⟨⟨by omega, rfl⟩, by omega⟩
      · rintro k D ⟨hk, rfl⟩ hb
        rw [decide_eq_false_iff_not] at hb
        obtain rfl : k = 8 := by omega
        exact t_pure ⟨rfl, rfl⟩
    refine t_run rfl key ?_
    exact t_pure ⟨⟨by omega, rfl⟩, by omega⟩
  · rintro i D ⟨hi, rfl⟩ hb
    rw [decide_eq_false_iff_not] at hb
    obtain rfl : i = c := by omega
    exact t_pure ⟨rfl, rfl⟩

theorem extractBytes_runs {q : Ptr} {off n : Nat} (hl : w + 200 ≤ m.length) (hv : Valid F q n) (hn : off + n ≤ 200) (h200 : off = 0 → n < 200) :
    Runs (bl kd b (St m w (rv B)) + F) (KeccakP1600_ExtractBytes (some ⟨b, w⟩) (some q) off n) ()
      (bl kd b (St m w (rv B)) + up F q (tabP n fun j => B (off + j))) := by
  refine runs_nd fun hnd => ?_
  have hF : ND F := hnd.right
  unfold KeccakP1600_ExtractBytes
  dsimp only
  by_cases h0 : off = 0
  · subst h0
    have hn := h200 rfl
    refine t_ite_pos rfl ?_
    refine t_assoc (t_run rfl (extractLanes_runs hl (hv.mono (by omega)) (by omega)) ?_)
    rw [Nat.mod_eq_of_lt (by omega : n / 8 * 8 < U32)]
    have hv2 : Valid F ⟨q.blk, q.off + n / 8 * 8⟩ (n % 8) := hv.sub (by omega)
    refine t_assoc (t_run rfl (extractLane_runs (q := ⟨q.blk, q.off + n / 8 * 8⟩) hl
      (hv2.up (by rw [tabP_length]; exact hv.mono (by omega)) hF) (by omega) (by omega) (by omega)) ?_)
    have e := up_append (F := F) (q := q) (l := tabP (8 * (n / 8)) B) (l' := tabP (n % 8) fun j => B (8 * (n / 8) + j))
      (by rw [tabP_length, tabP_length]; exact hv.mono (by omega)) hF
    rw [tabP_length, ← tabP_add, show 8 * (n / 8) + n % 8 = n by omega] at e
    rw [show n / 8 * 8 = 8 * (n / 8) by omega]
    simp only [Nat.add_zero]
    rw [e]
    refine t_pbind (t_pure ⟨trivial, ?_⟩)
    simp only [Nat.zero_add]
  · refine t_ite_neg h0 ?_
    refine t_assoc ?_
    refine t_whileI (I := fun s D => ∃ t, t ≤ n ∧ s.1 = n - t ∧ s.2.2.2 = some ⟨q.blk, q.off + t⟩ ∧
      (t < n → 8 * s.2.1 + s.2.2.1 = off + t ∧ s.2.2.1 < 8) ∧
      D = bl kd b (St m w (rv B)) + up F q (tabP t fun j => B (off + j))) (μ := fun s => s.1)
      ⟨0, by omega, rfl, rfl, fun _ => ⟨by dsimp only; omega, by dsimp only; omega⟩, by
        rw [show (tabP 0 fun j => B (off + j)) = [] from rfl, up_nil]⟩
      (by dsimp only; omega) ?_ ?_
    · rintro ⟨sl, lp, ol, cd⟩ D ⟨t, ht, h1, h2, h3, rfl⟩ hb
      dsimp only at h1 h2 h3 hb ⊢
      rw [decide_eq_true_eq] at hb
      subst h1 h2
      obtain ⟨h3, h4⟩ := h3 (by omega)
      rw [show (8 + 4294967296 - ol) % 4294967296 = 8 - ol by omega]
      have key : ∀ k, 0 < k → k ≤ n - t → k ≤ 8 - ol → (k = 8 - ol ∨ k = n - t) →
          T (bl kd b (St m w (rv B)) + up F q (tabP t fun j => B (off + j))) (do
            KeccakP1600_ExtractBytesInLane (some ⟨b, w⟩) lp (some ⟨q.blk, q.off + t⟩) ol k
            pure ((n - t + 4294967296 - k) % 4294967296, (lp + 1) % 4294967296, 0, padd (some ⟨q.blk, q.off + t⟩) k))
          fun s' D' => (∃ t, t ≤ n ∧ s'.1 = n - t ∧ s'.2.2.2 = some ⟨q.blk, q.off + t⟩ ∧
            (t < n → 8 * s'.2.1 + s'.2.2.1 = off + t ∧ s'.2.2.1 < 8) ∧
            D' = bl kd b (St m w (rv B)) + up F q (tabP t fun j => B (off + j))) ∧ s'.1 < n - t := by
        intro k hk0 hk1 hk2 hk3
        have hv2 : Valid F ⟨q.blk, q.off + t⟩ k := hv.sub (by omega)
        refine t_run rfl (extractLane_runs hl (hv2.up (by rw [tabP_length]; exact hv.mono (by omega)) hF)
          (by omega) (by omega) (by omega)) ?_
        have e := up_append (F := F) (q := q) (l := tabP t fun j => B (off + j))
          (l' := tabP k fun j => B (off + (t + j)))
          (by rw [tabP_length, tabP_length]; exact hv.mono (by omega)) hF
        rw [tabP_length, ← tabP_add t k (fun j => B (off + j))] at e
        rw [h3]
        simp only [Nat.add_assoc]
        rw [e]
        exact t_pure ⟨⟨t + k, by omega, by dsimp only; omega, by simp [padd, Nat.add_assoc],
          fun h => ⟨by dsimp only; omega, by dsimp only; omega⟩, rfl⟩, by dsimp only; omega⟩
      by_cases e : 8 - ol > n - t
      · refine t_ite_pos e ?_
        exact t_pbind (key _ (by omega) (by omega) (by omega) (by omega))
      · refine t_ite_neg e ?_
        exact t_pbind (key _ (by omega) (by omega) (by omega) (by omega))
    · rintro ⟨sl, lp, ol, cd⟩ D ⟨t, ht, h1, h2, h3, rfl⟩ hb
      dsimp only at h1 h2 h3 hb ⊢
      rw [decide_eq_false_iff_not] at hb
      rw [show t = n by omega]
      exact t_pbind (t_pure ⟨rfl, rfl⟩)

/-! ### The fast loop -/

theorem addInput_runs {data : CPtr} {μ : Mem Byte} {d : Nat → Byte} {c : Nat} (hc : c = 17 ∨ c = 21)
    (hv : View F data μ) (hd : Has μ 0 (8 * c) d) :
    Runs F (addInput (lanesOf (packL B)) data c) (lanesOf (packL (xorB B 0 (8 * c) d))) F := by
  rw [xor_lanes]
  have hb : ∀ o, bswap64 (bswap64 (pk d o)) = pk d o := fun o => bswap_bswap _
  rcases hc with rfl | rfl
  all_goals
    unfold addInput Runs
    dsimp only
    repeat' first
      | (with_reducible refine t_ld64be hv hd ?ho ?_); focus (case ho => decide)
      | (with_reducible refine t_pbind ?_); dsimp only
      | (with_reducible refine t_assoc ?_)
      | (with_reducible refine t_ite_pos ?hp ?_); focus (case hp => decide)
      | (with_reducible refine t_ite_neg ?hp ?_); focus (case hp => decide)
    simp only [hb]
    exact t_pure ⟨rfl, rfl⟩

theorem fastAbsorb_runs {data : CPtr} {μ : Mem Byte} {d : Nat → Byte} {c n : Nat} (hc : c = 17 ∨ c = 21)
    (hl : w + 200 ≤ m.length) (hv : View F data μ) (hd : Has μ 0 n d) (hn : n < 2 ^ 64) :
    Runs (bl kd b (St m w (rv B)) + F) (KeccakF1600_FastLoop_Absorb (some ⟨b, w⟩) c data n) (n - n % (8 * c))
      (bl kd b (St m w (rv (absorbM (8 * c) (B, 0) (tabP (n - n % (8 * c)) d)).1)) + F) := by
  unfold KeccakF1600_FastLoop_Absorb
  refine t_run rfl (copyFrom_runs hl) ?_
  dsimp only
  rw [show c * 8 % 4294967296 = 8 * c by omega]
  refine t_whileI (I := fun s D => ∃ k B', 8 * c * k ≤ n ∧ s.1 = n - 8 * c * k ∧ s.2.1 = lanesOf (packL B') ∧
      s.2.2 = padd data (8 * c * k) ∧ absorbM (8 * c) (B, 0) (tabP (8 * c * k) d) = (B', 0) ∧
      D = bl kd b (St m w (rv B)) + F) (μ := fun s => s.1)
    ⟨0, B, by omega, by simp, rfl, by cases data <;> rfl, rfl, rfl⟩ hn ?_ ?_
  · rintro ⟨j, A, p⟩ D ⟨k, B', hk, h1, h2, h3, h4, rfl⟩ hb
    dsimp only at h1 h2 h3 hb ⊢
    rw [decide_eq_true_eq] at hb
    subst h1 h2 h3
    refine t_run rfl (addInput_runs hc (hv.there.padd (k := 8 * c * k)) (has_from hd (k := 8 * c) (by omega))) ?_
    rw [rounds24_pure, rounds24_eq]
    refine t_pbind (t_pure ⟨⟨k + 1, _, ?_, ?_, rfl, ?_, absorb_block (by omega) _ _ _ h4, rfl⟩, ?_⟩)
    · rw [Nat.mul_add]; omega
    · dsimp only
      rw [Nat.mul_add]; omega
    · rw [Nat.mul_add]
      cases data
      · rfl
      · simp [padd, Nat.add_assoc]
    · dsimp only; omega
  · rintro ⟨j, A, p⟩ D ⟨k, B', hk, h1, h2, h3, h4, rfl⟩ hb
    dsimp only at h1 h2 h3 hb ⊢
    rw [decide_eq_false_iff_not] at hb
    subst h1 h2 h3
    have e : n - n % (8 * c) = 8 * c * k := by
      have h5 : n % (8 * c) = n - 8 * c * k := by
        conv_lhs => rw [show n = n - 8 * c * k + 8 * c * k by omega, Nat.add_mul_mod_self_left]
        exact Nat.mod_eq_of_lt (by omega)
      omega
    rw [e, h4]
    refine t_run rfl (copyTo_runs (by rw [st_len hl]; exact hl)) ?_
    rw [st_st hl]
    exact t_pure ⟨by omega, rfl⟩

end

end Faest.GenB
