/-
The translated sha3/plain32 permutation and state functions on a big-endian host (Model/Gen/KeccakP32be.lean) on the 200 bytes
of a state.  Each word of 32 bits is stored with its most significant byte first; everything else is as on a little-endian host
(State32.lean).
-/
import Verif.Model.Gen.KeccakP32be
import Verif.Proofs.Gen.State32

namespace Faest.GenPB
open Faest.C Faest.Keccak
open Faest.GenH (pk pk_packL St st_len st_has st_st st_congr st_self has_from)
open Faest.GenP (w4 w4_bit w4_congr w4_lo w4_hi byte4 byte4_bit wordBytes4_length byte4_w4 w4_byte4 wordBytes4_w4 put4 w4_put
  w4_put_ne wl hb w4_hb' rndN rndN_succ rndN_24 conf0 conf1 conf2 conf3 round0_eq round1_eq round2_eq round3_eq tget_again
  half loW hiW ilv il packL_il il_lo il_hi bytes_ext hb_conf0 il_zero packL_xorB shl_parts Src src_view t_memcpy_src lane_lo lane_hi
  even_eq odd_eq from_lo from_hi half_xor loW_bit hiW_bit)

/-- The bytes with each word of four turned round. -/
def rv4 (G : Nat → Byte) : Nat → Byte := fun t => G (t / 4 * 4 + (3 - t % 4))

theorem rv4_at (G : Nat → Byte) {o j : Nat} (ho : o % 4 = 0) (hj : j < 4) : rv4 G (o + j) = G (o + (3 - j)) := by
  unfold rv4
  rw [show (o + j) / 4 * 4 = o by omega, show (o + j) % 4 = j by omega]

theorem rv4_congr {G H : Nat → Byte} (h : ∀ t, t < 200 → G t = H t) : ∀ t, t < 200 → rv4 G t = rv4 H t := by
  intro t ht
  exact h _ (by omega)

theorem tab4_reverse (G : Nat → Byte) : (tabP 4 G).reverse = tabP 4 fun j => G (3 - j) := rfl

theorem rv4_word (G : Nat → Byte) {o : Nat} (ho : o % 4 = 0) :
    (tabP 4 fun j => rv4 G (o + j)) = (tabP 4 fun j => G (o + j)).reverse := by
  rw [tab4_reverse]
  exact tabP_congr fun j hj => rv4_at G ho hj

theorem w4_rev (G : Nat → Byte) {o : Nat} (ho : o % 4 = 0) :
    (leWord (tabP 4 fun j => rv4 G (o + j)).reverse).setWidth 32 = w4 G o := by
  rw [rv4_word G ho, List.reverse_reverse]
  rfl

theorem put4_rv (G : Nat → Byte) (x : BitVec 32) {o : Nat} (ho : o % 4 = 0) (t : Nat) :
    rv4 (put4 G o x) t = if o ≤ t ∧ t < o + 4 then byte4 x (3 - (t - o)) else rv4 G t := by
  unfold rv4 put4
  by_cases e : o ≤ t ∧ t < o + 4
  · rw [if_pos e, if_pos (by omega), show t / 4 * 4 + (3 - t % 4) - o = 3 - (t - o) by omega]
  · rw [if_neg e, if_neg (by omega)]

section
variable {δ : Type} {D F : Blocks} {Q : δ → Blocks → Prop}

/-- A read from the state. -/
theorem t_ld32s {kd : Kind} {b w o o' : Nat} {p : CPtr} {m : Mem Byte} {G : Nat → Byte} {g : BitVec 32 → CM δ}
    (hD : D = bl kd b (St m w (rv4 G)) + F) (hp : padd p o = some ⟨b, w + o'⟩) (hl : w + 200 ≤ m.length) (ho : o' + 4 ≤ 200)
    (h4 : o' % 4 = 0) (k : T D (g (w4 G o')) Q) : T D (ld32be p o >>= g) Q := by
  subst hD
  unfold ld32be
  rw [hp]
  refine t_assoc (t_ldN (μ := (St m w (rv4 G)).drop (w + o')) (l := tabP 4 fun j => rv4 G (o' + j)) View.here (by decide) ?_ (t_pbind ?_))
  · have h : Has (St m w (rv4 G)) (w + o') 4 fun j => rv4 G (o' + j) := fun i hi => by
      rw [← st_has hl (rv4 G) (o' + i) (by omega), Nat.add_assoc]
    exact rdN_at (rdN_has h (by decide))
  · rw [w4_rev G h4]; exact k

theorem rev_length (x : BitVec 32) : (wordBytes4 x).reverse.length = 4 := by rw [List.length_reverse, wordBytes4_length]

theorem rev_get (x : BitVec 32) (j : Nat) (hj : j < 4) : (wordBytes4 x).reverse[j]? = some (byte4 x (3 - j)) := by
  unfold wordBytes4
  rw [tab4_reverse, tabP_getElem?, if_pos hj]
  rfl

theorem st_put {m : Mem Byte} {w o : Nat} (G : Nat → Byte) (x : BitVec 32) (hl : w + 200 ≤ m.length) (ho : o + 4 ≤ 200)
    (h4 : o % 4 = 0) : W (St m w (rv4 G)) (w + o) (wordBytes4 x).reverse = St m w (rv4 (put4 G o x)) := by
  have h0 := st_len hl (rv4 G)
  have h1 : w + o + (wordBytes4 x).reverse.length ≤ (St m w (rv4 G)).length := by rw [rev_length, h0]; omega
  refine mem_ext (by rw [length_W h1, h0, st_len hl]) fun i hi => ?_
  have h2 : w + (tabP 200 (rv4 G)).length ≤ m.length := by rw [tabP_length]; exact hl
  have h3 : w + (tabP 200 (rv4 (put4 G o x))).length ≤ m.length := by rw [tabP_length]; exact hl
  rw [getElem?_W h1]
  unfold St
  rw [getElem?_W h2, getElem?_W h3, tabP_length, tabP_length, rev_length]
  by_cases c1 : w ≤ i ∧ i < w + 200
  · rw [if_pos c1, if_pos c1]
    by_cases c2 : w + o ≤ i ∧ i < w + o + 4
    · rw [if_pos c2, tabP_getElem?, if_pos (by omega), rev_get _ _ (by omega), put4_rv _ _ h4, if_pos (by omega),
        show i - (w + o) = i - w - o by omega]
    · rw [if_neg c2, tabP_getElem?, tabP_getElem?, if_pos (by omega), if_pos (by omega), put4_rv _ _ h4, if_neg (by omega)]
  · rw [if_neg c1, if_neg c1, if_neg (by omega)]

/-- A write to the state. -/
theorem t_st32s {kd : Kind} {b w o o' : Nat} {p : CPtr} {m : Mem Byte} {G : Nat → Byte} {x : BitVec 32} {g : Unit → CM δ}
    (hD : D = bl kd b (St m w (rv4 G)) + F) (hp : padd p o = some ⟨b, w + o'⟩) (hl : w + 200 ≤ m.length) (ho : o' + 4 ≤ 200)
    (h4 : o' % 4 = 0) (k : T (bl kd b (St m w (rv4 (put4 G o' x))) + F) (g ()) Q) : T D (st32be p o x >>= g) Q := by
  unfold st32be
  rw [hp]
  refine t_stN hD (wrN_W ?_) ?_
  · rw [rev_length, st_len hl]; omega
  · rw [st_put _ _ hl ho h4]; exact k

/-- The next word of a window. -/
theorem t_st32n {kd : Kind} {b w n o : Nat} {p : CPtr} {m : Mem Byte} {G : Nat → Byte} {x : BitVec 32} {g : Unit → CM δ}
    (hD : D = bl kd b (W m w (tabP n (rv4 G))) + F) (hp : padd p o = some ⟨b, w + n⟩) (hl : w + (n + 4) ≤ m.length) (h4 : n % 4 = 0)
    (hx : x = w4 G n) (k : T (bl kd b (W m w (tabP (n + 4) (rv4 G))) + F) (g ()) Q) : T D (st32be p o x >>= g) Q := by
  unfold st32be
  rw [hp]
  refine t_stN hD ?_ k
  have := wrN_W_append (m := m) (o := w) (xs := tabP n (rv4 G)) (ys := (wordBytes4 x).reverse) (by
    rw [rev_length, tabP_length]; omega)
  rw [tabP_length] at this
  rw [this, tabP_add, hx, wordBytes4_w4, rv4_word G h4]

end

section
variable {kd : Kind} {b w : Nat} {m : Mem Byte} {F : Blocks}

theorem read_runs (A : Halves) (hl : w + 200 ≤ m.length) :
    Runs (bl kd b (St m w (rv4 (hb A))) + F) (readHalves (some ⟨b, w⟩)) A (bl kd b (St m w (rv4 (hb A))) + F) := by
  unfold readHalves
  iterate 50 refine t_ld32s rfl rfl hl (by decide) (by decide) ?_
  refine t_pure ⟨?_, rfl⟩
  rw [w4_hb' A 0 0 rfl, w4_hb' A 4 1 rfl, w4_hb' A 8 2 rfl, w4_hb' A 12 3 rfl, w4_hb' A 16 4 rfl,
    w4_hb' A 20 5 rfl, w4_hb' A 24 6 rfl, w4_hb' A 28 7 rfl, w4_hb' A 32 8 rfl, w4_hb' A 36 9 rfl,
    w4_hb' A 40 10 rfl, w4_hb' A 44 11 rfl, w4_hb' A 48 12 rfl, w4_hb' A 52 13 rfl, w4_hb' A 56 14 rfl,
    w4_hb' A 60 15 rfl, w4_hb' A 64 16 rfl, w4_hb' A 68 17 rfl, w4_hb' A 72 18 rfl, w4_hb' A 76 19 rfl,
    w4_hb' A 80 20 rfl, w4_hb' A 84 21 rfl, w4_hb' A 88 22 rfl, w4_hb' A 92 23 rfl, w4_hb' A 96 24 rfl,
    w4_hb' A 100 25 rfl, w4_hb' A 104 26 rfl, w4_hb' A 108 27 rfl, w4_hb' A 112 28 rfl, w4_hb' A 116 29 rfl,
    w4_hb' A 120 30 rfl, w4_hb' A 124 31 rfl, w4_hb' A 128 32 rfl, w4_hb' A 132 33 rfl, w4_hb' A 136 34 rfl,
    w4_hb' A 140 35 rfl, w4_hb' A 144 36 rfl, w4_hb' A 148 37 rfl, w4_hb' A 152 38 rfl, w4_hb' A 156 39 rfl,
    w4_hb' A 160 40 rfl, w4_hb' A 164 41 rfl, w4_hb' A 168 42 rfl, w4_hb' A 172 43 rfl, w4_hb' A 176 44 rfl,
    w4_hb' A 180 45 rfl, w4_hb' A 184 46 rfl, w4_hb' A 188 47 rfl, w4_hb' A 192 48 rfl, w4_hb' A 196 49 rfl]
  rfl

theorem write_runs (A : Halves) (hl : w + 200 ≤ m.length) :
    Runs (bl kd b m + F) (writeHalves (some ⟨b, w⟩) A) () (bl kd b (St m w (rv4 (hb A))) + F) := by
  unfold writeHalves
  refine t_perm (D' := bl kd b (W m w (tabP 0 (rv4 (hb A)))) + F) (by rw [show tabP 0 (rv4 (hb A)) = [] from rfl, W_nil]) ?_
  refine t_st32n rfl rfl (by omega) (by decide) (w4_hb' A 0 0 rfl).symm ?_
  refine t_st32n rfl rfl (by omega) (by decide) (w4_hb' A 4 1 rfl).symm ?_
  refine t_st32n rfl rfl (by omega) (by decide) (w4_hb' A 8 2 rfl).symm ?_
  refine t_st32n rfl rfl (by omega) (by decide) (w4_hb' A 12 3 rfl).symm ?_
  refine t_st32n rfl rfl (by omega) (by decide) (w4_hb' A 16 4 rfl).symm ?_
  refine t_st32n rfl rfl (by omega) (by decide) (w4_hb' A 20 5 rfl).symm ?_
  refine t_st32n rfl rfl (by omega) (by decide) (w4_hb' A 24 6 rfl).symm ?_
  refine t_st32n rfl rfl (by omega) (by decide) (w4_hb' A 28 7 rfl).symm ?_
  refine t_st32n rfl rfl (by omega) (by decide) (w4_hb' A 32 8 rfl).symm ?_
  refine t_st32n rfl rfl (by omega) (by decide) (w4_hb' A 36 9 rfl).symm ?_
  refine t_st32n rfl rfl (by omega) (by decide) (w4_hb' A 40 10 rfl).symm ?_
  refine t_st32n rfl rfl (by omega) (by decide) (w4_hb' A 44 11 rfl).symm ?_
  refine t_st32n rfl rfl (by omega) (by decide) (w4_hb' A 48 12 rfl).symm ?_
  refine t_st32n rfl rfl (by omega) (by decide) (w4_hb' A 52 13 rfl).symm ?_
  refine t_st32n rfl rfl (by omega) (by decide) (w4_hb' A 56 14 rfl).symm ?_
  refine t_st32n rfl rfl (by omega) (by decide) (w4_hb' A 60 15 rfl).symm ?_
  refine t_st32n rfl rfl (by omega) (by decide) (w4_hb' A 64 16 rfl).symm ?_
  refine t_st32n rfl rfl (by omega) (by decide) (w4_hb' A 68 17 rfl).symm ?_
  refine t_st32n rfl rfl (by omega) (by decide) (w4_hb' A 72 18 rfl).symm ?_
  refine t_st32n rfl rfl (by omega) (by decide) (w4_hb' A 76 19 rfl).symm ?_
  refine t_st32n rfl rfl (by omega) (by decide) (w4_hb' A 80 20 rfl).symm ?_
  refine t_st32n rfl rfl (by omega) (by decide) (w4_hb' A 84 21 rfl).symm ?_
  refine t_st32n rfl rfl (by omega) (by decide) (w4_hb' A 88 22 rfl).symm ?_
  refine t_st32n rfl rfl (by omega) (by decide) (w4_hb' A 92 23 rfl).symm ?_
  refine t_st32n rfl rfl (by omega) (by decide) (w4_hb' A 96 24 rfl).symm ?_
  refine t_st32n rfl rfl (by omega) (by decide) (w4_hb' A 100 25 rfl).symm ?_
  refine t_st32n rfl rfl (by omega) (by decide) (w4_hb' A 104 26 rfl).symm ?_
  refine t_st32n rfl rfl (by omega) (by decide) (w4_hb' A 108 27 rfl).symm ?_
  refine t_st32n rfl rfl (by omega) (by decide) (w4_hb' A 112 28 rfl).symm ?_
  refine t_st32n rfl rfl (by omega) (by decide) (w4_hb' A 116 29 rfl).symm ?_
  refine t_st32n rfl rfl (by omega) (by decide) (w4_hb' A 120 30 rfl).symm ?_
  refine t_st32n rfl rfl (by omega) (by decide) (w4_hb' A 124 31 rfl).symm ?_
  refine t_st32n rfl rfl (by omega) (by decide) (w4_hb' A 128 32 rfl).symm ?_
  refine t_st32n rfl rfl (by omega) (by decide) (w4_hb' A 132 33 rfl).symm ?_
  refine t_st32n rfl rfl (by omega) (by decide) (w4_hb' A 136 34 rfl).symm ?_
  refine t_st32n rfl rfl (by omega) (by decide) (w4_hb' A 140 35 rfl).symm ?_
  refine t_st32n rfl rfl (by omega) (by decide) (w4_hb' A 144 36 rfl).symm ?_
  refine t_st32n rfl rfl (by omega) (by decide) (w4_hb' A 148 37 rfl).symm ?_
  refine t_st32n rfl rfl (by omega) (by decide) (w4_hb' A 152 38 rfl).symm ?_
  refine t_st32n rfl rfl (by omega) (by decide) (w4_hb' A 156 39 rfl).symm ?_
  refine t_st32n rfl rfl (by omega) (by decide) (w4_hb' A 160 40 rfl).symm ?_
  refine t_st32n rfl rfl (by omega) (by decide) (w4_hb' A 164 41 rfl).symm ?_
  refine t_st32n rfl rfl (by omega) (by decide) (w4_hb' A 168 42 rfl).symm ?_
  refine t_st32n rfl rfl (by omega) (by decide) (w4_hb' A 172 43 rfl).symm ?_
  refine t_st32n rfl rfl (by omega) (by decide) (w4_hb' A 176 44 rfl).symm ?_
  refine t_st32n rfl rfl (by omega) (by decide) (w4_hb' A 180 45 rfl).symm ?_
  refine t_st32n rfl rfl (by omega) (by decide) (w4_hb' A 184 46 rfl).symm ?_
  refine t_st32n rfl rfl (by omega) (by decide) (w4_hb' A 188 47 rfl).symm ?_
  refine t_st32n rfl rfl (by omega) (by decide) (w4_hb' A 192 48 rfl).symm ?_
  rw [← bind_pure (st32be (some ⟨b, w⟩) 196 A.su1)]
  refine t_st32n rfl rfl (by omega) (by decide) (w4_hb' A 196 49 rfl).symm ?_
  exact t_pure ⟨rfl, rfl⟩

/-- One round in memory. -/
theorem round_runs {f : Halves → Nat → CM (Halves × Nat)} {A A' : Halves} {c c' : Nat} (h : f A c = pure (A', c'))
    (hl : w + 200 ≤ m.length) :
    Runs (bl kd b (St m w (rv4 (hb A))) + F) (do
      let A ← readHalves (some ⟨b, w⟩)
      let e ← f A c
      writeHalves (some ⟨b, w⟩) e.1
      pure e.2) c' (bl kd b (St m w (rv4 (hb A'))) + F) := by
  refine t_run rfl (read_runs A hl) ?_
  rw [h]
  refine t_pbind (t_run rfl (write_runs A' (by rw [st_len hl]; exact hl)) ?_)
  rw [st_st hl]
  exact t_pure ⟨rfl, rfl⟩

theorem R0_runs {n c : Nat} (hn : n < 24) (hc : c = 2 * n) (L : Lanes) (hl : w + 200 ≤ m.length) :
    Runs (bl kd b (St m w (rv4 (hb (conf0 (rndN n L))))) + F) (KeccakRound0 (some ⟨b, w⟩) c) (2 * (n + 1))
      (bl kd b (St m w (rv4 (hb (conf1 (rndN (n + 1) L))))) + F) := by
  rw [rndN_succ hn, hc]
  exact round_runs (f := GenP.KeccakRound0_words) (round0_eq ⟨n, hn⟩ _) hl

theorem R1_runs {n c : Nat} (hn : n < 24) (hc : c = 2 * n) (L : Lanes) (hl : w + 200 ≤ m.length) :
    Runs (bl kd b (St m w (rv4 (hb (conf1 (rndN n L))))) + F) (KeccakRound1 (some ⟨b, w⟩) c) (2 * (n + 1))
      (bl kd b (St m w (rv4 (hb (conf2 (rndN (n + 1) L))))) + F) := by
  rw [rndN_succ hn, hc]
  exact round_runs (f := GenP.KeccakRound1_words) (round1_eq ⟨n, hn⟩ _) hl

theorem R2_runs {n c : Nat} (hn : n < 24) (hc : c = 2 * n) (L : Lanes) (hl : w + 200 ≤ m.length) :
    Runs (bl kd b (St m w (rv4 (hb (conf2 (rndN n L))))) + F) (KeccakRound2 (some ⟨b, w⟩) c) (2 * (n + 1))
      (bl kd b (St m w (rv4 (hb (conf3 (rndN (n + 1) L))))) + F) := by
  rw [rndN_succ hn, hc]
  exact round_runs (f := GenP.KeccakRound2_words) (round2_eq ⟨n, hn⟩ _) hl

theorem R3_runs {n c : Nat} (hn : n < 24) (hc : c = 2 * n) (L : Lanes) (hl : w + 200 ≤ m.length) :
    Runs (bl kd b (St m w (rv4 (hb (conf3 (rndN n L))))) + F) (KeccakRound3 (some ⟨b, w⟩) c) (2 * (n + 1))
      (bl kd b (St m w (rv4 (hb (conf0 (rndN (n + 1) L))))) + F) := by
  rw [rndN_succ hn, hc]
  exact round_runs (f := GenP.KeccakRound3_words) (round3_eq ⟨n, hn⟩ _) hl

theorem perm_runs (L : Lanes) (hl : w + 200 ≤ m.length) :
    Runs (bl kd b (St m w (rv4 (hb (conf0 L)))) + F) (KeccakP1600_Permute_24rounds (some ⟨b, w⟩)) ()
      (bl kd b (St m w (rv4 (hb (conf0 (Keccak.rounds24 L))))) + F) := by
  unfold KeccakP1600_Permute_24rounds
  refine t_run rfl (b := ()) (E := bl kd b (St m w (rv4 (hb (conf0 (Keccak.rounds24 L))))) + F) ?_ (t_pure ⟨rfl, rfl⟩)
  unfold KeccakP1600_Permute_Nrounds
  dsimp only
  refine t_ite_neg (by decide) ?_
  refine t_ite_neg (by decide) ?_
  refine t_ite_neg (by decide) ?_
  refine t_pbind ?_
  refine t_whileI (I := fun s D => ∃ j, j ≤ 6 ∧ s.1 = 0 ∧ s.2.1 = 8 * j ∧ s.2.2 = (if j < 6 then 1 else 0) ∧
      D = bl kd b (St m w (rv4 (hb (conf0 (rndN (4 * j) L))))) + F) (μ := fun s => if s.2.2 = 0 then 0 else 56 - s.2.1)
    ⟨0, by omega, rfl, rfl, rfl, rfl⟩ (by decide) ?_ ?_
  · rintro ⟨n, c, a⟩ D ⟨j, hj, h1, h2, h3, rfl⟩ hb
    dsimp only at h1 h2 h3 hb ⊢
    subst h1 h2 h3
    have hj6 : j < 6 := by
      by_contra hc
      rw [if_neg hc] at hb
      simp at hb
    refine t_ite_pos rfl ?_
    refine t_assoc (t_run rfl (R0_runs (n := 4 * j) (by omega) (by omega) _ hl) ?_)
    refine t_assoc (t_run rfl (R1_runs (n := 4 * j + 1) (by omega) rfl _ hl) ?_)
    refine t_assoc (t_run rfl (R2_runs (n := 4 * j + 2) (by omega) rfl _ hl) ?_)
    refine t_assoc (t_run rfl (R3_runs (n := 4 * j + 3) (by omega) rfl _ hl) ?_)
    refine t_pbind ?_
    obtain ⟨x, hx, hx2⟩ := tget_again j hj6
    rw [show 2 * (4 * j + 3 + 1) = 8 * (j + 1) by omega, hx]
    refine t_pbind ?_
    by_cases hc : j + 1 < 6
    · refine t_ite_pos (hx2.2 hc) ?_
      refine t_pbind (t_pbind (t_pure ⟨⟨j + 1, by omega, rfl, rfl, (if_pos hc).symm, rfl⟩, ?_⟩))
      dsimp only
      rw [if_pos hj6, if_neg (by decide), if_neg (by decide)]
      omega
    · refine t_ite_neg (fun h => hc (hx2.1 h)) ?_
      refine t_pbind (t_pbind (t_pure ⟨⟨j + 1, by omega, rfl, rfl, (if_neg hc).symm, rfl⟩, ?_⟩))
      dsimp only
      rw [if_pos hj6, if_pos rfl, if_neg (by decide)]
      omega
  · rintro ⟨n, c, a⟩ D ⟨j, hj, h1, h2, h3, rfl⟩ hb
    dsimp only at h1 h2 h3 hb ⊢
    subst h1 h2 h3
    have hj6 : j = 6 := by
      by_contra hc
      rw [if_pos (by omega)] at hb
      simp at hb
    subst hj6
    rw [← rndN_24]
    exact t_pure ⟨rfl, rfl⟩

end

/-! ### The layout of a state -/

/-- The bytes in memory of the state with the bytes `B`. -/
def ilb (B : Nat → Byte) : Nat → Byte := rv4 (il B)

section
variable {kd : Kind} {b w : Nat} {m : Mem Byte} {B : Nat → Byte} {F : Blocks}

theorem permute_runs (hl : w + 200 ≤ m.length) :
    Runs (bl kd b (St m w (ilb B)) + F) (KeccakP1600_Permute_24rounds (some ⟨b, w⟩)) ()
      (bl kd b (St m w (ilb (keccakB B))) + F) := by
  have := perm_runs (kd := kd) (b := b) (F := F) (lanesOf (packL B)) hl
  rw [Keccak.rounds24_eq, st_congr (rv4_congr (hb_conf0 B)), st_congr (rv4_congr (hb_conf0 _))] at this
  exact this

theorem init_runs (hl : w + 200 ≤ m.length) :
    Runs (bl kd b m + F) (KeccakP1600_Initialize (some ⟨b, w⟩)) () (bl kd b (St m w (ilb fun _ => 0)) + F) := by
  have h : ∀ t, t < 200 → ilb (fun _ => 0) t = 0 := fun t ht => rv4_congr il_zero t ht
  rw [st_congr h]
  exact GenH.init_runs hl

/-! ### Adding to the state -/

/-- Adding a lane to two words in memory. -/
theorem t_xor {δ : Type} {Q : δ → Blocks → Prop} {g : Unit → CM δ} {D : Blocks} {x : BitVec 64} {a c : BitVec 32}
    {k off n o0 o1 : Nat} {p0 p1 : CPtr} {d : Nat → Byte} (hl : w + 200 ≤ m.length) (hk : k < 25) (hn : off + n ≤ 8)
    (hx : ∀ j, j < 8 → laneByte x j = if off ≤ j ∧ j < off + n then d (j - off) else 0)
    (h0 : padd p0 o0 = some ⟨b, w + 8 * k⟩) (h1 : padd p1 o1 = some ⟨b, w + (8 * k + 4)⟩)
    (ha : a = GenP.half x 0) (hc : c = GenP.half x 1)
    (hD : D = bl kd b (St m w (ilb B)) + F)
    (h : T (bl kd b (St m w (ilb (xorB B (8 * k + off) n d))) + F) (g ()) Q) :
    T D (ld32be p0 o0 >>= fun e => st32be p0 o0 (e ^^^ a) >>= fun _ => ld32be p1 o1 >>= fun e' => st32be p1 o1 (e' ^^^ c) >>= g) Q := by
  refine t_ld32s hD h0 hl (by omega) (by omega) ?_
  refine t_st32s hD h0 hl (by omega) (by omega) ?_
  refine t_ld32s rfl h1 hl (by omega) (by omega) ?_
  refine t_st32s rfl h1 hl (by omega) (by omega) ?_
  rw [w4_put_ne _ _ _ _ (by omega), il_lo, il_hi]
  refine t_perm (congrArg (fun M => bl kd b M + F) (st_congr (rv4_congr (bytes_ext fun k' hk' => ?_)))) h
  rw [il_lo, il_hi]
  by_cases e : k' = k
  · subst e
    rw [packL_xorB B d x k' off n hx, half_xor, half_xor, ha, hc, w4_put, w4_put_ne _ _ _ _ (by omega), w4_put]
    exact ⟨rfl, rfl⟩
  · have : packL (xorB B (8 * k + off) n d) k' = packL B k' := packL_congr fun j hj => by
      unfold xorB
      rw [if_neg (by omega)]
    rw [this, w4_put_ne _ _ _ _ (by omega), w4_put_ne _ _ _ _ (by omega), w4_put_ne _ _ _ _ (by omega),
      w4_put_ne _ _ _ _ (by omega), il_lo, il_hi]
    exact ⟨rfl, rfl⟩

theorem addByte_runs {c : Byte} {x : Nat} (hl : w + 200 ≤ m.length) (hx : x < 200) :
    Runs (bl kd b (St m w (ilb B)) + F) (KeccakP1600_AddByte (some ⟨b, w⟩) c x) ()
      (bl kd b (St m w (ilb (xorB B x 1 fun _ => c))) + F) := by
  unfold KeccakP1600_AddByte
  dsimp only
  obtain ⟨hlo, hhi⟩ := shl_parts c (x % 8) (by omega)
  have fin : ∀ {g : Unit → CM Unit} (a0 a1 : BitVec 32), a0 = GenP.half (c.setWidth 64 <<< (8 * (x % 8))) 0 →
      a1 = GenP.half (c.setWidth 64 <<< (8 * (x % 8))) 1 → (g = fun _ => pure ()) →
      T (bl kd b (St m w (ilb B)) + F) (ld32be (some ⟨b, w⟩) (4 * ((((x / 8 * 2) % U32) + 0) % U32)) >>= fun e =>
        st32be (some ⟨b, w⟩) (4 * ((((x / 8 * 2) % U32) + 0) % U32)) (e ^^^ a0) >>= fun _ =>
        ld32be (some ⟨b, w⟩) (4 * ((((x / 8 * 2) % U32) + 1) % U32)) >>= fun e' =>
        st32be (some ⟨b, w⟩) (4 * ((((x / 8 * 2) % U32) + 1) % U32)) (e' ^^^ a1) >>= g)
        (fun b' D' => b' = () ∧ D' = bl kd b (St m w (ilb (xorB B x 1 fun _ => c))) + F) := by
    rintro g a0 a1 h0 h1 rfl
    refine t_xor (k := x / 8) (off := x % 8) (n := 1) (d := fun _ => c) hl (by omega) (by omega) ?_ ?_ ?_ h0 h1 rfl ?_
    · intro j hj
      rw [laneByte_shl _ _ _ hj]
      have := laneByte_zeroExtend c (j - x % 8)
      rw [show c.zeroExtend 64 = c.setWidth 64 from rfl] at this
      rw [this]
      by_cases e : j = x % 8
      · rw [if_pos (by omega), if_pos (by omega), if_pos (by omega)]
      · rw [if_neg (show ¬ (x % 8 ≤ j ∧ j < x % 8 + 1) by omega)]
        split
        · rw [if_neg (by omega)]
        · rfl
    · exact congrArg (fun o => some (⟨b, w + o⟩ : Ptr)) (by omega)
    · exact congrArg (fun o => some (⟨b, w + o⟩ : Ptr)) (by omega)
    · rw [show 8 * (x / 8) + x % 8 = x by omega]
      exact t_pure ⟨rfl, rfl⟩
  by_cases h4 : x % 8 < 4
  · obtain ⟨e0, e1⟩ := hlo h4
    refine t_ite_pos h4 ?_
    refine t_assoc (t_lft (if_pos (by omega)) ?_)
    rw [show x % 8 * 8 % U32 = 8 * (x % 8) by omega]
    refine t_pbind ?_
    refine fin _ _ ?_ ?_ rfl
    · rw [← even_eq, e0, e1]; rfl
    · rw [← odd_eq, e0, e1]; rfl
  · obtain ⟨e0, e1⟩ := hhi (by omega)
    refine t_ite_neg h4 ?_
    refine t_assoc (t_lft (if_pos (by omega)) ?_)
    rw [show (x % 8 + U32 - 4) % U32 * 8 % U32 = 8 * (x % 8 - 4) by omega]
    refine t_pbind ?_
    refine fin _ _ ?_ ?_ rfl
    · rw [← even_eq, e0, e1]; rfl
    · rw [← odd_eq, e0, e1]; rfl

/-- A word put together from its bytes. -/
theorem or4 (G : Nat → Byte) (o : Nat) {a0 a1 a2 a3 : Byte} (h0 : a0 = G o) (h1 : a1 = G (o + 1)) (h2 : a2 = G (o + 2))
    (h3 : a3 = G (o + 3)) : ((a0.setWidth 32 ||| a1.setWidth 32 <<< 8) ||| a2.setWidth 32 <<< 16) ||| a3.setWidth 32 <<< 24
      = w4 G o := by
  subst h0 h1 h2 h3
  apply GenP.bv_ext
  intro i hi
  rw [w4_bit _ _ _ hi]
  have z : ∀ (c : Byte) j, 8 ≤ j → c.getLsbD j = false := fun c j hj => BitVec.getLsbD_of_ge _ _ hj
  have hc : i / 8 = 0 ∨ i / 8 = 1 ∨ i / 8 = 2 ∨ i / 8 = 3 := by omega
  simp only [BitVec.getLsbD_or, BitVec.getLsbD_shiftLeft, BitVec.getLsbD_setWidth]
  rcases hc with h | h | h | h <;> rw [h]
  · simp [hi, show i < 8 by omega, show i < 16 by omega, show i < 24 by omega, show i % 8 = i by omega]
  · rw [z _ i (by omega)]
    simp [hi, show ¬ i < 8 by omega, show i < 16 by omega, show i < 24 by omega, show i % 8 = i - 8 by omega, show i - 8 < 32 by omega]
  · rw [z _ i (by omega), z _ (i - 8) (by omega)]
    simp [hi, show ¬ i < 16 by omega, show i < 24 by omega, show i % 8 = i - 16 by omega, show i - 16 < 32 by omega]
  · rw [z _ i (by omega), z _ (i - 8) (by omega), z _ (i - 16) (by omega)]
    simp [hi, show ¬ i < 24 by omega, show i % 8 = i - 24 by omega, show i - 24 < 32 by omega]

theorem addLane_runs {data : CPtr} {d : Nat → Byte} {lp off n : Nat} (hl : w + 200 ≤ m.length)
    (hs : Src F data n d) (hlp : lp < 25) (hn : off + n ≤ 8) :
    Runs (bl kd b (St m w (ilb B)) + F) (KeccakP1600_AddBytesInLane (some ⟨b, w⟩) lp data off n) ()
      (bl kd b (St m w (ilb (xorB B (8 * lp + off) n d))) + F) := by
  unfold KeccakP1600_AddBytesInLane
  refine t_alloc fun i => ?_
  dsimp only
  refine t_memset0 rfl (m' := ofList (tabP 8 fun _ => 0)) rfl ?_
  have hs' : Src (bl kd b (St m w (ilb B)) + F) data n d := by
    obtain ⟨b', o', kd', m0, h1, hm, h2⟩ := hs
    exact ⟨b', o', kd', m0, h1, by simp only [Multiset.mem_add]; exact Or.inr hm, h2⟩
  refine t_memcpy_src (m' := ofList (tabP 8 fun j => if off ≤ j ∧ j < off + n then d (j - off) else 0)) rfl hs' ?_ ?_
  · have h8 : 0 + off + (tabP n d).length ≤ (ofList (tabP 8 fun _ => 0)).length := by simp [ofList]; omega
    rw [wrN_W h8]
    refine congrArg some (mem_ext (by rw [length_W h8]; simp [ofList]) fun j hj => ?_)
    rw [length_W h8] at hj
    have hj : j < 8 := by simpa [ofList] using hj
    rw [getElem?_W h8, tabP_length]
    unfold ofList
    rw [List.getElem?_map, List.getElem?_map, tabP_getElem?, tabP_getElem?, tabP_getElem?, if_pos hj, if_pos hj, Nat.zero_add]
    by_cases e : off ≤ j ∧ j < off + n
    · rw [if_pos e, if_pos e, if_pos (by omega)]
    · rw [if_neg e, if_neg e]
  generalize hG : (fun j => if off ≤ j ∧ j < off + n then d (j - off) else 0) = G
  have hh : Has (ofList (tabP 8 G)) 0 8 G := by
    intro j hj
    rw [rd_ofList, Nat.zero_add, tabP_getElem?, if_pos hj]
  have hv : View (bl .stack i (ofList (tabP 8 G)) + (bl kd b (St m w (ilb B)) + F)) (some ⟨i, 0⟩) (ofList (tabP 8 G)) := View.here
  refine t_ld hv (hh.rd0 (k := 0) (by decide)) ?_
  refine t_ld hv (hh.rd0 (k := 1) (by decide)) ?_
  refine t_ld hv (hh.rd0 (k := 2) (by decide)) ?_
  refine t_ld hv (hh.rd0 (k := 3) (by decide)) ?_
  refine t_ld hv (hh.rd0 (k := 4) (by decide)) ?_
  refine t_ld hv (hh.rd0 (k := 5) (by decide)) ?_
  refine t_ld hv (hh.rd0 (k := 6) (by decide)) ?_
  refine t_ld hv (hh.rd0 (k := 7) (by decide)) ?_
  rw [or4 G (8 * 0) rfl rfl rfl rfl, or4 G (8 * 0 + 4) rfl rfl rfl rfl, w4_lo, w4_hi]
  refine t_xor (k := lp) (off := off) (n := n) (d := d) (x := packL G 0) hl (by omega) hn ?_ ?_ ?_ ?_ ?_ (add_left_comm _ _ _) ?_
  · intro j hj
    rw [laneByte_packL _ _ _ hj, ← hG, Nat.mul_zero, Nat.zero_add]
  · exact congrArg (fun o => some (⟨b, w + o⟩ : Ptr)) (by omega)
  · exact congrArg (fun o => some (⟨b, w + o⟩ : Ptr)) (by omega)
  · exact even_eq _
  · exact odd_eq _
  · refine t_free (by hfind) ?_
    exact t_pure ⟨rfl, rfl⟩

theorem addLanes_runs {data : CPtr} {μ : Mem Byte} {d : Nat → Byte} {N c : Nat} (hl : w + 200 ≤ m.length)
    (hv : View F data μ) (hd : Has μ 0 N d) (hN : 8 * c ≤ N) (hc : c ≤ 25) :
    Runs (bl kd b (St m w (ilb B)) + F) (KeccakP1600_AddLanes (some ⟨b, w⟩) data c) ()
      (bl kd b (St m w (ilb (xorB B 0 (8 * c) d))) + F) := by
  unfold KeccakP1600_AddLanes
  dsimp only
  refine t_whileI (I := fun k D => k ≤ c ∧ D = bl kd b (St m w (ilb (xorB B 0 (8 * k) d))) + F) (μ := fun k => c - k)
    ⟨Nat.zero_le _, by rw [Nat.mul_zero, xorB_zero]⟩ (by omega) ?_ ?_
  · rintro k D ⟨hk, rfl⟩ hb
    rw [decide_eq_true_eq] at hb
    refine t_alloc fun i => ?_
    rw [show k * 8 % 4294967296 = 8 * k by omega, show (k + 1) % 4294967296 = k + 1 by omega]
    have hs : Src (bl kd b (St m w (ilb (xorB B 0 (8 * k) d))) + F) (padd data (8 * k)) 8 fun j => d (8 * k + j) := by
      obtain ⟨b', o', kd', m0, h1, hm, h2⟩ := src_view hv hd (t := 8 * k) (n := 8) (by omega) (by omega)
      exact ⟨b', o', kd', m0, h1, by simp only [Multiset.mem_add]; exact Or.inr hm, h2⟩
    refine t_memcpy_src (m' := ofList (tabP 8 fun j => d (8 * k + j))) rfl hs rfl ?_
    generalize hG : (fun j => d (8 * k + j)) = G
    have hh : Has (ofList (tabP 8 G)) 0 8 G := by
      intro j hj
      rw [rd_ofList, Nat.zero_add, tabP_getElem?, if_pos hj]
    have hv2 : View (bl .stack i (ofList (tabP 8 G)) + (bl kd b (St m w (ilb (xorB B 0 (8 * k) d))) + F)) (some ⟨i, 0⟩)
      (ofList (tabP 8 G)) := View.here
    refine t_ld hv2 (hh.rd0 (k := 0) (by decide)) ?_
    refine t_ld hv2 (hh.rd0 (k := 1) (by decide)) ?_
    refine t_ld hv2 (hh.rd0 (k := 2) (by decide)) ?_
    refine t_ld hv2 (hh.rd0 (k := 3) (by decide)) ?_
    refine t_ld hv2 (hh.rd0 (k := 4) (by decide)) ?_
    refine t_ld hv2 (hh.rd0 (k := 5) (by decide)) ?_
    refine t_ld hv2 (hh.rd0 (k := 6) (by decide)) ?_
    refine t_ld hv2 (hh.rd0 (k := 7) (by decide)) ?_
    rw [or4 G (8 * 0) rfl rfl rfl rfl, or4 G (8 * 0 + 4) rfl rfl rfl rfl, w4_lo, w4_hi]
    refine t_xor (k := k) (off := 0) (n := 8) (d := fun j => d (8 * k + j)) (x := packL G 0) hl (by omega) (by omega) ?_ ?_ ?_ ?_ ?_
      (add_left_comm _ _ _) ?_
    · intro j hj
      rw [laneByte_packL _ _ _ hj, ← hG, Nat.mul_zero, Nat.zero_add, if_pos (by omega), Nat.sub_zero]
    · exact congrArg (fun o => some (⟨b, w + o⟩ : Ptr)) (by omega)
    · exact congrArg (fun o => some (⟨b, w + o⟩ : Ptr)) (by omega)
    · exact even_eq _
    · exact odd_eq _
    · refine t_free (by hfind) ?_
      refine t_pure ⟨⟨by omega, ?_⟩, by omega⟩
      have := xorB_xorB B 0 (8 * k) 8 d
      rw [Nat.zero_add] at this
      rw [Nat.add_zero, this, show 8 * k + 8 = 8 * (k + 1) by omega]
  · rintro k D ⟨hk, rfl⟩ hb
    rw [decide_eq_false_iff_not] at hb
    rw [show k = c by omega]
    exact t_pure ⟨rfl, rfl⟩

/-- For every source, also an empty one; a whole state from position 0 on is excluded. -/
theorem addBytes_src {data : CPtr} {μ : Mem Byte} {d : Nat → Byte} {off n : Nat} (hl : w + 200 ≤ m.length)
    (hv : View F data μ) (hd : Has μ 0 n d) (hs : ∀ t k, t + k ≤ n → Src F (padd data t) k fun j => d (t + j))
    (hn : off + n ≤ 200) (h200 : off = 0 → n < 200) :
    Runs (bl kd b (St m w (ilb B)) + F) (KeccakP1600_AddBytes (some ⟨b, w⟩) data off n) ()
      (bl kd b (St m w (ilb (xorB B off n d))) + F) := by
  unfold KeccakP1600_AddBytes
  dsimp only
  by_cases h0 : off = 0
  · subst h0
    have h200 := h200 rfl
    refine t_ite_pos rfl ?_
    refine t_assoc (t_run rfl (addLanes_runs hl hv hd (by omega) (by omega)) ?_)
    rw [Nat.mod_eq_of_lt (by omega : n / 8 * 8 < U32)]
    refine t_assoc (t_run rfl (addLane_runs hl (hs (n / 8 * 8) (n % 8) (by omega))
      (by omega) (by omega)) ?_)
    refine t_pbind ?_
    have := xorB_xorB B 0 (8 * (n / 8)) (n % 8) d
    rw [Nat.zero_add, show 8 * (n / 8) + n % 8 = n by omega] at this
    rw [Nat.add_zero, show n / 8 * 8 = 8 * (n / 8) by omega, this]
    exact t_pure ⟨rfl, rfl⟩
  · refine t_ite_neg h0 ?_
    refine t_assoc ?_
    refine t_whileI (I := fun s D => ∃ t, t ≤ n ∧ s.1 = n - t ∧ s.2.2.2 = padd data t ∧
      (t < n → 8 * s.2.1 + s.2.2.1 = off + t ∧ s.2.2.1 < 8) ∧
      D = bl kd b (St m w (ilb (xorB B off t d))) + F) (μ := fun s => s.1)
      ⟨0, by omega, rfl, (padd_zero _).symm, fun _ => ⟨by dsimp only; omega, by dsimp only; omega⟩, by rw [xorB_zero]⟩
      (by dsimp only; omega) ?_ ?_
    · rintro ⟨sl, lp, ol, cd⟩ D ⟨t, ht, h1, h2, h3, rfl⟩ hb
      dsimp only at h1 h2 h3 hb ⊢
      rw [decide_eq_true_eq] at hb
      subst h1 h2
      obtain ⟨h3, h4⟩ := h3 (by omega)
      rw [show (8 + 4294967296 - ol) % 4294967296 = 8 - ol by omega]
      have key : ∀ k, 0 < k → k ≤ n - t → k ≤ 8 - ol → (k = 8 - ol ∨ k = n - t) →
          T (bl kd b (St m w (ilb (xorB B off t d))) + F) (do
            KeccakP1600_AddBytesInLane (some ⟨b, w⟩) lp (padd data t) ol k
            pure ((n - t + 4294967296 - k) % 4294967296, (lp + 1) % 4294967296, 0, padd (padd data t) k))
          fun s' D' => (∃ t, t ≤ n ∧ s'.1 = n - t ∧ s'.2.2.2 = padd data t ∧
            (t < n → 8 * s'.2.1 + s'.2.2.1 = off + t ∧ s'.2.2.1 < 8) ∧
            D' = bl kd b (St m w (ilb (xorB B off t d))) + F) ∧ s'.1 < n - t := by
        intro k hk0 hk1 hk2 hk3
        refine t_run rfl (addLane_runs hl (hs t k (by omega)) (by omega) (by omega)) ?_
        rw [h3, xorB_xorB]
        exact t_pure ⟨⟨t + k, by omega, by dsimp only; omega, padd_padd _ _ _,
          fun h => ⟨by dsimp only; omega, by dsimp only; omega⟩, rfl⟩, by dsimp only; omega⟩
      by_cases e : 8 - ol > n - t
      · refine t_ite_pos e ?_
        exact t_pbind (key _ (by omega) (by omega) (by omega) (by omega))
      · refine t_ite_neg e ?_
        exact t_pbind (key _ (by omega) (by omega) (by omega) (by omega))
    · rintro ⟨sl, lp, ol, cd⟩ D ⟨t, ht, h1, h2, h3, rfl⟩ hb
      dsimp only at h1 h2 h3 hb ⊢
      rw [decide_eq_false_iff_not] at hb
      rw [show t = n by omega]
      exact t_pbind (t_pure ⟨rfl, rfl⟩)

theorem addBytes_runs {data : CPtr} {μ : Mem Byte} {d : Nat → Byte} {off n : Nat} (hl : w + 200 ≤ m.length)
    (hv : View F data μ) (hd : Has μ 0 n d) (h0 : 0 < n) (hn : off + n < 200) :
    Runs (bl kd b (St m w (ilb B)) + F) (KeccakP1600_AddBytes (some ⟨b, w⟩) data off n) ()
      (bl kd b (St m w (ilb (xorB B off n d))) + F) :=
  addBytes_src hl hv hd (fun _ _ h => src_view hv hd h0 h) (by omega) (by omega)

/-! ### Reading the state -/

theorem byte4_shr (x : BitVec 32) {j s : Nat} (hj : j < 4) (hs : s = 8 * j) : BitVec.setWidth 8 ((x >>> s) &&& (255 : BitVec 32)) = byte4 x j := by
  subst hs
  apply GenP.bv_ext
  intro i hi
  rw [byte4_bit _ _ _ hj, BitVec.getLsbD_setWidth, BitVec.getLsbD_and, BitVec.getLsbD_ushiftRight]
  have : (255 : BitVec 32).getLsbD i = true := by interval_cases i <;> rfl
  rw [this]
  simp [hi]

theorem byte4_0 (x : BitVec 32) : BitVec.setWidth 8 (x &&& (255 : BitVec 32)) = byte4 x 0 := by
  have := byte4_shr x (j := 0) (s := 0) (by decide) rfl
  rw [BitVec.ushiftRight_zero] at this
  exact this

/-- The bytes of a lane in the array of the code. -/
theorem t_lane8 {δ : Type} {Q : δ → Blocks → Prop} {D F : Blocks} {i : Nat} {x y : BitVec 32} {G : Nat → Byte} {g : Unit → CM δ}
    (hD : D = bl .stack i (malloc 8 : Mem Byte) + F) (hx : x = w4 G 0) (hy : y = w4 G 4)
    (k : T (bl .stack i (ofList (tabP 8 G)) + F) (g ()) Q) :
    T D (st (some ⟨i, 0⟩) 0 (BitVec.setWidth 8 (x &&& (255 : BitVec 32))) >>= fun _ =>
      st (some ⟨i, 0⟩) 1 (BitVec.setWidth 8 ((x >>> 8) &&& (255 : BitVec 32))) >>= fun _ =>
      st (some ⟨i, 0⟩) 2 (BitVec.setWidth 8 ((x >>> 16) &&& (255 : BitVec 32))) >>= fun _ =>
      st (some ⟨i, 0⟩) 3 (BitVec.setWidth 8 ((x >>> 24) &&& (255 : BitVec 32))) >>= fun _ =>
      st (some ⟨i, 0⟩) 4 (BitVec.setWidth 8 (y &&& (255 : BitVec 32))) >>= fun _ =>
      st (some ⟨i, 0⟩) 5 (BitVec.setWidth 8 ((y >>> 8) &&& (255 : BitVec 32))) >>= fun _ =>
      st (some ⟨i, 0⟩) 6 (BitVec.setWidth 8 ((y >>> 16) &&& (255 : BitVec 32))) >>= fun _ =>
      st (some ⟨i, 0⟩) 7 (BitVec.setWidth 8 ((y >>> 24) &&& (255 : BitVec 32))) >>= g) Q := by
  subst hx hy
  rw [byte4_0, byte4_shr _ (j := 1) (by decide) rfl, byte4_shr _ (j := 2) (by decide) rfl, byte4_shr _ (j := 3) (by decide) rfl,
    byte4_0, byte4_shr _ (j := 1) (by decide) rfl, byte4_shr _ (j := 2) (by decide) rfl, byte4_shr _ (j := 3) (by decide) rfl]
  rw [byte4_w4 _ _ _ (by decide), byte4_w4 _ _ _ (by decide), byte4_w4 _ _ _ (by decide), byte4_w4 _ _ _ (by decide),
    byte4_w4 _ _ _ (by decide), byte4_w4 _ _ _ (by decide), byte4_w4 _ _ _ (by decide), byte4_w4 _ _ _ (by decide)]
  refine t_st hD (m' := [some (G 0), none, none, none, none, none, none, none]) rfl ?_
  refine t_st rfl (m' := [some (G 0), some (G 1), none, none, none, none, none, none]) rfl ?_
  refine t_st rfl (m' := [some (G 0), some (G 1), some (G 2), none, none, none, none, none]) rfl ?_
  refine t_st rfl (m' := [some (G 0), some (G 1), some (G 2), some (G 3), none, none, none, none]) rfl ?_
  refine t_st rfl (m' := [some (G 0), some (G 1), some (G 2), some (G 3), some (G 4), none, none, none]) rfl ?_
  refine t_st rfl (m' := [some (G 0), some (G 1), some (G 2), some (G 3), some (G 4), some (G 5), none, none]) rfl ?_
  refine t_st rfl (m' := [some (G 0), some (G 1), some (G 2), some (G 3), some (G 4), some (G 5), some (G 6), none]) rfl ?_
  refine t_st rfl (m' := ofList (tabP 8 G)) rfl ?_
  exact k

theorem extractLane_runs {q : Ptr} {lp off n : Nat} (hl : w + 200 ≤ m.length) (hv : Valid F q n) (hlp : lp < 25)
    (hn : off + n ≤ 8) :
    Runs (bl kd b (St m w (ilb B)) + F) (KeccakP1600_ExtractBytesInLane (some ⟨b, w⟩) lp (some q) off n) ()
      (bl kd b (St m w (ilb B)) + up F q (tabP n fun j => B (8 * lp + off + j))) := by
  unfold KeccakP1600_ExtractBytesInLane
  refine t_alloc fun i => ?_
  dsimp only
  refine t_ld32s (F := bl .stack i (malloc 8) + F) (o' := 8 * lp) (add_left_comm _ _ _) ?_ hl (by omega) (by omega) ?_
  · exact congrArg (fun o => some (⟨b, w + o⟩ : Ptr)) (by omega)
  refine t_ld32s (F := bl .stack i (malloc 8) + F) (o' := 8 * lp + 4) (add_left_comm _ _ _) ?_ hl (by omega) (by omega) ?_
  · exact congrArg (fun o => some (⟨b, w + o⟩ : Ptr)) (by omega)
  rw [il_lo, il_hi]
  refine t_lane8 (G := laneByte (packL B lp)) rfl ?_ ?_ ?_
  · rw [← lane_lo]; exact from_lo _
  · rw [← lane_hi]; exact from_hi _
  have hh : Has (ofList (tabP 8 (laneByte (packL B lp)))) 0 8 fun j => B (8 * lp + j) := by
    intro j hj
    rw [rd_ofList, Nat.zero_add, tabP_getElem?, if_pos hj, laneByte_packL _ _ _ hj]
  refine t_memcpy_up (b := i) (o := 0 + off) rfl hv.right (rdN_eq ((hh.sub off n hn).congr (g' := fun j => B (8 * lp + off + j)) ?_) ?_) ?_
  · intro j hj
    rw [Nat.add_assoc]
  · simp [ofList]; omega
  refine t_nd fun hnd => ?_
  rw [up_frame (ND.of_up hnd.right) hv]
  refine t_free rfl ?_
  exact t_pure ⟨rfl, rfl⟩

theorem extractLanes_runs {q : Ptr} {c : Nat} (hl : w + 200 ≤ m.length) (hv : Valid F q (8 * c)) (hc : c ≤ 25) :
    Runs (bl kd b (St m w (ilb B)) + F) (KeccakP1600_ExtractLanes (some ⟨b, w⟩) (some q) c) ()
      (bl kd b (St m w (ilb B)) + up F q (tabP (8 * c) B)) := by
  refine runs_nd fun hnd => ?_
  have hF : ND F := hnd.right
  unfold KeccakP1600_ExtractLanes
  dsimp only
  refine t_whileI (I := fun k D => k ≤ c ∧ D = bl kd b (St m w (ilb B)) + up F q (tabP (8 * k) B)) (μ := fun k => c - k)
    ⟨Nat.zero_le _, by rw [show tabP (8 * 0) B = [] from rfl, up_nil]⟩ (by omega) ?_ ?_
  · rintro k D ⟨hk, rfl⟩ hb
    rw [decide_eq_true_eq] at hb
    rw [show k * 8 % 4294967296 = 8 * k by omega, show (k + 1) % 4294967296 = k + 1 by omega]
    refine t_ld32s (o' := 8 * k) rfl ?_ hl (by omega) (by omega) ?_
    · exact congrArg (fun o => some (⟨b, w + o⟩ : Ptr)) (by omega)
    refine t_ld32s (o' := 8 * k + 4) rfl ?_ hl (by omega) (by omega) ?_
    · exact congrArg (fun o => some (⟨b, w + o⟩ : Ptr)) (by omega)
    rw [il_lo, il_hi]
    refine t_alloc fun i => ?_
    refine t_lane8 (G := laneByte (packL B k)) rfl ?_ ?_ ?_
    · rw [← lane_lo]; exact from_lo _
    · rw [← lane_hi]; exact from_hi _
    have hh : Has (ofList (tabP 8 (laneByte (packL B k)))) 0 8 fun j => B (8 * k + j) := by
      intro j hj
      rw [rd_ofList, Nat.zero_add, tabP_getElem?, if_pos hj, laneByte_packL _ _ _ hj]
    have hv2 : Valid (up F q (tabP (8 * k) B)) ⟨q.blk, q.off + 8 * k⟩ 8 :=
      (hv.sub (a := 8 * k) (k := 8) (by omega)).up (by rw [tabP_length]; exact hv.mono (by omega)) hF
    refine t_memcpy_up (b := i) (o := 0) rfl hv2.right (rdN_eq hh (by simp [ofList])) ?_
    refine t_nd fun hnd => ?_
    rw [up_frame (ND.of_up hnd.right) hv2]
    have e := up_append (F := F) (q := q) (l := tabP (8 * k) B) (l' := tabP 8 fun j => B (8 * k + j))
      (by rw [tabP_length, tabP_length]; exact hv.mono (by omega)) hF
    rw [tabP_length, ← tabP_add, show 8 * k + 8 = 8 * (k + 1) by omega] at e
    rw [e]
    refine t_free rfl ?_
    exact t_pure ⟨⟨by omega, rfl⟩, by omega⟩
  · rintro k D ⟨hk, rfl⟩ hb
    rw [decide_eq_false_iff_not] at hb
    rw [show k = c by omega]
    exact t_pure ⟨rfl, rfl⟩

/-- A whole state from position 0 on is excluded. -/
theorem extractBytes_all {q : Ptr} {off n : Nat} (hl : w + 200 ≤ m.length) (hv : Valid F q n) (hn : off + n ≤ 200)
    (h200 : off = 0 → n < 200) :
    Runs (bl kd b (St m w (ilb B)) + F) (KeccakP1600_ExtractBytes (some ⟨b, w⟩) (some q) off n) ()
      (bl kd b (St m w (ilb B)) + up F q (tabP n fun j => B (off + j))) := by
  refine runs_nd fun hnd => ?_
  have hF : ND F := hnd.right
  unfold KeccakP1600_ExtractBytes
  dsimp only
  by_cases h0 : off = 0
  · subst h0
    have h200 := h200 rfl
    refine t_ite_pos rfl ?_
    refine t_assoc (t_run rfl (extractLanes_runs hl (hv.mono (by omega)) (by omega)) ?_)
    rw [Nat.mod_eq_of_lt (by omega : n / 8 * 8 < U32)]
    have hv2 : Valid F ⟨q.blk, q.off + n / 8 * 8⟩ (n % 8) := hv.sub (by omega)
    refine t_assoc (t_run rfl (extractLane_runs (q := ⟨q.blk, q.off + n / 8 * 8⟩) hl
      (hv2.up (by rw [tabP_length]; exact hv.mono (by omega)) hF) (by omega) (by omega)) ?_)
    have e := up_append (F := F) (q := q) (l := tabP (8 * (n / 8)) B) (l' := tabP (n % 8) fun j => B (8 * (n / 8) + j))
      (by rw [tabP_length, tabP_length]; exact hv.mono (by omega)) hF
    rw [tabP_length, ← tabP_add, show 8 * (n / 8) + n % 8 = n by omega] at e
    rw [show n / 8 * 8 = 8 * (n / 8) by omega]
    simp only [Nat.add_zero]
    rw [e]
    refine t_pbind (t_pure ⟨trivial, ?_⟩)
    simp only [Nat.zero_add]
  · refine t_ite_neg h0 ?_
    refine t_assoc ?_
    refine t_whileI (I := fun s D => ∃ t, t ≤ n ∧ s.1 = n - t ∧ s.2.2.2 = some ⟨q.blk, q.off + t⟩ ∧
      (t < n → 8 * s.2.1 + s.2.2.1 = off + t ∧ s.2.2.1 < 8) ∧
      D = bl kd b (St m w (ilb B)) + up F q (tabP t fun j => B (off + j))) (μ := fun s => s.1)
      ⟨0, by omega, rfl, rfl, fun _ => ⟨by dsimp only; omega, by dsimp only; omega⟩, by
        rw [show (tabP 0 fun j => B (off + j)) = [] from rfl, up_nil]⟩
      (by dsimp only; omega) ?_ ?_
    · rintro ⟨sl, lp, ol, cd⟩ D ⟨t, ht, h1, h2, h3, rfl⟩ hb
      dsimp only at h1 h2 h3 hb ⊢
      rw [decide_eq_true_eq] at hb
      subst h1 h2
      obtain ⟨h3, h4⟩ := h3 (by omega)
      rw [show (8 + 4294967296 - ol) % 4294967296 = 8 - ol by omega]
      have key : ∀ k, 0 < k → k ≤ n - t → k ≤ 8 - ol → (k = 8 - ol ∨ k = n - t) →
          T (bl kd b (St m w (ilb B)) + up F q (tabP t fun j => B (off + j))) (do
            KeccakP1600_ExtractBytesInLane (some ⟨b, w⟩) lp (some ⟨q.blk, q.off + t⟩) ol k
            pure ((n - t + 4294967296 - k) % 4294967296, (lp + 1) % 4294967296, 0, padd (some ⟨q.blk, q.off + t⟩) k))
          fun s' D' => (∃ t, t ≤ n ∧ s'.1 = n - t ∧ s'.2.2.2 = some ⟨q.blk, q.off + t⟩ ∧
            (t < n → 8 * s'.2.1 + s'.2.2.1 = off + t ∧ s'.2.2.1 < 8) ∧
            D' = bl kd b (St m w (ilb B)) + up F q (tabP t fun j => B (off + j))) ∧ s'.1 < n - t := by
        intro k hk0 hk1 hk2 hk3
        have hv2 : Valid F ⟨q.blk, q.off + t⟩ k := hv.sub (by omega)
        refine t_run rfl (extractLane_runs hl (hv2.up (by rw [tabP_length]; exact hv.mono (by omega)) hF)
          (by omega) (by omega)) ?_
        have e := up_append (F := F) (q := q) (l := tabP t fun j => B (off + j))
          (l' := tabP k fun j => B (off + (t + j)))
          (by rw [tabP_length, tabP_length]; exact hv.mono (by omega)) hF
        rw [tabP_length, ← tabP_add t k (fun j => B (off + j))] at e
        rw [h3]
        simp only [Nat.add_assoc]
        rw [e]
        exact t_pure ⟨⟨t + k, by omega, by dsimp only; omega, by simp [padd, Nat.add_assoc],
          fun h => ⟨by dsimp only; omega, by dsimp only; omega⟩, rfl⟩, by dsimp only; omega⟩
      by_cases e : 8 - ol > n - t
      · refine t_ite_pos e ?_
        exact t_pbind (key _ (by omega) (by omega) (by omega) (by omega))
      · refine t_ite_neg e ?_
        exact t_pbind (key _ (by omega) (by omega) (by omega) (by omega))
    · rintro ⟨sl, lp, ol, cd⟩ D ⟨t, ht, h1, h2, h3, rfl⟩ hb
      dsimp only at h1 h2 h3 hb ⊢
      rw [decide_eq_false_iff_not] at hb
      rw [show t = n by omega]
      exact t_pbind (t_pure ⟨rfl, rfl⟩)

theorem extractBytes_runs {q : Ptr} {off n : Nat} (hl : w + 200 ≤ m.length) (hv : Valid F q n) (hn : off + n < 200) :
    Runs (bl kd b (St m w (ilb B)) + F) (KeccakP1600_ExtractBytes (some ⟨b, w⟩) (some q) off n) ()
      (bl kd b (St m w (ilb B)) + up F q (tabP n fun j => B (off + j))) :=
  extractBytes_all hl hv (by omega) (by omega)

end

end Faest.GenPB
