/-
The translated sha3/plain32 permutation and state functions (Model/Gen/KeccakP32.lean) on the 200 bytes of a state.
-/
import Verif.Proofs.Gen.Rounds32
import Verif.Proofs.Gen.KeccakP

namespace Faest.GenP
open Faest.C Faest.Keccak
open Faest.GenH (pk pk_packL St st_len st_has st_st st_congr st_self has_from)

/-! ### Words of 32 bits in memory -/

/-- The word with the bytes `G o .. G (o + 3)`. -/
def w4 (G : Nat → Byte) (o : Nat) : BitVec 32 := (leWord (tabP 4 fun j => G (o + j))).setWidth 32

theorem w4_bit (G : Nat → Byte) (o i : Nat) (hi : i < 32) : (w4 G o).getLsbD i = (G (o + i / 8)).getLsbD (i % 8) := by
  unfold w4
  rw [BitVec.getLsbD_setWidth, leWord_bit _ _ (by omega), List.getD_eq_getElem?_getD, tabP_getElem?, if_pos (by omega)]
  simp [hi]

theorem w4_congr {G G' : Nat → Byte} {o : Nat} (h : ∀ j, j < 4 → G (o + j) = G' (o + j)) : w4 G o = w4 G' o := by
  unfold w4; rw [tabP_congr h]

theorem w4_lo (G : Nat → Byte) (k : Nat) : w4 G (8 * k) = loW (packL G k) := by
  apply bv_ext
  intro i hi
  rw [w4_bit _ _ _ hi, loW_bit _ _ hi, packL_bit _ _ _ (by omega)]

theorem w4_hi (G : Nat → Byte) (k : Nat) : w4 G (8 * k + 4) = hiW (packL G k) := by
  apply bv_ext
  intro i hi
  rw [w4_bit _ _ _ hi, hiW_bit _ _ hi, packL_bit _ _ _ (by omega), show 8 * k + (32 + i) / 8 = 8 * k + 4 + i / 8 by omega,
    show (32 + i) % 8 = i % 8 by omega]

/-- Byte `j` of a word of 32 bits. -/
def byte4 (x : BitVec 32) (j : Nat) : Byte := laneByte (x.setWidth 64) j

theorem byte4_bit (x : BitVec 32) (j i : Nat) (hj : j < 4) : (byte4 x j).getLsbD i = (decide (i < 8) && x.getLsbD (8 * j + i)) := by
  unfold byte4
  rw [laneByte_bit, BitVec.getLsbD_setWidth]
  by_cases hi : i < 8
  · simp [hi, show 8 * j + i < 64 by omega]
  · simp [hi]

theorem wordBytes4_length (x : BitVec 32) : (wordBytes4 x).length = 4 := tabP_length _ _

theorem byte4_w4 (G : Nat → Byte) (o j : Nat) (hj : j < 4) : byte4 (w4 G o) j = G (o + j) := by
  apply bv_ext
  intro i hi
  rw [byte4_bit _ _ _ hj, w4_bit _ _ _ (by omega), show (8 * j + i) / 8 = j by omega, show (8 * j + i) % 8 = i by omega]
  simp [hi]

theorem w4_byte4 (x : BitVec 32) (G : Nat → Byte) (o : Nat) (h : ∀ j, j < 4 → G (o + j) = byte4 x j) : w4 G o = x := by
  apply bv_ext
  intro i hi
  rw [w4_bit _ _ _ hi, h _ (by omega), byte4_bit _ _ _ (by omega), show 8 * (i / 8) + i % 8 = i by omega]
  simp [show i % 8 < 8 by omega]

theorem wordBytes4_w4 (G : Nat → Byte) (o : Nat) : wordBytes4 (w4 G o) = tabP 4 fun j => G (o + j) :=
  tabP_congr fun j hj => byte4_w4 G o j hj

/-- The bytes `G` with a word written at `o`. -/
def put4 (G : Nat → Byte) (o : Nat) (x : BitVec 32) : Nat → Byte :=
  fun t => if o ≤ t ∧ t < o + 4 then byte4 x (t - o) else G t

theorem w4_put (G : Nat → Byte) (o : Nat) (x : BitVec 32) : w4 (put4 G o x) o = x := by
  refine w4_byte4 _ _ _ fun j hj => ?_
  unfold put4
  rw [if_pos (by omega), show o + j - o = j by omega]

theorem w4_put_ne (G : Nat → Byte) (o o' : Nat) (x : BitVec 32) (h : o' + 4 ≤ o ∨ o + 4 ≤ o') :
    w4 (put4 G o x) o' = w4 G o' := by
  refine w4_congr fun j hj => ?_
  unfold put4
  rw [if_neg (by omega)]

section
variable {δ : Type} {D F : Blocks} {Q : δ → Blocks → Prop}

theorem padd_padd (p : CPtr) (i j : Nat) : padd (padd p i) j = padd p (i + j) := by
  cases p
  · rfl
  · simp [padd, Nat.add_assoc]

theorem padd_zero (p : CPtr) : padd p 0 = p := by cases p <;> rfl

/-- A read from the data. -/
theorem t_ld32v {p data : CPtr} {o o' N : Nat} {μ : Mem Byte} {G : Nat → Byte} {g : BitVec 32 → CM δ} (hv : View D data μ)
    (hp : padd p o = padd data o') (hm : Has μ 0 N G) (ho : o' + 4 ≤ N) (k : T D (g (w4 G o')) Q) : T D (ld32 p o >>= g) Q := by
  unfold ld32
  rw [hp]
  refine t_assoc (t_ldN (l := tabP 4 fun j => G (o' + j)) hv.padd (by decide) ?_ (t_pbind k))
  have h : Has μ o' 4 fun j => G (o' + j) := fun i hi => by rw [← hm (o' + i) (by omega), Nat.zero_add]
  exact rdN_at (rdN_has h (by decide))

/-- A read from the state. -/
theorem t_ld32s {kd : Kind} {b w o o' : Nat} {p : CPtr} {m : Mem Byte} {G : Nat → Byte} {g : BitVec 32 → CM δ}
    (hD : D = bl kd b (St m w G) + F) (hp : padd p o = some ⟨b, w + o'⟩) (hl : w + 200 ≤ m.length) (ho : o' + 4 ≤ 200)
    (k : T D (g (w4 G o')) Q) : T D (ld32 p o >>= g) Q := by
  subst hD
  unfold ld32
  rw [hp]
  refine t_assoc (t_ldN (μ := (St m w G).drop (w + o')) (l := tabP 4 fun j => G (o' + j)) View.here (by decide) ?_ (t_pbind k))
  have h : Has (St m w G) (w + o') 4 fun j => G (o' + j) := fun i hi => by
    rw [← st_has hl G (o' + i) (by omega), Nat.add_assoc]
  exact rdN_at (rdN_has h (by decide))

theorem st_put {m : Mem Byte} {w o : Nat} (G : Nat → Byte) (x : BitVec 32) (hl : w + 200 ≤ m.length) (ho : o + 4 ≤ 200) :
    W (St m w G) (w + o) (wordBytes4 x) = St m w (put4 G o x) := by
  have h0 := st_len hl G
  have h1 : w + o + (wordBytes4 x).length ≤ (St m w G).length := by rw [wordBytes4_length, h0]; omega
  refine mem_ext (by rw [length_W h1, h0, st_len hl]) fun i hi => ?_
  have h2 : w + (tabP 200 G).length ≤ m.length := by rw [tabP_length]; exact hl
  have h3 : w + (tabP 200 (put4 G o x)).length ≤ m.length := by rw [tabP_length]; exact hl
  rw [getElem?_W h1]
  unfold St
  rw [getElem?_W h2, getElem?_W h3, tabP_length, tabP_length, wordBytes4_length]
  by_cases c1 : w ≤ i ∧ i < w + 200
  · rw [if_pos c1, if_pos c1]
    by_cases c2 : w + o ≤ i ∧ i < w + o + 4
    · rw [if_pos c2, tabP_getElem?, if_pos (by omega)]
      unfold wordBytes4 put4
      rw [tabP_getElem?, if_pos (by omega), if_pos (by omega), show i - (w + o) = i - w - o by omega]
      rfl
    · rw [if_neg c2, tabP_getElem?, tabP_getElem?, if_pos (by omega), if_pos (by omega)]
      unfold put4
      rw [if_neg (by omega)]
  · rw [if_neg c1, if_neg c1, if_neg (by omega)]

/-- A write to the state. -/
theorem t_st32s {kd : Kind} {b w o o' : Nat} {p : CPtr} {m : Mem Byte} {G : Nat → Byte} {x : BitVec 32} {g : Unit → CM δ}
    (hD : D = bl kd b (St m w G) + F) (hp : padd p o = some ⟨b, w + o'⟩) (hl : w + 200 ≤ m.length) (ho : o' + 4 ≤ 200)
    (k : T (bl kd b (St m w (put4 G o' x)) + F) (g ()) Q) : T D (st32 p o x >>= g) Q := by
  unfold st32
  rw [hp]
  refine t_stN hD (wrN_W ?_) ?_
  · rw [wordBytes4_length, st_len hl]; omega
  · rw [st_put _ _ hl ho]; exact k

/-- The next word of a window. -/
theorem t_st32n {kd : Kind} {b w n o : Nat} {p : CPtr} {m : Mem Byte} {G : Nat → Byte} {x : BitVec 32} {g : Unit → CM δ}
    (hD : D = bl kd b (W m w (tabP n G)) + F) (hp : padd p o = some ⟨b, w + n⟩) (hl : w + (n + 4) ≤ m.length) (hx : x = w4 G n)
    (k : T (bl kd b (W m w (tabP (n + 4) G)) + F) (g ()) Q) : T D (st32 p o x >>= g) Q := by
  unfold st32
  rw [hp]
  refine t_stN hD ?_ k
  have := wrN_W_append (m := m) (o := w) (xs := tabP n G) (ys := wordBytes4 x) (by
    rw [wordBytes4_length, tabP_length]; omega)
  rw [tabP_length] at this
  rw [this, tabP_add, hx, wordBytes4_w4]

end

/-! ### The words of the state -/

/-- The words in the order of their addresses. -/
def wl (A : Halves) : List (BitVec 32) :=
  [A.ba0, A.ba1, A.be0, A.be1, A.bi0, A.bi1, A.bo0, A.bo1, A.bu0, A.bu1,
   A.ga0, A.ga1, A.ge0, A.ge1, A.gi0, A.gi1, A.go0, A.go1, A.gu0, A.gu1,
   A.ka0, A.ka1, A.ke0, A.ke1, A.ki0, A.ki1, A.ko0, A.ko1, A.ku0, A.ku1,
   A.ma0, A.ma1, A.me0, A.me1, A.mi0, A.mi1, A.mo0, A.mo1, A.mu0, A.mu1,
   A.sa0, A.sa1, A.se0, A.se1, A.si0, A.si1, A.so0, A.so1, A.su0, A.su1]

/-- The bytes of the words. -/
def hb (A : Halves) : Nat → Byte := fun t => byte4 ((wl A).getD (t / 4) 0) (t % 4)

theorem w4_hb (A : Halves) (i : Nat) : w4 (hb A) (4 * i) = (wl A).getD i 0 := by
  refine w4_byte4 _ _ _ fun j hj => ?_
  unfold hb
  rw [show (4 * i + j) / 4 = i by omega, show (4 * i + j) % 4 = j by omega]

theorem w4_hb' (A : Halves) (o i : Nat) (h : o = 4 * i) : w4 (hb A) o = (wl A).getD i 0 := by rw [h, w4_hb]

section
variable {kd : Kind} {b w : Nat} {m : Mem Byte} {F : Blocks}

theorem read_runs (A : Halves) (hl : w + 200 ≤ m.length) :
    Runs (bl kd b (St m w (hb A)) + F) (readHalves (some ⟨b, w⟩)) A (bl kd b (St m w (hb A)) + F) := by
  unfold readHalves
  iterate 50 refine t_ld32s rfl rfl hl (by decide) ?_
  refine t_pure ⟨?_, rfl⟩
  rw [w4_hb' A 0 0 rfl, w4_hb' A 4 1 rfl, w4_hb' A 8 2 rfl, w4_hb' A 12 3 rfl, w4_hb' A 16 4 rfl,
    w4_hb' A 20 5 rfl, w4_hb' A 24 6 rfl, w4_hb' A 28 7 rfl, w4_hb' A 32 8 rfl, w4_hb' A 36 9 rfl,
    w4_hb' A 40 10 rfl, w4_hb' A 44 11 rfl, w4_hb' A 48 12 rfl, w4_hb' A 52 13 rfl, w4_hb' A 56 14 rfl,
    w4_hb' A 60 15 rfl, w4_hb' A 64 16 rfl, w4_hb' A 68 17 rfl, w4_hb' A 72 18 rfl, w4_hb' A 76 19 rfl,
    w4_hb' A 80 20 rfl, w4_hb' A 84 21 rfl, w4_hb' A 88 22 rfl, w4_hb' A 92 23 rfl, w4_hb' A 96 24 rfl,
    w4_hb' A 100 25 rfl, w4_hb' A 104 26 rfl, w4_hb' A 108 27 rfl, w4_hb' A 112 28 rfl, w4_hb' A 116 29 rfl,
    w4_hb' A 120 30 rfl, w4_hb' A 124 31 rfl, w4_hb' A 128 32 rfl, w4_hb' A 132 33 rfl, w4_hb' A 136 34 rfl,
    w4_hb' A 140 35 rfl, w4_hb' A 144 36 rfl, w4_hb' A 148 37 rfl, w4_hb' A 152 38 rfl, w4_hb' A 156 39 rfl,
    w4_hb' A 160 40 rfl, w4_hb' A 164 41 rfl, w4_hb' A 168 42 rfl, w4_hb' A 172 43 rfl, w4_hb' A 176 44 rfl,
    w4_hb' A 180 45 rfl, w4_hb' A 184 46 rfl, w4_hb' A 188 47 rfl, w4_hb' A 192 48 rfl, w4_hb' A 196 49 rfl]
  rfl

theorem write_runs (A : Halves) (hl : w + 200 ≤ m.length) :
    Runs (bl kd b m + F) (writeHalves (some ⟨b, w⟩) A) () (bl kd b (St m w (hb A)) + F) := by
  unfold writeHalves
  refine t_perm (D' := bl kd b (W m w (tabP 0 (hb A))) + F) (by rw [show tabP 0 (hb A) = [] from rfl, W_nil]) ?_
  refine t_st32n rfl rfl (by omega) (w4_hb' A 0 0 rfl).symm ?_
  refine t_st32n rfl rfl (by omega) (w4_hb' A 4 1 rfl).symm ?_
  refine t_st32n rfl rfl (by omega) (w4_hb' A 8 2 rfl).symm ?_
  refine t_st32n rfl rfl (by omega) (w4_hb' A 12 3 rfl).symm ?_
  refine t_st32n rfl rfl (by omega) (w4_hb' A 16 4 rfl).symm ?_
  refine t_st32n rfl rfl (by omega) (w4_hb' A 20 5 rfl).symm ?_
  refine t_st32n rfl rfl (by omega) (w4_hb' A 24 6 rfl).symm ?_
  refine t_st32n rfl rfl (by omega) (w4_hb' A 28 7 rfl).symm ?_
  refine t_st32n rfl rfl (by omega) (w4_hb' A 32 8 rfl).symm ?_
  refine t_st32n rfl rfl (by omega) (w4_hb' A 36 9 rfl).symm ?_
  refine t_st32n rfl rfl (by omega) (w4_hb' A 40 10 rfl).symm ?_
  refine t_st32n rfl rfl (by omega) (w4_hb' A 44 11 rfl).symm ?_
  refine t_st32n rfl rfl (by omega) (w4_hb' A 48 12 rfl).symm ?_
  refine t_st32n rfl rfl (by omega) (w4_hb' A 52 13 rfl).symm ?_
  refine t_st32n rfl rfl (by omega) (w4_hb' A 56 14 rfl).symm ?_
  refine t_st32n rfl rfl (by omega) (w4_hb' A 60 15 rfl).symm ?_
  refine t_st32n rfl rfl (by omega) (w4_hb' A 64 16 rfl).symm ?_
  refine t_st32n rfl rfl (by omega) (w4_hb' A 68 17 rfl).symm ?_
  refine t_st32n rfl rfl (by omega) (w4_hb' A 72 18 rfl).symm ?_
  refine t_st32n rfl rfl (by omega) (w4_hb' A 76 19 rfl).symm ?_
  refine t_st32n rfl rfl (by omega) (w4_hb' A 80 20 rfl).symm ?_
  refine t_st32n rfl rfl (by omega) (w4_hb' A 84 21 rfl).symm ?_
  refine t_st32n rfl rfl (by omega) (w4_hb' A 88 22 rfl).symm ?_
  refine t_st32n rfl rfl (by omega) (w4_hb' A 92 23 rfl).symm ?_
  refine t_st32n rfl rfl (by omega) (w4_hb' A 96 24 rfl).symm ?_
  refine t_st32n rfl rfl (by omega) (w4_hb' A 100 25 rfl).symm ?_
  refine t_st32n rfl rfl (by omega) (w4_hb' A 104 26 rfl).symm ?_
  refine t_st32n rfl rfl (by omega) (w4_hb' A 108 27 rfl).symm ?_
  refine t_st32n rfl rfl (by omega) (w4_hb' A 112 28 rfl).symm ?_
  refine t_st32n rfl rfl (by omega) (w4_hb' A 116 29 rfl).symm ?_
  refine t_st32n rfl rfl (by omega) (w4_hb' A 120 30 rfl).symm ?_
  refine t_st32n rfl rfl (by omega) (w4_hb' A 124 31 rfl).symm ?_
  refine t_st32n rfl rfl (by omega) (w4_hb' A 128 32 rfl).symm ?_
  refine t_st32n rfl rfl (by omega) (w4_hb' A 132 33 rfl).symm ?_
  refine t_st32n rfl rfl (by omega) (w4_hb' A 136 34 rfl).symm ?_
  refine t_st32n rfl rfl (by omega) (w4_hb' A 140 35 rfl).symm ?_
  refine t_st32n rfl rfl (by omega) (w4_hb' A 144 36 rfl).symm ?_
  refine t_st32n rfl rfl (by omega) (w4_hb' A 148 37 rfl).symm ?_
  refine t_st32n rfl rfl (by omega) (w4_hb' A 152 38 rfl).symm ?_
  refine t_st32n rfl rfl (by omega) (w4_hb' A 156 39 rfl).symm ?_
  refine t_st32n rfl rfl (by omega) (w4_hb' A 160 40 rfl).symm ?_
  refine t_st32n rfl rfl (by omega) (w4_hb' A 164 41 rfl).symm ?_
  refine t_st32n rfl rfl (by omega) (w4_hb' A 168 42 rfl).symm ?_
  refine t_st32n rfl rfl (by omega) (w4_hb' A 172 43 rfl).symm ?_
  refine t_st32n rfl rfl (by omega) (w4_hb' A 176 44 rfl).symm ?_
  refine t_st32n rfl rfl (by omega) (w4_hb' A 180 45 rfl).symm ?_
  refine t_st32n rfl rfl (by omega) (w4_hb' A 184 46 rfl).symm ?_
  refine t_st32n rfl rfl (by omega) (w4_hb' A 188 47 rfl).symm ?_
  refine t_st32n rfl rfl (by omega) (w4_hb' A 192 48 rfl).symm ?_
  rw [← bind_pure (st32 (some ⟨b, w⟩) 196 A.su1)]
  refine t_st32n rfl rfl (by omega) (w4_hb' A 196 49 rfl).symm ?_
  exact t_pure ⟨rfl, rfl⟩

/-- One round in memory. -/
theorem round_runs {f : Halves → Nat → CM (Halves × Nat)} {A A' : Halves} {c c' : Nat} (h : f A c = pure (A', c'))
    (hl : w + 200 ≤ m.length) :
    Runs (bl kd b (St m w (hb A)) + F) (do
      let A ← readHalves (some ⟨b, w⟩)
      let e ← f A c
      writeHalves (some ⟨b, w⟩) e.1
      pure e.2) c' (bl kd b (St m w (hb A')) + F) := by
  refine t_run rfl (read_runs A hl) ?_
  rw [h]
  refine t_pbind (t_run rfl (write_runs A' (by rw [st_len hl]; exact hl)) ?_)
  rw [st_st hl]
  exact t_pure ⟨rfl, rfl⟩

/-- Rounds `0 .. n - 1`. -/
def rndN : Nat → Lanes → Lanes
  | 0, L => L
  | n + 1, L => if h : n < 24 then Keccak.round ⟨n, h⟩ (rndN n L) else rndN n L

theorem rndN_succ {n : Nat} (h : n < 24) (L : Lanes) : rndN (n + 1) L = Keccak.round ⟨n, h⟩ (rndN n L) := dif_pos h

theorem rndN_24 (L : Lanes) : rndN 24 L = Keccak.rounds24 L := by
  unfold Keccak.rounds24
  simp only [Keccak.round_pair, Keccak.last_eq]
  rfl

theorem R0_runs {n c : Nat} (hn : n < 24) (hc : c = 2 * n) (L : Lanes) (hl : w + 200 ≤ m.length) :
    Runs (bl kd b (St m w (hb (conf0 (rndN n L)))) + F) (KeccakRound0 (some ⟨b, w⟩) c) (2 * (n + 1))
      (bl kd b (St m w (hb (conf1 (rndN (n + 1) L)))) + F) := by
  rw [rndN_succ hn, hc]
  exact round_runs (f := KeccakRound0_words) (round0_eq ⟨n, hn⟩ _) hl

theorem R1_runs {n c : Nat} (hn : n < 24) (hc : c = 2 * n) (L : Lanes) (hl : w + 200 ≤ m.length) :
    Runs (bl kd b (St m w (hb (conf1 (rndN n L)))) + F) (KeccakRound1 (some ⟨b, w⟩) c) (2 * (n + 1))
      (bl kd b (St m w (hb (conf2 (rndN (n + 1) L)))) + F) := by
  rw [rndN_succ hn, hc]
  exact round_runs (f := KeccakRound1_words) (round1_eq ⟨n, hn⟩ _) hl

theorem R2_runs {n c : Nat} (hn : n < 24) (hc : c = 2 * n) (L : Lanes) (hl : w + 200 ≤ m.length) :
    Runs (bl kd b (St m w (hb (conf2 (rndN n L)))) + F) (KeccakRound2 (some ⟨b, w⟩) c) (2 * (n + 1))
      (bl kd b (St m w (hb (conf3 (rndN (n + 1) L)))) + F) := by
  rw [rndN_succ hn, hc]
  exact round_runs (f := KeccakRound2_words) (round2_eq ⟨n, hn⟩ _) hl

theorem R3_runs {n c : Nat} (hn : n < 24) (hc : c = 2 * n) (L : Lanes) (hl : w + 200 ≤ m.length) :
    Runs (bl kd b (St m w (hb (conf3 (rndN n L)))) + F) (KeccakRound3 (some ⟨b, w⟩) c) (2 * (n + 1))
      (bl kd b (St m w (hb (conf0 (rndN (n + 1) L)))) + F) := by
  rw [rndN_succ hn, hc]
  exact round_runs (f := KeccakRound3_words) (round3_eq ⟨n, hn⟩ _) hl

theorem tget_again (j : Nat) (hj : j < 6) : ∃ x, tget32 KeccakF1600RoundConstants_int2 (8 * (j + 1)) = pure x ∧
    (x ≠ (255 : BitVec 32) ↔ j + 1 < 6) := by
  interval_cases j
  all_goals exact ⟨_, rfl, by decide⟩

theorem perm_runs (L : Lanes) (hl : w + 200 ≤ m.length) :
    Runs (bl kd b (St m w (hb (conf0 L))) + F) (KeccakP1600_Permute_24rounds (some ⟨b, w⟩)) ()
      (bl kd b (St m w (hb (conf0 (Keccak.rounds24 L)))) + F) := by
  unfold KeccakP1600_Permute_24rounds
  refine t_run rfl (b := ()) (E := bl kd b (St m w (hb (conf0 (Keccak.rounds24 L)))) + F) ?_ (t_pure ⟨rfl, rfl⟩)
  unfold KeccakP1600_Permute_Nrounds
  dsimp only
  refine t_ite_neg (by decide) ?_
  refine t_ite_neg (by decide) ?_
  refine t_ite_neg (by decide) ?_
  refine t_pbind ?_
  refine t_whileI (I := fun s D => ∃ j, j ≤ 6 ∧ s.1 = 0 ∧ s.2.1 = 8 * j ∧ s.2.2 = (if j < 6 then 1 else 0) ∧
      D = bl kd b (St m w (hb (conf0 (rndN (4 * j) L)))) + F) (μ := fun s => if s.2.2 = 0 then 0 else 56 - s.2.1)
    ⟨0, by omega, rfl, rfl, rfl, rfl⟩ (by decide) ?_ ?_
  · rintro ⟨n, c, a⟩ D ⟨j, hj, h1, h2, h3, rfl⟩ hb
    dsimp only at h1 h2 h3 hb ⊢
    subst h1 h2 h3
    have hj6 : j < 6 := by
      by_contra hc
      rw [if_neg hc] at hb
      simp at hb
    refine t_ite_pos rfl ?_
    refine t_assoc (t_run rfl (R0_runs (n := 4 * j) (by omega) (by omega) _ hl) ?_)
    refine t_assoc (t_run rfl (R1_runs (n := 4 * j + 1) (by omega) rfl _ hl) ?_)
    refine t_assoc (t_run rfl (R2_runs (n := 4 * j + 2) (by omega) rfl _ hl) ?_)
    refine t_assoc (t_run rfl (R3_runs (n := 4 * j + 3) (by omega) rfl _ hl) ?_)
    refine t_pbind ?_
    obtain ⟨x, hx, hx2⟩ := tget_again j hj6
    rw [show 2 * (4 * j + 3 + 1) = 8 * (j + 1) by omega, hx]
    refine t_pbind ?_
    by_cases hc : j + 1 < 6
    · refine t_ite_pos (hx2.2 hc) ?_
      refine t_pbind (t_pbind (t_pure ⟨⟨j + 1, by omega, rfl, rfl, (if_pos hc).symm, rfl⟩, ?_⟩))
      dsimp only
      rw [if_pos hj6, if_neg (by decide), if_neg (by decide)]
      omega
    · refine t_ite_neg (fun h => hc (hx2.1 h)) ?_
      refine t_pbind (t_pbind (t_pure ⟨⟨j + 1, by omega, rfl, rfl, (if_neg hc).symm, rfl⟩, ?_⟩))
      dsimp only
      rw [if_pos hj6, if_pos rfl, if_neg (by decide)]
      omega
  · rintro ⟨n, c, a⟩ D ⟨j, hj, h1, h2, h3, rfl⟩ hb
    dsimp only at h1 h2 h3 hb ⊢
    subst h1 h2 h3
    have hj6 : j = 6 := by
      by_contra hc
      rw [if_pos (by omega)] at hb
      simp at hb
    subst hj6
    rw [← rndN_24]
    exact t_pure ⟨rfl, rfl⟩

end

/-! ### The layout of a state -/

/-- A lane in memory: its even bits, then its odd bits. -/
def ilv (x : BitVec 64) : BitVec 64 := cat (half x 0) (half x 1)

/-- The bytes in memory of the state with the bytes `B`. -/
def il (B : Nat → Byte) : Nat → Byte := fun t => laneByte (ilv (packL B (t / 8))) (t % 8)

theorem packL_il (B : Nat → Byte) (k : Nat) : packL (il B) k = ilv (packL B k) := by
  refine u64_ext fun j hj => ?_
  rw [laneByte_packL _ _ _ hj]
  unfold il
  rw [show (8 * k + j) / 8 = k by omega, show (8 * k + j) % 8 = j by omega]

theorem il_lo (B : Nat → Byte) (k : Nat) : w4 (il B) (8 * k) = half (packL B k) 0 := by
  rw [w4_lo, packL_il]; exact loW_cat _ _
theorem il_hi (B : Nat → Byte) (k : Nat) : w4 (il B) (8 * k + 4) = half (packL B k) 1 := by
  rw [w4_hi, packL_il]; exact hiW_cat _ _

theorem bytes_ext {G H : Nat → Byte} (h : ∀ k, k < 25 → w4 G (8 * k) = w4 H (8 * k) ∧ w4 G (8 * k + 4) = w4 H (8 * k + 4)) :
    ∀ t, t < 200 → G t = H t := by
  intro t ht
  obtain ⟨h0, h1⟩ := h (t / 8) (by omega)
  by_cases c : t % 8 < 4
  · rw [show t = 8 * (t / 8) + t % 8 by omega, ← byte4_w4 G _ _ c, ← byte4_w4 H _ _ c, h0]
  · rw [show t = 8 * (t / 8) + 4 + (t % 8 - 4) by omega, ← byte4_w4 G _ _ (by omega), ← byte4_w4 H _ _ (by omega), h1]

theorem hb_conf0 (B : Nat → Byte) : ∀ t, t < 200 → hb (conf0 (lanesOf (packL B))) t = il B t := by
  refine bytes_ext fun k hk => ?_
  rw [il_lo, il_hi, w4_hb' _ _ (2 * k) (by omega), w4_hb' _ _ (2 * k + 1) (by omega)]
  generalize packL B = g
  interval_cases k
  all_goals exact ⟨rfl, rfl⟩

theorem half_zero (h : Nat) : half 0 h = 0 := by
  apply bv_ext
  intro i hi
  rw [half_bit]; simp

theorem packL_zero (k : Nat) : packL (fun _ => 0) k = 0 := by
  refine u64_ext fun j hj => ?_
  rw [laneByte_packL _ _ _ hj]
  unfold laneByte
  simp

theorem il_zero : ∀ t, t < 200 → il (fun _ => 0) t = 0 := by
  refine bytes_ext (H := fun _ => 0) fun k _ => ?_
  rw [il_lo, il_hi, w4_lo, w4_hi, packL_zero, half_zero, half_zero]
  exact ⟨rfl, rfl⟩

section
variable {kd : Kind} {b w : Nat} {m : Mem Byte} {B : Nat → Byte} {F : Blocks}

theorem permute_runs (hl : w + 200 ≤ m.length) :
    Runs (bl kd b (St m w (il B)) + F) (KeccakP1600_Permute_24rounds (some ⟨b, w⟩)) ()
      (bl kd b (St m w (il (keccakB B))) + F) := by
  have := perm_runs (kd := kd) (b := b) (F := F) (lanesOf (packL B)) hl
  rw [Keccak.rounds24_eq, st_congr (hb_conf0 B), st_congr (hb_conf0 _)] at this
  exact this

theorem init_runs (hl : w + 200 ≤ m.length) :
    Runs (bl kd b m + F) (KeccakP1600_Initialize (some ⟨b, w⟩)) () (bl kd b (St m w (il fun _ => 0)) + F) := by
  rw [st_congr il_zero]
  exact GenH.init_runs hl

/-! ### Adding to the state -/

/-- `data` added at place `off` of lane `k`. -/
theorem packL_xorB (B d : Nat → Byte) (x : BitVec 64) (k off n : Nat)
    (hx : ∀ j, j < 8 → laneByte x j = if off ≤ j ∧ j < off + n then d (j - off) else 0) :
    packL (xorB B (8 * k + off) n d) k = packL B k ^^^ x := by
  refine u64_ext fun j hj => ?_
  rw [laneByte_xor, laneByte_packL _ _ _ hj, laneByte_packL _ _ _ hj, hx j hj]
  unfold xorB
  by_cases e : off ≤ j ∧ j < off + n
  · rw [if_pos e, if_pos (by omega), show 8 * k + j - (8 * k + off) = j - off by omega]
  · rw [if_neg e, if_neg (by omega)]
    simp

/-- Adding a lane to two words in memory. -/
theorem t_xor {δ : Type} {Q : δ → Blocks → Prop} {g : Unit → CM δ} {D : Blocks} {x : BitVec 64} {a c : BitVec 32}
    {k off n o0 o1 : Nat} {p0 p1 : CPtr} {d : Nat → Byte} (hl : w + 200 ≤ m.length) (hk : k < 25) (hn : off + n ≤ 8)
    (hx : ∀ j, j < 8 → laneByte x j = if off ≤ j ∧ j < off + n then d (j - off) else 0)
    (h0 : padd p0 o0 = some ⟨b, w + 8 * k⟩) (h1 : padd p1 o1 = some ⟨b, w + (8 * k + 4)⟩)
    (ha : a = half x 0) (hc : c = half x 1)
    (hD : D = bl kd b (St m w (il B)) + F)
    (h : T (bl kd b (St m w (il (xorB B (8 * k + off) n d))) + F) (g ()) Q) :
    T D (ld32 p0 o0 >>= fun e => st32 p0 o0 (e ^^^ a) >>= fun _ => ld32 p1 o1 >>= fun e' => st32 p1 o1 (e' ^^^ c) >>= g) Q := by
  refine t_ld32s hD h0 hl (by omega) ?_
  refine t_st32s hD h0 hl (by omega) ?_
  refine t_ld32s rfl h1 hl (by omega) ?_
  refine t_st32s rfl h1 hl (by omega) ?_
  rw [w4_put_ne _ _ _ _ (by omega), il_lo, il_hi]
  refine t_perm (congrArg (fun M => bl kd b M + F) (st_congr (bytes_ext fun k' hk' => ?_))) h
  rw [il_lo, il_hi]
  by_cases e : k' = k
  · subst e
    rw [packL_xorB B d x k' off n hx, half_xor, half_xor, ha, hc, w4_put, w4_put_ne _ _ _ _ (by omega), w4_put]
    exact ⟨rfl, rfl⟩
  · have : packL (xorB B (8 * k + off) n d) k' = packL B k' := packL_congr fun j hj => by
      unfold xorB
      rw [if_neg (by omega)]
    rw [this, w4_put_ne _ _ _ _ (by omega), w4_put_ne _ _ _ _ (by omega), w4_put_ne _ _ _ _ (by omega),
      w4_put_ne _ _ _ _ (by omega), il_lo, il_hi]
    exact ⟨rfl, rfl⟩

theorem shl_parts (c : Byte) (r : Nat) (hr : r < 8) :
    (r < 4 → loW (c.setWidth 64 <<< (8 * r)) = c.setWidth 32 <<< (8 * r) ∧ hiW (c.setWidth 64 <<< (8 * r)) = 0) ∧
    (4 ≤ r → loW (c.setWidth 64 <<< (8 * r)) = 0 ∧ hiW (c.setWidth 64 <<< (8 * r)) = c.setWidth 32 <<< (8 * (r - 4))) := by
  have z : ∀ j, 8 ≤ j → c.getLsbD j = false := fun j hj => BitVec.getLsbD_of_ge _ _ hj
  refine ⟨fun h => ⟨bv_ext fun i hi => ?_, bv_ext fun i hi => ?_⟩, fun h => ⟨bv_ext fun i hi => ?_, bv_ext fun i hi => ?_⟩⟩
  · rw [loW_bit _ _ hi, BitVec.getLsbD_shiftLeft, BitVec.getLsbD_shiftLeft, BitVec.getLsbD_setWidth, BitVec.getLsbD_setWidth]
    simp [hi, show i < 64 by omega, show i - 8 * r < 64 by omega, show i - 8 * r < 32 by omega]
  · rw [hiW_bit _ _ hi, BitVec.getLsbD_shiftLeft, BitVec.getLsbD_setWidth, z _ (by omega)]
    simp
  · rw [loW_bit _ _ hi, BitVec.getLsbD_shiftLeft, BitVec.getLsbD_setWidth]
    simp [show i < 8 * r by omega]
  · rw [hiW_bit _ _ hi, BitVec.getLsbD_shiftLeft, BitVec.getLsbD_shiftLeft, BitVec.getLsbD_setWidth, BitVec.getLsbD_setWidth]
    by_cases e : i < 8 * (r - 4)
    · simp [e, show 32 + i < 8 * r by omega]
    · rw [show 32 + i - 8 * r = i - 8 * (r - 4) by omega]
      simp [e, hi, show ¬ 32 + i < 8 * r by omega, show 32 + i < 64 by omega, show i - 8 * (r - 4) < 64 by omega,
        show i - 8 * (r - 4) < 32 by omega]

theorem addByte_runs {c : Byte} {x : Nat} (hl : w + 200 ≤ m.length) (hx : x < 200) :
    Runs (bl kd b (St m w (il B)) + F) (KeccakP1600_AddByte (some ⟨b, w⟩) c x) ()
      (bl kd b (St m w (il (xorB B x 1 fun _ => c))) + F) := by
  unfold KeccakP1600_AddByte
  dsimp only
  obtain ⟨hlo, hhi⟩ := shl_parts c (x % 8) (by omega)
  have fin : ∀ {g : Unit → CM Unit} (a0 a1 : BitVec 32), a0 = half (c.setWidth 64 <<< (8 * (x % 8))) 0 →
      a1 = half (c.setWidth 64 <<< (8 * (x % 8))) 1 → (g = fun _ => pure ()) →
      T (bl kd b (St m w (il B)) + F) (ld32 (some ⟨b, w⟩) (4 * ((((x / 8 * 2) % U32) + 0) % U32)) >>= fun e =>
        st32 (some ⟨b, w⟩) (4 * ((((x / 8 * 2) % U32) + 0) % U32)) (e ^^^ a0) >>= fun _ =>
        ld32 (some ⟨b, w⟩) (4 * ((((x / 8 * 2) % U32) + 1) % U32)) >>= fun e' =>
        st32 (some ⟨b, w⟩) (4 * ((((x / 8 * 2) % U32) + 1) % U32)) (e' ^^^ a1) >>= g)
        (fun b' D' => b' = () ∧ D' = bl kd b (St m w (il (xorB B x 1 fun _ => c))) + F) := by
    rintro g a0 a1 h0 h1 rfl
    refine t_xor (k := x / 8) (off := x % 8) (n := 1) (d := fun _ => c) hl (by omega) (by omega) ?_ ?_ ?_ h0 h1 rfl ?_
    · intro j hj
      rw [laneByte_shl _ _ _ hj]
      have := laneByte_zeroExtend c (j - x % 8)
      rw [show c.zeroExtend 64 = c.setWidth 64 from rfl] at this
      rw [this]
      by_cases e : j = x % 8
      · rw [if_pos (by omega), if_pos (by omega), if_pos (by omega)]
      · rw [if_neg (show ¬ (x % 8 ≤ j ∧ j < x % 8 + 1) by omega)]
        split
        · rw [if_neg (by omega)]
        · rfl
    · exact congrArg (fun o => some (⟨b, w + o⟩ : Ptr)) (by omega)
    · exact congrArg (fun o => some (⟨b, w + o⟩ : Ptr)) (by omega)
    · rw [show 8 * (x / 8) + x % 8 = x by omega]
      exact t_pure ⟨rfl, rfl⟩
  by_cases h4 : x % 8 < 4
  · obtain ⟨e0, e1⟩ := hlo h4
    refine t_ite_pos h4 ?_
    refine t_assoc (t_lft (if_pos (by omega)) ?_)
    rw [show x % 8 * 8 % U32 = 8 * (x % 8) by omega]
    refine t_pbind ?_
    refine fin _ _ ?_ ?_ rfl
    · rw [← even_eq, e0, e1]; rfl
    · rw [← odd_eq, e0, e1]; rfl
  · obtain ⟨e0, e1⟩ := hhi (by omega)
    refine t_ite_neg h4 ?_
    refine t_assoc (t_lft (if_pos (by omega)) ?_)
    rw [show (x % 8 + U32 - 4) % U32 * 8 % U32 = 8 * (x % 8 - 4) by omega]
    refine t_pbind ?_
    refine fin _ _ ?_ ?_ rfl
    · rw [← even_eq, e0, e1]; rfl
    · rw [← odd_eq, e0, e1]; rfl

/-- `n` bytes that can be read. -/
def Src (D : Blocks) (p : CPtr) (n : Nat) (d : Nat → Byte) : Prop :=
  ∃ b o kd, ∃ m : Mem Byte, p = some ⟨b, o⟩ ∧ (b, (⟨kd, Ty.toData m⟩ : Cell)) ∈ D ∧ o + n ≤ m.length ∧ Has m o n d

theorem src_view {D : Blocks} {p : CPtr} {μ : Mem Byte} {N t n : Nat} {d : Nat → Byte} (hv : View D p μ) (hd : Has μ 0 N d)
    (hN : 0 < N) (h : t + n ≤ N) : Src D (padd p t) n fun j => d (t + j) := by
  obtain ⟨b, o, kd, m, rfl, hm, hle⟩ := hv
  have h1 := hd.le hN
  have h2 := hle.len
  rw [List.length_drop] at h2
  refine ⟨b, o + t, kd, m, rfl, hm, by omega, fun j hj => ?_⟩
  have h3 := hle.dat _ _ (hd.rd0 (k := t + j) (by omega))
  rw [rd_drop] at h3
  rw [Nat.add_assoc]
  exact h3

theorem t_memcpy_src {δ : Type} {Q : δ → Blocks → Prop} {D F : Blocks} {kd : Kind} {b o n : Nat} {src : CPtr} {m m' : Mem Byte}
    {d : Nat → Byte} {g : Unit → CM δ} (hD : D = bl kd b m + F) (hs : Src F src n d) (hw : wrN m o (tabP n d) = some m')
    (k : T (bl kd b m' + F) (g ()) Q) : T D (memcpy (α := Byte) (some ⟨b, o⟩) src n >>= g) Q := by
  subst hD
  obtain ⟨b', o', kd', m0, rfl, hm, hl, hh⟩ := hs
  unfold memcpy ldN
  refine t_assoc (t_assoc (t_lft rfl (t_assoc (t_run rfl (runs_blk (by simp only [Multiset.mem_add]; exact Or.inr hm)) (t_lft (rdN_eq hh hl) ?_)))))
  intro H hH
  have ho : overlap (some ⟨b, o⟩) (some ⟨b', o'⟩) n = false := by
    have := Sat.ne hH hm
    unfold overlap
    simp only [decide_eq_false_iff_not, not_and]
    intro h
    exact absurd h.symm this
  rw [ho, if_neg (by simp)]
  exact t_stN rfl hw k H hH

theorem addLane_runs {data : CPtr} {d : Nat → Byte} {lp off n : Nat} (hl : w + 200 ≤ m.length)
    (hs : Src F data n d) (hlp : lp < 25) (hn : off + n ≤ 8) :
    Runs (bl kd b (St m w (il B)) + F) (KeccakP1600_AddBytesInLane (some ⟨b, w⟩) lp data off n) ()
      (bl kd b (St m w (il (xorB B (8 * lp + off) n d))) + F) := by
  unfold KeccakP1600_AddBytesInLane
  refine t_alloc fun i => ?_
  dsimp only
  refine t_memset0 rfl (m' := ofList (tabP 8 fun _ => 0)) rfl ?_
  have hs' : Src (bl kd b (St m w (il B)) + F) data n d := by
    obtain ⟨b', o', kd', m0, h1, hm, h2⟩ := hs
    exact ⟨b', o', kd', m0, h1, by simp only [Multiset.mem_add]; exact Or.inr hm, h2⟩
  refine t_memcpy_src (m' := ofList (tabP 8 fun j => if off ≤ j ∧ j < off + n then d (j - off) else 0)) rfl hs' ?_ ?_
  · have h8 : 0 + off + (tabP n d).length ≤ (ofList (tabP 8 fun _ => 0)).length := by simp [ofList]; omega
    rw [wrN_W h8]
    refine congrArg some (mem_ext (by rw [length_W h8]; simp [ofList]) fun j hj => ?_)
    rw [length_W h8] at hj
    have hj : j < 8 := by simpa [ofList] using hj
    rw [getElem?_W h8, tabP_length]
    unfold ofList
    rw [List.getElem?_map, List.getElem?_map, tabP_getElem?, tabP_getElem?, tabP_getElem?, if_pos hj, if_pos hj, Nat.zero_add]
    by_cases e : off ≤ j ∧ j < off + n
    · rw [if_pos e, if_pos e, if_pos (by omega)]
    · rw [if_neg e, if_neg e]
  generalize hG : (fun j => if off ≤ j ∧ j < off + n then d (j - off) else 0) = G
  have hh : Has (ofList (tabP 8 G)) 0 8 G := by
    intro j hj
    rw [rd_ofList, Nat.zero_add, tabP_getElem?, if_pos hj]
  have hv : View (bl .stack i (ofList (tabP 8 G)) + (bl kd b (St m w (il B)) + F)) (some ⟨i, 0⟩) (ofList (tabP 8 G)) := View.here
  refine t_ld32v hv (o' := 8 * 0) rfl hh (by decide) ?_
  refine t_ld32v hv (o' := 8 * 0 + 4) rfl hh (by decide) ?_
  rw [w4_lo, w4_hi]
  refine t_xor (k := lp) (off := off) (n := n) (d := d) (x := packL G 0) hl (by omega) hn ?_ ?_ ?_ ?_ ?_ (add_left_comm _ _ _) ?_
  · intro j hj
    rw [laneByte_packL _ _ _ hj, ← hG, Nat.mul_zero, Nat.zero_add]
  · exact congrArg (fun o => some (⟨b, w + o⟩ : Ptr)) (by omega)
  · exact congrArg (fun o => some (⟨b, w + o⟩ : Ptr)) (by omega)
  · exact even_eq _
  · exact odd_eq _
  · refine t_free (by hfind) ?_
    exact t_pure ⟨rfl, rfl⟩

theorem idec_pure {i : Nat} (h : i ≠ 2147483648) : idec i = pure ((i + U32 - 1) % U32) := by
  unfold idec
  rw [if_neg h]; rfl

theorem addLanes_runs {data : CPtr} {μ : Mem Byte} {d : Nat → Byte} {N c : Nat} (hl : w + 200 ≤ m.length)
    (hv : View F data μ) (hd : Has μ 0 N d) (hN : 8 * c ≤ N) (hc : c ≤ 25) :
    Runs (bl kd b (St m w (il B)) + F) (KeccakP1600_AddLanes (some ⟨b, w⟩) data c) ()
      (bl kd b (St m w (il (xorB B 0 (8 * c) d))) + F) := by
  unfold KeccakP1600_AddLanes
  dsimp only
  refine t_whileI (I := fun s D => ∃ k, k ≤ c ∧ s.1 = padd data (8 * k) ∧ s.2.1 = some ⟨b, w + 8 * k⟩ ∧
      s.2.2 = (c - k + U32 - 1) % U32 ∧ D = bl kd b (St m w (il (xorB B 0 (8 * k) d))) + F) (μ := fun s => (s.2.2 + 1) % U32)
    ⟨0, by omega, (padd_zero _).symm, rfl, rfl, by rw [Nat.mul_zero, xorB_zero]⟩ (by dsimp only; omega) ?_ ?_
  · rintro ⟨pI, pS, i⟩ D ⟨k, hk, h1, h2, h3, rfl⟩ hb
    dsimp only at h1 h2 h3 hb ⊢
    subst h1 h2
    rw [decide_eq_true_eq] at hb
    have hk : k < c := by omega
    refine t_ld32v hv.there (o' := 8 * k) (padd_zero _) hd (by omega) ?_
    refine t_ld32v hv.there (o' := 8 * k + 4) (by rw [padd_zero, padd_padd]) hd (by omega) ?_
    rw [w4_lo, w4_hi]
    refine t_xor (k := k) (off := 0) (n := 8) (d := fun j => d (8 * k + j)) (x := packL d k) hl (by omega) (by omega) ?_ ?_ ?_ ?_ ?_ rfl ?_
    · intro j hj
      rw [laneByte_packL _ _ _ hj, if_pos (by omega), Nat.sub_zero]
    · rfl
    · rfl
    · exact even_eq _
    · exact odd_eq _
    · rw [idec_pure (by omega)]
      refine t_pbind (t_pure ⟨⟨k + 1, by omega, ?_, ?_, ?_, ?_⟩, ?_⟩)
      · dsimp only
        rw [padd_padd, padd_padd, show 8 * k + 4 + 4 = 8 * (k + 1) by omega]
      · exact congrArg (fun o => some (⟨b, o⟩ : Ptr)) (show w + 8 * k + 4 + 4 = w + 8 * (k + 1) by omega)
      · dsimp only; omega
      · have := xorB_xorB B 0 (8 * k) 8 d
        rw [Nat.zero_add] at this
        rw [Nat.add_zero, this, show 8 * k + 8 = 8 * (k + 1) by omega]
      · dsimp only; omega
  · rintro ⟨pI, pS, i⟩ D ⟨k, hk, h1, h2, h3, rfl⟩ hb
    dsimp only at h1 h2 h3 hb ⊢
    subst h1 h2
    rw [decide_eq_false_iff_not] at hb
    rw [show k = c by omega]
    exact t_pure ⟨rfl, rfl⟩

/-- For every source, also an empty one; a whole state from position 0 on is excluded. -/
theorem addBytes_src {data : CPtr} {μ : Mem Byte} {d : Nat → Byte} {off n : Nat} (hl : w + 200 ≤ m.length)
    (hv : View F data μ) (hd : Has μ 0 n d) (hs : ∀ t k, t + k ≤ n → Src F (padd data t) k fun j => d (t + j))
    (hn : off + n ≤ 200) (h200 : off = 0 → n < 200) :
    Runs (bl kd b (St m w (il B)) + F) (KeccakP1600_AddBytes (some ⟨b, w⟩) data off n) ()
      (bl kd b (St m w (il (xorB B off n d))) + F) := by
  unfold KeccakP1600_AddBytes
  dsimp only
  by_cases h0 : off = 0
  · subst h0
    have h200 := h200 rfl
    refine t_ite_pos rfl ?_
    refine t_assoc (t_run rfl (addLanes_runs hl hv hd (by omega) (by omega)) ?_)
    rw [Nat.mod_eq_of_lt (by omega : n / 8 * 8 < U32)]
    refine t_assoc (t_run rfl (addLane_runs hl (hs (n / 8 * 8) (n % 8) (by omega))
      (by omega) (by omega)) ?_)
    refine t_pbind ?_
    have := xorB_xorB B 0 (8 * (n / 8)) (n % 8) d
    rw [Nat.zero_add, show 8 * (n / 8) + n % 8 = n by omega] at this
    rw [Nat.add_zero, show n / 8 * 8 = 8 * (n / 8) by omega, this]
    exact t_pure ⟨rfl, rfl⟩
  · refine t_ite_neg h0 ?_
    refine t_assoc ?_
    refine t_whileI (I := fun s D => ∃ t, t ≤ n ∧ s.1 = n - t ∧ s.2.2.2 = padd data t ∧
      (t < n → 8 * s.2.1 + s.2.2.1 = off + t ∧ s.2.2.1 < 8) ∧
      D = bl kd b (St m w (il (xorB B off t d))) + F) (μ := fun s => s.1)
      ⟨0, by omega, rfl, (padd_zero _).symm, fun _ => ⟨by dsimp only; omega, by dsimp only; omega⟩, by rw [xorB_zero]⟩
      (by dsimp only; omega) ?_ ?_
    · rintro ⟨sl, lp, ol, cd⟩ D ⟨t, ht, h1, h2, h3, rfl⟩ hb
      dsimp only at h1 h2 h3 hb ⊢
      rw [decide_eq_true_eq] at hb
      subst h1 h2
      obtain ⟨h3, h4⟩ := h3 (by omega)
      rw [show (8 + 4294967296 - ol) % 4294967296 = 8 - ol by omega]
      have key : ∀ k, 0 < k → k ≤ n - t → k ≤ 8 - ol → (k = 8 - ol ∨ k = n - t) →
          T (bl kd b (St m w (il (xorB B off t d))) + F) (do
            KeccakP1600_AddBytesInLane (some ⟨b, w⟩) lp (padd data t) ol k
            pure ((n - t + 4294967296 - k) % 4294967296, (lp + 1) % 4294967296, 0, padd (padd data t) k))
          fun s' D' => (∃ t, t ≤ n ∧ s'.1 = n - t ∧ s'.2.2.2 = padd data t ∧
            (t < n → 8 * s'.2.1 + s'.2.2.1 = off + t ∧ s'.2.2.1 < 8) ∧
            D' = bl kd b (St m w (il (xorB B off t d))) + F) ∧ s'.1 < n - t := by
        intro k hk0 hk1 hk2 hk3
        refine t_run rfl (addLane_runs hl (hs t k (by omega)) (by omega) (by omega)) ?_
        rw [h3, xorB_xorB]
        exact t_pure ⟨⟨t + k, by omega, by dsimp only; omega, padd_padd _ _ _,
          fun h => ⟨by dsimp only; omega, by dsimp only; omega⟩, rfl⟩, by dsimp only; omega⟩
      by_cases e : 8 - ol > n - t
      · refine t_ite_pos e ?_
        exact t_pbind (key _ (by omega) (by omega) (by omega) (by omega))
      · refine t_ite_neg e ?_
        exact t_pbind (key _ (by omega) (by omega) (by omega) (by omega))
    · rintro ⟨sl, lp, ol, cd⟩ D ⟨t, ht, h1, h2, h3, rfl⟩ hb
      dsimp only at h1 h2 h3 hb ⊢
      rw [decide_eq_false_iff_not] at hb
      rw [show t = n by omega]
      exact t_pbind (t_pure ⟨rfl, rfl⟩)

theorem addBytes_runs {data : CPtr} {μ : Mem Byte} {d : Nat → Byte} {off n : Nat} (hl : w + 200 ≤ m.length)
    (hv : View F data μ) (hd : Has μ 0 n d) (h0 : 0 < n) (hn : off + n < 200) :
    Runs (bl kd b (St m w (il B)) + F) (KeccakP1600_AddBytes (some ⟨b, w⟩) data off n) ()
      (bl kd b (St m w (il (xorB B off n d))) + F) :=
  addBytes_src hl hv hd (fun _ _ h => src_view hv hd h0 h) (by omega) (by omega)

/-! ### Reading the state -/

theorem lane_lo (x : BitVec 64) : loW x = w4 (laneByte x) 0 := by
  refine (w4_byte4 _ _ _ fun j hj => ?_).symm
  apply bv_ext
  intro i hi
  rw [byte4_bit _ _ _ hj, laneByte_bit, loW_bit _ _ (by omega), Nat.zero_add]

theorem lane_hi (x : BitVec 64) : hiW x = w4 (laneByte x) 4 := by
  refine (w4_byte4 _ _ _ fun j hj => ?_).symm
  apply bv_ext
  intro i hi
  rw [byte4_bit _ _ _ hj, laneByte_bit, hiW_bit _ _ (by omega), show 8 * (4 + j) + i = 32 + (8 * j + i) by omega]

theorem extractLane_runs {q : Ptr} {lp off n : Nat} (hl : w + 200 ≤ m.length) (hv : Valid F q n) (hlp : lp < 25)
    (hn : off + n ≤ 8) :
    Runs (bl kd b (St m w (il B)) + F) (KeccakP1600_ExtractBytesInLane (some ⟨b, w⟩) lp (some q) off n) ()
      (bl kd b (St m w (il B)) + up F q (tabP n fun j => B (8 * lp + off + j))) := by
  unfold KeccakP1600_ExtractBytesInLane
  refine t_alloc fun i => ?_
  dsimp only
  refine t_ld32s (F := bl .stack i (malloc 8) + F) (o' := 8 * lp) (add_left_comm _ _ _) ?_ hl (by omega) ?_
  · exact congrArg (fun o => some (⟨b, w + o⟩ : Ptr)) (by omega)
  refine t_ld32s (F := bl .stack i (malloc 8) + F) (o' := 8 * lp + 4) (add_left_comm _ _ _) ?_ hl (by omega) ?_
  · exact congrArg (fun o => some (⟨b, w + o⟩ : Ptr)) (by omega)
  rw [il_lo, il_hi]
  refine t_st32n (m := malloc 8) (w := 0) (n := 0) (G := laneByte (packL B lp)) rfl rfl (by simp [malloc]) ?_ ?_
  · rw [← lane_lo]; exact from_lo _
  refine t_st32n (m := malloc 8) (w := 0) (n := 4) (G := laneByte (packL B lp)) rfl rfl (by simp [malloc]) ?_ ?_
  · rw [← lane_hi]; exact from_hi _
  have hW : W (malloc 8 : Mem Byte) 0 (tabP (4 + 4) (laneByte (packL B lp))) = ofList (tabP 8 (laneByte (packL B lp))) := rfl
  rw [hW]
  have hh : Has (ofList (tabP 8 (laneByte (packL B lp)))) 0 8 fun j => B (8 * lp + j) := by
    intro j hj
    rw [rd_ofList, Nat.zero_add, tabP_getElem?, if_pos hj, laneByte_packL _ _ _ hj]
  refine t_memcpy_up (b := i) (o := 0 + off) rfl hv.right (rdN_eq ((hh.sub off n hn).congr (g' := fun j => B (8 * lp + off + j)) ?_) ?_) ?_
  · intro j hj
    rw [Nat.add_assoc]
  · simp [ofList]; omega
  refine t_nd fun hnd => ?_
  rw [up_frame (ND.of_up hnd.right) hv]
  refine t_free rfl ?_
  exact t_pure ⟨rfl, rfl⟩

/-- The next word of the output. -/
theorem t_st32u {δ : Type} {Q : δ → Blocks → Prop} {A F : Blocks} {q : Ptr} {n o N : Nat} {p : CPtr} {G : Nat → Byte} {x : BitVec 32}
    {g : Unit → CM δ} (hv : Valid F q N) (hN : n + 4 ≤ N) (hp : padd p o = some ⟨q.blk, q.off + n⟩) (hx : x = w4 G n)
    (k : T (A + up F q (tabP (n + 4) G)) (g ()) Q) : T (A + up F q (tabP n G)) (st32 p o x >>= g) Q := by
  unfold st32
  rw [hp, hx, wordBytes4_w4]
  refine t_nd fun hnd => ?_
  have hF : ND F := ND.of_up hnd.right
  have hv2 : Valid (up F q (tabP n G)) ⟨q.blk, q.off + n⟩ 4 :=
    (hv.sub (a := n) (k := 4) hN).up (by rw [tabP_length]; exact hv.mono (by omega)) hF
  refine t_up (by rw [tabP_length]; exact hv2.right) ?_
  rw [up_frame hnd hv2]
  have e := up_append (F := F) (q := q) (l := tabP n G) (l' := tabP 4 fun j => G (n + j))
    (by rw [tabP_length, tabP_length]; exact hv.mono hN) hF
  rw [tabP_length, ← tabP_add] at e
  rw [e]
  exact k

theorem extractLanes_runs {q : Ptr} {c : Nat} (hl : w + 200 ≤ m.length) (hv : Valid F q (8 * c)) (hc : c ≤ 25) :
    Runs (bl kd b (St m w (il B)) + F) (KeccakP1600_ExtractLanes (some ⟨b, w⟩) (some q) c) ()
      (bl kd b (St m w (il B)) + up F q (tabP (8 * c) B)) := by
  unfold KeccakP1600_ExtractLanes
  dsimp only
  refine t_whileI (I := fun s D => ∃ k, k ≤ c ∧ s.1 = some ⟨q.blk, q.off + 8 * k⟩ ∧ s.2.1 = some ⟨b, w + 8 * k⟩ ∧
      s.2.2 = (c - k + U32 - 1) % U32 ∧ D = bl kd b (St m w (il B)) + up F q (tabP (8 * k) B)) (μ := fun s => (s.2.2 + 1) % U32)
    ⟨0, by omega, rfl, rfl, rfl, by rw [show tabP (8 * 0) B = [] from rfl, up_nil]⟩ (by dsimp only; omega) ?_ ?_
  · rintro ⟨pI, pS, i⟩ D ⟨k, hk, h1, h2, h3, rfl⟩ hb
    dsimp only at h1 h2 h3 hb ⊢
    subst h1 h2
    rw [decide_eq_true_eq] at hb
    have hk : k < c := by omega
    refine t_ld32s (o' := 8 * k) rfl rfl hl (by omega) ?_
    refine t_ld32s (o' := 8 * k + 4) rfl rfl hl (by omega) ?_
    rw [il_lo, il_hi]
    refine t_st32u (n := 8 * k) hv (by omega) rfl ?_ ?_
    · rw [w4_lo]; exact from_lo _
    refine t_st32u (n := 8 * k + 4) hv (by omega) rfl ?_ ?_
    · rw [w4_hi]; exact from_hi _
    rw [idec_pure (by omega)]
    refine t_pbind (t_pure ⟨⟨k + 1, by omega, ?_, ?_, ?_, ?_⟩, ?_⟩)
    · exact congrArg (fun o => some (⟨q.blk, o⟩ : Ptr)) (show q.off + 8 * k + 4 + 4 = q.off + 8 * (k + 1) by omega)
    · exact congrArg (fun o => some (⟨b, o⟩ : Ptr)) (show w + 8 * k + 4 + 4 = w + 8 * (k + 1) by omega)
    · dsimp only; omega
    · rfl
    · dsimp only; omega
  · rintro ⟨pI, pS, i⟩ D ⟨k, hk, h1, h2, h3, rfl⟩ hb
    dsimp only at h1 h2 h3 hb ⊢
    subst h1 h2
    rw [decide_eq_false_iff_not] at hb
    rw [show k = c by omega]
    exact t_pure ⟨rfl, rfl⟩

/-- A whole state from position 0 on is excluded. -/
theorem extractBytes_all {q : Ptr} {off n : Nat} (hl : w + 200 ≤ m.length) (hv : Valid F q n) (hn : off + n ≤ 200)
    (h200 : off = 0 → n < 200) :
    Runs (bl kd b (St m w (il B)) + F) (KeccakP1600_ExtractBytes (some ⟨b, w⟩) (some q) off n) ()
      (bl kd b (St m w (il B)) + up F q (tabP n fun j => B (off + j))) := by
  refine runs_nd fun hnd => ?_
  have hF : ND F := hnd.right
  unfold KeccakP1600_ExtractBytes
  dsimp only
  by_cases h0 : off = 0
  · subst h0
    have h200 := h200 rfl
    refine t_ite_pos rfl ?_
    refine t_assoc (t_run rfl (extractLanes_runs hl (hv.mono (by omega)) (by omega)) ?_)
    rw [Nat.mod_eq_of_lt (by omega : n / 8 * 8 < U32)]
    have hv2 : Valid F ⟨q.blk, q.off + n / 8 * 8⟩ (n % 8) := hv.sub (by omega)
    refine t_assoc (t_run rfl (extractLane_runs (q := ⟨q.blk, q.off + n / 8 * 8⟩) hl
      (hv2.up (by rw [tabP_length]; exact hv.mono (by omega)) hF) (by omega) (by omega)) ?_)
    have e := up_append (F := F) (q := q) (l := tabP (8 * (n / 8)) B) (l' := tabP (n % 8) fun j => B (8 * (n / 8) + j))
      (by rw [tabP_length, tabP_length]; exact hv.mono (by omega)) hF
    rw [tabP_length, ← tabP_add, show 8 * (n / 8) + n % 8 = n by omega] at e
    rw [show n / 8 * 8 = 8 * (n / 8) by omega]
    simp only [Nat.add_zero]
    rw [e]
    refine t_pbind (t_pure ⟨trivial, ?_⟩)
    simp only [Nat.zero_add]
  · refine t_ite_neg h0 ?_
    refine t_assoc ?_
    refine t_whileI (I := fun s D => ∃ t, t ≤ n ∧ s.1 = n - t ∧ s.2.2.2 = some ⟨q.blk, q.off + t⟩ ∧
      (t < n → 8 * s.2.1 + s.2.2.1 = off + t ∧ s.2.2.1 < 8) ∧
      D = bl kd b (St m w (il B)) + up F q (tabP t fun j => B (off + j))) (μ := fun s => s.1)
      ⟨0, by omega, rfl, rfl, fun _ => ⟨by dsimp only; omega, by dsimp only; omega⟩, by
        rw [show (tabP 0 fun j => B (off + j)) = [] from rfl, up_nil]⟩
      (by dsimp only; omega) ?_ ?_
    · rintro ⟨sl, lp, ol, cd⟩ D ⟨t, ht, h1, h2, h3, rfl⟩ hb
      dsimp only at h1 h2 h3 hb ⊢
      rw [decide_eq_true_eq] at hb
      subst h1 h2
      obtain ⟨h3, h4⟩ := h3 (by omega)
      rw [show (8 + 4294967296 - ol) % 4294967296 = 8 - ol by omega]
      have key : ∀ k, 0 < k → k ≤ n - t → k ≤ 8 - ol → (k = 8 - ol ∨ k = n - t) →
          T (bl kd b (St m w (il B)) + up F q (tabP t fun j => B (off + j))) (do
            KeccakP1600_ExtractBytesInLane (some ⟨b, w⟩) lp (some ⟨q.blk, q.off + t⟩) ol k
            pure ((n - t + 4294967296 - k) % 4294967296, (lp + 1) % 4294967296, 0, padd (some ⟨q.blk, q.off + t⟩) k))
          fun s' D' => (∃ t, t ≤ n ∧ s'.1 = n - t ∧ s'.2.2.2 = some ⟨q.blk, q.off + t⟩ ∧
            (t < n → 8 * s'.2.1 + s'.2.2.1 = off + t ∧ s'.2.2.1 < 8) ∧
            D' = bl kd b (St m w (il B)) + up F q (tabP t fun j => B (off + j))) ∧ s'.1 < n - t := by
        intro k hk0 hk1 hk2 hk3
        have hv2 : Valid F ⟨q.blk, q.off + t⟩ k := hv.sub (by omega)
        refine t_run rfl (extractLane_runs hl (hv2.up (by rw [tabP_length]; exact hv.mono (by omega)) hF)
          (by omega) (by omega)) ?_
        have e := up_append (F := F) (q := q) (l := tabP t fun j => B (off + j))
          (l' := tabP k fun j => B (off + (t + j)))
          (by rw [tabP_length, tabP_length]; exact hv.mono (by omega)) hF
        rw [tabP_length, ← tabP_add t k (fun j => B (off + j))] at e
        rw [h3]
        simp only [Nat.add_assoc]
        rw [e]
        exact t_pure ⟨⟨t + k, by omega, by dsimp only; omega, by simp [padd, Nat.add_assoc],
          fun h => ⟨by dsimp only; omega, by dsimp only; omega⟩, rfl⟩, by dsimp only; omega⟩
      by_cases e : 8 - ol > n - t
      · refine t_ite_pos e ?_
        exact t_pbind (key _ (by omega) (by omega) (by omega) (by omega))
      · refine t_ite_neg e ?_
        exact t_pbind (key _ (by omega) (by omega) (by omega) (by omega))
    · rintro ⟨sl, lp, ol, cd⟩ D ⟨t, ht, h1, h2, h3, rfl⟩ hb
      dsimp only at h1 h2 h3 hb ⊢
      rw [decide_eq_false_iff_not] at hb
      rw [show t = n by omega]
      exact t_pbind (t_pure ⟨rfl, rfl⟩)

theorem extractBytes_runs {q : Ptr} {off n : Nat} (hl : w + 200 ≤ m.length) (hv : Valid F q n) (hn : off + n < 200) :
    Runs (bl kd b (St m w (il B)) + F) (KeccakP1600_ExtractBytes (some ⟨b, w⟩) (some q) off n) ()
      (bl kd b (St m w (il B)) + up F q (tabP n fun j => B (off + j))) :=
  extractBytes_all hl hv (by omega) (by omega)

end

end Faest.GenP
