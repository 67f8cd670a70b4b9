/-
The state functions of sha3/avx2/KeccakP-1600-AVX2.s on the 200 bytes of a state.  The code keeps the lanes in an order of
its own (the table mapState).
-/
import Verif.Proofs.Asm.Perm

namespace Faest.Asm
open Faest.C Faest.GenX Faest.Keccak
open Faest.GenH (pk pk_packL St st_len st_has st_st st_congr st_self has_from st_lane wordBytes_length wordBytes_pk)

/-! ### The layout -/

/-- The place of a lane in memory. -/
def mp (k : Nat) : Nat :=
  [0, 1, 2, 3, 4, 7, 21, 10, 15, 20, 5, 13, 22, 19, 12, 8, 9, 18, 23, 16, 6, 17, 14, 11, 24].getD k 0
/-- The lane at a place in memory. -/
def im (k : Nat) : Nat :=
  [0, 1, 2, 3, 4, 10, 20, 5, 15, 16, 7, 23, 14, 11, 22, 8, 19, 21, 17, 13, 9, 6, 12, 18, 24].getD k 0

theorem im_mp_fin : ∀ k : Fin 25, im (mp k) = k ∧ mp (im k) = k ∧ mp k < 25 ∧ im k < 25 := by decide
theorem im_mp {k : Nat} (h : k < 25) : im (mp k) = k := (im_mp_fin ⟨k, h⟩).1
theorem mp_im {k : Nat} (h : k < 25) : mp (im k) = k := (im_mp_fin ⟨k, h⟩).2.1
theorem mp_lt {k : Nat} (h : k < 25) : mp k < 25 := (im_mp_fin ⟨k, h⟩).2.2.1
theorem im_lt {k : Nat} (h : k < 25) : im k < 25 := (im_mp_fin ⟨k, h⟩).2.2.2

/-- The bytes of the state `B` as the code keeps them. -/
def av (B : Nat → Byte) : Nat → Byte := fun t => B (8 * im (t / 8) + t % 8)

/-- The place of a byte. -/
def bp (i : Nat) : Nat := 8 * mp (i / 8) + i % 8

theorem bp_lt {i : Nat} (h : i < 200) : bp i < 200 := by
  have := mp_lt (k := i / 8) (by omega)
  unfold bp; omega

theorem av_bp (B : Nat → Byte) {i : Nat} (h : i < 200) : av B (bp i) = B i := by
  unfold av bp
  rw [show (8 * mp (i / 8) + i % 8) / 8 = mp (i / 8) by omega, show (8 * mp (i / 8) + i % 8) % 8 = i % 8 by omega,
    im_mp (by omega), show 8 * (i / 8) + i % 8 = i by omega]

theorem bp_eq {i t : Nat} (h : i < 200) (ht : t < 200) (e : t = bp i) : 8 * im (t / 8) + t % 8 = i := by
  subst e
  unfold bp
  rw [show (8 * mp (i / 8) + i % 8) / 8 = mp (i / 8) by omega, show (8 * mp (i / 8) + i % 8) % 8 = i % 8 by omega,
    im_mp (by omega)]
  omega

theorem bp_ne {i t : Nat} (ht : t < 200) (e : t ≠ bp i) : 8 * im (t / 8) + t % 8 ≠ i := by
  rintro rfl
  apply e
  unfold bp
  rw [show (8 * im (t / 8) + t % 8) / 8 = im (t / 8) by omega, show (8 * im (t / 8) + t % 8) % 8 = t % 8 by omega,
    mp_im (by omega)]
  omega

theorem pk_av (B : Nat → Byte) {k : Nat} (h : k < 25) : pk (av B) (8 * mp k) = packL B k := by
  rw [pk_packL]
  unfold packL
  refine congrArg leWord (tabP_congr fun j hj => ?_)
  unfold av
  rw [show (8 * mp k + j) / 8 = mp k by omega, show (8 * mp k + j) % 8 = j by omega, im_mp h]

theorem map_fin : ∀ k : Fin 25, rodata[144 + k.val]? = some (BitVec.ofNat 64 (8 * mp k)) := by decide

/-- An entry of the table mapState. -/
theorem map_ld {k : Nat} {o : Int} (h : k < 25) (ho : o = 1152 + 8 * (k : Int)) :
    ld8 rodata (.rod o) = pure (BitVec.ofNat 64 (8 * mp k)) := by
  subst ho
  show (if 0 ≤ 1152 + 8 * (k : Int) ∧ (1152 + 8 * (k : Int)) % 8 = 0 then lft rodata[(1152 + 8 * (k : Int)).toNat / 8]? else lft none) = _
  rw [if_pos (by omega), show (1152 + 8 * (k : Int)).toNat / 8 = 144 + k by omega]
  have := map_fin ⟨k, h⟩
  rw [this]; rfl

theorem map_int {k : Nat} (h : k < 25) : (BitVec.ofNat 64 (8 * mp k)).toInt = ((8 * mp k : Nat) : Int) := by
  have := mp_lt h
  rw [BitVec.toInt_eq_toNat_of_lt (by rw [BitVec.toNat_ofNat]; omega), BitVec.toNat_ofNat, Nat.mod_eq_of_lt (by omega)]

/-! ### Memory -/

section
variable {δ : Type} {D F : Blocks} {Q : δ → Blocks → Prop} {kd : Kind} {b : Nat} {m : Mem Byte} {B : Nat → Byte}

theorem ld1_ptr {b : Nat} {o : Int} (h : 0 ≤ o) : ld1 (.ptr b o) = ld (some ⟨b, o.toNat⟩) 0 := if_pos h
theorem st1_ptr {b : Nat} {o : Int} {x : Byte} (h : 0 ≤ o) : st1 x (.ptr b o) = st (some ⟨b, o.toNat⟩) 0 x := if_pos h
theorem ld8_ptr {T' : List (BitVec 64)} {b : Nat} {o : Int} (h : 0 ≤ o) : ld8 T' (.ptr b o) = ld64 (some ⟨b, o.toNat⟩) 0 := if_pos h
theorem st8_ptr {b : Nat} {o : Int} {x : BitVec 64} (h : 0 ≤ o) : st8 x (.ptr b o) = st64 (some ⟨b, o.toNat⟩) 0 x := if_pos h

/-- A byte of the state. -/
theorem t_ld1s {i : Nat} {o : Int} {g : Byte → CM δ} (hl : 200 ≤ m.length) (hi : i < 200) (ho : o = (bp i : Int))
    (k : T (bl kd b (St m 0 (av B)) + F) (g (B i)) Q) : T (bl kd b (St m 0 (av B)) + F) (ld1 (.ptr b o) >>= g) Q := by
  subst ho
  rw [ld1_ptr (by omega)]
  refine t_ld (μ := (St m 0 (av B)).drop (bp i)) View.here ?_ k
  rw [rd_drop, Nat.add_zero, ← av_bp B hi]
  have := st_has (w := 0) (by omega : 0 + 200 ≤ m.length) (av B) (bp i) (bp_lt hi)
  rwa [Nat.zero_add] at this

theorem wr_one {m : Mem Byte} {i : Nat} {x : Byte} (h : i < m.length) : wr m i x = some (W m i [x]) := by
  unfold wr
  rw [if_pos h]
  refine congrArg some (mem_ext ?_ fun j hj => ?_)
  · rw [length_W (by simp; omega)]; simp
  · rw [getElem?_W (by simp; omega), List.getElem?_set]
    by_cases e : i = j
    · subst e
      simp [h]
    · rw [if_neg e, if_neg (by simp; omega)]

/-- The state with one byte replaced. -/
def upd (B : Nat → Byte) (i : Nat) (x : Byte) : Nat → Byte := fun t => if t = i then x else B t

theorem st_upd {i : Nat} (x : Byte) (hl : 200 ≤ m.length) (hi : i < 200) :
    W (St m 0 (av B)) (bp i) [x] = St m 0 (av (upd B i x)) := by
  have h0 := st_len (w := 0) (by omega : 0 + 200 ≤ m.length) (av B)
  have hb := bp_lt hi
  have h1 : bp i + [x].length ≤ (St m 0 (av B)).length := by rw [h0]; simp; omega
  refine mem_ext (by rw [length_W h1, h0, st_len (by omega)]) fun t ht => ?_
  have h2 : 0 + (tabP 200 (av B)).length ≤ m.length := by rw [tabP_length]; omega
  have h3 : 0 + (tabP 200 (av (upd B i x))).length ≤ m.length := by rw [tabP_length]; omega
  rw [getElem?_W h1]
  unfold St
  rw [getElem?_W h2, getElem?_W h3, tabP_length, tabP_length, List.length_singleton]
  by_cases c1 : t < 200
  · have e1 : 0 ≤ t ∧ t < 0 + 200 := by omega
    simp only [if_pos e1, tabP_getElem?, Nat.sub_zero, if_pos c1]
    by_cases c2 : t = bp i
    · rw [if_pos (by omega)]
      unfold av upd
      rw [if_pos (bp_eq hi c1 c2), c2]
      simp
    · rw [if_neg (by omega)]
      unfold av upd
      rw [if_neg (bp_ne c1 c2)]
  · rw [if_neg (by omega), if_neg (by omega), if_neg (by omega)]

theorem t_st1s {i : Nat} {o : Int} {x : Byte} {g : Unit → CM δ} (hl : 200 ≤ m.length) (hi : i < 200) (ho : o = (bp i : Int))
    (k : T (bl kd b (St m 0 (av (upd B i x))) + F) (g ()) Q) : T (bl kd b (St m 0 (av B)) + F) (st1 x (.ptr b o) >>= g) Q := by
  subst ho
  rw [st1_ptr (by omega)]
  refine t_st (m' := St m 0 (av (upd B i x))) rfl ?_ k
  have hb := bp_lt hi
  show wr _ (bp i + 0) x = _
  rw [Nat.add_zero, wr_one (by rw [st_len (by omega)]; omega), st_upd x hl hi]

/-- A lane of the state. -/
theorem t_ld8s {T' : List (BitVec 64)} {i : Nat} {o : Int} {g : BitVec 64 → CM δ} (hl : 200 ≤ m.length) (hi : i < 25)
    (ho : o = ((8 * mp i : Nat) : Int))
    (k : T (bl kd b (St m 0 (av B)) + F) (g (packL B i)) Q) : T (bl kd b (St m 0 (av B)) + F) (ld8 T' (.ptr b o) >>= g) Q := by
  subst ho
  have := mp_lt hi
  rw [ld8_ptr (by omega)]
  refine GenH.t_ld64 (o := 0) (N := 8) (G := fun j => av B (8 * mp i + j)) (μ := (St m 0 (av B)).drop (8 * mp i)) View.here ?_ (by omega) ?_
  · intro j hj
    rw [Nat.zero_add, rd_drop]
    have := st_has (w := 0) (by omega : 0 + 200 ≤ m.length) (av B) (8 * mp i + j) (by omega)
    rwa [Nat.zero_add] at this
  · have : pk (fun j => av B (8 * mp i + j)) 0 = packL B i := by
      rw [← pk_av B hi]
      unfold pk
      refine congrArg leWord (tabP_congr fun j hj => ?_)
      rw [Nat.zero_add]
    rwa [this]

/-- The state with one lane replaced. -/
def updL (B : Nat → Byte) (k : Nat) (x : BitVec 64) : Nat → Byte := fun t => if t / 8 = k then laneByte x (t % 8) else B t

theorem st_updL {i : Nat} (x : BitVec 64) (hl : 200 ≤ m.length) (hi : i < 25) :
    W (St m 0 (av B)) (8 * mp i) (wordBytes x) = St m 0 (av (updL B i x)) := by
  have := st_lane (w := 0) (by omega : 0 + 200 ≤ m.length) (mp_lt hi) (B := av B) (B' := av (updL B i x)) (x := x) (fun j hj => by
    unfold av updL
    rw [show (8 * mp i + j) / 8 = mp i by omega, show (8 * mp i + j) % 8 = j by omega, im_mp hi, if_pos (by omega)]
    congr 1; omega) (fun t ht hne => by
    unfold av updL
    rw [if_neg]
    intro e
    apply hne
    rw [show (8 * im (t / 8) + t % 8) / 8 = im (t / 8) by omega] at e
    rw [← e, mp_im (by omega)])
  rwa [Nat.zero_add] at this

theorem t_st8s {i : Nat} {o : Int} {x : BitVec 64} {g : Unit → CM δ} (hl : 200 ≤ m.length) (hi : i < 25)
    (ho : o = ((8 * mp i : Nat) : Int))
    (k : T (bl kd b (St m 0 (av (updL B i x))) + F) (g ()) Q) : T (bl kd b (St m 0 (av B)) + F) (st8 x (.ptr b o) >>= g) Q := by
  subst ho
  have := mp_lt hi
  rw [st8_ptr (by omega)]
  refine GenH.t_st64 (o := 0) rfl ?_ ?_
  · rw [st_len (by omega)]; omega
  · show T (bl kd b (W _ (8 * mp i + 0) _) + F) _ _
    rw [Nat.add_zero, st_updL x hl hi]
    exact k

/-- A byte of the data. -/
theorem t_ld1d {qb qo n i : Nat} {o : Int} {μ : Mem Byte} {d : Nat → Byte} {g : Byte → CM δ} (hv : View D (some ⟨qb, qo⟩) μ)
    (hd : Has μ 0 n d) (hi : i < n) (ho : o = (qo : Int) + i) (k : T D (g (d i)) Q) : T D (ld1 (.ptr qb o) >>= g) Q := by
  subst ho
  rw [ld1_ptr (by omega)]
  refine t_ld (μ := μ.drop i) ?_ ?_ k
  · have := View.padd hv (k := i)
    rwa [show padd (some ⟨qb, qo⟩) i = some ⟨qb, ((qo : Int) + i).toNat⟩ from congrArg (fun o => some (⟨qb, o⟩ : Ptr)) (show qo + i = _ by omega)] at this
  · rw [rd_drop, Nat.add_zero]
    have := hd i hi
    rwa [Nat.zero_add] at this

/-- Eight bytes of the data. -/
theorem t_ld8d {T' : List (BitVec 64)} {qb qo n i : Nat} {o : Int} {μ : Mem Byte} {d : Nat → Byte} {g : BitVec 64 → CM δ}
    (hv : View D (some ⟨qb, qo⟩) μ) (hd : Has μ 0 n d) (hi : i + 8 ≤ n) (ho : o = (qo : Int) + i) (k : T D (g (pk d i)) Q) :
    T D (ld8 T' (.ptr qb o) >>= g) Q := by
  subst ho
  rw [ld8_ptr (by omega)]
  refine GenH.t_ld64 (o := 0) (N := 8) (G := fun j => d (i + j)) (μ := μ.drop i) ?_ (has_from hd (by omega)) (by omega) ?_
  · have := View.padd hv (k := i)
    rwa [show padd (some ⟨qb, qo⟩) i = some ⟨qb, ((qo : Int) + i).toNat⟩ from congrArg (fun o => some (⟨qb, o⟩ : Ptr)) (show qo + i = _ by omega)] at this
  · have : pk (fun j => d (i + j)) 0 = pk d i := by
      unfold pk
      refine congrArg leWord (tabP_congr fun j hj => ?_)
      rw [Nat.zero_add]
    rwa [this]

end

end Faest.Asm
