/-
The functions on four states of sha3/avx2/KeccakP-1600-times4-SIMD256.c: vectors of 256 bits, the lanes of the four
states interleaved.
-/
import Verif.Model.ShakeImpl
import Verif.Proofs.Gen.P4Spec
import Verif.Proofs.Gen.SimdRounds
import Verif.Proofs.Gen.X4On1

namespace Faest.GenA
open Faest.C Faest.Keccak Faest.GenH

/-! ### The layout -/

/-- Byte `t` of the 800 bytes: lane `t / 32` of state `t / 8 % 4`, byte `t % 8` of the lane. -/
def g4 (B : Nat → Nat → Byte) (t : Nat) : Byte := B (t / 8 % 4) (8 * (t / 32) + t % 8)

/-- The bytes of four states, lane by lane. -/
def I4 (B : Nat → Nat → Byte) : Mem Byte := ofList (tabP 800 (g4 B))

theorem I4_len (B : Nat → Nat → Byte) : (I4 B).length = 800 := by simp [I4, ofList]

theorem I4_congr {B B' : Nat → Nat → Byte} (h : ∀ k, k < 4 → B k = B' k) : I4 B = I4 B' := by
  unfold I4
  rw [tabP_congr fun t ht => ?_]
  unfold g4
  rw [h _ (by omega)]

theorem I4_has (B : Nat → Nat → Byte) : Has (I4 B) 0 800 (g4 B) := by
  intro j hj
  unfold I4
  rw [rd_ofList, Nat.zero_add, tabP_getElem?, if_pos hj]

theorem pk_g4 (B : Nat → Nat → Byte) {i l : Nat} (hi : i < 4) : pk (g4 B) (8 * (4 * l + i)) = packL (B i) l := by
  unfold pk packL
  rw [tabP_congr fun j hj => ?_]
  unfold g4
  rw [show (8 * (4 * l + i) + j) / 8 % 4 = i by omega, show 8 * ((8 * (4 * l + i) + j) / 32) + (8 * (4 * l + i) + j) % 8 = 8 * l + j by omega]

/-- Writing one lane. -/
theorem I4_lane {B : Nat → Nat → Byte} {B' : Nat → Byte} {i l o : Nat} {x : BitVec 64} (hi : i < 4) (hl : l < 25)
    (ho : o = 8 * (4 * l + i)) (hx : ∀ j, j < 8 → laneByte x j = B' (8 * l + j))
    (hB : ∀ t, t < 200 → t / 8 ≠ l → B' t = B i t) :
    W (I4 B) o (wordBytes x) = I4 (setS B i B') := by
  subst ho
  have h1 : 8 * (4 * l + i) + (wordBytes x).length ≤ (I4 B).length := by rw [wordBytes_length, I4_len]; omega
  refine mem_ext (by rw [length_W h1, I4_len, I4_len]) fun t ht => ?_
  rw [length_W h1, I4_len] at ht
  rw [getElem?_W h1, wordBytes_length]
  unfold I4 ofList
  rw [List.getElem?_map, List.getElem?_map, tabP_getElem?, tabP_getElem?, if_pos ht, if_pos ht]
  by_cases c : 8 * (4 * l + i) ≤ t ∧ t < 8 * (4 * l + i) + 8
  · rw [if_pos c]
    unfold wordBytes
    rw [tabP_getElem?, if_pos (by omega), hx _ (by omega)]
    unfold g4 setS
    rw [if_pos (by omega), show 8 * (t / 32) + t % 8 = 8 * l + (t - 8 * (4 * l + i)) by omega]
  · rw [if_neg c]
    unfold g4 setS
    by_cases c2 : t / 8 % 4 = i
    · rw [if_pos c2, hB _ (by omega) (by omega), c2]
    · rw [if_neg c2]

theorem setS_setS (B : Nat → Nat → Byte) (i : Nat) (X Y : Nat → Byte) : setS (setS B i X) i Y = setS B i Y := by
  funext k
  unfold setS
  split <;> rfl

theorem setS_get (B : Nat → Nat → Byte) (i : Nat) (X : Nat → Byte) : setS B i X i = X := if_pos rfl

theorem idx4 {l i : Nat} (hl : l < 25) (hi : i < 4) : 8 * ((l * 4 % 4294967296 + i) % 4294967296) = 8 * (4 * l + i) := by omega

section
variable {kd : Kind} {b : Nat} {F : Blocks} {B : Nat → Nat → Byte}

theorem init_runs {m : Mem Byte} (hl : m.length = 800) :
    Runs (bl kd b m + F) (KeccakP1600times4_InitializeAll (some ⟨b, 0⟩)) () (bl kd b (I4 fun _ _ => 0) + F) := by
  unfold KeccakP1600times4_InitializeAll
  refine t_memset0 rfl (m' := I4 fun _ _ => 0) ?_ (t_pure ⟨rfl, rfl⟩)
  rw [wrN_W (by rw [List.length_replicate]; omega)]
  have e : List.replicate 800 (0 : Byte) = tabP 800 fun _ => 0 := by
    refine List.ext_getElem? fun i => ?_
    rw [List.getElem?_replicate, tabP_getElem?]
  unfold I4 W
  rw [e, tabP_length, List.take_zero, List.drop_eq_nil_of_le (by omega), List.append_nil, List.nil_append,
    show g4 (fun _ _ => (0 : Byte)) = fun _ => 0 from rfl]
  unfold ofList
  rfl

theorem addByte_runs {c : Byte} {i y : Nat} (hi : i < 4) (hy : y < 200) :
    Runs (bl kd b (I4 B) + F) (KeccakP1600times4_AddByte (some ⟨b, 0⟩) i c y) ()
      (bl kd b (I4 (setS B i (xorB (B i) y 1 fun _ => c))) + F) := by
  unfold KeccakP1600times4_AddByte
  have e : (((i * 8 % U32 + y / 8 * 4 % U32 * 8 % U32) % U32) + y % 8) % U32 = 8 * (4 * (y / 8) + i) + y % 8 := by
    omega
  rw [e]
  have hg : g4 B (8 * (4 * (y / 8) + i) + y % 8) = B i y := by
    unfold g4
    rw [show (8 * (4 * (y / 8) + i) + y % 8) / 8 % 4 = i by omega,
      show 8 * ((8 * (4 * (y / 8) + i) + y % 8) / 32) + (8 * (4 * (y / 8) + i) + y % 8) % 8 = y by omega]
  refine t_ld View.here0 ((I4_has B).rd0 (by omega)) ?_
  rw [hg]
  refine t_st rfl (m' := I4 (setS B i (xorB (B i) y 1 fun _ => c))) ?_ (t_pure ⟨rfl, rfl⟩)
  rw [← BitVec.toNat_xor, BitVec.ofNat_toNat, BitVec.setWidth_eq]
  unfold wr
  rw [if_pos (by rw [I4_len]; omega)]
  refine congrArg some (mem_ext ?_ fun t ht => ?_)
  · rw [List.length_set, I4_len, I4_len]
  · rw [List.length_set, I4_len] at ht
    rw [List.getElem?_set, I4_len]
    unfold I4 ofList
    rw [List.getElem?_map, List.getElem?_map, tabP_getElem?, tabP_getElem?, if_pos ht, if_pos ht]
    unfold g4 setS xorB
    by_cases c1 : 0 + (8 * (4 * (y / 8) + i) + y % 8) = t
    · rw [if_pos c1, if_pos (by omega), if_pos (by omega), if_pos (by omega),
        show 8 * (t / 32) + t % 8 = y by omega]
      rfl
    · rw [if_neg c1]
      by_cases c2 : t / 8 % 4 = i
      · rw [if_pos c2, if_neg (by omega), c2]
      · rw [if_neg c2]

/-- The word in the variable `lane` is added to a lane of one state. -/
theorem t_xor4 {δ : Type} {Q : δ → Blocks → Prop} {g : Unit → CM δ} {a i l off n o : Nat} {d G : Nat → Byte}
    (hi : i < 4) (hl : l < 25) (ho : o = 8 * (4 * l + i)) (hn : off + n ≤ 8)
    (hG : ∀ j, j < 8 → G j = if off ≤ j ∧ j < off + n then d (j - off) else 0)
    (h : T (bl .stack a (ofList (tabP 8 G)) + (bl kd b (I4 (setS B i (xorB (B i) (8 * l + off) n d))) + F)) (g ()) Q) :
    T (bl .stack a (ofList (tabP 8 G)) + (bl kd b (I4 B) + F)) (ld64 (some ⟨b, 0⟩) o >>= fun e3 =>
      ld64 (some ⟨a, 0⟩) 0 >>= fun e4 => st64 (some ⟨b, 0⟩) o (e3 ^^^ e4) >>= g) Q := by
  subst ho
  have hh : Has (ofList (tabP 8 G)) 0 8 G := by
    intro j hj
    rw [rd_ofList, Nat.zero_add, tabP_getElem?, if_pos hj]
  refine t_ld64w (F := bl .stack a (ofList (tabP 8 G)) + F) (add_left_comm _ _ _) (I4_has B) (by omega) ?_
  refine t_ld64w rfl hh (by decide) ?_
  refine t_st64 (F := bl .stack a (ofList (tabP 8 G)) + F) (add_left_comm _ _ _) (by rw [I4_len]; omega) ?_
  rw [pk_g4 B hi, I4_lane (B' := xorB (B i) (8 * l + off) n d) hi hl (Nat.zero_add _) ?_ ?_, add_left_comm]
  · exact h
  · intro j hj
    rw [laneByte_xor, laneByte_packL _ _ _ hj, show pk G 0 = packL G 0 from rfl, laneByte_packL _ _ _ hj, Nat.mul_zero, Nat.zero_add, hG j hj]
    unfold xorB
    by_cases e : off ≤ j ∧ j < off + n
    · rw [if_pos e, if_pos (by omega), show 8 * l + j - (8 * l + off) = j - off by omega]
    · rw [if_neg e, if_neg (by omega)]
      simp
  · intro t _ hne
    unfold xorB
    rw [if_neg (by omega)]

/-- The variable `lane` after the copy of some bytes to it. -/
theorem lane_W {d : Nat → Byte} {off n : Nat} (hn : off + n ≤ 8) :
    W (ofList (tabP 8 (laneByte 0))) off (tabP n d)
      = ofList (tabP 8 fun j => if off ≤ j ∧ j < off + n then d (j - off) else 0) := by
  have h8 : off + (tabP n d).length ≤ (ofList (tabP 8 (laneByte 0))).length := by simp [ofList]; omega
  refine mem_ext (by rw [length_W h8]; simp [ofList]) fun j _ => ?_
  rw [getElem?_W h8, tabP_length]
  unfold ofList
  rw [List.getElem?_map, List.getElem?_map, tabP_getElem?, tabP_getElem?, tabP_getElem?]
  by_cases e : off ≤ j ∧ j < off + n
  · rw [if_pos e, if_pos (by omega), if_pos (by omega), if_pos e]
  · rw [if_neg e, if_neg e]
    split
    · have : laneByte 0 j = 0 := by
        unfold laneByte
        simp
      rw [this]
    · rfl

theorem malloc_W (x : BitVec 64) : W (malloc 8 : Mem Byte) (0 + 0) (wordBytes x) = ofList (tabP 8 (laneByte x)) := rfl

/-- Some bytes added to one lane. -/
theorem t_part {δ : Type} {Q : δ → Blocks → Prop} {g : Unit → CM δ} {p : CPtr} {μ : Mem Byte} {a i l off n o o' : Nat}
    {d : Nat → Byte} (hi : i < 4) (hl : l < 25) (ho : o = 8 * (4 * l + i)) (hn : off + n ≤ 8) (hn0 : 0 < n)
    (hv : View F p μ) (hd : Has μ 0 n d) (ho' : o' = off)
    (h : T (bl .stack a (ofList (tabP 8 fun j => if off ≤ j ∧ j < off + n then d (j - off) else 0))
      + (bl kd b (I4 (setS B i (xorB (B i) (8 * l + off) n d))) + F)) (g ()) Q) :
    T (bl .stack a (ofList (tabP 8 (laneByte 0))) + (bl kd b (I4 B) + F)) (memcpy (α := Byte) (some ⟨a, o'⟩) p n >>= fun _ =>
      ld64 (some ⟨b, 0⟩) o >>= fun e3 => ld64 (some ⟨a, 0⟩) 0 >>= fun e4 => st64 (some ⟨b, 0⟩) o (e3 ^^^ e4) >>= g) Q := by
  subst ho'
  refine t_memcpy (l := tabP n d) rfl hv.there (by omega) (rdN_has hd (by omega)) (wrN_W (by simp [ofList]; omega)) ?_
  rw [lane_W hn]
  exact t_xor4 hi hl ho hn (fun j hj => rfl) h

theorem addBytes_runs {i x k : Nat} {p : CPtr} {μ : Mem Byte} {d : Nat → Byte} (hi : i < 4) (hv : View F p μ)
    (hd : Has μ 0 k d) (hx : x + k ≤ 200) :
    Runs (bl kd b (I4 B) + F) (KeccakP1600times4_AddBytes (some ⟨b, 0⟩) i p x k) ()
      (bl kd b (I4 (setS B i (xorB (B i) x k d))) + F) := by
  unfold KeccakP1600times4_AddBytes
  dsimp only
  have hp0 : padd p 0 = p := by cases p <;> rfl
  have hpp : ∀ a c, padd (padd p a) c = padd p (a + c) := by
    intro a c
    cases p
    · rfl
    · simp [padd, Nat.add_assoc]
  -- the next bytes
  have hs : ∀ t c l, t + c ≤ k → 8 * l + 0 = x + t →
      setS (setS B i (xorB (B i) x t d)) i (xorB (setS B i (xorB (B i) x t d) i) (8 * l + 0) c fun j => d (t + j))
        = setS B i (xorB (B i) x (t + c) d) := by
    intro t c l _ h
    rw [setS_setS, setS_get, h, xorB_xorB]
  refine t_call rfl (R := fun s D' => ∃ t l, t ≤ k ∧ (t < k → 8 * l = x + t) ∧ s = (k - t, l, padd p t) ∧
    D' = bl kd b (I4 (setS B i (xorB (B i) x t d))) + F) ?_ ?_
  · by_cases h : k > 0 ∧ x % 8 ≠ 0
    · rw [if_pos h]
      rw [show (8 + 4294967296 - x % 8) % 4294967296 = 8 - x % 8 by omega]
      refine t_alloc fun a => ?_
      refine t_st64 rfl (by simp [malloc]) ?_
      rw [malloc_W]
      refine t_call (R := fun c D' => c = min (8 - x % 8) k ∧
        D' = bl .stack a (ofList (tabP 8 (laneByte 0))) + (bl kd b (I4 B) + F)) rfl ?_ ?_
      · by_cases e : 8 - x % 8 > k
        · rw [if_pos e]
          exact t_pure ⟨by omega, rfl⟩
        · rw [if_neg e]
          exact t_pure ⟨by omega, rfl⟩
      rintro c D ⟨hc, rfl⟩
      refine t_part (l := x / 8) (off := x % 8) (d := d) hi (by omega) (idx4 (by omega) hi) (by omega) (by omega) hv
        (hd.mono (by omega)) (Nat.zero_add _) ?_
      refine t_free rfl ?_
      refine t_pure ⟨c, x / 8 + 1, by omega, by omega, ?_, ?_⟩
      · rw [show (k + 4294967296 - c) % 4294967296 = k - c by omega, show (x / 8 + 1) % 4294967296 = x / 8 + 1 by omega]
      · rw [show 8 * (x / 8) + x % 8 = x by omega]
    · rw [if_neg h]
      exact t_pure ⟨0, x / 8, by omega, by omega, by rw [hp0]; rfl, by rw [xorB_zero, setS_self]⟩
  rintro s D ⟨t, l, ht, hl, rfl, rfl⟩
  dsimp only
  refine t_whileI (I := fun s D => ∃ t l, t ≤ k ∧ (t < k → 8 * l = x + t) ∧ s = (k - t, l, padd p t) ∧
    D = bl kd b (I4 (setS B i (xorB (B i) x t d))) + F) (μ := fun s => s.1) ⟨t, l, ht, hl, rfl, rfl⟩ (by dsimp only; omega) ?_ ?_
  · rintro s D ⟨t, l, ht, hl, rfl, rfl⟩ hb
    dsimp only at hb ⊢
    rw [decide_eq_true_eq] at hb
    have hl := hl (by omega)
    refine t_alloc fun a => ?_
    refine t_ld64 (hv.padd (k := t)).there.there (has_from hd (t := t) (k := k - t) (by omega)) (by omega) ?_
    refine t_st64 rfl (by simp [malloc]) ?_
    rw [malloc_W]
    refine t_xor4 (l := l) (off := 0) (n := 8) (d := fun j => d (t + j)) hi (by omega) (idx4 (by omega) hi) (by omega) ?_ ?_
    · intro j hj
      rw [if_pos (by omega), show pk (fun j => d (t + j)) 0 = packL (fun j => d (t + j)) 0 from rfl, laneByte_packL _ _ _ hj]
      congr 1
      omega
    · refine t_free rfl ?_
      rw [hs t 8 l (by omega) (by omega)]
      refine t_pure ⟨⟨t + 8, l + 1, by omega, by omega, ?_, rfl⟩, by dsimp only; omega⟩
      rw [hpp, show (k - t + 4294967296 - 8) % 4294967296 = k - (t + 8) by omega, show (l + 1) % 4294967296 = l + 1 by omega]
  · rintro s D ⟨t, l, ht, hl, rfl, rfl⟩ hb
    dsimp only at hb ⊢
    rw [decide_eq_false_iff_not] at hb
    by_cases h : k - t > 0
    · refine t_ite_pos h ?_
      have hl := hl (by omega)
      refine t_assoc (t_alloc fun a => ?_)
      refine t_assoc (t_st64 rfl (by simp [malloc]) ?_)
      rw [malloc_W]
      simp only [bind_assoc]
      refine t_part (l := l) (off := 0) (n := k - t) (d := fun j => d (t + j)) hi (by omega) (idx4 (by omega) hi) (by omega)
        (by omega) (hv.padd (k := t)) (has_from hd (by omega)) rfl ?_
      refine t_free rfl ?_
      rw [hs t (k - t) l (by omega) (by omega), show t + (k - t) = k by omega]
      exact t_pbind (t_pure ⟨trivial, rfl⟩)
    · refine t_ite_neg h ?_
      rw [show t = k by omega]
      exact t_pbind (t_pure ⟨rfl, rfl⟩)

/-- Bytes of one lane of one state. -/
theorem rdN_lane {i l off n o : Nat} (hi : i < 4) (hl : l < 25) (ho : o = 8 * (4 * l + i) + off) (hn : off + n ≤ 8) :
    rdN (I4 B) o n = some (tabP n fun j => B i (8 * l + off + j)) := by
  subst ho
  refine rdN_eq (fun j hj => ?_) (by rw [I4_len]; omega)
  have := I4_has B (8 * (4 * l + i) + off + j) (by omega)
  rw [Nat.zero_add] at this
  rw [this]
  unfold g4
  rw [show (8 * (4 * l + i) + off + j) / 8 % 4 = i by omega,
    show 8 * ((8 * (4 * l + i) + off + j) / 32) + (8 * (4 * l + i) + off + j) % 8 = 8 * l + off + j by omega]

theorem extract_runs {i x k : Nat} {q : Ptr} (hi : i < 4) (hv : Valid F q k) (hx : x + k ≤ 200) :
    Runs (bl kd b (I4 B) + F) (KeccakP1600times4_ExtractBytes (some ⟨b, 0⟩) i (some q) x k) ()
      (bl kd b (I4 B) + up F q (tabP k fun j => B i (x + j))) := by
  refine runs_nd fun hnd => ?_
  have hF : ND F := hnd.right
  unfold KeccakP1600times4_ExtractBytes
  dsimp only
  have hv2 : ∀ t c, t + c ≤ k → Valid (up F q (tabP t fun j => B i (x + j))) ⟨q.blk, q.off + t⟩ c := by
    intro t c hc
    exact Valid.up (hv.sub hc) (by rw [tabP_length]; exact hv.mono (by omega)) hF
  refine t_call rfl (R := fun s D' => ∃ t l, t ≤ k ∧ (t < k → 8 * l = x + t) ∧ s = (k - t, l, some ⟨q.blk, q.off + t⟩) ∧
    D' = bl kd b (I4 B) + up F q (tabP t fun j => B i (x + j))) ?_ ?_
  · by_cases h : k > 0 ∧ x % 8 ≠ 0
    · rw [if_pos h]
      rw [show (8 + 4294967296 - x % 8) % 4294967296 = 8 - x % 8 by omega]
      refine t_call (R := fun c D' => c = min (8 - x % 8) k ∧ D' = bl kd b (I4 B) + F) rfl ?_ ?_
      · by_cases e : 8 - x % 8 > k
        · rw [if_pos e]
          exact t_pure ⟨by omega, rfl⟩
        · rw [if_neg e]
          exact t_pure ⟨by omega, rfl⟩
      rintro c D ⟨hc, rfl⟩
      refine t_memcpy_up (b := b) (o := 0 + 8 * ((x / 8 * 4 % 4294967296 + i) % 4294967296) + x % 8) rfl (hv.mono (by omega))
        (rdN_lane (l := x / 8) (off := x % 8) hi (by omega) (by omega) (by omega)) ?_
      refine t_pure ⟨c, x / 8 + 1, by omega, by omega, ?_, ?_⟩
      · rw [show (k + 4294967296 - c) % 4294967296 = k - c by omega, show (x / 8 + 1) % 4294967296 = x / 8 + 1 by omega]
        rfl
      · rw [show 8 * (x / 8) + x % 8 = x by omega]
    · rw [if_neg h]
      exact t_pure ⟨0, x / 8, by omega, by omega, rfl, by rw [show (tabP 0 fun j => B i (x + j)) = [] from rfl, up_nil]⟩
  rintro s D ⟨t, l, ht, hl, rfl, rfl⟩
  dsimp only
  refine t_whileI (I := fun s D => ∃ t l, t ≤ k ∧ (t < k → 8 * l = x + t) ∧ s = (k - t, l, some ⟨q.blk, q.off + t⟩) ∧
    D = bl kd b (I4 B) + up F q (tabP t fun j => B i (x + j))) (μ := fun s => s.1) ⟨t, l, ht, hl, rfl, rfl⟩
    (by dsimp only; omega) ?_ ?_
  · rintro s D ⟨t, l, ht, hl, rfl, rfl⟩ hb
    dsimp only at hb ⊢
    rw [decide_eq_true_eq] at hb
    have hl := hl (by omega)
    rw [idx4 (by omega) hi]
    refine t_ld64w rfl (I4_has B) (by omega) ?_
    rw [pk_g4 B hi]
    have hw : wordBytes (packL (B i) l) = tabP 8 fun j => B i (8 * l + j) := by
      unfold wordBytes
      exact tabP_congr fun j hj => laneByte_packL _ _ _ hj
    refine t_nd fun hn1 => ?_
    unfold st64
    refine t_up (q := ⟨q.blk, q.off + t + 0⟩) ?_ ?_
    · rw [hw, tabP_length]
      exact (hv2 t 8 (by omega)).right
    · rw [Nat.add_zero, up_frame hn1 (hv2 t 8 (by omega)), hw, up_tab hv hF (by omega)]
      · refine t_pure ⟨⟨t + 8, l + 1, by omega, by omega, ?_, rfl⟩, by dsimp only; omega⟩
        rw [show (k - t + 4294967296 - 8) % 4294967296 = k - (t + 8) by omega, show (l + 1) % 4294967296 = l + 1 by omega]
        simp [padd, Nat.add_assoc]
      · intro j _
        congr 1
        omega
  · rintro s D ⟨t, l, ht, hl, rfl, rfl⟩ hb
    dsimp only at hb ⊢
    rw [decide_eq_false_iff_not] at hb
    by_cases h : k - t > 0
    · refine t_ite_pos h ?_
      have hl := hl (by omega)
      refine t_assoc (t_memcpy_up (b := b) (o := 0 + 8 * ((l * 4 % 4294967296 + i) % 4294967296)) rfl (hv2 t (k - t) (by omega))
        (rdN_lane (l := l) (off := 0) hi (by omega) (by omega) (by omega)) ?_)
      rw [up_tab hv hF (by omega), show t + (k - t) = k by omega]
      · exact t_pbind (t_pure ⟨rfl, rfl⟩)
      · intro j _
        congr 1
        omega
    · refine t_ite_neg h ?_
      rw [show t = k by omega]
      exact t_pbind (t_pure ⟨rfl, rfl⟩)

/-! ### The permutation -/

/-- The vector of lane `l`. -/
def vl (B : Nat → Nat → Byte) (l : Nat) : V256 := ⟨packL (B 0) l, packL (B 1) l, packL (B 2) l, packL (B 3) l⟩

theorem tab32 (B : Nat → Nat → Byte) (l : Nat) : V256.ofBytes (tabP 32 fun j => g4 B (32 * l + j)) = vl B l := by
  rw [ofBytes_tabP]
  unfold vl packL
  congr 2 <;> refine tabP_congr fun j hj => ?_ <;> unfold g4
  · rw [show (32 * l + j) / 8 % 4 = 0 by omega, show 8 * ((32 * l + j) / 32) + (32 * l + j) % 8 = 8 * l + j by omega]
  · rw [show (32 * l + (8 + j)) / 8 % 4 = 1 by omega, show 8 * ((32 * l + (8 + j)) / 32) + (32 * l + (8 + j)) % 8 = 8 * l + j by omega]
  · rw [show (32 * l + (16 + j)) / 8 % 4 = 2 by omega, show 8 * ((32 * l + (16 + j)) / 32) + (32 * l + (16 + j)) % 8 = 8 * l + j by omega]
  · rw [show (32 * l + (24 + j)) / 8 % 4 = 3 by omega, show 8 * ((32 * l + (24 + j)) / 32) + (32 * l + (24 + j)) % 8 = 8 * l + j by omega]

theorem bytes_vl (B : Nat → Nat → Byte) (l : Nat) : (vl B l).bytes = tabP 32 fun j => g4 B (32 * l + j) := by
  have h : ∀ i, i < 4 → wordBytes (packL (B i) l) = tabP 8 fun j => g4 B (32 * l + (8 * i + j)) := by
    intro i hi
    unfold wordBytes
    refine tabP_congr fun j hj => ?_
    rw [laneByte_packL _ _ _ hj]
    unfold g4
    rw [show (32 * l + (8 * i + j)) / 8 % 4 = i by omega, show 8 * ((32 * l + (8 * i + j)) / 32) + (32 * l + (8 * i + j)) % 8 = 8 * l + j by omega]
  unfold V256.bytes vl
  dsimp only
  rw [h 0 (by omega), h 1 (by omega), h 2 (by omega), h 3 (by omega)]
  rw [show 32 = 8 + 8 + 8 + 8 from rfl, tabP_add, tabP_add, tabP_add]
  simp only [Nat.mul_zero, Nat.zero_add, Nat.mul_one]

theorem t_load {δ : Type} {Q : δ → Blocks → Prop} {g : V256 → CM δ} {l o : Nat} (hl : l < 25) (ho : o = 32 * l)
    (h : T (bl kd b (I4 B) + F) (g (vl B l)) Q) :
    T (bl kd b (I4 B) + F) (_mm256_load_si256 (some ⟨b, o⟩) >>= g) Q := by
  subst ho
  unfold _mm256_load_si256
  refine t_assoc (t_lft (b := ()) (if_pos (by dsimp only; omega)) ?_)
  refine t_assoc (t_ldN (l := tabP 32 fun j => g4 B (32 * l + j)) View.here (by decide) (rdN_at (rdN_eq (fun j hj => ?_) ?_)) (t_pbind ?_))
  · have := I4_has B (32 * l + j) (by omega)
    rwa [Nat.zero_add] at this
  · rw [I4_len]; omega
  · rw [tab32]; exact h

theorem t_store {δ : Type} {Q : δ → Blocks → Prop} {g : Unit → CM δ} {m : Mem Byte} {n o : Nat} {v : V256} (hm : m.length = 800)
    (l : Nat) (hl : l < 25) (hn : n = 32 * l) (ho : o = n) (hv : v = vl B l)
    (h : T (bl kd b (W m 0 (tabP (n + 32) (g4 B))) + F) (g ()) Q) :
    T (bl kd b (W m 0 (tabP n (g4 B))) + F) (_mm256_store_si256 (some ⟨b, o⟩) v >>= g) Q := by
  subst hn ho hv
  unfold _mm256_store_si256
  refine t_assoc (t_lft (b := ()) (if_pos (by dsimp only; omega)) ?_)
  refine t_stN rfl ?_ h
  have := wrN_W_append (m := m) (o := 0) (xs := tabP (32 * l) (g4 B)) (ys := (vl B l).bytes) (by
    rw [bytes_vl, tabP_length, tabP_length]; omega)
  rw [tabP_length, Nat.zero_add] at this
  rw [this, bytes_vl, tabP_add]

theorem copyFrom_runs : Runs (bl kd b (I4 B) + F) (copyFromState (some ⟨b, 0⟩)) (zip4 fun k => lanesOf (packL (B k))) (bl kd b (I4 B) + F) := by
  unfold copyFromState
  refine t_load (l := 0) (o := 0) (by decide) rfl ?_
  refine t_load (l := 1) (o := 32) (by decide) rfl ?_
  refine t_load (l := 2) (o := 64) (by decide) rfl ?_
  refine t_load (l := 3) (o := 96) (by decide) rfl ?_
  refine t_load (l := 4) (o := 128) (by decide) rfl ?_
  refine t_load (l := 5) (o := 160) (by decide) rfl ?_
  refine t_load (l := 6) (o := 192) (by decide) rfl ?_
  refine t_load (l := 7) (o := 224) (by decide) rfl ?_
  refine t_load (l := 8) (o := 256) (by decide) rfl ?_
  refine t_load (l := 9) (o := 288) (by decide) rfl ?_
  refine t_load (l := 10) (o := 320) (by decide) rfl ?_
  refine t_load (l := 11) (o := 352) (by decide) rfl ?_
  refine t_load (l := 12) (o := 384) (by decide) rfl ?_
  refine t_load (l := 13) (o := 416) (by decide) rfl ?_
  refine t_load (l := 14) (o := 448) (by decide) rfl ?_
  refine t_load (l := 15) (o := 480) (by decide) rfl ?_
  refine t_load (l := 16) (o := 512) (by decide) rfl ?_
  refine t_load (l := 17) (o := 544) (by decide) rfl ?_
  refine t_load (l := 18) (o := 576) (by decide) rfl ?_
  refine t_load (l := 19) (o := 608) (by decide) rfl ?_
  refine t_load (l := 20) (o := 640) (by decide) rfl ?_
  refine t_load (l := 21) (o := 672) (by decide) rfl ?_
  refine t_load (l := 22) (o := 704) (by decide) rfl ?_
  refine t_load (l := 23) (o := 736) (by decide) rfl ?_
  refine t_load (l := 24) (o := 768) (by decide) rfl ?_
  exact t_pure ⟨rfl, rfl⟩

theorem copyTo_runs {m : Mem Byte} (hm : m.length = 800) :
    Runs (bl kd b m + F) (copyToState (some ⟨b, 0⟩) (zip4 fun k => lanesOf (packL (B k)))) () (bl kd b (I4 B) + F) := by
  unfold copyToState
  refine t_perm (D' := bl kd b (W m 0 (tabP 0 (g4 B))) + F) (by rw [show tabP 0 (g4 B) = [] from rfl, W_nil]) ?_
  refine t_store hm 0 (o := 0) (by decide) rfl rfl rfl ?_
  refine t_store hm 1 (o := 32) (by decide) rfl rfl rfl ?_
  refine t_store hm 2 (o := 64) (by decide) rfl rfl rfl ?_
  refine t_store hm 3 (o := 96) (by decide) rfl rfl rfl ?_
  refine t_store hm 4 (o := 128) (by decide) rfl rfl rfl ?_
  refine t_store hm 5 (o := 160) (by decide) rfl rfl rfl ?_
  refine t_store hm 6 (o := 192) (by decide) rfl rfl rfl ?_
  refine t_store hm 7 (o := 224) (by decide) rfl rfl rfl ?_
  refine t_store hm 8 (o := 256) (by decide) rfl rfl rfl ?_
  refine t_store hm 9 (o := 288) (by decide) rfl rfl rfl ?_
  refine t_store hm 10 (o := 320) (by decide) rfl rfl rfl ?_
  refine t_store hm 11 (o := 352) (by decide) rfl rfl rfl ?_
  refine t_store hm 12 (o := 384) (by decide) rfl rfl rfl ?_
  refine t_store hm 13 (o := 416) (by decide) rfl rfl rfl ?_
  refine t_store hm 14 (o := 448) (by decide) rfl rfl rfl ?_
  refine t_store hm 15 (o := 480) (by decide) rfl rfl rfl ?_
  refine t_store hm 16 (o := 512) (by decide) rfl rfl rfl ?_
  refine t_store hm 17 (o := 544) (by decide) rfl rfl rfl ?_
  refine t_store hm 18 (o := 576) (by decide) rfl rfl rfl ?_
  refine t_store hm 19 (o := 608) (by decide) rfl rfl rfl ?_
  refine t_store hm 20 (o := 640) (by decide) rfl rfl rfl ?_
  refine t_store hm 21 (o := 672) (by decide) rfl rfl rfl ?_
  refine t_store hm 22 (o := 704) (by decide) rfl rfl rfl ?_
  refine t_store hm 23 (o := 736) (by decide) rfl rfl rfl ?_
  refine t_store hm 24 (o := 768) (by decide) rfl rfl rfl ?_
  refine t_pure ⟨rfl, ?_⟩
  unfold I4 W
  rw [tabP_length, List.take_zero, List.drop_eq_nil_of_le (by omega), List.append_nil, List.nil_append]
  unfold ofList
  rfl

theorem permute_runs :
    Runs (bl kd b (I4 B) + F) (KeccakP1600times4_PermuteAll_24rounds (some ⟨b, 0⟩)) ()
      (bl kd b (I4 fun k => keccakB (B k)) + F) := by
  unfold KeccakP1600times4_PermuteAll_24rounds
  refine t_run rfl copyFrom_runs ?_
  dsimp only
  rw [rounds24_zip _ (fun k => lanesOf (packL (keccakB (B k)))) fun k => (rounds24_eq (B k)).symm]
  refine t_pbind ?_
  exact t_run rfl (copyTo_runs (I4_len B)) (t_pure ⟨rfl, rfl⟩)

end

end Faest.GenA

namespace Faest.GenH
open Faest.C Faest.GenA

/-- Four states with interleaved lanes. -/
def simd256Spec : P4Spec simd256 where
  lay := I4
  len := I4_len
  congr := I4_congr
  static := t_pure ⟨rfl, rfl⟩
  init := GenA.init_runs
  addByte := GenA.addByte_runs
  addBytes hi hv hd _ hx := GenA.addBytes_runs hi hv hd (by omega)
  extract hi hv hx := GenA.extract_runs hi hv (by omega)
  permute := GenA.permute_runs

end Faest.GenH
