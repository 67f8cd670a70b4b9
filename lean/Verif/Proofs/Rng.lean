/-
Lemmas for tools/rng.c.
-/
import Verif.Model.Rng
import Verif.Spec.Drbg
import Verif.Proofs.Prg
import Verif.Proofs.ApiRefine

namespace Faest.Rng
open Spec (beNat)
open Spec.Drbg (toBytes ofBytes blocks block)

theorem ofBytes_append (l : List Byte) (b : Byte) : ofBytes (l ++ [b]) = ofBytes l * 256 + b.toNat := by
  unfold ofBytes; rw [List.foldl_append]; rfl

theorem ofBytes_tabP (g : Nat → Byte) (n : Nat) : ofBytes (tabP n g) = beNat g n := by
  induction n with
  | zero => rfl
  | succ n ih => rw [tabP_succ, ofBytes_append, ih]; rfl

theorem toBytes_tabP (v : Nat) : toBytes v = tabP 16 fun j => BitVec.ofNat 8 (v / 256 ^ (16 - 1 - j)) := by
  unfold toBytes tabP
  refine List.map_congr_left fun j _ => ?_
  rw [Nat.pow_mul]

theorem toBytes_length (v : Nat) : (toBytes v).length = 16 := by simp [toBytes]

theorem beNat_toBytes {v : Nat} (h : v < 2 ^ 128) :
    beNat (fun j => BitVec.ofNat 8 (v / 256 ^ (16 - 1 - j))) 16 = v := by
  rw [beNat_bytes 16 v]; exact Nat.mod_eq_of_lt h

theorem toBytes_beNat (g : Nat → Byte) : toBytes (beNat g 16) = tabP 16 g := by
  rw [toBytes_tabP]
  exact tabP_congr fun j hj => beNat_byte g 16 j hj

theorem list_tabP (l : List Byte) : l = tabP l.length (fun i => l[i]?.getD 0) := by
  refine list_eq_tabP _ _ _ rfl fun i hi => ?_
  rw [List.getElem?_eq_getElem hi]; rfl

theorem toBytes_ofBytes {l : List Byte} (h : l.length = 16) : toBytes (ofBytes l) = l := by
  have e := list_tabP l
  rw [h] at e
  rw [e, ofBytes_tabP, toBytes_beNat]

theorem ofBytes_lt {l : List Byte} (h : l.length = 16) : ofBytes l < 2 ^ 128 := by
  have e := list_tabP l
  rw [h] at e
  rw [e, ofBytes_tabP]
  exact beNat_lt _ 16

theorem incrementLoop_eq : ∀ (j : Nat) (v : Mem Byte), incrementLoop j v = aesIncrementIvLoop j v := by
  intro j
  induction j with
  | zero => intro v; rfl
  | succ j ih =>
    intro v
    unfold incrementLoop aesIncrementIvLoop
    simp only [ih]

theorem increment_ok {v : Nat} (h : v < 2 ^ 128) :
    incrementLoop 16 (ofList (toBytes v)) = some (ofList (toBytes ((v + 1) % 2 ^ 128))) := by
  rw [incrementLoop_eq, toBytes_tabP]
  obtain ⟨m, h1, h2, g, h3, _, h5⟩ := aesIncrementIvLoop_ok 16 (full 16 _) _ 16 (by simp [full])
    (Nat.le_refl _) (has_full 16 fun j => BitVec.ofNat 8 (v / 256 ^ (16 - 1 - j)))
  rw [beNat_toBytes h] at h5
  show aesIncrementIvLoop 16 (full 16 _) = _
  rw [h1, mem_ext_of_rd h2 h3, show (v + 1) % 2 ^ 128 = beNat g 16 from h5.symm, toBytes_beNat]
  rfl

theorem ofList_app (l l' : List Byte) : ofList (l ++ l') = ofList l ++ ofList l' := by
  unfold ofList; rw [List.map_append]

/-- A write behind what was written before. -/
theorem wrN_app {a l : List Byte} {m : Mem Byte} {off : Nat} (ho : off = a.length) (h : l.length ≤ m.length) :
    wrN (ofList a ++ m) off l = some (ofList (a ++ l) ++ m.drop l.length) := by
  subst ho
  unfold wrN
  have hlen : (ofList a).length = a.length := ofList_length a
  rw [if_pos (by rw [List.length_append, hlen]; omega), List.take_left' hlen, ofList_app]
  congr 2
  rw [List.drop_append, List.drop_eq_nil_of_le (by rw [hlen]; omega), List.nil_append, hlen]
  congr 1
  omega

theorem wrN_zero {l : List Byte} {m : Mem Byte} (h : l.length ≤ m.length) :
    wrN m 0 l = some (ofList l ++ m.drop l.length) := by
  have := wrN_app (a := []) (off := 0) rfl h
  exact this

theorem wrN_whole {l : List Byte} {m : Mem Byte} (h : l.length = m.length) : wrN m 0 l = some (ofList l) := by
  rw [wrN_zero (by omega), List.drop_eq_nil_of_le (by omega), List.append_nil]

theorem rdN_whole {l : List Byte} {n : Nat} (h : l.length = n) : rdN (ofList l) 0 n = some l := by
  subst h; exact rdN_ofList l

section
variable {E : Ecb}

theorem ecb_ok {k c a : List Byte} {m : Mem Byte} {off : Nat} (hE : ∀ k c, (E k c).length = 16)
    (hk : k.length = 32) (hc : c.length = 16) (ho : off = a.length) (hm : 16 ≤ m.length) :
    aes256Ecb E (ofList k) (ofList c) (ofList a ++ m) off = some (ofList (a ++ E k c) ++ m.drop 16) := by
  unfold aes256Ecb
  rw [rdN_whole hk, rdN_whole hc]
  show wrN _ _ _ = _
  rw [wrN_app ho (by rw [hE]; exact hm), hE]

theorem blocks_length (hE : ∀ k c, (E k c).length = 16) (k : List Byte) (v q : Nat) :
    (blocks E k v q).length = 16 * q := by
  induction q with
  | zero => rfl
  | succ q ih =>
    unfold blocks at *
    rw [List.range_succ, List.flatMap_append, List.length_append, ih]
    simp [block, hE]
    omega

theorem blocks_succ (k : List Byte) (v q : Nat) :
    blocks E k v (q + 1) = blocks E k v q ++ block E k v (q + 1) := by
  unfold blocks
  rw [List.range_succ, List.flatMap_append]
  simp

theorem xor_zeros (l : List Byte) : List.zipWith (· ^^^ ·) l (List.replicate l.length 0) = l := by
  induction l with
  | nil => rfl
  | cons b l ih =>
    rw [List.length_cons, List.replicate_succ, List.zipWith_cons_cons, ih]
    exact congrArg (· :: l) BitVec.xor_zero

theorem xor48_ok {a b : List Byte} (ha : a.length = 48) (hb : b.length = 48) :
    xor48 (ofList a) (ofList b) = some (ofList (List.zipWith (· ^^^ ·) a b)) := by
  have ea := list_tabP a
  have eb := list_tabP b
  rw [ha] at ea
  rw [hb] at eb
  generalize (fun i : Nat => a[i]?.getD 0) = f at ea
  generalize (fun i : Nat => b[i]?.getD 0) = g at eb
  have hz : List.zipWith (· ^^^ ·) a b = tabP 48 fun i => f i ^^^ g i := by
    rw [ea, eb]; unfold tabP; rw [List.zipWith_map, List.zipWith_self]
  rw [hz, ea, eb]
  have key : Ok (xor48 (full 48 f) (full 48 g)) (fun m => m.length = 48 ∧
      ∀ j, j < 48 → rd m j = some (if j < 48 then f j ^^^ g j else f j)) := by
    unfold xor48
    refine Ok.forN (s := full 48 f) (fun i m => m.length = 48 ∧ ∀ j, j < 48 → rd m j = some (if j < i then f j ^^^ g j else f j))
      ⟨full_length _ _, fun j hj => by rw [rd_full hj, if_neg (by omega)]⟩ ?_
    rintro i hi m ⟨hl, hm⟩
    refine Ok.step (hm i hi) (Ok.step (rd_full hi) ?_)
    refine Ok.wr (by omega) ?_
    intro m' hl' hr
    refine ⟨by omega, fun j hj => ?_⟩
    rw [hr]
    by_cases hc : j = i
    · subst hc; simp
    · rw [if_neg hc, hm j hj]
      congr 1
      by_cases hlt : j < i
      · rw [if_pos hlt, if_pos (by omega)]
      · rw [if_neg hlt, if_neg (by omega)]
  obtain ⟨m, h1, h2, h3⟩ := key
  show xor48 (full 48 f) (full 48 g) = _
  rw [h1, mem_ext_of_rd (g := fun i => f i ^^^ g i) h2 fun j hj => by
    rw [Nat.zero_add, h3 j hj, if_pos hj]]
  rfl

theorem updateLoop_ok (hE : ∀ k c, (E k c).length = 16) {k : List Byte} {v : Nat} (hk : k.length = 32)
    (hv : v < 2 ^ 128) : ∀ q, q ≤ 3 →
    forN q (malloc 48, ofList (toBytes v)) (fun i (s : Mem Byte × Mem Byte) => (do
      let v ← incrementLoop 16 s.2
      let temp ← aes256Ecb E (ofList k) v s.1 (16 * i)
      pure (temp, v) : Option (Mem Byte × Mem Byte)))
    = some (ofList (blocks E k v q) ++ malloc (48 - 16 * q), ofList (toBytes ((v + q) % 2 ^ 128))) := by
  intro q
  induction q with
  | zero => intro _; rw [Nat.add_zero, Nat.mod_eq_of_lt hv]; rfl
  | succ q ih =>
    intro hq
    rw [forN, ih (by omega), Option.bind_some]
    dsimp only
    rw [increment_ok (Nat.mod_lt _ (by decide)), Nat.mod_add_mod, Nat.add_assoc]
    show (aes256Ecb _ _ _ _ _ >>= _) = _
    rw [ecb_ok hE hk (toBytes_length _) (blocks_length hE k v q).symm (by rw [malloc_length]; omega)]
    show some _ = some _
    rw [blocks_succ]
    congr 3
    unfold malloc
    rw [List.drop_replicate]
    congr 1

theorem rdN_part {l : List Byte} {off n : Nat} (h : off + n = l.length) : rdN (ofList l) off n = some (l.drop off) := by
  rw [rdN_ofList_le l (by omega), List.take_of_length_le (by rw [List.length_drop]; omega)]

/-- The update function for provided data and for the null pointer. -/
theorem update_ok (hE : ∀ k c, (E k c).length = 16) {k : List Byte} {v : Nat} (hk : k.length = 32) (hv : v < 2 ^ 128)
    (data : Option (List Byte)) (hd : ∀ d, data = some d → d.length = 48) :
    update E (data.map ofList) (ofList k) (ofList (toBytes v))
      = some (ofList (Spec.Drbg.update E (data.getD Spec.Drbg.zeros) k v).1,
          ofList (toBytes (Spec.Drbg.update E (data.getD Spec.Drbg.zeros) k v).2)) ∧
    (Spec.Drbg.update E (data.getD Spec.Drbg.zeros) k v).1.length = 32 ∧
    (Spec.Drbg.update E (data.getD Spec.Drbg.zeros) k v).2 < 2 ^ 128 := by
  have hb := blocks_length hE k v 3
  have hdl : (data.getD Spec.Drbg.zeros).length = 48 := by
    cases data with
    | none => rfl
    | some d => exact hd d rfl
  have hmid : (match data.map ofList with
      | some d => xor48 (ofList (blocks E k v 3)) d
      | none => some (ofList (blocks E k v 3)))
      = some (ofList (List.zipWith (· ^^^ ·) (blocks E k v 3) (data.getD Spec.Drbg.zeros))) := by
    cases data with
    | none =>
      show some _ = some _
      congr 2
      have h := xor_zeros (blocks E k v 3)
      rw [hb] at h
      exact h.symm
    | some d => exact xor48_ok hb (hd d rfl)
  unfold update Spec.Drbg.update
  rw [updateLoop_ok hE hk hv 3 (Nat.le_refl _)]
  dsimp only
  rw [show malloc (48 - 16 * 3) = ([] : Mem Byte) from rfl, List.append_nil]
  generalize ht : List.zipWith (· ^^^ ·) (blocks E k v 3) (data.getD Spec.Drbg.zeros) = temp at hmid ⊢
  have htl : temp.length = 48 := by rw [← ht, List.length_zipWith, hb, hdl]; rfl
  have h1 : (temp.take 32).length = 32 := by rw [List.length_take, htl]; rfl
  have h2 : (temp.drop 32).length = 16 := by rw [List.length_drop, htl]
  refine ⟨?_, h1, ofBytes_lt h2⟩
  rw [toBytes_ofBytes h2]
  show ((match data.map ofList with
      | some d => xor48 (ofList (blocks E k v 3)) d
      | none => some (ofList (blocks E k v 3))) >>= _) = _
  rw [hmid]
  show (rdN (ofList temp) 0 32 >>= _) = _
  have e1 := rdN_ofList_le temp (off := 0) (n := 32) (by omega)
  rw [List.drop_zero] at e1
  rw [e1]
  show (wrN (ofList k) 0 (temp.take 32) >>= _) = _
  rw [wrN_whole (by rw [h1, ofList_length, hk])]
  show (rdN (ofList temp) 32 16 >>= _) = _
  rw [rdN_part (by omega)]
  show (wrN (ofList (toBytes _)) 0 (temp.drop 32) >>= _) = _
  rw [wrN_whole (by rw [h2, ofList_length, toBytes_length])]
  rfl

theorem block_eq (k : List Byte) (v q : Nat) (i : Nat) : block E k ((v + q) % 2 ^ 128) i = block E k v (q + i) := by
  unfold block; rw [Nat.mod_add_mod, Nat.add_assoc]

theorem addInt_ok {a b : Int} (h : a + b < 2 ^ 31) : addInt a b = some (a + b) := by
  unfold addInt intMax; rw [if_pos (by omega)]

theorem addInt_none {a b : Int} (h : 2 ^ 31 ≤ a + b) : addInt a b = none := by
  unfold addInt intMax; rw [if_neg (by omega)]

/-- The loop of `randombytes`, `q` blocks being done. -/
theorem loop_ok (hE : ∀ k c, (E k c).length = 16) {k : List Byte} {v : Nat} (hk : k.length = 32) :
    ∀ (fuel q n : Nat) (m : Mem Byte), n < fuel → n ≤ m.length → 16 * q + n < 2 ^ 31 →
    randombytesLoop E (ofList k) fuel (ofList (blocks E k v q) ++ m) (ofList (toBytes ((v + q) % 2 ^ 128)))
      (16 * q) n
    = some (ofList ((blocks E k v (q + (n + 15) / 16)).take (16 * q + n)) ++ m.drop n,
        ofList (toBytes ((v + (q + (n + 15) / 16)) % 2 ^ 128))) := by
  intro fuel
  induction fuel with
  | zero => intro q n m h; omega
  | succ fuel ih =>
    intro q n m hf hm hi
    have hbl := blocks_length hE k v q
    unfold randombytesLoop
    by_cases h0 : n > 0
    · rw [if_pos h0, increment_ok (Nat.mod_lt _ (by decide)), Nat.mod_add_mod, Nat.add_assoc]
      show (aes256Ecb _ _ _ _ _ >>= _) = _
      have e := ecb_ok (a := []) (m := malloc 16) (off := 0) hE hk (toBytes_length ((v + (q + 1)) % 2 ^ 128)) rfl
        (by rw [malloc_length])
      have e' : aes256Ecb E (ofList k) (ofList (toBytes ((v + (q + 1)) % 2 ^ 128))) (malloc 16) 0
          = some (ofList (block E k v (q + 1))) := by
        rw [List.nil_append, show (malloc 16 : Mem Byte).drop 16 = [] from rfl, List.append_nil] at e
        exact e
      rw [e']
      have hb : (block E k v (q + 1)).length = 16 := hE _ _
      show (if n > 15 then _ else _) = _
      by_cases h1 : n > 15
      · rw [if_pos h1, rdN_whole hb]
        show (wrN _ _ _ >>= _) = _
        rw [wrN_app hbl.symm (by omega), ← blocks_succ, hb]
        have hle : addInt ((16 * q : Nat) : Int) 16 = some (((16 * (q + 1) : Nat)) : Int) := by
          rw [addInt_ok (by omega)]
          congr 1
        simp only [Option.bind_eq_bind, Option.bind_some, hle, Int.toNat_natCast]
        have := ih (q + 1) (n - 16) (m.drop 16) (by omega) (by rw [List.length_drop]; omega) (by omega)
        rw [this, List.drop_drop]
        rw [show q + 1 + (n - 16 + 15) / 16 = q + (n + 15) / 16 by omega,
          show 16 * (q + 1) + (n - 16) = 16 * q + n by omega, show 16 + (n - 16) = n by omega]
      · have hq : (n + 15) / 16 = 1 := by omega
        rw [if_neg h1]
        have er := rdN_ofList_le (block E k v (q + 1)) (off := 0) (n := n) (by omega)
        rw [List.drop_zero] at er
        rw [er]
        show (wrN _ _ _ >>= _) = _
        have htl : ((block E k v (q + 1)).take n).length = n := by rw [List.length_take, hb]; omega
        rw [wrN_app hbl.symm (by omega), htl]
        show randombytesLoop _ _ _ _ _ _ _ = _
        obtain ⟨f, rfl⟩ : ∃ f, fuel = f + 1 := ⟨fuel - 1, by omega⟩
        unfold randombytesLoop
        rw [if_neg (by omega), hq, blocks_succ, List.take_append, hbl,
          List.take_of_length_le (l := blocks E k v q) (by rw [hbl]; omega), show 16 * q + n - 16 * q = n by omega]
    · have : n = 0 := by omega
      subst this
      rw [if_neg h0]
      simp only [Nat.zero_add, Nat.add_zero, List.drop_zero]
      rw [show (15 : Nat) / 16 = 0 from rfl, Nat.add_zero, List.take_of_length_le (by rw [hbl])]

theorem loop_step {key : Mem Byte} (fuel : Nat) (x v : Mem Byte) (i n : Nat) (h0 : n > 0) (hn : n > 15) :
    randombytesLoop E key (fuel + 1) x v i n
      = (incrementLoop 16 v).bind fun v => (aes256Ecb E key v (malloc 16) 0).bind fun b =>
        (rdN b 0 16).bind fun l => (wrN x i l).bind fun x => (addInt i 16).bind fun i =>
          randombytesLoop E key fuel x v i.toNat (n - 16) := by
  rw [randombytesLoop, if_pos h0]
  simp only [if_pos hn]
  rfl

theorem bind_none {α β : Type} (o : Option α) {f : α → Option β} (h : ∀ a, f a = none) : o.bind f = none := by
  cases o with
  | none => rfl
  | some a => exact h a

/-- The loop is undefined if the index leaves the range of `int`. -/
theorem loop_big {key : Mem Byte} : ∀ (fuel : Nat) (x v : Mem Byte) (i n : Nat), 2 ^ 31 ≤ i + n → i % 16 = 0 →
    i < 2 ^ 31 → randombytesLoop E key fuel x v i n = none := by
  intro fuel
  induction fuel with
  | zero => intros; rfl
  | succ fuel ih =>
    intro x v i n h hi hlt
    rw [loop_step fuel x v i n (by omega) (by omega)]
    refine bind_none _ fun v => bind_none _ fun b => bind_none _ fun l => bind_none _ fun x => ?_
    by_cases hle : (i : Int) + 16 < 2 ^ 31
    · rw [addInt_ok hle, Option.bind_some]
      exact ih x v _ (n - 16) (by omega) (by omega) (by omega)
    · rw [addInt_none (by omega), Option.bind_none]

theorem tabP_take {n m : Nat} {g : Nat → Byte} (h : n ≤ m) : (tabP m g).take n = tabP n g := by
  unfold tabP
  rw [← List.map_take, List.take_range, Nat.min_eq_left h]

/-- The cipher reads 16 bytes of its input. -/
theorem encrypt_congr (key : Nat → Byte) {p q : Nat → Byte} (h : ∀ j, j < 16 → p j = q j) :
    ∀ j, j < 16 → Spec.encrypt 8 4 14 key p j = Spec.encrypt 8 4 14 key q j := by
  obtain ⟨⟨rk, z⟩, _, hrk, _⟩ := expandKey_ok (g := key) (key := full 32 key) (kw := 8) (bw := 4) (rounds := 14)
    (.inr (.inr rfl)) (.inl rfl) (by decide) (by decide) (has_full 32 key)
  obtain ⟨a, ha, ha', _⟩ := encryptBlock_ok (p := p) (src := full 16 p) (off := 0) (.inl rfl) (by decide) hrk (has_full 16 p)
  obtain ⟨b, hb, hb', _⟩ := encryptBlock_ok (p := q) (src := full 16 p) (off := 0) (.inl rfl) (by decide) hrk
    ((has_full 16 p).congr h)
  rw [ha] at hb
  cases hb
  rw [ha'] at hb'
  exact tabP_inj hb'

theorem byteFn_toBytes {v i : Nat} (hi : i < 16) : Spec.byteFn (toBytes v) i = BitVec.ofNat 8 (v / 256 ^ (16 - 1 - i)) := by
  unfold Spec.byteFn
  rw [toBytes_tabP, tabP_getElem?, if_pos hi]
  rfl

/-- The counter of the PRG starting after `v`. -/
theorem counter_eq (v q i : Nat) (hi : i < 16) : Spec.byteFn (toBytes ((v + (q + 1)) % 2 ^ 128)) i
    = Spec.counter (Spec.byteFn (toBytes ((v + 1) % 2 ^ 128))) q i := by
  refine counter_of_beNat ?_ i hi
  rw [beNat_congr (h := fun j => BitVec.ofNat 8 ((v + (q + 1)) % 2 ^ 128 / 256 ^ (16 - 1 - j)))
      fun j hj => byteFn_toBytes hj, beNat_toBytes (Nat.mod_lt _ (by decide)),
    beNat_congr (h := fun j => BitVec.ofNat 8 ((v + 1) % 2 ^ 128 / 256 ^ (16 - 1 - j)))
      fun j hj => byteFn_toBytes hj, beNat_toBytes (Nat.mod_lt _ (by decide)), Nat.mod_add_mod, Nat.add_assoc,
    Nat.add_comm 1 q]

/-- The blocks of AES-256 are the stream of the PRG. -/
theorem blocks_prg (k : List Byte) (v q : Nat) :
    blocks (fun k c => tabP 16 (Spec.encrypt 8 4 14 (Spec.byteFn k) (Spec.byteFn c))) k v q
      = tabP (16 * q) (Spec.prgStream 256 (Spec.byteFn k) (Spec.byteFn (toBytes ((v + 1) % 2 ^ 128)))) := by
  induction q with
  | zero => rfl
  | succ q ih =>
    rw [blocks_succ, ih]
    refine tabP_append_block ?_
    unfold block
    refine tabP_congr fun j hj => ?_
    unfold Spec.prgStream
    rw [show (16 * q + j) / 16 = q by omega, show (16 * q + j) % 16 = j by omega]
    refine encrypt_congr _ (fun i hi => ?_) j hj
    exact counter_eq v q i hi

end
end Faest.Rng
