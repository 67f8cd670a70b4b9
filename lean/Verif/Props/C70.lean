/-
C70: the functions on one Keccak state with words of 32 bits (sha3/plain32/KeccakP-1600-inplace32BI.c) on a big-endian host.
-/
import Verif.Proofs.Gen.HashTop

namespace Faest.Props
open Faest.C Faest.GenPB
open Faest.GenP (il ilv cat_bit half_bit)
open Spec.Keccak (Str keccakP)

/-- Bit `t` of a state of 1600 bits among 200 bytes: of each lane of 64 bits the 32 bits at even places come first, then
the 32 bits at odd places, both as words of a big-endian host: the byte with the highest bits comes first. -/
def bit32b (l : List Byte) (t : Nat) : Bool :=
  (l.getD (8 * (t / 64) + 4 * (t % 2) + (3 - t % 64 / 16)) 0).getLsbD (t % 64 / 2 % 8)

/-- The state as a string. -/
def bits32b (l : List Byte) : Str := fun i => bit32b l i.val

private theorem bit32b_at (l : List Byte) {a u i h : Nat} (hu : u < 4) (hi : i < 8) (hh : h < 2) :
    bit32b l (64 * a + 16 * u + 2 * i + h) = (l.getD (8 * a + 4 * h + (3 - u)) 0).getLsbD i := by
  unfold bit32b
  have e1 : (64 * a + 16 * u + 2 * i + h) / 64 = a := by omega
  have e2 : (64 * a + 16 * u + 2 * i + h) % 2 = h := by omega
  have e3 : (64 * a + 16 * u + 2 * i + h) % 64 = 16 * u + 2 * i + h := by omega
  rw [e1, e2, e3, show (16 * u + 2 * i + h) / 16 = u by omega, show (16 * u + 2 * i + h) / 2 = 8 * u + i by omega,
    show (8 * u + i) % 8 = i by omega]

/-- Each bit of the 200 bytes is a bit of the state. -/
theorem bit32b_all {l l' : List Byte} (hl : l.length = 200) (hl' : l'.length = 200)
    (h : ∀ t, t < 1600 → bit32b l t = bit32b l' t) : l = l' := by
  refine List.ext_getElem (by rw [hl, hl']) fun p h1 h2 => BitVec.eq_of_getLsbD_eq fun i hi => ?_
  have e := h (64 * (p / 8) + 16 * (3 - p % 4) + 2 * i + p / 4 % 2) (by omega)
  rw [bit32b_at _ (by omega) hi (by omega), bit32b_at _ (by omega) hi (by omega), show 8 * (p / 8) + 4 * (p / 4 % 2) + (3 - (3 - p % 4)) = p by omega] at e
  rwa [List.getD_eq_getElem?_getD, List.getD_eq_getElem?_getD, List.getElem?_eq_getElem h1, List.getElem?_eq_getElem h2] at e

private theorem bit32b_il (B : Nat → Byte) {t : Nat} (ht : t < 1600) :
    bit32b (tabP 200 (ilb B)) t = (B (t / 8)).getLsbD (t % 8) := by
  obtain ⟨a, u, i, h, rfl, hu, hi, hh⟩ : ∃ a u i h, t = 64 * a + 16 * u + 2 * i + h ∧ u < 4 ∧ i < 8 ∧ h < 2 :=
    ⟨t / 64, t / 16 % 4, t / 2 % 8, t % 2, by omega, by omega, by omega, by omega⟩
  rw [bit32b_at _ hu hi hh, List.getD_eq_getElem?_getD, tabP_getElem?, if_pos (by omega)]
  show (ilb B _).getLsbD _ = _
  unfold ilb
  rw [rv4_at _ (o := 8 * a + 4 * h) (by omega) (by omega), show 3 - (3 - u) = u by omega]
  unfold il ilv
  rw [show (8 * a + 4 * h + u) / 8 = a by omega, show (8 * a + 4 * h + u) % 8 = 4 * h + u by omega, Keccak.laneByte_bit,
    decide_eq_true hi, Bool.true_and, cat_bit]
  have key : (GenP.half (Keccak.packL B a) h).getLsbD (8 * u + i) =
      (B ((64 * a + 16 * u + 2 * i + h) / 8)).getLsbD ((64 * a + 16 * u + 2 * i + h) % 8) := by
    rw [half_bit, decide_eq_true (by omega), Bool.true_and, Keccak.packL_bit _ _ _ (by omega),
      show 8 * a + (2 * (8 * u + i) + h) / 8 = (64 * a + 16 * u + 2 * i + h) / 8 by omega,
      show (2 * (8 * u + i) + h) % 8 = (64 * a + 16 * u + 2 * i + h) % 8 by omega]
  by_cases e : h = 0
  · subst e
    rw [if_pos (by omega), show 8 * (4 * 0 + u) + i = 8 * u + i by omega]
    exact key
  · obtain rfl : h = 1 := by omega
    rw [if_neg (by omega), show 8 * (4 * 1 + u) + i - 32 = 8 * u + i by omega]
    exact key

private theorem lay_list {l : List Byte} (hl : l.length = 200) : tabP 200 (ilb (Keccak.bytesS (bits32b l))) = l := by
  refine bit32b_all (tabP_length ..) hl fun t ht => ?_
  rw [bit32b_il _ ht, Keccak.bytesS_bit _ _ _ (by omega) (by omega)]
  unfold bits32b
  dsimp only
  rw [show 8 * (t / 8) + t % 8 = t by omega]

section
variable (H : C.Heap) (hf : ∀ i, H.next ≤ i → H.cells i = none) {kd : Kind} {b : Nat} {l : List Byte}

private theorem st_list {m : Mem Byte} (hm : m.length = 200) (B : Nat → Byte) : GenH.St m 0 (ilb B) = ofList (tabP 200 (ilb B)) :=
  GenH.st_M1 hm _

private theorem len_list {l : List Byte} (hl : l.length = 200) : (ofList l).length = 200 := by simp [ofList, hl]

private theorem st_of {l : List Byte} (hl : l.length = 200) : GenH.St (ofList l) 0 (ilb (Keccak.bytesS (bits32b l))) = ofList l := by
  rw [st_list (len_list hl), lay_list hl]

include hf in
/-- What the functions do to the state. -/
private theorem run32b {p : CM Unit} {B' : Nat → Byte} (hb : H.cells b = some ⟨kd, .bytes (ofList l)⟩) (hl : l.length = 200)
    (h : ∀ D F, Sat H D → D = bl kd b (ofList l) + F →
      Runs (bl kd b (GenH.St (ofList l) 0 (ilb (Keccak.bytesS (bits32b l)))) + F) p () (bl kd b (GenH.St (ofList l) 0 (ilb B')) + F)) :
    ∃ H' l', p H = some ((), H') ∧ l'.length = 200 ∧ H'.cells = upd H.cells b (some ⟨kd, .bytes (ofList l')⟩) ∧
      ∀ t, t < 1600 → bit32b l' t = (B' (t / 8)).getLsbD (t % 8) := by
  obtain ⟨D, hD⟩ := C.sat_exists H hf
  obtain ⟨F, rfl⟩ := split1 hD hb
  have hr := h _ F hD rfl
  rw [st_of hl, st_list (len_list hl)] at hr
  obtain ⟨_, H', D', h1, h2, -, rfl⟩ := hr H hD
  exact ⟨H', _, h1, tabP_length .., Sat.cells_eq (hD.put (c' := ⟨kd, .bytes (ofList (tabP 200 (ilb B')))⟩)) h2,
    fun t ht => bit32b_il _ ht⟩

include hf in
/-- **C70, permutation.** On 200 bytes `KeccakP1600_Permute_24rounds` runs without undefined behaviour and takes the state
`S` to `KECCAK-p[1600, 24](S)` of FIPS 202.  Nothing else changes. -/
theorem C70_permute (hb : H.cells b = some ⟨kd, .bytes (ofList l)⟩) (hl : l.length = 200) :
    ∃ H' l', KeccakP1600_Permute_24rounds (some ⟨b, 0⟩) H = some ((), H') ∧ l'.length = 200 ∧
      H'.cells = upd H.cells b (some ⟨kd, .bytes (ofList l')⟩) ∧ bits32b l' = keccakP (bits32b l) := by
  obtain ⟨H', l', h1, h2, h3, h4⟩ := run32b H hf hb hl fun D F hD e => permute_runs (by rw [len_list hl])
  refine ⟨H', l', h1, h2, h3, ?_⟩
  funext i
  unfold bits32b
  rw [h4 i.val i.isLt]
  unfold Keccak.keccakB
  rw [Keccak.bytesS_bit _ _ _ (by omega) (by omega), Keccak.bitsB_bytesS]
  rw [show (⟨8 * (i.val / 8) + i.val % 8, by omega⟩ : Fin 1600) = i from Fin.ext (by show 8 * (i.val / 8) + i.val % 8 = i.val; omega)]
  rfl

include hf in
/-- **C70, start.** `KeccakP1600_Initialize` sets 200 bytes in any condition to zero. -/
theorem C70_init {m : Mem Byte} (hb : H.cells b = some ⟨kd, .bytes m⟩) (hm : m.length = 200) :
    ∃ H', KeccakP1600_Initialize (some ⟨b, 0⟩) H = some ((), H') ∧
      H'.cells = upd H.cells b (some ⟨kd, .bytes (ofList (List.replicate 200 0))⟩) := by
  obtain ⟨D, hD⟩ := C.sat_exists H hf
  obtain ⟨F, rfl⟩ := split1 hD hb
  have hr := init_runs (kd := kd) (b := b) (w := 0) (F := F) (m := m) (by rw [hm])
  rw [st_list hm] at hr
  obtain ⟨_, H', D', h1, h2, -, rfl⟩ := hr H hD
  refine ⟨H', h1, ?_⟩
  rw [show List.replicate 200 0 = tabP 200 (ilb fun _ => 0) from ?_]
  · exact Sat.cells_eq (hD.put (c' := ⟨kd, .bytes (ofList (tabP 200 (ilb fun _ => 0)))⟩)) h2
  · refine bit32b_all List.length_replicate (tabP_length ..) fun t ht => ?_
    rw [bit32b_il _ ht]
    unfold bit32b
    rw [List.getD_eq_getElem?_getD, List.getElem?_replicate]
    split <;> simp

private theorem bytes_bit {l : List Byte} {t : Nat} (ht : t < 1600) :
    (Keccak.bytesS (bits32b l) (t / 8)).getLsbD (t % 8) = bit32b l t := by
  rw [Keccak.bytesS_bit _ _ _ (by omega) (by omega)]
  unfold bits32b
  dsimp only
  rw [show 8 * (t / 8) + t % 8 = t by omega]

include hf in
/-- **C70, one byte.** `KeccakP1600_AddByte` XORs the byte into byte `y` of the state. -/
theorem C70_addByte {c : Byte} {y : Nat} (hb : H.cells b = some ⟨kd, .bytes (ofList l)⟩) (hl : l.length = 200) (hy : y < 200) :
    ∃ H' l', KeccakP1600_AddByte (some ⟨b, 0⟩) c y H = some ((), H') ∧ l'.length = 200 ∧
      H'.cells = upd H.cells b (some ⟨kd, .bytes (ofList l')⟩) ∧
      ∀ t, t < 1600 → bit32b l' t = (bit32b l t ^^ (decide (t / 8 = y) && c.getLsbD (t % 8))) := by
  obtain ⟨H', l', h1, h2, h3, h4⟩ := run32b H hf hb hl fun D F hD e => addByte_runs (c := c) (by rw [len_list hl]) hy
  refine ⟨H', l', h1, h2, h3, fun t ht => ?_⟩
  rw [h4 t ht]
  unfold Keccak.xorB
  by_cases e : t / 8 = y
  · rw [if_pos (by omega), BitVec.getLsbD_xor, bytes_bit ht, decide_eq_true e, Bool.true_and]
  · rw [if_neg (by omega), bytes_bit ht, decide_eq_false e, Bool.false_and, Bool.xor_false]

private theorem src_bytes {F : Blocks} {c : Cell} {p : CPtr} {d : List Byte} (hp : BytesAt H p d) (hD : Sat H ({(b, c)} + F)) (ha : Apart p b)
    {t k : Nat} (h : t + k ≤ d.length) : GenP.Src F (padd p t) k fun j => d.getD (t + j) 0 := by
  obtain ⟨b', o, kd', m, rfl, hb', hle, hg⟩ := hp
  refine ⟨b', o + t, kd', m, rfl, mem_rest ((hD.mem _ _).1 hb') (ha _ rfl), by omega, fun j hj => ?_⟩
  unfold rd
  show _ = some (d.getD (t + j) 0)
  rw [Nat.add_assoc, hg (t + j) (by omega), List.getD_eq_getElem?_getD, List.getElem?_eq_getElem (by omega)]
  rfl

include hf in
/-- **C70, bytes in.** `KeccakP1600_AddBytes` XORs a string from outside of the state into the state from byte `x` on, for
any `x` and any length that end with the state, but for the whole state at once. -/
theorem C70_addBytes {x : Nat} {p : CPtr} {d : List Byte} (hb : H.cells b = some ⟨kd, .bytes (ofList l)⟩) (hl : l.length = 200)
    (hp : BytesAt H p d) (ha : Apart p b) (hx : x + d.length ≤ 200) (h0 : x = 0 → d.length < 200) :
    ∃ H' l', KeccakP1600_AddBytes (some ⟨b, 0⟩) p x d.length H = some ((), H') ∧ l'.length = 200 ∧
      H'.cells = upd H.cells b (some ⟨kd, .bytes (ofList l')⟩) ∧
      ∀ t, t < 1600 → bit32b l' t = (bit32b l t ^^ (decide (x ≤ t / 8) && (d.getD (t / 8 - x) 0).getLsbD (t % 8))) := by
  have hd : Has (ofList d) 0 d.length fun j => d.getD j 0 := by
    intro j hj
    rw [rd_ofList, Nat.zero_add, List.getElem?_eq_getElem hj]
    show some d[j] = some (d.getD j 0)
    rw [List.getD_eq_getElem?_getD, List.getElem?_eq_getElem hj]
    rfl
  obtain ⟨H', l', h1, h2, h3, h4⟩ := run32b H hf hb hl fun D F hD e => addBytes_src (by rw [len_list hl])
    (RdAt.view (RdAt.rest (hp.rdAt (e ▸ hD)) ha)) hd (fun _ _ h => src_bytes H hp (e ▸ hD) ha h) hx h0
  refine ⟨H', l', h1, h2, h3, fun t ht => ?_⟩
  rw [h4 t ht]
  unfold Keccak.xorB
  by_cases c2 : x ≤ t / 8
  · rw [decide_eq_true c2, Bool.true_and]
    by_cases c3 : t / 8 < x + d.length
    · rw [if_pos ⟨c2, c3⟩, BitVec.getLsbD_xor, bytes_bit ht]
    · rw [if_neg fun h => c3 h.2, bytes_bit ht, List.getD_eq_getElem?_getD, List.getElem?_eq_none (by omega)]
      simp
  · rw [if_neg fun h => c2 h.1, bytes_bit ht, decide_eq_false c2, Bool.false_and, Bool.xor_false]

include hf in
/-- **C70, bytes out.** `KeccakP1600_ExtractBytes` stores bytes `x`, …, `x + n - 1` of the state at a place outside of the
state, and nothing else; all but the whole state at once. -/
theorem C70_extract {x n : Nat} {q : Ptr} (hb : H.cells b = some ⟨kd, .bytes (ofList l)⟩) (hl : l.length = 200)
    (hq : Room H q n) (ha : q.blk ≠ b) (hx : x + n ≤ 200) (h0 : x = 0 → n < 200) :
    ∃ H' e, KeccakP1600_ExtractBytes (some ⟨b, 0⟩) (some q) x n H = some ((), H') ∧ e.length = n ∧
      H'.cells = store H.cells q e ∧ ∀ j, j < n → ∀ i, i < 8 → (e.getD j 0).getLsbD i = bit32b l (8 * (x + j) + i) := by
  obtain ⟨D, hD⟩ := C.sat_exists H hf
  obtain ⟨F, rfl⟩ := split1 hD hb
  have hv := hq.valid hD ha
  have hr := extractBytes_all (kd := kd) (b := b) (w := 0) (F := F) (m := ofList l) (B := Keccak.bytesS (bits32b l)) (by rw [len_list hl]) hv hx h0
  rw [st_of hl] at hr
  obtain ⟨_, H', D', h1, h2, -, rfl⟩ := hr H hD
  refine ⟨H', tabP n fun j => Keccak.bytesS (bits32b l) (x + j), h1, tabP_length .., cells_up hD ?_ ?_, fun j hj i hi => ?_⟩
  · rw [up_frame hD.nodup hv]
    exact h2
  · rw [tabP_length]
    exact hv.right
  · rw [List.getD_eq_getElem?_getD, tabP_getElem?, if_pos hj]
    have := bytes_bit (l := l) (t := 8 * (x + j) + i) (by omega)
    rw [show (8 * (x + j) + i) / 8 = x + j by omega, show (8 * (x + j) + i) % 8 = i by omega] at this
    exact this

include hf in
/-- **A whole state.** `KeccakP1600_ExtractBytes` from position 0 on with 200 bytes reads a 26th lane behind the state:
`KeccakP1600_ExtractBytesInLane` has no test for the length 0 (KeccakP-1600-inplace32BI.c:287-307).  With a state which ends with its
block the call is undefined.  The sponge extracts at most 168 bytes at once. -/
theorem C70_whole_state {q : Ptr} (hb : H.cells b = some ⟨kd, .bytes (ofList l)⟩) (hl : l.length = 200)
    (hq : Room H q 200) (ha : q.blk ≠ b) : KeccakP1600_ExtractBytes (some ⟨b, 0⟩) (some q) 0 200 H = none := by
  obtain ⟨D, hD⟩ := C.sat_exists H hf
  obtain ⟨F, rfl⟩ := split1 hD hb
  have hv := hq.valid hD ha
  have hr := extractLanes_runs (kd := kd) (b := b) (w := 0) (F := F) (m := ofList l) (B := Keccak.bytesS (bits32b l)) (c := 25)
    (by rw [len_list hl]) hv (by omega)
  rw [st_of hl] at hr
  obtain ⟨_, H', D', h1, h2, -, rfl⟩ := hr H hD
  have hb' : H'.cells b = some ⟨kd, .bytes (ofList l)⟩ :=
    (h2.mem _ _).2 (Multiset.mem_add.2 (Or.inl (Multiset.mem_singleton.2 rfl)))
  have hlane : ∀ p, KeccakP1600_ExtractBytesInLane (some ⟨b, 0⟩) 25 p 0 0 H' = none := by
    intro p
    have hld : ∀ H'' : C.Heap, H''.cells b = some ⟨kd, .bytes (ofList l)⟩ → ld32be (some ⟨b, 0⟩) (4 * ((25 * 2) % U32)) H'' = none := by
      intro H'' h
      have e1 : blk (α := Byte) ⟨b, 0 + 4 * ((25 * 2) % U32)⟩ H'' = some (ofList l, H'') := by
        unfold blk; rw [h]; rfl
      have e2 : ldN (α := Byte) (padd (some ⟨b, 0⟩) (4 * ((25 * 2) % U32))) 4 H'' = none := by
        show ((blk (α := Byte) ⟨b, 0 + 4 * ((25 * 2) % U32)⟩ H'') >>= fun p => lft (rdN p.1 (0 + 4 * ((25 * 2) % U32)) 4) p.2) = none
        rw [e1]
        show (lft (rdN _ _ 4) : CM _) H'' = none
        have e3 : rdN (ofList l) (0 + 4 * ((25 * 2) % U32)) 4 = none := by
          unfold rdN
          rw [if_neg (by rw [len_list hl]; decide)]
        rw [e3]
        rfl
      show (ldN (α := Byte) (padd (some ⟨b, 0⟩) (4 * ((25 * 2) % U32))) 4 H'' >>= _) = none
      rw [e2]
      rfl
    have hlt : b ≠ H'.next := fun e => by
      have := h2.fresh H'.next le_rfl
      rw [← e, hb'] at this
      cases this
    unfold KeccakP1600_ExtractBytesInLane
    dsimp only
    show (ld32be (some ⟨b, 0⟩) (4 * ((25 * 2) % U32)) ⟨H'.next + 1, upd H'.cells H'.next _⟩ >>= _) = none
    rw [hld _ (by show upd H'.cells H'.next _ b = _; rw [upd, if_neg hlt]; exact hb')]
    rfl
  unfold KeccakP1600_ExtractBytes
  rw [if_pos rfl]
  show ((KeccakP1600_ExtractLanes (some ⟨b, 0⟩) (some q) 25 H >>= _) >>= _) = none
  rw [h1]
  show ((KeccakP1600_ExtractBytesInLane (some ⟨b, 0⟩) 25 _ 0 0 H' >>= _) >>= _) = none
  rw [hlane]
  rfl

end

/-! ### The hypotheses can be met -/

private def H70 : C.Heap :=
  ⟨2, fun b => if b = 0 then some ⟨.stack, .bytes (ofList (List.replicate 200 5))⟩
    else if b = 1 then some ⟨.caller, .bytes (ofList [7, 8, 9])⟩ else none⟩

private theorem H70_fresh : ∀ i, H70.next ≤ i → H70.cells i = none := by
  intro i hi
  have : 2 ≤ i := hi
  show (if i = 0 then _ else _) = none
  rw [if_neg (by omega), if_neg (by omega)]

example : ∃ H' l', KeccakP1600_Permute_24rounds (some ⟨0, 0⟩) H70 = some ((), H') ∧ l'.length = 200 ∧
    H'.cells = upd H70.cells 0 (some ⟨.stack, .bytes (ofList l')⟩) ∧ bits32b l' = keccakP (bits32b (List.replicate 200 5)) :=
  C70_permute H70 H70_fresh rfl List.length_replicate

example : ∃ H' l', KeccakP1600_AddBytes (some ⟨0, 0⟩) (some ⟨1, 1⟩) 7 2 H70 = some ((), H') ∧ l'.length = 200 ∧
    H'.cells = upd H70.cells 0 (some ⟨.stack, .bytes (ofList l')⟩) ∧
    ∀ t, t < 1600 → bit32b l' t = (bit32b (List.replicate 200 5) t ^^
      (decide (7 ≤ t / 8) && ([(8 : Byte), 9].getD (t / 8 - 7) 0).getLsbD (t % 8))) :=
  C70_addBytes (d := [8, 9]) H70 H70_fresh rfl List.length_replicate
    ⟨1, 1, .caller, ofList [7, 8, 9], rfl, rfl, by decide, by
      intro i hi
      have : i < 2 := hi
      have : i = 0 ∨ i = 1 := by omega
      rcases this with rfl | rfl <;> rfl⟩
    (by rintro q hq; obtain rfl := Option.some.inj hq; decide) (by decide) (by decide)

example : ∃ H' e, KeccakP1600_ExtractBytes (some ⟨0, 0⟩) (some ⟨1, 0⟩) 14 3 H70 = some ((), H') ∧ e.length = 3 ∧
    H'.cells = store H70.cells ⟨1, 0⟩ e ∧ ∀ j, j < 3 → ∀ i, i < 8 → (e.getD j 0).getLsbD i = bit32b (List.replicate 200 5) (8 * (14 + j) + i) :=
  C70_extract H70 H70_fresh rfl List.length_replicate ⟨.caller, ofList [7, 8, 9], rfl, by decide⟩ (by decide) (by decide) (by decide)

/-- A string of no bytes, and the last bytes of the state. -/
example : ∃ H' l', KeccakP1600_AddBytes (some ⟨0, 0⟩) (some ⟨1, 3⟩) 0 0 H70 = some ((), H') ∧ l'.length = 200 ∧
    H'.cells = upd H70.cells 0 (some ⟨.stack, .bytes (ofList l')⟩) ∧
    ∀ t, t < 1600 → bit32b l' t = (bit32b (List.replicate 200 5) t ^^ (decide (0 ≤ t / 8) && (([] : List Byte).getD (t / 8 - 0) 0).getLsbD (t % 8))) :=
  C70_addBytes (d := []) H70 H70_fresh rfl List.length_replicate
    ⟨1, 3, .caller, ofList [7, 8, 9], rfl, rfl, by decide, fun i hi => absurd hi (Nat.not_lt_zero i)⟩
    (by rintro q hq; obtain rfl := Option.some.inj hq; decide) (by decide) (by decide)

example : ∃ H' e, KeccakP1600_ExtractBytes (some ⟨0, 0⟩) (some ⟨1, 0⟩) 197 3 H70 = some ((), H') ∧ e.length = 3 ∧
    H'.cells = store H70.cells ⟨1, 0⟩ e ∧ ∀ j, j < 3 → ∀ i, i < 8 → (e.getD j 0).getLsbD i = bit32b (List.replicate 200 5) (8 * (197 + j) + i) :=
  C70_extract H70 H70_fresh rfl List.length_replicate ⟨.caller, ofList [7, 8, 9], rfl, by decide⟩ (by decide) (by decide) (by decide)

private def H70w : C.Heap :=
  ⟨2, fun b => if b = 0 then some ⟨.stack, .bytes (ofList (List.replicate 200 5))⟩
    else if b = 1 then some ⟨.caller, .bytes (malloc 200)⟩ else none⟩

example : KeccakP1600_ExtractBytes (some ⟨0, 0⟩) (some ⟨1, 0⟩) 0 200 H70w = none :=
  C70_whole_state H70w (by
    intro i hi
    have : 2 ≤ i := hi
    show (if i = 0 then _ else _) = none
    rw [if_neg (by omega), if_neg (by omega)]) rfl List.length_replicate ⟨.caller, malloc 200, rfl, by rw [malloc_length]⟩ (by decide)

/-- One bit: bit 1 of the first lane is the lowest bit of byte 7. -/
example : bit32b ([0, 0, 0, 0, 0, 0, 0, 1] ++ List.replicate 192 0) 1 = true ∧
    bit32b ([0, 0, 0, 0, 0, 0, 0, 1] ++ List.replicate 192 0) 0 = false := by
  decide

end Faest.Props
