/-
Lemmas for tools/PQCgenKAT_sign.c: text.
-/
import Verif.Model.KatGen
import Verif.Spec.KatGen
import Verif.Proofs.Rng
import Verif.Props.C72
import Verif.Props.C02

namespace Faest.KatGen
open Spec.Kat (decimal hexadecimal)

/-! ### Searching -/

/-- The loop of `FindMarker` on `line` and the rest of the file: found behind `pre`. -/
theorem findLoop_found {marker : Text} : ∀ (pre : Text) (line s rest : Text), line.length = marker.length →
    line ++ s = pre ++ marker ++ rest → (∀ k < pre.length, ((pre ++ marker).drop k).take marker.length ≠ marker) →
    findLoop marker s line = (true, rest) := by
  intro pre
  induction pre with
  | nil =>
    intro line s rest hl he _
    rw [List.nil_append] at he
    obtain ⟨rfl, rfl⟩ := List.append_inj he hl
    cases s <;> (unfold findLoop; rw [if_pos rfl])
  | cons c pre ih =>
    intro line s rest hl he hn
    have hline : line = ((c :: pre ++ marker).drop 0).take marker.length := by
      have h1 : line = (line ++ s).take marker.length := by rw [← hl, List.take_left]
      rw [h1, he, List.drop_zero, List.take_append_of_le_length (by rw [List.length_append]; omega)]
    have hne : line ≠ marker := by
      rw [hline]; exact hn 0 (by simp)
    have hs : s ≠ [] := by
      rintro rfl
      have := congrArg List.length he
      simp only [List.length_append, List.length_cons, List.length_nil] at this
      omega
    obtain ⟨d, s, rfl⟩ := List.exists_cons_of_ne_nil hs
    unfold findLoop
    rw [if_neg hne]
    have hm : marker.length ≠ 0 := by
      intro h
      rw [h] at hl
      exact hne (by rw [List.length_eq_zero_iff.1 hl, List.length_eq_zero_iff.1 h])
    obtain ⟨a, line, rfl⟩ := List.exists_cons_of_length_pos (l := line) (by omega)
    refine ih _ s rest (by simp only [List.drop_succ_cons, List.drop_zero, List.length_append, List.length_cons, List.length_nil] at hl ⊢; exact hl) ?_ ?_
    · simp only [List.cons_append, List.cons.injEq] at he
      simpa using he.2
    · intro k hk
      have := hn (k + 1) (by simpa using hk)
      simpa using this

/-- Not found. -/
theorem findLoop_missing {marker : Text} : ∀ (s line : Text), line.length = marker.length →
    (∀ k, k + marker.length ≤ (line ++ s).length → ((line ++ s).drop k).take marker.length ≠ marker) →
    findLoop marker s line = (false, []) := by
  intro s
  induction s with
  | nil =>
    intro line hl hn
    have := hn 0 (by simp [hl])
    simp only [List.append_nil, List.drop_zero, ← hl, List.take_length] at this
    unfold findLoop
    rw [if_neg this]
  | cons c s ih =>
    intro line hl hn
    have h0 := hn 0 (by simp [hl])
    rw [List.drop_zero, ← hl, List.take_left] at h0
    unfold findLoop
    rw [if_neg h0]
    have hm : marker.length ≠ 0 := by
      intro h
      rw [h] at hl
      exact h0 (by rw [List.length_eq_zero_iff.1 hl, List.length_eq_zero_iff.1 h])
    obtain ⟨a, line, rfl⟩ := List.exists_cons_of_length_pos (l := line) (by omega)
    refine ih _ (by simp only [List.drop_succ_cons, List.drop_zero, List.length_append, List.length_cons, List.length_nil] at hl ⊢; exact hl) ?_
    intro k hk
    have := hn (k + 1) (by simp at hk ⊢; omega)
    simpa using this

theorem find_found {marker pre rest : Text} (hm : marker.length ≤ 49) (hn : ∀ k < pre.length, ((pre ++ marker).drop k).take marker.length ≠ marker) :
    findMarker (pre ++ marker ++ rest) marker = (true, rest) := by
  unfold findMarker
  dsimp only
  rw [if_neg (show ¬ marker.length > 50 - 1 by omega)]
  rw [if_neg (by simp only [List.length_append]; omega), List.take_length]
  exact findLoop_found pre _ _ rest (by rw [List.length_take]; simp only [List.length_append]; omega) (List.take_append_drop _ _) hn

theorem find_missing {marker s : Text} (hm : marker.length ≤ 49) (hn : ∀ k, k + marker.length ≤ s.length → (s.drop k).take marker.length ≠ marker) :
    findMarker s marker = (false, []) := by
  unfold findMarker
  dsimp only
  rw [if_neg (show ¬ marker.length > 50 - 1 by omega)]
  by_cases h : s.length < marker.length
  · rw [if_pos h]
  · rw [if_neg h, List.take_length]
    refine findLoop_missing _ _ (by rw [List.length_take]; omega) ?_
    rw [List.take_append_drop]
    exact hn

/-! ### Numbers -/

theorem hexDigit_eq : ∀ d < 16, hexDigit d = Spec.Kat.digit d := by decide

theorem digit_dec : ∀ d < 10, isDigit (hexDigit d) = true ∧ isSpace (hexDigit d) = false ∧ (hexDigit d).toNat - '0'.toNat = d := by decide

theorem digit_hex : ∀ d < 16, isXdigit (hexDigit d) = true ∧ ich (hexDigit d) = BitVec.ofNat 8 d := by decide

theorem dec_eq (n : Nat) : dec n = decimal n := by
  induction n using Nat.strong_induction_on with
  | _ n ih =>
    rw [dec]
    by_cases h : n < 10
    · rw [if_pos h, hexDigit_eq n (by omega)]
      unfold decimal
      by_cases h0 : n = 0
      · subst h0; rfl
      · rw [if_neg h0, Nat.digits_of_lt 10 n h0 h]; rfl
    · rw [if_neg h, ih _ (by omega), hexDigit_eq _ (by omega)]
      unfold decimal
      rw [if_neg (by omega), if_neg (by omega), Nat.digits_def' (n := n) (by decide) (by omega)]
      simp

theorem dec_facts (n : Nat) : dec n ≠ [] ∧ (∀ c ∈ dec n, isDigit c = true ∧ isSpace c = false) ∧
    (dec n).foldl (fun a c => 10 * a + (c.toNat - '0'.toNat)) 0 = n := by
  induction n using Nat.strong_induction_on with
  | _ n ih =>
    rw [dec]
    by_cases h : n < 10
    · rw [if_pos h]
      obtain ⟨h1, h2, h3⟩ := digit_dec n h
      refine ⟨by simp, fun c hc => ?_, ?_⟩
      · rw [List.mem_singleton] at hc; subst hc; exact ⟨h1, h2⟩
      · rw [List.foldl_cons, List.foldl_nil, h3, Nat.mul_zero, Nat.zero_add]
    · rw [if_neg h]
      obtain ⟨-, h2, h3⟩ := ih (n / 10) (by omega)
      obtain ⟨d1, d2, d3⟩ := digit_dec (n % 10) (by omega)
      refine ⟨by simp, fun c hc => ?_, ?_⟩
      · rcases List.mem_append.1 hc with hc | hc
        · exact h2 c hc
        · rw [List.mem_singleton] at hc; subst hc; exact ⟨d1, d2⟩
      · rw [List.foldl_append, h3, List.foldl_cons, List.foldl_nil, d3]
        omega

/-- A number written is read. -/
theorem scan_dec {max n : Nat} {rest : Text} (h : n ≤ max) : scanDec max (dec n ++ '\n' :: rest) = some (n, '\n' :: rest) := by
  obtain ⟨h1, h2, h3⟩ := dec_facts n
  have e1 : (dec n ++ '\n' :: rest).dropWhile isSpace = dec n ++ '\n' :: rest := by
    obtain ⟨c, t, e⟩ := List.exists_cons_of_ne_nil h1
    rw [e, List.cons_append, List.dropWhile_cons_of_neg]
    rw [(h2 c (by rw [e]; exact List.mem_cons_self)).2]
    simp
  have e2 : (dec n ++ '\n' :: rest).takeWhile isDigit = dec n := by
    rw [List.takeWhile_append_of_pos fun c hc => (h2 c hc).1, List.takeWhile_cons_of_neg (by decide), List.append_nil]
  have e3 : (dec n ++ '\n' :: rest).dropWhile isDigit = '\n' :: rest := by
    rw [List.dropWhile_append_of_pos fun c hc => (h2 c hc).1, List.dropWhile_cons_of_neg (by decide)]
  unfold scanDec
  dsimp only
  rw [e1, e2, e3, h3, if_neg (by rintro (h | h); exact h1 h; omega)]

/-! ### Hexadecimal -/

/-- Shifting a digit into a string of bytes. -/
def shl : List Byte → Byte → List Byte
  | [], _ => []
  | [a], d => [a <<< 4 ||| d]
  | a :: b :: r, d => (a <<< 4 ||| b >>> 4) :: shl (b :: r) d

theorem shl_length : ∀ (l : List Byte) (d : Byte), (shl l d).length = l.length
  | [], _ => rfl
  | [_], _ => rfl
  | _ :: b :: r, d => by rw [shl, List.length_cons, shl_length (b :: r) d]; rfl

theorem shl_get : ∀ (l : List Byte) (d : Byte) (k : Nat) (a b : Byte), l[k]? = some a → l[k + 1]? = some b → (shl l d)[k]? = some (a <<< 4 ||| b >>> 4)
  | [], _, k, a, b, h, _ => by simp at h
  | [_], _, k, a, b, _, h => by simp at h
  | x :: y :: r, d, 0, a, b, h, h' => by
    simp only [List.getElem?_cons_zero, Nat.zero_add, List.getElem?_cons_succ, Option.some.injEq] at h h'
    subst h h'
    rw [shl]; rfl
  | x :: y :: r, d, k + 1, a, b, h, h' => by
    rw [List.getElem?_cons_succ] at h h'
    rw [shl, List.getElem?_cons_succ]
    exact shl_get (y :: r) d k a b h h'

theorem shl_last : ∀ (l : List Byte) (d : Byte) (k : Nat) (a : Byte), l[k]? = some a → l.length = k + 1 → (shl l d)[k]? = some (a <<< 4 ||| d)
  | [], _, k, a, h, _ => by simp at h
  | [x], d, k, a, h, hl => by
    obtain rfl : k = 0 := by simpa using hl.symm
    simp only [List.getElem?_cons_zero, Option.some.injEq] at h
    subst h; rfl
  | x :: y :: r, d, 0, a, h, hl => by simp at hl
  | x :: y :: r, d, k + 1, a, h, hl => by
    rw [List.getElem?_cons_succ] at h
    rw [shl, List.getElem?_cons_succ]
    exact shl_last (y :: r) d k a h (by simpa using hl)

theorem wr_list {l : List Byte} {k : Nat} {v : Byte} (h : k < l.length) : wr (ofList l) k v = some (ofList (l.set k v)) := by
  unfold wr
  rw [if_pos (by rw [ofList_length]; exact h)]
  unfold ofList
  rw [List.map_set]

theorem step_list {l s : List Byte} {k : Nat} {v : Byte} (hl : s.length = l.length) (hk : k < l.length) (hv : s[k]? = some v) :
    (s.take k ++ l.drop k).set k v = s.take (k + 1) ++ l.drop (k + 1) := by
  have hks : k < s.length := by omega
  rw [List.set_append, if_neg (by rw [List.length_take]; omega), List.length_take, Nat.min_eq_left (by omega), Nat.sub_self,
    List.drop_eq_getElem_cons hk, List.set_cons_zero, List.take_add_one, hv, Option.toList_some, List.append_assoc]
  rfl

theorem shift_list {l : List Byte} {n : Nat} {d : Byte} (hn : l.length = n) (h0 : 0 < n) : shiftIn (ofList l) n d = some (ofList (shl l d)) := by
  have hs := shl_length l d
  have loop : ∀ k ≤ n - 1, forN k (ofList l) (fun i A => do
      let a ← rd A i
      let b ← rd A (i + 1)
      wr A i (a <<< 4 ||| b >>> 4)) = some (ofList ((shl l d).take k ++ l.drop k)) := by
    intro k
    induction k with
    | zero => intro _; rfl
    | succ k ih =>
      intro hk
      have e0 : ((shl l d).take k ++ l.drop k)[k]? = l[k]? := by
        rw [List.getElem?_append_right (by rw [List.length_take]; omega), List.length_take, Nat.min_eq_left (by omega), Nat.sub_self,
          List.getElem?_drop, Nat.add_zero]
      have e1 : ((shl l d).take k ++ l.drop k)[k + 1]? = l[k + 1]? := by
        rw [List.getElem?_append_right (by rw [List.length_take]; omega), List.length_take, Nat.min_eq_left (by omega),
          show k + 1 - k = 1 from by omega, List.getElem?_drop]
      have hk0 : k < l.length := by omega
      have hk1 : k + 1 < l.length := by omega
      rw [List.getElem?_eq_getElem hk0] at e0
      rw [List.getElem?_eq_getElem hk1] at e1
      unfold forN
      rw [ih (by omega), Option.bind_some, rd_ofList, e0, Option.bind_eq_bind, Option.bind_some, rd_ofList, e1, Option.bind_some,
        wr_list (by rw [List.length_append, List.length_take, List.length_drop]; omega),
        step_list hs hk0 (shl_get l d k _ _ (List.getElem?_eq_getElem hk0) (List.getElem?_eq_getElem hk1))]
  have hk0 : n - 1 < l.length := by omega
  have e0 : ((shl l d).take (n - 1) ++ l.drop (n - 1))[n - 1]? = l[n - 1]? := by
    rw [List.getElem?_append_right (by rw [List.length_take]; omega), List.length_take, Nat.min_eq_left (by omega), Nat.sub_self,
      List.getElem?_drop, Nat.add_zero]
  rw [List.getElem?_eq_getElem hk0] at e0
  unfold shiftIn
  rw [loop _ le_rfl, Option.bind_eq_bind, Option.bind_some, rd_ofList, e0, Option.bind_eq_bind, Option.bind_some,
    wr_list (by rw [List.length_append, List.length_take, List.length_drop]; omega),
    step_list hs hk0 (shl_last l d (n - 1) _ (List.getElem?_eq_getElem hk0) (by omega)),
    show n - 1 + 1 = n from by omega, ← hn, List.drop_length, List.append_nil, ← hs, List.take_length]

/-- Two digits are a byte. -/
def pack : List Nat → List Byte
  | a :: b :: r => BitVec.ofNat 8 (16 * a + b) :: pack r
  | _ => []

theorem byte_shl : ∀ a < 16, ∀ b < 16, (BitVec.ofNat 8 (16 * a + b)) <<< 4 = BitVec.ofNat 8 (16 * b) := by decide +kernel
theorem byte_shr : ∀ a < 16, ∀ b < 16, (BitVec.ofNat 8 (16 * a + b)) >>> 4 = BitVec.ofNat 8 a := by decide +kernel
theorem byte_or : ∀ a < 16, ∀ b < 16, (BitVec.ofNat 8 (16 * a)) ||| BitVec.ofNat 8 b = BitVec.ofNat 8 (16 * a + b) := by decide +kernel

theorem shl_pack : ∀ (ns : List Nat), 2 ∣ ns.length → (∀ x ∈ ns, x < 16) → ∀ d < 16,
    shl (pack ns) (BitVec.ofNat 8 d) = pack (ns.drop 1 ++ [d])
  | [], _, _, _, _ => rfl
  | [_], h, _, _, _ => by simp at h
  | [a, b], _, hx, d, hd => by
    have ha := hx a (by simp)
    have hb := hx b (by simp)
    show [(BitVec.ofNat 8 (16 * a + b) : Byte) <<< 4 ||| BitVec.ofNat 8 d] = [BitVec.ofNat 8 (16 * b + d)]
    rw [byte_shl a ha b hb, byte_or b hb d hd]
  | [_, _, _], h, _, _, _ => by simp at h
  | a :: b :: c :: e :: r, h, hx, d, hd => by
    have ha := hx a (by simp)
    have hb := hx b (by simp)
    have hc := hx c (by simp)
    have he := hx e (by simp)
    have ih := shl_pack (c :: e :: r) (by simp only [List.length_cons] at h ⊢; omega) (fun x h => hx x (by simp at h ⊢; tauto)) d hd
    show ((BitVec.ofNat 8 (16 * a + b) : Byte) <<< 4 ||| (BitVec.ofNat 8 (16 * c + e) : Byte) >>> 4) :: shl (pack (c :: e :: r)) (BitVec.ofNat 8 d) = BitVec.ofNat 8 (16 * b + c) :: pack (e :: r ++ [d])
    rw [byte_shl a ha b hb, byte_shr c hc e he, byte_or b hb c hc, ih]
    rfl

theorem pack_length : ∀ ns : List Nat, (pack ns).length = ns.length / 2
  | [] => rfl
  | [_] => by simp [pack]
  | _ :: _ :: r => by rw [pack, List.length_cons, pack_length r, List.length_cons, List.length_cons]; omega

/-- The loop of `ReadHex` on digits. -/
theorem hexLoop_digits {n : Nat} {rest : Text} (h0 : 0 < n) : ∀ (ds ns : List Nat) (st : Bool), (∀ x ∈ ds, x < 16) → (∀ x ∈ ns, x < 16) →
    ns.length = 2 * n → (st = true ∨ ds ≠ []) →
    hexLoop n (ds.map hexDigit ++ '\n' :: rest) st (ofList (pack ns)) = some (ofList (pack ((ns ++ ds).drop ds.length)), rest) := by
  intro ds
  induction ds with
  | nil =>
    intro ns st _ _ _ hst
    obtain rfl : st = true := by simpa using hst
    rw [List.map_nil, List.nil_append, hexLoop, if_neg (by decide), if_pos rfl, List.append_nil, List.length_nil, List.drop_zero]
  | cons d ds ih =>
    intro ns st hd hns hl _
    have hd16 := hd d (by simp)
    obtain ⟨h1, h2⟩ := digit_hex d hd16
    rw [List.map_cons, List.cons_append, hexLoop, if_pos h1, h2, shift_list (by rw [pack_length]; omega) h0,
      shl_pack ns (by omega) hns d hd16, Option.bind_eq_bind, Option.bind_some]
    rw [ih (ns.drop 1 ++ [d]) true (fun x h => hd x (by simp [h])) ?_ (by simp; omega) (Or.inl rfl)]
    · congr 3
      obtain ⟨a, ns, rfl⟩ := List.exists_cons_of_length_pos (l := ns) (by omega)
      simp
    · intro x hx
      rcases List.mem_append.1 hx with h | h
      · exact hns x (List.mem_of_mem_drop h)
      · rw [List.mem_singleton] at h; subst h; exact hd16

/-- The digits of bytes. -/
def nibbles (l : List Byte) : List Nat := l.flatMap fun b => [b.toNat / 16, b.toNat % 16]

theorem nibbles_lt (l : List Byte) : ∀ x ∈ nibbles l, x < 16 := by
  intro x hx
  unfold nibbles at hx
  rw [List.mem_flatMap] at hx
  obtain ⟨b, -, hb⟩ := hx
  have := b.isLt
  simp only [List.mem_cons, List.not_mem_nil, or_false] at hb
  omega

theorem nibbles_length (l : List Byte) : (nibbles l).length = 2 * l.length := by
  induction l with
  | nil => rfl
  | cons b l ih => unfold nibbles at ih ⊢; rw [List.flatMap_cons, List.length_append, ih]; simp; omega

theorem pack_nibbles (l : List Byte) : pack (nibbles l) = l := by
  induction l with
  | nil => rfl
  | cons b l ih =>
    show BitVec.ofNat 8 (16 * (b.toNat / 16) + b.toNat % 16) :: pack (nibbles l) = _
    rw [ih, Nat.div_add_mod, BitVec.ofNat_toNat, BitVec.setWidth_eq]

theorem hex_nibbles (l : List Byte) : l.flatMap hex2 = (nibbles l).map hexDigit := by
  induction l with
  | nil => rfl
  | cons b l ih =>
    rw [List.flatMap_cons, ih]
    rfl

theorem hex_eq (l : List Byte) : l.flatMap hex2 = hexadecimal l := by
  unfold hexadecimal
  congr 1
  funext b
  have := b.isLt
  unfold hex2
  rw [hexDigit_eq _ (by omega), hexDigit_eq _ (by omega)]

theorem pack_zeros (n : Nat) : pack (List.replicate (2 * n) 0) = List.replicate n 0 := by
  induction n with
  | zero => rfl
  | succ n ih =>
    rw [show 2 * (n + 1) = 2 * n + 1 + 1 from by omega, List.replicate_succ, List.replicate_succ, pack, ih, List.replicate_succ]
    rfl

/-- `ReadHex` reads what `fprintBstr` has written. -/
theorem readHex_ok {s str rest : Text} {A : Mem Byte} {l : List Byte} {n : Nat} (hn : l.length = n) (h0 : 0 < n) (hA : A.length = n)
    (hf : findMarker s str = (true, l.flatMap hex2 ++ '\n' :: rest)) : readHex s A n str = some (true, ofList l, rest) := by
  have hnl := nibbles_length l
  unfold readHex
  rw [if_neg (by omega), Rng.wrN_whole (by rw [List.length_replicate, hA]), Option.bind_eq_bind, Option.bind_some]
  dsimp only
  rw [hf]
  dsimp only
  rw [if_pos rfl, ← pack_zeros, hex_nibbles, hexLoop_digits h0 _ _ _ (nibbles_lt l) ?_ (by simp) (Or.inr ?_)]
  · rw [List.drop_append_of_le_length (by rw [List.length_replicate]; omega), List.drop_eq_nil_of_le (by rw [List.length_replicate]; omega),
      List.nil_append, pack_nibbles]
    rfl
  · intro x hx
    rw [List.eq_of_mem_replicate hx]
    decide
  · intro h
    rw [h, List.length_nil] at hnl
    omega

theorem fprint_ok {S : Text} {l : List Byte} {rest : Mem Byte} {n : Nat} (hn : l.length = n) (h0 : 0 < n) :
    fprintBstr S (ofList l ++ rest) n = some (S ++ hexadecimal l ++ ['\n']) := by
  subst hn
  unfold fprintBstr
  rw [Props.rdN_append, Option.bind_eq_bind, Option.bind_some, if_neg (by omega), List.append_nil, hex_eq]
  rfl

theorem fprint_whole {S : Text} {l : List Byte} {n : Nat} (hn : l.length = n) (h0 : 0 < n) :
    fprintBstr S (ofList l) n = some (S ++ hexadecimal l ++ ['\n']) := by
  have := fprint_ok (S := S) (rest := []) hn h0
  rwa [List.append_nil] at this

end Faest.KatGen
