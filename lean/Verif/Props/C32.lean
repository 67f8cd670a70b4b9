/-
C32: the masks hide perfectly.

`u` is cut into the first `l` bits, the next `lambda` bits and the last `lambda + 16` bits.
-/
import Verif.Proofs.ProveRefine
import Verif.Proofs.ApiRefine

namespace Faest.Props
open Spec (byteFn padded zkHash listA1 listA0 rowF polyAt)

/-- The bytes of `u` given to the prover: witness part, mask of `a_tilde`, mask of `u_tilde`. -/
def uBytes (P : Params) : Nat := P.l / 8 + P.lambda / 8 + (P.lambda / 8 + 2)

/-- Everything but `u`: witness, prover's matrix, public key, the two challenges, with the sizes of `faest_sign`. -/
structure Rest (i : ParamId) where
  w : Mem Byte
  V : Mem (List Byte)
  inp : Mem Byte
  out : Mem Byte
  chall1 : List Byte
  chall2 : List Byte
  hw : ∀ t, t < (params i).l / 8 → ∃ b, rd w t = some b
  hV : ∀ c, c < (params i).lambda → ∃ col : List Byte, rd V c = some col ∧ col.length = uBytes (params i)
  hi : ∀ t, t < (params i).pkSize / 2 → ∃ b, rd inp t = some b
  ho : ∀ t, t < (params i).pkSize / 2 → ∃ b, rd out t = some b
  h1 : chall1.length = 5 * ((params i).lambda / 8) + 8
  h2 : chall2.length = 3 * ((params i).lambda / 8) + 8

/-- The published values as functions of `u`, computed as in `faest_sign` (faest.c:299, 320, 332):
`u_tilde`, `d` and `a_tilde` (with `b_tilde`). -/
def uTilde (i : ParamId) (R : Rest i) (u : List Byte) : Option (List Byte) :=
  voleHash (ofList R.chall1) (ofList u) (params i).l (params i).lambda
def dValue (i : ParamId) (R : Rest i) (u : List Byte) : Option (List Byte) :=
  xorArr R.w (ofList u) ((params i).l / 8)
def abTilde (i : ParamId) (R : Rest i) (u : List Byte) : Option (List Byte × List Byte) :=
  aesProve (params i) R.w (ofList u) R.V R.inp R.out (ofList R.chall2)

theorem has_of_rd {α : Type} [Inhabited α] {m : Mem α} {n : Nat} (h : ∀ t, t < n → ∃ b, rd m t = some b) :
    ∃ f : Nat → α, Has m 0 n f := by
  refine ⟨fun t => (rd m t).getD default, fun t ht => ?_⟩
  obtain ⟨b, hb⟩ := h t ht
  rw [Nat.zero_add]
  show _ = some ((rd m t).getD default)
  rw [hb]; rfl

theorem c32_sizes (i : ParamId) : 8 ∣ (params i).lambda ∧ (params i).l % 8 = 0 ∧
    (params i).l / 8 + 2 * ((params i).lambda / 8) + 2 = uBytes (params i) ∧
    ((params i).l + (params i).lambda) / 8 = (params i).l / 8 + (params i).lambda / 8 ∧
    (params i).l + (params i).lambda ≤ 8 * uBytes (params i) := by
  cases i <;> decide

theorem padded_padded (x : Nat → Byte) (L : Nat) : padded (padded x L) L = padded x L := by
  funext t
  unfold padded
  split
  · rfl
  · rfl

/-- VOLEHash is a hash of the first part xor the last part. -/
theorem voleHash_split (n ell : Nat) (sd x : Nat → Byte) (t : Nat) :
    Spec.voleHash n ell sd x t
      = Spec.voleHash n ell sd (padded x ((ell + n) / 8)) t ^^^ x ((ell + n) / 8 + t) := by
  unfold Spec.voleHash Spec.uhH0 Spec.uhH1
  rw [padded_padded]
  have : padded x ((ell + n) / 8) ((ell + n) / 8 + t) = 0#8 := if_neg (by omega)
  rw [this, BitVec.xor_zero]

/-- The published values, written out. -/
theorem published (i : ParamId) (R : Rest i) : ∃ (wf A : Nat → Byte) (H : (Nat → Byte) → Nat → Byte) (b : List Byte),
    (∀ x y : Nat → Byte, (∀ t, t < (params i).l / 8 + (params i).lambda / 8 → x t = y t) → H x = H y) ∧
    ∀ u : List Byte, u.length = uBytes (params i) →
      dValue i R u = some (tabP ((params i).l / 8) fun t => wf t ^^^ byteFn u t) ∧
      abTilde i R u = some (tabP ((params i).lambda / 8) (fun t => A t ^^^ byteFn u ((params i).l / 8 + t)), b) ∧
      uTilde i R u = some (tabP ((params i).lambda / 8 + 2) fun t =>
        H (byteFn u) t ^^^ byteFn u ((params i).l / 8 + (params i).lambda / 8 + t)) := by
  obtain ⟨h8, hl8, hu, hL, hL8⟩ := c32_sizes i
  have hn : fieldBits (params i).lambda = (params i).lambda := by cases i <;> rfl
  have hl : BF.LamSize (params i).lambda := by rw [← hn]; exact lamSize_fieldBits _
  obtain ⟨wf, hw⟩ := has_of_rd R.hw
  obtain ⟨I, hI⟩ := has_of_rd R.hi
  obtain ⟨O, hO⟩ := has_of_rd R.ho
  obtain ⟨cols, hcols⟩ : ∃ cols : Nat → List Byte, ∀ c, c < (params i).lambda →
      rd R.V c = some (cols c) ∧ (cols c).length = uBytes (params i) := by
    refine ⟨fun c => (rd R.V c).getD [], fun c hc => ?_⟩
    obtain ⟨col, h1, h2⟩ := R.hV c hc
    refine ⟨?_, ?_⟩ <;> simp only [h1, Option.getD_some]
    exact h2
  have hV : ∀ c, c < (params i).lambda → rd R.V c = some (tabP (uBytes (params i)) (byteFn (cols c))) := by
    intro c hc
    obtain ⟨h1, h2⟩ := hcols c hc
    rw [h1, ← h2, tabP_byteFn]
  have hc1 : Has (ofList R.chall1) 0 (5 * ((params i).lambda / 8) + 8) (byteFn R.chall1) := by
    rw [← R.h1]; exact has_byteFn _
  have hc2 : Has (ofList R.chall2) 0 (3 * ((params i).lambda / 8) + 8) (byteFn R.chall2) := by
    rw [← R.h2]; exact has_byteFn _
  refine ⟨wf, byteAt (zkHash (params i).lambda (byteFn R.chall2)
      (listA1 (params i) I O wf (rowF (params i).lambda fun c => byteFn (cols c))) 0),
    fun x t => Spec.voleHash (params i).lambda (params i).l (byteFn R.chall1)
      (padded x ((params i).l / 8 + (params i).lambda / 8)) t,
    (zkHash (params i).lambda (byteFn R.chall2)
      (listA0 (params i) I O (rowF (params i).lambda fun c => byteFn (cols c)))
      (polyAt fun j => rowF (params i).lambda (fun c => byteFn (cols c)) ((params i).l + j))).toBytes,
    ?_, fun u hlu => ⟨?_, ?_, ?_⟩⟩
  · intro x y h
    have : padded x ((params i).l / 8 + (params i).lambda / 8)
        = padded y ((params i).l / 8 + (params i).lambda / 8) := by
      funext t
      unfold padded
      split
      · exact h t ‹_›
      · rfl
    simp only [this]
  · have hub := has_byteFn u
    rw [hlu] at hub
    exact xorArr_ok hw (hub.mono (by unfold uBytes; omega))
  · have hub := has_byteFn u
    rw [hlu] at hub
    unfold abTilde
    rw [aesProve_ok i hn hw (hub.mono (by unfold uBytes; omega)) hV hL8 hI hO hc2]
    congr 2
    rw [toBytes_eq]
    refine tabP_congr fun t ht => ?_
    have e : zkHash (params i).lambda (byteFn R.chall2)
        (listA1 (params i) I O wf (rowF (params i).lambda fun c => byteFn (cols c)))
        (loadF (params i).lambda fun t => byteFn u ((params i).l / 8 + t))
        = zkHash (params i).lambda (byteFn R.chall2)
          (listA1 (params i) I O wf (rowF (params i).lambda fun c => byteFn (cols c))) 0
        + loadF (params i).lambda fun t => byteFn u ((params i).l / 8 + t) := by
      unfold zkHash
      rw [add_zero]
    show byteAt _ t = _
    rw [e, byteAt_add]
    congr 1
    exact byteAt_ofBytes h8 _ _ ht
  · have hub := has_byteFn u
    rw [hlu, ← hu] at hub
    unfold uTilde voleHash
    rw [hn, voleHashN_ok hl hl8 hc1 hub]
    congr 1
    refine tabP_congr fun t ht => ?_
    rw [voleHash_split, hL]

theorem xor_cancel (a b : Byte) : a ^^^ (a ^^^ b) = b := by
  rw [← BitVec.xor_assoc, BitVec.xor_self, BitVec.zero_xor]

theorem xor_inj {a b c : Byte} (h : a ^^^ b = a ^^^ c) : b = c := by
  rw [← xor_cancel a b, h, xor_cancel]

/-- **C32 (d).** The first `l` bits of `u` determine `d` and `d` determines them; the other bits do not matter. -/
theorem C32_d (i : ParamId) (R : Rest i) (rest : List Byte)
    (hr : rest.length = (params i).lambda / 8 + ((params i).lambda / 8 + 2)) (d : List Byte)
    (hd : d.length = (params i).l / 8) :
    ∃! u0 : List Byte, u0.length = (params i).l / 8 ∧ dValue i R (u0 ++ rest) = some d := by
  obtain ⟨wf, A, H, b, -, hp⟩ := published i R
  have hlen : ∀ u0 : List Byte, u0.length = (params i).l / 8 → (u0 ++ rest).length = uBytes (params i) := by
    intro u0 h
    rw [List.length_append, h, hr, uBytes]; omega
  refine ⟨tabP ((params i).l / 8) fun t => wf t ^^^ byteFn d t, ⟨tabP_length .., ?_⟩, ?_⟩
  · rw [(hp _ (hlen _ (tabP_length ..))).1]
    congr 1
    symm
    refine list_eq_tabP _ _ _ hd fun t ht => ?_
    rw [byteFn_append_left (by rw [tabP_length]; exact ht), byteFn_tabP ht, xor_cancel, byteFn_getElem? hd ht]
  · rintro u0 ⟨h1, h2⟩
    rw [(hp _ (hlen _ h1)).1] at h2
    have h2 := Option.some.inj h2
    refine list_eq_tabP _ _ _ h1 fun t ht => ?_
    rw [← h2, byteFn_tabP ht, xor_cancel, byteFn_append_left (by rw [h1]; exact ht), byteFn_getElem? h1 ht]

/-- **C32 (a_tilde).** For fixed other bits of `u`, the `lambda` bits following the witness bits and `a_tilde`
determine each other; `b_tilde` does not depend on `u` at all. -/
theorem C32_a_tilde (i : ParamId) (R : Rest i) : ∃ b : List Byte, ∀ pre post : List Byte,
    pre.length = (params i).l / 8 → post.length = (params i).lambda / 8 + 2 → ∀ a : List Byte,
    a.length = (params i).lambda / 8 →
    ∃! u1 : List Byte, u1.length = (params i).lambda / 8 ∧ abTilde i R (pre ++ u1 ++ post) = some (a, b) := by
  obtain ⟨wf, A, H, b, -, hp⟩ := published i R
  refine ⟨b, fun pre post hpre hpost a ha => ?_⟩
  have hlen : ∀ u1 : List Byte, u1.length = (params i).lambda / 8 →
      (pre ++ u1 ++ post).length = uBytes (params i) := by
    intro u0 h
    rw [List.length_append, List.length_append, h, hpre, hpost, uBytes]
  have hget : ∀ u1 : List Byte, u1.length = (params i).lambda / 8 → ∀ t, t < (params i).lambda / 8 →
      byteFn (pre ++ u1 ++ post) ((params i).l / 8 + t) = byteFn u1 t := by
    intro u1 h1 t ht
    rw [byteFn_append_left (by rw [List.length_append, h1, hpre]; omega), ← hpre]
    rw [byteFn_append_right (Nat.le_add_right ..), Nat.add_sub_cancel_left]
  refine ⟨tabP ((params i).lambda / 8) fun t => A t ^^^ byteFn a t, ⟨tabP_length .., ?_⟩, ?_⟩
  · rw [(hp _ (hlen _ (tabP_length ..))).2.1]
    congr 2
    symm
    refine list_eq_tabP _ _ _ ha fun t ht => ?_
    rw [hget _ (tabP_length ..) t ht, byteFn_tabP ht, xor_cancel, byteFn_getElem? ha ht]
  · rintro u1 ⟨h1, h2⟩
    rw [(hp _ (hlen _ h1)).2.1] at h2
    have h2 := (Prod.mk.inj (Option.some.inj h2)).1
    refine list_eq_tabP _ _ _ h1 fun t ht => ?_
    rw [← h2, byteFn_tabP ht, xor_cancel, hget _ h1 t ht, byteFn_getElem? h1 ht]

/-- **C32 (u_tilde).** For fixed first bits of `u`, the last `lambda + 16` bits and `u_tilde` determine each other. -/
theorem C32_u_tilde (i : ParamId) (R : Rest i) (pre : List Byte)
    (hpre : pre.length = (params i).l / 8 + (params i).lambda / 8) (ut : List Byte)
    (hut : ut.length = (params i).lambda / 8 + 2) :
    ∃! u2 : List Byte, u2.length = (params i).lambda / 8 + 2 ∧ uTilde i R (pre ++ u2) = some ut := by
  obtain ⟨wf, A, H, b, hH, hp⟩ := published i R
  have hlen : ∀ u2 : List Byte, u2.length = (params i).lambda / 8 + 2 → (pre ++ u2).length = uBytes (params i) := by
    intro u2 h
    rw [List.length_append, h, hpre, uBytes]
  have hget : ∀ (u2 : List Byte) (t : Nat),
      byteFn (pre ++ u2) ((params i).l / 8 + (params i).lambda / 8 + t) = byteFn u2 t := by
    intro u2 t
    rw [← hpre]
    rw [byteFn_append_right (Nat.le_add_right ..), Nat.add_sub_cancel_left]
  have hHp : ∀ u2 : List Byte, H (byteFn (pre ++ u2)) = H (byteFn pre) := by
    intro u2
    refine hH _ _ fun t ht => ?_
    exact byteFn_append_left (by rw [hpre]; exact ht)
  refine ⟨tabP ((params i).lambda / 8 + 2) fun t => H (byteFn pre) t ^^^ byteFn ut t, ⟨tabP_length .., ?_⟩, ?_⟩
  · rw [(hp _ (hlen _ (tabP_length ..))).2.2]
    congr 1
    symm
    refine list_eq_tabP _ _ _ hut fun t ht => ?_
    rw [hget, hHp, byteFn_tabP ht, xor_cancel, byteFn_getElem? hut ht]
  · rintro u2 ⟨h1, h2⟩
    rw [(hp _ (hlen _ h1)).2.2] at h2
    have h2 := Option.some.inj h2
    refine list_eq_tabP _ _ _ h1 fun t ht => ?_
    rw [← h2, byteFn_tabP ht, hHp, xor_cancel, hget, byteFn_getElem? h1 ht]

/-- **C32 (all together).** For every witness, matrix, public key and pair of challenges, the map from `u` to
`(d, a_tilde, u_tilde)` is a bijection onto the triples of strings of the right lengths.  So for uniform `u` the
triple is uniform. -/
theorem C32_bijection (i : ParamId) (R : Rest i) (d a ut : List Byte) (hd : d.length = (params i).l / 8)
    (ha : a.length = (params i).lambda / 8) (hut : ut.length = (params i).lambda / 8 + 2) :
    ∃! u : List Byte, u.length = uBytes (params i) ∧ dValue i R u = some d ∧
      (abTilde i R u).map Prod.fst = some a ∧ uTilde i R u = some ut := by
  obtain ⟨wf, A, H, b, hH, hp⟩ := published i R
  let x : Nat → Byte := fun t => if t < (params i).l / 8 then wf t ^^^ byteFn d t else
    A (t - (params i).l / 8) ^^^ byteFn a (t - (params i).l / 8)
  let uf : Nat → Byte := fun t => if t < (params i).l / 8 + (params i).lambda / 8 then x t else
    H x (t - ((params i).l / 8 + (params i).lambda / 8))
      ^^^ byteFn ut (t - ((params i).l / 8 + (params i).lambda / 8))
  have hN : uBytes (params i) = (params i).l / 8 + (params i).lambda / 8 + ((params i).lambda / 8 + 2) := rfl
  refine ⟨tabP (uBytes (params i)) uf, ⟨tabP_length .., ?_, ?_, ?_⟩, ?_⟩
  · rw [(hp _ (tabP_length ..)).1]
    congr 1
    symm
    refine list_eq_tabP _ _ _ hd fun t ht => ?_
    rw [byteFn_tabP (by omega)]
    show _ = some (wf t ^^^ (if _ then (if _ then _ else _) else _))
    rw [if_pos (by omega), if_pos ht, xor_cancel, byteFn_getElem? hd ht]
  · rw [(hp _ (tabP_length ..)).2.1]
    show some _ = _
    congr 1
    symm
    refine list_eq_tabP _ _ _ ha fun t ht => ?_
    rw [byteFn_tabP (by omega)]
    show _ = some (A t ^^^ (if _ then (if _ then _ else _) else _))
    rw [if_pos (by omega), if_neg (by omega), Nat.add_sub_cancel_left, xor_cancel, byteFn_getElem? ha ht]
  · have hHx : H (byteFn (tabP (uBytes (params i)) uf)) = H x := by
      refine hH _ _ fun t ht => ?_
      rw [byteFn_tabP (by omega)]
      show (if _ then x t else _) = _
      rw [if_pos ht]
    rw [(hp _ (tabP_length ..)).2.2, hHx]
    congr 1
    symm
    refine list_eq_tabP _ _ _ hut fun t ht => ?_
    rw [byteFn_tabP (by omega)]
    show _ = some (H x t ^^^ (if _ then _ else _))
    rw [if_neg (by omega), Nat.add_sub_cancel_left, xor_cancel, byteFn_getElem? hut ht]
  · rintro u ⟨h1, h2, h3, h4⟩
    rw [(hp _ h1).1] at h2
    rw [(hp _ h1).2.1] at h3
    rw [(hp _ h1).2.2] at h4
    have h2 := Option.some.inj h2
    have h3 : tabP _ _ = a := Option.some.inj h3
    have h4 := Option.some.inj h4
    have hx : ∀ t, t < (params i).l / 8 + (params i).lambda / 8 → byteFn u t = x t := by
      intro t ht
      show _ = if _ then _ else _
      split
      · rw [← h2, byteFn_tabP ‹_›, xor_cancel]
      · rw [← h3, byteFn_tabP (by omega), xor_cancel]
        congr 1
        omega
    refine list_eq_tabP _ _ _ h1 fun t ht => ?_
    rw [byteFn_getElem? h1 ht]
    show _ = some (if _ then _ else _)
    split
    · rw [hx t ‹_›]
    · rw [← h4, byteFn_tabP (by omega), hH _ _ hx, xor_cancel]
      congr 2
      omega

/-- Hence the published values say nothing about the witness: any two witnesses (and matrices, keys, challenges)
give the same values, each for exactly one `u`. -/
theorem C32_independent (i : ParamId) (R R' : Rest i) (u : List Byte) (hu : u.length = uBytes (params i)) :
    ∃! u' : List Byte, u'.length = uBytes (params i) ∧ dValue i R' u' = dValue i R u ∧
      (abTilde i R' u').map Prod.fst = (abTilde i R u).map Prod.fst ∧ uTilde i R' u' = uTilde i R u := by
  obtain ⟨wf, A, H, b, hH, hp⟩ := published i R
  obtain ⟨e1, e2, e3⟩ := hp u hu
  rw [e1, e2, e3]
  exact C32_bijection i R' _ _ _ (tabP_length ..) (tabP_length ..) (tabP_length ..)

-- data of the right sizes
example : ∃ R : Rest .p128F, rd R.w 3 = some 5 :=
  ⟨{ w := full 200 fun t => BitVec.ofNat 8 (t + 2)
     V := full 128 fun c => List.replicate (uBytes (params .p128F)) (BitVec.ofNat 8 c)
     inp := full 16 fun t => BitVec.ofNat 8 t
     out := full 16 fun t => BitVec.ofNat 8 (t * t)
     chall1 := List.replicate 88 7
     chall2 := List.replicate 56 9
     hw := fun t ht => ⟨_, rd_full (Nat.lt_of_lt_of_le ht (by decide))⟩
     hV := fun c hc => ⟨_, rd_full hc, List.length_replicate ..⟩
     hi := fun t ht => ⟨_, rd_full ht⟩
     ho := fun t ht => ⟨_, rd_full ht⟩
     h1 := rfl
     h2 := rfl }, rfl⟩

end Faest.Props
