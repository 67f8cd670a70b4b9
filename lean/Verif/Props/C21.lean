/-
C21: the extended witness satisfies the constraints, and has exactly `l` bits.
C37: only extended witnesses of accepted keys satisfy the constraints.
C22: prover and verifier agree on the check value.
C23: for a violated constraint combination at most two challenges pass.
-/
import Verif.Proofs.WitSat
import Verif.Proofs.Concrete

namespace Faest
open Spec (conCount conIn conOut bitsL listA0 listA1 listB rowF polyAt zkHash strBit witness)

theorem params_fieldBits (i : ParamId) : fieldBits (params i).lambda = (params i).lambda :=
  fieldBits_eq (params_wf i)

theorem params_owfLen (i : ParamId) : Spec.lam i = (params i).lambda ∧
    Spec.owfInLen i = (params i).pkSize / 2 ∧ Spec.owfOutLen i = (params i).pkSize / 2 := by
  cases i <;> decide

/-- The first bytes of the witness are the key. -/
theorem witness_key (i : ParamId) (k x : Nat → Byte) {t : Nat} (ht : t < (params i).lambda / 8) :
    witness (params i) k x t = k t := by
  have h : (params i).lambda / 8 = 4 * (params i).Nwd := by cases i <;> decide
  unfold witness Spec.witEm Spec.witAes
  split <;> (beta_reduce; rw [if_pos (by omega)])

/-! ### C21 -/

/-- C21: for a key accepted by the one-way function, `aes_extend_witness` returns exactly `l` bits, and
they satisfy every constraint for the public key `(input, output)`: the product of the two sides is 1. -/
theorem C21_witness_satisfies (i : ParamId) {key inp : Mem Byte} {k x : Nat → Byte} {out : List Byte}
    (hk : Has key 0 ((params i).lambda / 8) k) (hx : Has inp 0 ((params i).pkSize / 2) x)
    (hacc : owf i key inp = some (out, true)) :
    ∃ (w : Mem Byte) (wf O : Nat → Byte), aesExtendWitness key inp (params i) = some w ∧
      8 * w.length = (params i).l ∧ Has w 0 ((params i).l / 8) wf ∧
      out = tabP ((params i).pkSize / 2) O ∧
      ∀ p, p < conCount (params i) →
        conIn (params i) x 1 (bitsL (params i).lambda wf) p
          * conOut (params i) x O 1 (bitsL (params i).lambda wf) p = 1 := by
  obtain ⟨e1, e2, e3⟩ := params_owfLen i
  obtain ⟨w, hw, hl, hwf⟩ := aesExtendWitness_ok i hk hx
  have hk' : Has key 0 ((params i).lambda / 8) (witness (params i) k x) :=
    hk.congr fun t ht => (witness_key i k x ht).symm
  obtain ⟨w', hw', -, hwf'⟩ := aesExtendWitness_ok i hk' hx
  obtain rfl : w = w' := Option.some.inj (hw.symm.trans hw')
  obtain ⟨⟨o, ok⟩, h1, h2, h3⟩ := owf_ok i (by rw [e1]; exact hk') (by rw [e2]; exact hx)
  rw [h1] at hacc
  have h4 := Option.some.inj hacc
  obtain rfl : o = out := congrArg Prod.fst h4
  obtain rfl : ok = true := congrArg Prod.snd h4
  dsimp only at h2 h3
  have h8 := (params_wf i).l8
  refine ⟨w, _, Spec.owf i (witness (params i) k x) x, hw, by omega, hwf, by rw [h2, e3], ?_⟩
  refine (satisfies_iff i (params_fieldBits i) _ _ _).2 ⟨fun t ht => ?_, h3.1 rfl, fun t _ => rfl⟩
  have := (hwf.rd0 ht).symm.trans (hwf'.rd0 ht)
  exact Option.some.inj this

/-- The known-answer key of FAEST-128f is accepted, so its witness satisfies the 200 constraints. -/
example : (∃ out, owf .p128F (ofList Concrete.key) (ofList Concrete.inp) = some (out, true)) ∧
    conCount (params .p128F) = 200 := ⟨⟨_, Concrete.owf_kat⟩, by decide⟩

/-! ### C37 -/

/-- C37: a string satisfies the constraints for the public key `(x, y)` exactly if it is the extended
witness of an accepted key whose image is `y`. -/
theorem C37_satisfies_iff (i : ParamId) (x y w : Nat → Byte) :
    (∀ p, p < conCount (params i) →
        conIn (params i) x 1 (bitsL (params i).lambda w) p
          * conOut (params i) x y 1 (bitsL (params i).lambda w) p = 1) ↔
      (∀ t, t < (params i).l / 8 → w t = witness (params i) w x t) ∧ Spec.owfGood i w x ∧
      ∀ t, t < (params i).pkSize / 2 → y t = Spec.owf i w x t := by
  rw [← (params_owfLen i).2.2]
  exact satisfies_iff i (params_fieldBits i) x y w

/-- C37 for the code: the key at the start of a satisfying string is accepted by the one-way function
and mapped to the public output. -/
theorem C37_satisfying_is_preimage (i : ParamId) {key inp : Mem Byte} {x y w : Nat → Byte}
    (hk : Has key 0 ((params i).lambda / 8) w) (hx : Has inp 0 ((params i).pkSize / 2) x)
    (h : ∀ p, p < conCount (params i) →
        conIn (params i) x 1 (bitsL (params i).lambda w) p
          * conOut (params i) x y 1 (bitsL (params i).lambda w) p = 1) :
    owf i key inp = some (tabP ((params i).pkSize / 2) y, true) := by
  obtain ⟨e1, e2, e3⟩ := params_owfLen i
  obtain ⟨-, h2, h3⟩ := (C37_satisfies_iff i x y w).1 h
  obtain ⟨⟨o, ok⟩, h4, h5, h6⟩ := owf_ok i (by rw [e1]; exact hk) (by rw [e2]; exact hx)
  simp only at h5 h6
  obtain rfl : ok = true := h6.2 h2
  rw [h4, h5, e3, tabP_congr h3]

/-- The right-hand side holds for the extended witness of the known-answer key. -/
example : ∃ x y w : Nat → Byte, (∀ t, t < (params .p128F).l / 8 → w t = witness (params .p128F) w x t) ∧
    Spec.owfGood .p128F w x ∧ ∀ t, t < (params .p128F).pkSize / 2 → y t = Spec.owf .p128F w x t := by
  obtain ⟨w, wf, O, -, -, -, -, h⟩ := C21_witness_satisfies .p128F (k := fun t => Concrete.key.getD t 0)
    (x := fun t => Concrete.inp.getD t 0) (has_ofList Concrete.key _ (by decide))
    (has_ofList Concrete.inp _ (by decide)) Concrete.owf_kat
  exact ⟨_, O, wf, (C37_satisfies_iff .p128F _ O wf).1 h⟩

/-! ### The verifier's value -/

/-- The bytes behind the witness are those of `u`. -/
def joinWU (m : Nat) (w u : Nat → Byte) (t : Nat) : Byte := if t < m then w t else u t

theorem aesVerify_poly (i : ParamId) {n : Nat} (hn : fieldBits (params i).lambda = n)
    {d chall2 chall3 aT inp out : Mem Byte} {Q : Mem (List Byte)} {L : Nat}
    {wf uf I O sdf ch af : Nat → Byte} {v : Nat → Nat → Byte}
    (hd : Has d 0 ((params i).l / 8) fun t => wf t ^^^ uf t)
    (hQ : ∀ c, c < n → rd Q c = some (tabP L fun t => v c t ^^^ (if strBit ch c then uf t else 0)))
    (hL : (params i).l + n ≤ 8 * L)
    (hi : Has inp 0 ((params i).pkSize / 2) I) (ho : Has out 0 ((params i).pkSize / 2) O)
    (hc2 : Has chall2 0 (3 * (n / 8) + 8) sdf) (hc3 : Has chall3 0 (n / 8) ch)
    (ha : Has aT 0 (n / 8) af) :
    aesVerify (params i) d Q chall2 chall3 aT inp out = some
      (zkHash n sdf (listA0 (params i) I O (rowF n v)) (polyAt fun j => rowF n v ((params i).l + j))
        + loadF n ch * zkHash n sdf (listA1 (params i) I O (joinWU ((params i).l / 8) wf uf) (rowF n v))
            (loadF n fun t => uf ((params i).l / 8 + t))
        + (loadF n ch + loadF n ch * loadF n ch)
          * zkHash n sdf (listC n (params i) I O (joinWU ((params i).l / 8) wf uf)) 0
        + loadF n af * loadF n ch).toBytes := by
  have hl : BF.LamSize n := by rw [← hn]; exact lamSize_fieldBits _
  rw [aesVerify_ok i hn hd hQ hL hi ho hc2 hc3 ha]
  rw [hashB_eq hl (v := rowF n v) (w := joinWU ((params i).l / 8) wf uf) (params_wf i).l8]
  · have e : loadF n (fun t => joinWU ((params i).l / 8) wf uf ((params i).l / 8 + t))
        = loadF n fun t => uf ((params i).l / 8 + t) := loadF_congr fun t _ => by
      unfold joinWU
      rw [if_neg (by omega)]
    rw [e]
  · refine rowF_corr hl fun p _ t => ?_
    unfold corrCol joinWU
    beta_reduce
    by_cases hb : strBit ch p = true
    · by_cases ht : t < (params i).l / 8
      · rw [if_pos ⟨hb, ht⟩, if_pos hb, if_pos hb, if_pos ht, BitVec.xor_comm, BitVec.xor_assoc,
          BitVec.xor_comm (uf t), BitVec.xor_assoc, BitVec.xor_self, BitVec.xor_zero]
      · rw [if_neg (fun h => ht h.2), if_pos hb, if_pos hb, if_neg ht]
    · rw [if_neg (fun h => hb h.1), if_neg hb, if_neg hb]

theorem conIn_zero {n : Nat} (P : Params) (I : Nat → Byte) (p : Nat) : conIn P I (0 : BF n) (fun _ => 0) p = 0 := by
  have := conIn_lin (P := P) (I := I) (x := fun _ => (0 : BF n)) (y := fun _ => 0) (z := fun _ => 0) (a := 0) (b := 0)
    (c := 0) (d := 1) (fun _ => by ring) (by ring) p
  rw [one_mul] at this
  exact left_eq_add.1 this

/-- The hash of the violations depends on the `l` bits of the witness only. -/
theorem hashC_congr (i : ParamId) {n : Nat} (hn : fieldBits (params i).lambda = n)
    {inp out chall2 : Mem Byte} {I O sdf w w' : Nat → Byte}
    (hi : Has inp 0 ((params i).pkSize / 2) I) (ho : Has out 0 ((params i).pkSize / 2) O)
    (hc2 : Has chall2 0 (3 * (n / 8) + 8) sdf) (h : ∀ t, t < (params i).l / 8 → w t = w' t) :
    zkHash n sdf (listC n (params i) I O w) 0 = zkHash n sdf (listC n (params i) I O w') 0 := by
  have hl : BF.LamSize n := by rw [← hn]; exact lamSize_fieldBits _
  have h8 : 8 ∣ n := by rcases hl with rfl | rfl | rfl <;> decide
  have hrow : rowF n (fun _ _ => 0) = fun _ => 0 := by
    funext j
    unfold rowF bitOf
    exact Finset.sum_eq_zero fun p _ => by simp [BF.bitF]
  have hlist : ∀ w, listA1 (params i) I O w (rowF n fun _ _ => 0) = listC n (params i) I O w := by
    intro w
    unfold listA1 listC
    rw [hrow]
    refine tabP_congr fun p _ => ?_
    unfold Spec.conA1 conC
    rw [conIn_zero, add_zero, zero_mul, add_zero]
    have := conOut_lin (P := params i) (I := I) (O := O) (x := fun _ => (0 : BF n)) (y := fun _ => 0)
      (z := fun _ => 0) (a := 0) (b := 0) (c := 0) (d := 1) (fun _ => by ring) (by ring) p
    rw [one_mul] at this
    rw [left_eq_add.1 this, add_zero]
  have hz : loadF n (fun _ => 0) = 0 := by
    have := loadF_xor h8 (fun _ => 0) (fun _ => 0)
    rw [BF.add_self] at this
    exact this
  have key := fun (w : Nat → Byte) (m : Mem Byte) (hm : Has m 0 ((params i).l / 8) w) =>
    aesProve_ok i hn (L := (params i).l + n) hm (has_full ((params i).l / 8 + n / 8) fun _ => 0)
      (V := ofList (tabP n fun _ => tabP ((params i).l + n) fun _ => 0)) (col := fun _ _ => 0)
      (fun c hc => by rw [rd_ofList, tabP_getElem?, if_pos hc]) (by omega) hi ho hc2
  have k1 := key w (full ((params i).l / 8) w) (has_full _ _)
  have k2 := key w' (full ((params i).l / 8) w) ((has_full _ _).congr h)
  rw [k1] at k2
  have := congrArg Prod.fst (Option.some.inj k2)
  dsimp only at this
  rw [hlist, hlist, hz] at this
  rw [← ofBytes_toBytes h8 (zkHash n sdf (listC n (params i) I O w) 0), this, ofBytes_toBytes h8]

theorem conC_congr (i : ParamId) {n : Nat} (hn : fieldBits (params i).lambda = n) {I O w w' : Nat → Byte}
    (h : ∀ t, t < (params i).l / 8 → w t = w' t) (hs : Satisfies n (params i) I O w) :
    Satisfies n (params i) I O w' := by
  obtain ⟨h1, h2, h3⟩ := (satisfies_iff i hn I O w).1 hs
  have hlk : (params i).lambda / 8 ≤ (params i).l / 8 := by cases i <;> decide
  obtain ⟨e1, e2, e3⟩ := params_owfLen i
  have hk := has_full ((params i).lambda / 8) w
  have hk' : Has (full ((params i).lambda / 8) w) 0 ((params i).lambda / 8) w' :=
    hk.congr fun t ht => h t (by omega)
  have hx := has_full ((params i).pkSize / 2) I
  obtain ⟨m, hm, -, hm1⟩ := aesExtendWitness_ok i hk hx
  obtain ⟨m', hm', -, hm2⟩ := aesExtendWitness_ok i hk' hx
  obtain rfl : m = m' := Option.some.inj (hm.symm.trans hm')
  obtain ⟨⟨o, ok⟩, h4, h5, h6⟩ := owf_ok i (by rw [e1]; exact hk) (by rw [e2]; exact hx)
  obtain ⟨⟨o', ok'⟩, h4', h5', h6'⟩ := owf_ok i (by rw [e1]; exact hk') (by rw [e2]; exact hx)
  have he := Option.some.inj (h4.symm.trans h4')
  obtain rfl : o = o' := congrArg Prod.fst he
  obtain rfl : ok = ok' := congrArg Prod.snd he
  simp only at h5 h6 h5' h6'
  refine (satisfies_iff i hn I O w').2 ⟨fun t ht => ?_, h6'.1 (h6.2 h2), fun t ht => ?_⟩
  · rw [← h t ht, h1 t ht]
    exact Option.some.inj ((hm1.rd0 ht).symm.trans (hm2.rd0 ht))
  · rw [h3 t ht]
    have := congrArg (·[t]?) (h5.symm.trans h5')
    simp only [tabP_getElem?, if_pos ht] at this
    exact Option.some.inj this

/-! ### C22 -/

/-- C22: let `w` be the extended witness of an accepted key, `u` the mask, `v` the prover's matrix, and
let the verifier hold the corrected witness `d = w + u` and the matrix `q = v + u * Delta`.  Then
`aes_prove` and `aes_verify` are defined and compute the same `b_tilde`. -/
theorem C22_b_tilde (i : ParamId) {key inp out w u d chall2 chall3 : Mem Byte} {V Q : Mem (List Byte)} {L : Nat}
    {k x wf uf ch sdf : Nat → Byte} {v : Nat → Nat → Byte} {y : List Byte}
    (hk : Has key 0 ((params i).lambda / 8) k) (hx : Has inp 0 ((params i).pkSize / 2) x)
    (hacc : owf i key inp = some (y, true)) (ho : ∀ t, t < (params i).pkSize / 2 → rd out t = y[t]?)
    (hwit : aesExtendWitness key inp (params i) = some w) (hw : Has w 0 ((params i).l / 8) wf)
    (hu : Has u 0 ((params i).l / 8 + (params i).lambda / 8) uf)
    (hV : ∀ c, c < (params i).lambda → rd V c = some (tabP L (v c)))
    (hL : (params i).l + (params i).lambda ≤ 8 * L)
    (hd : ∀ t, t < (params i).l / 8 → rd d t = some (wf t ^^^ uf t))
    (hQ : ∀ c, c < (params i).lambda →
      rd Q c = some (tabP L fun t => v c t ^^^ (if strBit ch c then uf t else 0)))
    (hc2 : Has chall2 0 (3 * ((params i).lambda / 8) + 8) sdf)
    (hc3 : Has chall3 0 ((params i).lambda / 8) ch) :
    ∃ a b, aesProve (params i) w u V inp out chall2 = some (a, b) ∧
      aesVerify (params i) d Q chall2 chall3 (ofList a) inp out = some b := by
  obtain ⟨w', wf', O, h1, h2, h3, h4, h5⟩ := C21_witness_satisfies i hk hx hacc
  obtain rfl : w = w' := Option.some.inj (hwit.symm.trans h1)
  have ho' : Has out 0 ((params i).pkSize / 2) O := by
    intro t ht
    rw [Nat.zero_add, ho t ht, h4, tabP_getElem?, if_pos ht]
  have hn := params_fieldBits i
  have hl : BF.LamSize (params i).lambda := by rw [← hn]; exact lamSize_fieldBits _
  have hwu : Has w 0 ((params i).l / 8) (joinWU ((params i).l / 8) wf uf) := hw.congr fun t ht => by
    unfold joinWU; rw [if_pos ht]
  refine ⟨_, _, aesProve_ok i hn hwu hu hV hL hx ho' hc2, ?_⟩
  have hd' : Has d 0 ((params i).l / 8) (fun t => wf t ^^^ uf t) := by
    intro t ht; rw [Nat.zero_add]; exact hd t ht
  have h8 : 8 ∣ (params i).lambda := by rcases hl with h | h | h <;> rw [h] <;> decide
  rw [toBytes_eq (zkHash _ _ (listA1 _ _ _ _ _) _), aesVerify_poly i hn hd' hQ hL hx ho' hc2 hc3 (has_tabP _ _)]
  have hsat : Satisfies (params i).lambda (params i) x O (joinWU ((params i).l / 8) wf uf) :=
    conC_congr i hn (fun t ht => Option.some.inj ((h3.rd0 ht).symm.trans (hwu.rd0 ht))) h5
  have hz : zkHash (params i).lambda sdf (listC (params i).lambda (params i) x O
      (joinWU ((params i).l / 8) wf uf)) 0 = 0 := by
    refine zkHash_zero fun p hp => ?_
    unfold conC
    rw [hsat p hp, BF.add_self]
  rw [hz, mul_zero, add_zero]
  have hld := loadF_byteAt h8 (zkHash (params i).lambda sdf (listA1 (params i) x O
    (joinWU ((params i).l / 8) wf uf) (rowF (params i).lambda v))
    (loadF (params i).lambda fun t => uf ((params i).l / 8 + t)))
  unfold byteAt at hld
  rw [hld]
  congr 2
  rw [mul_comm (loadF _ ch), add_assoc, BF.add_self, add_zero]

/-- The hypotheses hold for the known-answer key, a matrix with pairwise different columns and a
challenge which is not zero. -/
example : ∃ w a b, aesProve (params .p128F) w (full 300 fun t => BitVec.ofNat 8 t)
      (ofList (tabP 128 fun c => tabP 300 fun t => BitVec.ofNat 8 (c + t)))
      (ofList Concrete.inp) (ofList Concrete.out) (full 56 fun t => BitVec.ofNat 8 (7 * t)) = some (a, b) ∧
    aesVerify (params .p128F) (full 200 fun t => (rd w t).getD 0 ^^^ BitVec.ofNat 8 t)
      (ofList (tabP 128 fun c => tabP 300 fun t => BitVec.ofNat 8 (c + t) ^^^
        (if strBit (fun t => BitVec.ofNat 8 (t + 1)) c then BitVec.ofNat 8 t else 0)))
      (full 56 fun t => BitVec.ofNat 8 (7 * t)) (full 16 fun t => BitVec.ofNat 8 (t + 1)) (ofList a)
      (ofList Concrete.inp) (ofList Concrete.out) = some b := by
  have hk := has_ofList Concrete.key (fun t => Concrete.key.getD t 0) (by decide)
  have hx := has_ofList Concrete.inp (fun t => Concrete.inp.getD t 0) (by decide)
  obtain ⟨w, wf, O, h1, h2, h3, -, -⟩ := C21_witness_satisfies .p128F hk hx Concrete.owf_kat
  obtain ⟨a, b, h4, h5⟩ := C22_b_tilde .p128F (L := 300) (uf := fun t => BitVec.ofNat 8 t)
    (ch := fun t => BitVec.ofNat 8 (t + 1)) (sdf := fun t => BitVec.ofNat 8 (7 * t))
    (v := fun c t => BitVec.ofNat 8 (c + t)) (u := full 300 fun t => BitVec.ofNat 8 t)
    (V := ofList (tabP 128 fun c => tabP 300 fun t => BitVec.ofNat 8 (c + t)))
    (out := ofList Concrete.out) (d := full 200 fun t => (rd w t).getD 0 ^^^ BitVec.ofNat 8 t)
    (chall2 := full 56 fun t => BitVec.ofNat 8 (7 * t)) (chall3 := full 16 fun t => BitVec.ofNat 8 (t + 1))
    (Q := ofList (tabP 128 fun c => tabP 300 fun t => BitVec.ofNat 8 (c + t) ^^^
        (if strBit (fun t => BitVec.ofNat 8 (t + 1)) c then BitVec.ofNat 8 t else 0)))
    hk hx Concrete.owf_kat (fun t _ => rd_ofList _ _) h1 h3
    ((has_full 300 _).mono (by decide)) (fun c (hc : c < 128) => by rw [rd_ofList, tabP_getElem?, if_pos hc]) (by decide)
    (fun t ht => by
      rw [rd_full (Nat.lt_of_lt_of_le ht (by decide)), h3.rd0 ht, Option.getD_some])
    (fun c (hc : c < 128) => by rw [rd_ofList, tabP_getElem?, if_pos hc]) (has_full 56 _) (has_full 16 _)
  exact ⟨w, a, b, h4, h5⟩

/-! ### C23 -/

/-- A quadratic polynomial with three different roots has leading coefficient zero. -/
theorem quad_roots {n : Nat} (hl : BF.LamSize n) {a b c x y z : BF n}
    (hx : a + x * b + (x * x) * c = 0) (hy : a + y * b + (y * y) * c = 0) (hz : a + z * b + (z * z) * c = 0)
    (hxy : x ≠ y) (hxz : x ≠ z) (hyz : y ≠ z) : c = 0 := by
  have h1 : (x - y) * (b + (x + y) * c) = 0 := by linear_combination hx - hy
  have h2 : (x - z) * (b + (x + z) * c) = 0 := by linear_combination hx - hz
  have h1' := (BF.eq_zero_or_eq_zero hl.good h1).resolve_left (sub_ne_zero.2 hxy)
  have h2' := (BF.eq_zero_or_eq_zero hl.good h2).resolve_left (sub_ne_zero.2 hxz)
  have h3 : (y - z) * c = 0 := by linear_combination h1' - h2'
  exact (BF.eq_zero_or_eq_zero hl.good h3).resolve_left (sub_ne_zero.2 hyz)

/-- C23: fix the committed matrix `v` and mask `u`, the corrected witness `d` (so that `w = d + u` is the
committed witness), the hash key, the prover's message `a_tilde` and a value `b`.  If the hash of the
violations `in * out - 1` of the constraints by `w` is not zero, then of any three pairwise different
challenges, the verifier's recomputed value differs from `b` for at least one. -/
theorem C23_two_challenges (i : ParamId) {d chall2 aT inp out : Mem Byte} {L : Nat}
    {wf uf I O sdf af : Nat → Byte} {v : Nat → Nat → Byte} {b : List Byte}
    (hd : ∀ t, t < (params i).l / 8 → rd d t = some (wf t ^^^ uf t))
    (hL : (params i).l + (params i).lambda ≤ 8 * L)
    (hi : Has inp 0 ((params i).pkSize / 2) I) (ho : Has out 0 ((params i).pkSize / 2) O)
    (hc2 : Has chall2 0 (3 * ((params i).lambda / 8) + 8) sdf)
    (ha : Has aT 0 ((params i).lambda / 8) af)
    (hviol : zkHash (params i).lambda sdf (tabP (conCount (params i)) fun p =>
        conIn (params i) I 1 (bitsL (params i).lambda wf) p
          * conOut (params i) I O 1 (bitsL (params i).lambda wf) p - 1) 0 ≠ 0)
    (ch : Fin 3 → List Byte) (Q : Fin 3 → Mem (List Byte))
    (hlen : ∀ j, (ch j).length = (params i).lambda / 8)
    (hQ : ∀ j c, c < (params i).lambda → rd (Q j) c = some (tabP L fun t =>
      v c t ^^^ (if ((ch j).getD (c / 8) 0).getLsbD (c % 8) then uf t else 0)))
    (hdiff : ∀ j j', j ≠ j' → ch j ≠ ch j') :
    ∃ j, aesVerify (params i) d (Q j) chall2 (ofList (ch j)) aT inp out ≠ some b := by
  by_contra hall
  have hall : ∀ j, aesVerify (params i) d (Q j) chall2 (ofList (ch j)) aT inp out = some b := by
    intro j
    by_contra h
    exact hall ⟨j, h⟩
  have hn := params_fieldBits i
  have hl : BF.LamSize (params i).lambda := by rw [← hn]; exact lamSize_fieldBits _
  have h8 : 8 ∣ (params i).lambda := by rcases hl with h | h | h <;> rw [h] <;> decide
  have hd' : Has d 0 ((params i).l / 8) (fun t => wf t ^^^ uf t) := by
    intro t ht; rw [Nat.zero_add]; exact hd t ht
  set n := (params i).lambda with hnl
  set wu := joinWU ((params i).l / 8) wf uf with hwu
  have hc3 : ∀ j, Has (ofList (ch j)) 0 (n / 8) (fun t => (ch j).getD t 0) := by
    intro j
    rw [← hlen j]
    refine has_ofList _ _ fun t ht => ?_
    rw [List.getD_eq_getElem?_getD, List.getElem?_eq_getElem ht]; rfl
  have hval := fun j => (aesVerify_poly i hn hd' (ch := fun t => (ch j).getD t 0)
    (fun c hc => hQ j c hc) hL hi ho hc2 (hc3 j) ha).symm.trans (hall j)
  have hC : zkHash n sdf (listC n (params i) I O wu) 0 ≠ 0 := by
    have e : (fun p => conIn (params i) I 1 (bitsL n wf) p * conOut (params i) I O 1 (bitsL n wf) p - 1)
        = conC n (params i) I O wf := by
      funext p
      unfold conC
      rw [sub_eq_iff_eq_add, add_assoc, BF.add_self, add_zero]
    rw [e] at hviol
    rw [hashC_congr i hn hi ho hc2 (w' := wf) fun t ht => by rw [hwu]; unfold joinWU; rw [if_pos ht]]
    exact hviol
  have hinj : ∀ a b : BF n, a.toBytes = b.toBytes → a = b := by
    intro a b h
    rw [← ofBytes_toBytes h8 a, ← ofBytes_toBytes h8 b, h]
  have hbyte : ∀ j j', loadF n (fun t => (ch j).getD t 0) = loadF n (fun t => (ch j').getD t 0) → j = j' := by
    intro j j' h
    by_contra hne
    refine hdiff j j' hne ?_
    have e : ∀ j, tabP (n / 8) (fun t => (ch j).getD t 0) = ch j := by
      intro j
      refine (list_eq_tabP _ _ _ (hlen j) fun t ht => ?_).symm
      rw [List.getD_eq_getElem?_getD, List.getElem?_eq_getElem (by rw [hlen j]; exact ht)]; rfl
    unfold loadF at h
    rw [e, e] at h
    rw [← toBytes_ofBytes h8 (ch j) (hlen j), ← toBytes_ofBytes h8 (ch j') (hlen j'), h]
  have hD := fun j j' => hinj _ _ (Option.some.inj ((hval j).trans (hval j').symm))
  refine hC ?_
  generalize zkHash n sdf (listC n (params i) I O wu) 0 = C at *
  generalize zkHash n sdf (listA0 (params i) I O (rowF n v)) (polyAt fun j => rowF n v ((params i).l + j)) = A0 at *
  generalize zkHash n sdf (listA1 (params i) I O wu (rowF n v)) (loadF n fun t => uf ((params i).l / 8 + t)) = A1 at *
  have hroot : ∀ j, (A0 - (A0 + loadF n (fun t => (ch 0).getD t 0) * A1
      + (loadF n (fun t => (ch 0).getD t 0) + loadF n (fun t => (ch 0).getD t 0) * loadF n (fun t => (ch 0).getD t 0)) * C
      + loadF n af * loadF n (fun t => (ch 0).getD t 0)))
      + loadF n (fun t => (ch j).getD t 0) * (A1 + C + loadF n af)
      + (loadF n (fun t => (ch j).getD t 0) * loadF n (fun t => (ch j).getD t 0)) * C = 0 := by
    intro j
    have := hD j 0
    linear_combination this
  exact quad_roots hl (hroot 0) (hroot 1) (hroot 2) (fun h => absurd (hbyte _ _ h) (by decide))
    (fun h => absurd (hbyte _ _ h) (by decide)) (fun h => absurd (hbyte _ _ h) (by decide))

/-- A violated combination: the all-zero witness, with the hash key that selects the last constraint. -/
example : zkHash 128 (fun t => if t = 0 then 1 else 0) (tabP (conCount (params .p128F)) fun p =>
    conIn (params .p128F) (fun _ => 0) 1 (bitsL 128 fun _ => 0) p
      * conOut (params .p128F) (fun _ => 0) (fun _ => 0) 1 (bitsL 128 fun _ => 0) p - 1) 0 ≠ 0 := by
  have hb : (bitsL 128 fun _ => 0) = fun _ => 0 := by
    funext j; simp [bitsL, bitOf, BF.bitF]
  have hk : ∀ p, Spec.keyCell (· + ·) 32 4 (fun _ => (0 : BF 128)) p = 0 := by
    intro p
    have := keyCell_lin (W := 32) (Nwd := 4) (x := fun _ => (0 : BF 128)) (y := fun _ => 0) (z := fun _ => 0) (d := 1)
      (fun _ => by ring) p
    rw [one_mul] at this
    exact left_eq_add.1 this
  have hz : BF.bc (fun _ => (0 : BF 128)) = 0 := by
    have := bc_lin (x := fun _ => (0 : BF 128)) (y := fun _ => 0) (z := fun _ => 0) (d := 1) (fun _ => by ring)
    rw [one_mul] at this
    exact left_eq_add.1 this
  have hlast : conIn (params .p128F) (fun _ => 0) (1 : BF 128) (fun _ => 0) 199 = 0 := by
    unfold conIn
    rw [if_neg (by decide), if_neg (by decide)]
    unfold Spec.encS Spec.mixL Spec.byteL
    rw [if_neg (by decide)]
    simp only [show (params .p128F).Nwd = 4 from rfl, hk, hz, mul_zero, add_zero]
  have e0 : Spec.elt 128 (fun t => if t = 0 then 1 else 0) 0 = 1 := by decide +kernel
  have e1 : Spec.elt 128 (fun t => if t = 0 then 1 else 0) 1 = 0 := by decide +kernel
  have e2 : Spec.elt 128 (fun t => if t = 0 then 1 else 0) 2 = 0 := by decide +kernel
  have hlist : ∀ (ys : List (BF 128)) (y : BF 128), Spec.listHash 0 (ys ++ [y]) = y := by
    intro ys y
    induction ys with
    | nil => simp [Spec.listHash]
    | cons a ys ih => simp [Spec.listHash, ih]
  unfold zkHash
  rw [e0, e1, e2, hb, show conCount (params .p128F) = 199 + 1 from rfl, tabP_succ, hlist, hlast]
  simp only [zero_mul, one_mul, add_zero, zero_sub]
  exact neg_ne_zero.2 (by decide)

/-- Three pairwise different challenges. -/
example : ∀ j j' : Fin 3, j ≠ j' → (fun j : Fin 3 => List.replicate 16 (BitVec.ofNat 8 j.1)) j
    ≠ (fun j : Fin 3 => List.replicate 16 (BitVec.ofNat 8 j.1)) j' := by decide

end Faest
