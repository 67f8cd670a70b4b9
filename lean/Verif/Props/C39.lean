/-
C39: the universal hashes are the polynomial hashes of the specification, and collide only for few seeds.
C40: knowledge soundness of the checks made by the verifier.
-/
import Verif.Proofs.UHashCount
import Verif.Props.C13
import Verif.Props.C21
import Verif.Proofs.ApiRefine

namespace Faest.Props
open Spec (byteFn conCount conIn conOut bitsL strBit treeOf)

/-! ### C39 -/

/-- `vole_hash` is VOLEHash of Spec/UHash.lean. -/
theorem C39_vole_hash_value {n : Nat} (hn : n = 128 ∨ n = 192 ∨ n = 256) {ell : Nat} (h8 : ell % 8 = 0)
    (sd x : List Byte) (hsd : sd.length = 5 * (n / 8) + 8) (hx : x.length = ell / 8 + 2 * (n / 8) + 2) :
    voleHash (ofList sd) (ofList x) ell n
      = some (tabP (n / 8 + 2) (Spec.voleHash n ell (byteFn sd) (byteFn x))) := by
  have hf : fieldBits n = n := by rcases hn with rfl | rfl | rfl <;> rfl
  have hs := has_byteFn sd
  rw [hsd] at hs
  have h1 := has_byteFn x
  rw [hx] at h1
  unfold voleHash
  rw [hf]
  exact voleHashN_ok hn h8 hs h1

/-- `zk_hash_*_init`, any number of `zk_hash_*_update` and `zk_hash_*_finalize` compute ZKHash of
Spec/UHash.lean. -/
theorem C39_zk_hash_value {n : Nat} (hn : n = 128 ∨ n = 192 ∨ n = 256) (sd : List Byte)
    (hsd : sd.length = 3 * (n / 8) + 8) (ys : List (BF n)) (x : BF n) :
    zkRun n (ofList sd) ys x = some (Spec.zkHash n (byteFn sd) ys x).toBytes := by
  have h64 : 64 ≤ n := by omega
  have hs := has_byteFn sd
  rw [hsd] at hs
  apply Ok.eq
  unfold zkRun
  refine Ok.bind (zkInit_ok h64 hs) fun ctx hc => ?_
  exact Ok.of_eq (zkFinalize_ok h64 (zkUpdates_ok h64 hc ys) x) rfl

/-- **C39, VOLEHash.** For two different inputs, of the `2^(5n+64)` seeds at most
`2^(4n+48) + (m-1)(m n/64 - 1) 2^(4n)` give the same hash, `m` the number of blocks. -/
theorem C39_vole_hash_collisions {n : Nat} (hn : n = 128 ∨ n = 192 ∨ n = 256) {ell : Nat} (h8 : ell % 8 = 0)
    (x y : List Byte) (hx : x.length = ell / 8 + 2 * (n / 8) + 2) (hy : y.length = ell / 8 + 2 * (n / 8) + 2)
    (hne : x ≠ y) :
    (Finset.univ.filter fun sd : Fin (5 * (n / 8) + 8) → Byte =>
      voleHash (ofList (List.ofFn sd)) (ofList x) ell n = voleHash (ofList (List.ofFn sd)) (ofList y) ell n).card
      ≤ 2 ^ (4 * n + 48)
        + ((ell + 2 * n - 1) / n - 1) * ((ell + 2 * n - 1) / n * (n / 64) - 1) * 2 ^ (4 * n) := by
  have h8n : 8 ∣ n := by rcases hn with rfl | rfl | rfl <;> decide
  have hz : ∃ j, j < (ell + n) / 8 + (n / 8 + 2) ∧ (byteFn x j ^^^ byteFn y j) ≠ 0 := by
    by_contra h
    apply hne
    refine List.ext_getElem (by omega) fun j hj hj' => ?_
    have : ¬(byteFn x j ^^^ byteFn y j ≠ 0) := fun h' =>
      h ⟨j, by rcases hn with rfl | rfl | rfl <;> omega, h'⟩
    have e := not_not.1 this
    unfold byteFn at e
    rw [List.getElem?_eq_getElem hj, List.getElem?_eq_getElem hj', Option.getD_some, Option.getD_some] at e
    have := congrArg (· ^^^ y[j]) e
    simpa [BitVec.xor_assoc] using this
  have := vole_count (n := n) hn h8 hz
  rw [show Spec.uhBlocks n ell = (ell + 2 * n - 1) / n by unfold Spec.uhBlocks; congr 1; omega] at this
  refine le_trans (Finset.card_le_card fun sd hsd => ?_) this
  rw [Finset.mem_filter] at hsd ⊢
  refine ⟨Finset.mem_univ _, fun t ht => ?_⟩
  have e := hsd.2
  rw [C39_vole_hash_value hn h8 _ x (by simp) hx, C39_vole_hash_value hn h8 _ y (by simp) hy] at e
  have e := congrArg (fun l : List Byte => l[t]?) (Option.some.inj e)
  simp only [tabP_getElem?, if_pos ht, byteFn_ofFn] at e
  rw [voleHash_xor h8n, Option.some.inj e, BitVec.xor_self]
  rfl

/-- **C39, ZKHash.** For two different lists of values, of the `2^(3n+64)` seeds at most
`2^(2n+64) + (k-1)^2 2^(2n)` give the same hash, `k` the number of values. -/
theorem C39_zk_hash_collisions {n : Nat} (hn : n = 128 ∨ n = 192 ∨ n = 256) (ys zs : List (BF n)) (x y : BF n)
    (hl : ys.length = zs.length) (hne : ys ≠ zs) :
    (Finset.univ.filter fun sd : Fin (3 * (n / 8) + 8) → Byte =>
      zkRun n (ofList (List.ofFn sd)) ys x = zkRun n (ofList (List.ofFn sd)) zs y).card
      ≤ 2 ^ (2 * n + 64) + (ys.length - 1) ^ 2 * 2 ^ (2 * n) := by
  have h8n : 8 ∣ n := by rcases hn with rfl | rfl | rfl <;> decide
  have hd : ∃ d ∈ List.zipWith (fun y z => 1 * y + 1 * z) ys zs, d ≠ 0 := by
    by_contra h
    apply hne
    refine List.ext_getElem hl fun j hj hj' => ?_
    have hm : (1 * ys[j] + 1 * zs[j]) ∈ List.zipWith (fun y z => 1 * y + 1 * z) ys zs := by
      rw [List.mem_iff_getElem]
      exact ⟨j, by rw [List.length_zipWith]; omega, by rw [List.getElem_zipWith]⟩
    have : 1 * ys[j] + 1 * zs[j] = 0 := by
      by_contra h'
      exact h ⟨_, hm, h'⟩
    rw [one_mul, one_mul] at this
    have e : ys[j] + zs[j] + zs[j] = zs[j] := by rw [this, zero_add]
    rwa [add_assoc, BF.add_self, add_zero] at e
  have := zk_count (n := n) hn hd (1 * x + 1 * y)
  rw [List.length_zipWith, ← hl, Nat.min_self] at this
  refine le_trans (Finset.card_le_card fun sd hsd => ?_) this
  rw [Finset.mem_filter] at hsd ⊢
  refine ⟨Finset.mem_univ _, ?_⟩
  have e := hsd.2
  rw [C39_zk_hash_value hn _ (by simp) ys x, C39_zk_hash_value hn _ (by simp) zs y] at e
  have e := congrArg (BF.ofBytes n) (Option.some.inj e)
  rw [ofBytes_toBytes h8n, ofBytes_toBytes h8n, byteFn_ofFn] at e
  rw [zkHash_linear _ _ _ hl, e, one_mul, BF.add_self]

/-- **C39 for the parameter sets.** The collision probability of VOLEHash is at most `2^-(lambda+15)`, that of
ZKHash at most `2^-(lambda-1)`. -/
theorem C39_parameters (i : ParamId) :
    (∀ x y : List Byte, x.length = (params i).l / 8 + 2 * ((params i).lambda / 8) + 2 →
      y.length = (params i).l / 8 + 2 * ((params i).lambda / 8) + 2 → x ≠ y →
      (Finset.univ.filter fun sd : Fin (5 * ((params i).lambda / 8) + 8) → Byte =>
        voleHash (ofList (List.ofFn sd)) (ofList x) (params i).l (params i).lambda
          = voleHash (ofList (List.ofFn sd)) (ofList y) (params i).l (params i).lambda).card
        * 2 ^ ((params i).lambda + 15)
      ≤ Fintype.card (Fin (5 * ((params i).lambda / 8) + 8) → Byte)) ∧
    ∀ (ys zs : List (BF (params i).lambda)) (x y : BF (params i).lambda), ys.length = conCount (params i) →
      zs.length = conCount (params i) → ys ≠ zs →
      (Finset.univ.filter fun sd : Fin (3 * ((params i).lambda / 8) + 8) → Byte =>
        zkRun (params i).lambda (ofList (List.ofFn sd)) ys x
          = zkRun (params i).lambda (ofList (List.ofFn sd)) zs y).card * 2 ^ ((params i).lambda - 1)
      ≤ Fintype.card (Fin (3 * ((params i).lambda / 8) + 8) → Byte) := by
  have hn : (params i).lambda = 128 ∨ (params i).lambda = 192 ∨ (params i).lambda = 256 := by
    cases i <;> decide
  have hl : (params i).l % 8 = 0 := by cases i <;> decide
  constructor
  · intro x y hx hy hne
    rw [card_seeds]
    refine (Nat.mul_le_mul_right _ (C39_vole_hash_collisions hn hl x y hx hy hne)).trans ?_
    cases i <;> decide +kernel
  · intro ys zs x y hy hz hne
    rw [card_seeds]
    refine (Nat.mul_le_mul_right _ (C39_zk_hash_collisions hn ys zs x y (hy.trans hz.symm) hne)).trans ?_
    rw [hy]
    cases i <;> decide +kernel

/-- Two inputs of FAEST-128f which differ in one byte. -/
example := (C39_parameters .p128F).1 (List.replicate 234 0) (1 :: List.replicate 233 0)
  (by rw [List.length_replicate]; rfl) (by rw [List.length_cons, List.length_replicate]; rfl)
  (fun h => absurd (List.cons.inj h).1 (by decide))

/-! ### C40 -/

/-- The check of the constraints alone: a prover committed to the matrix `v` and the mask `u`, who has sent the
corrected witness `d`, sees the hash key `chall_2`, answers with `a sd`, `b sd`, and then gets the challenge.  If
the key at the start of the committed witness `w = d + u` is not accepted or not mapped to the public output, at
most `(2^(2n+64) + (k-1)^2 2^(2n)) 2^n + 2 * 2^(3n+64)` of the `2^(3n+64) 2^n` pairs of challenges pass. -/
theorem C40_constraint_check (i : ParamId) {d inp out : Mem Byte} {L : Nat} {wf uf I O : Nat → Byte}
    {v : Nat → Nat → Byte} (hd : ∀ t, t < (params i).l / 8 → rd d t = some (wf t ^^^ uf t))
    (hL : (params i).l + (params i).lambda ≤ 8 * L)
    (hi : Has inp 0 ((params i).pkSize / 2) I) (ho : Has out 0 ((params i).pkSize / 2) O)
    (hno : ∀ key : Mem Byte, Has key 0 ((params i).lambda / 8) wf →
      owf i key inp ≠ some (tabP ((params i).pkSize / 2) O, true))
    (a b : (Fin (3 * ((params i).lambda / 8) + 8) → Byte) → List Byte)
    (ha : ∀ sd, (a sd).length = (params i).lambda / 8) (Q : List Byte → Mem (List Byte))
    (hQ : ∀ ch c, c < (params i).lambda → rd (Q ch) c = some (tabP L fun t =>
      v c t ^^^ (if (ch.getD (c / 8) 0).getLsbD (c % 8) then uf t else 0))) :
    (Finset.univ.filter fun q : (Fin ((params i).lambda / 8) → Byte) × (Fin (3 * ((params i).lambda / 8) + 8) → Byte) =>
      aesVerify (params i) d (Q (List.ofFn q.1)) (ofList (List.ofFn q.2)) (ofList (List.ofFn q.1))
        (ofList (a q.2)) inp out = some (b q.2)).card
      ≤ 2 ^ (3 * (params i).lambda + 64) * 2 + (2 ^ (2 * (params i).lambda + 64)
          + (conCount (params i) - 1) ^ 2 * 2 ^ (2 * (params i).lambda)) * 2 ^ (params i).lambda := by
  classical
  have hn : (params i).lambda = 128 ∨ (params i).lambda = 192 ∨ (params i).lambda = 256 := by
    cases i <;> decide
  set viol : List (BF (params i).lambda) := tabP (conCount (params i)) fun p =>
        conIn (params i) I 1 (bitsL (params i).lambda wf) p
          * conOut (params i) I O 1 (bitsL (params i).lambda wf) p - 1 with hviol
  have hne : ∃ e ∈ viol, e ≠ 0 := by
    by_contra h
    refine hno (full ((params i).lambda / 8) wf) (has_full _ _) (C37_satisfying_is_preimage i (has_full _ _) hi ?_)
    intro p hp
    by_contra h'
    refine h ⟨_, List.mem_iff_getElem?.2 ⟨p, by rw [hviol, tabP_getElem?, if_pos hp]⟩, ?_⟩
    exact fun h'' => h' (sub_eq_zero.1 h'')
  have hbad := zk_count hn hne 0
  rw [show viol.length = conCount (params i) from tabP_length _ _] at hbad
  have hcount := card_prod_le (A := Fin ((params i).lambda / 8) → Byte)
    (B := Fin (3 * ((params i).lambda / 8) + 8) → Byte)
    (fun ch sd => aesVerify (params i) d (Q (List.ofFn ch)) (ofList (List.ofFn sd)) (ofList (List.ofFn ch))
        (ofList (a sd)) inp out = some (b sd))
    (Finset.univ.filter fun sd => Spec.zkHash (params i).lambda (seedFn sd) viol 0 = 0) (L := 2) (by
      intro sd hsd
      by_contra hc
      obtain ⟨c0, h0, c1, h1, c2, h2, h01, h02, h12⟩ := Finset.two_lt_card.1 (not_le.1 hc)
      have hsdf := has_byteFn (List.ofFn sd)
      rw [List.length_ofFn] at hsdf
      have haf := has_byteFn (a sd)
      rw [ha sd] at haf
      have hinj : ∀ c c' : Fin ((params i).lambda / 8) → Byte, c ≠ c' → List.ofFn c ≠ List.ofFn c' :=
        fun c c' h h' => h (List.ofFn_injective h')
      obtain ⟨j, hj⟩ := C23_two_challenges i (b := b sd) hd hL hi ho hsdf haf (by
          rw [byteFn_ofFn]
          simpa using hsd)
        (fun j : Fin 3 => List.ofFn (match j with | 0 => c0 | 1 => c1 | 2 => c2))
        (fun j : Fin 3 => Q (List.ofFn (match j with | 0 => c0 | 1 => c1 | 2 => c2)))
        (fun j => List.length_ofFn) (fun j c hc => hQ _ c hc) (by
          intro j j' hjj'
          apply hinj
          match j, j' with
          | 0, 0 => exact absurd rfl hjj'
          | 0, 1 => exact h01
          | 0, 2 => exact h02
          | 1, 0 => exact h01.symm
          | 1, 1 => exact absurd rfl hjj'
          | 1, 2 => exact h12
          | 2, 0 => exact h02.symm
          | 2, 1 => exact h12.symm
          | 2, 2 => exact absurd rfl hjj')
      refine hj ?_
      match j with
      | 0 => exact (Finset.mem_filter.1 h0).2
      | 1 => exact (Finset.mem_filter.1 h1).2
      | 2 => exact (Finset.mem_filter.1 h2).2)
  refine hcount.trans ?_
  rw [card_seeds, card_seeds]
  have e1 : 8 * (3 * ((params i).lambda / 8) + 8) = 3 * (params i).lambda + 64 := by omega
  have e2 : 8 * ((params i).lambda / 8) = (params i).lambda := by omega
  rw [e1, e2]
  exact Nat.add_le_add_left (Nat.mul_le_mul_right _ hbad) _

/-- Bytes of a column. -/
def colLen (i : ParamId) : Nat := (params i).l / 8 + 2 * ((params i).lambda / 8) + 2

theorem colLen_eq (i : ParamId) : colLen i = (params i).l / 8 + 2 * ((params i).lambda / 8) + 2 := rfl

/-- Column `p` as the verifier holds it when the prover is committed to the columns `v` and, for the tree number
`j`, to the value `u j` (exclusive or of all strings of the tree and the correction string): the columns of a tree
whose bit of the challenge is set differ by that value. -/
def qCol (i : ParamId) (v u : Nat → Nat → Byte) (ch : List Byte) (p : Nat) : List Byte :=
  tabP (colLen i) fun t =>
    v p t ^^^ if (ch.getD (p / 8) 0).getLsbD (p % 8) then u (treeOf (params i) p) t else 0

/-- The checks of `faest_verify` for a given `u_tilde`, given hashed columns `T`, corrected witness `d` and
values `a`, `b`: each column hashed and corrected by `u_tilde` gives `T`, and the recomputed `b_tilde` is `b`. -/
def ChecksPass (i : ParamId) (v u : Nat → Nat → Byte) (inp out : Mem Byte) (ch1 ut : List Byte)
    (T : Nat → List Byte) (d ch2 a b ch3 : List Byte) : Prop :=
  (∀ p, p < (params i).lambda → ∃ h, voleHash (ofList ch1) (ofList (qCol i v u ch3 p)) (params i).l (params i).lambda
      = some h ∧ T p = if (ch3.getD (p / 8) 0).getLsbD (p % 8) then List.zipWith (· ^^^ ·) h ut else h) ∧
    aesVerify (params i) (ofList d) (ofList (tabP (params i).lambda (qCol i v u ch3))) (ofList ch2) (ofList ch3)
      (ofList a) inp out = some b

/-- None of the strings `d + u j` starts with a key which the one-way function accepts and maps to the output. -/
def ExtractFails (i : ParamId) (u : Nat → Nat → Byte) (inp : Mem Byte) (O : Nat → Byte) (d : List Byte) : Prop :=
  ∀ j, j < (params i).tau → ∀ key : Mem Byte, Has key 0 ((params i).lambda / 8) (fun t => byteFn d t ^^^ u j t) →
    owf i key inp ≠ some (tabP ((params i).pkSize / 2) O, true)

/-- If the values of two trees are different, the hash keys which do not distinguish some two such trees. -/
def badKeys (i : ParamId) (u : Nat → Nat → Byte) : Set (Fin (5 * ((params i).lambda / 8) + 8) → Byte) := fun sd =>
  ∃ j k, j < k ∧ k < (params i).tau ∧
    tabP (colLen i) (u j)
      ≠ tabP (colLen i) (u k) ∧
    voleHash (ofList (List.ofFn sd)) (ofList (tabP (colLen i) (u j)))
        (params i).l (params i).lambda
      = voleHash (ofList (List.ofFn sd)) (ofList (tabP (colLen i) (u k)))
        (params i).l (params i).lambda

open Classical in
theorem badKeys_card (i : ParamId) (u : Nat → Nat → Byte) :
    (Finset.univ.filter (· ∈ badKeys i u)).card ≤ (params i).tau.choose 2 * (2 ^ (4 * (params i).lambda + 48)
        + (((params i).l + 2 * (params i).lambda - 1) / (params i).lambda - 1)
          * (((params i).l + 2 * (params i).lambda - 1) / (params i).lambda * ((params i).lambda / 64) - 1)
          * 2 ^ (4 * (params i).lambda)) := by
  have hn : (params i).lambda = 128 ∨ (params i).lambda = 192 ∨ (params i).lambda = 256 := by
    cases i <;> decide
  have hl : (params i).l % 8 = 0 := by cases i <;> decide
  have hL := colLen_eq i
  set prs := (Finset.range (params i).tau ×ˢ Finset.range (params i).tau).filter fun q : Nat × Nat => q.1 < q.2
    with hprs
  have hpairs : prs.card = (params i).tau.choose 2 := by
    rw [hprs]; cases i <;> decide +kernel
  rw [← hpairs]
  refine le_trans (Finset.card_le_card ?_) (Finset.card_biUnion_le_card_mul prs (fun q =>
    Finset.univ.filter fun sd : Fin (5 * ((params i).lambda / 8) + 8) → Byte => tabP (colLen i) (u q.1) ≠ tabP (colLen i) (u q.2) ∧
      voleHash (ofList (List.ofFn sd)) (ofList (tabP (colLen i) (u q.1))) (params i).l (params i).lambda
        = voleHash (ofList (List.ofFn sd)) (ofList (tabP (colLen i) (u q.2))) (params i).l (params i).lambda) _ ?_)
  · intro sd hsd
    obtain ⟨j, k, hjk, hk, h1, h2⟩ := (Finset.mem_filter.1 hsd).2
    rw [Finset.mem_biUnion]
    refine ⟨(j, k), ?_, ?_⟩
    · rw [hprs, Finset.mem_filter, Finset.mem_product, Finset.mem_range, Finset.mem_range]
      exact ⟨⟨by dsimp only; omega, hk⟩, hjk⟩
    · rw [Finset.mem_filter]
      exact ⟨Finset.mem_univ _, h1, h2⟩
  · intro q _
    by_cases hq : tabP (colLen i) (u q.1) = tabP (colLen i) (u q.2)
    · rw [Finset.filter_false_of_mem (fun _ _ h => h.1 hq), Finset.card_empty]
      exact Nat.zero_le _
    · refine le_trans (Finset.card_le_card fun sd hsd => ?_)
        (C39_vole_hash_collisions hn hl _ _ ((tabP_length (colLen i) (u q.1)).trans hL) ((tabP_length (colLen i) (u q.2)).trans hL) hq)
      rw [Finset.mem_filter] at hsd ⊢
      exact ⟨Finset.mem_univ _, hsd.2.2⟩

theorem treeOf_lt (i : ParamId) {p : Nat} (hp : p < (params i).lambda) : treeOf (params i) p < (params i).tau := by
  obtain ⟨j, k, hj, hk, rfl⟩ := (params_wf i).col_exists hp
  rw [(params_wf i).treeOf_col hk]
  exact hj

/-- The consistency check: for a hash key which distinguishes the trees, and for every `u_tilde` there is one value
`u j` and for every `T` one matrix `v'` such that whenever the hashed columns are `T`, the matrix of the
verifier is `v' + u j * Delta` — as if the prover had used the same value for all trees. -/
theorem C40_consistency_check (i : ParamId) (v u : Nat → Nat → Byte)
    (ch1 : Fin (5 * ((params i).lambda / 8) + 8) → Byte) (hch1 : ch1 ∉ badKeys i u) (ut : List Byte)
    (hut : ut.length = (params i).lambda / 8 + 2) :
    ∃ j, j < (params i).tau ∧ ∀ T : Nat → List Byte, ∃ v' : Nat → Nat → Byte, ∀ ch3 : List Byte,
      (∀ p, p < (params i).lambda → ∃ h, voleHash (ofList (List.ofFn ch1)) (ofList (qCol i v u ch3 p)) (params i).l
          (params i).lambda = some h ∧
        T p = if (ch3.getD (p / 8) 0).getLsbD (p % 8) then List.zipWith (· ^^^ ·) h ut else h) →
      ∀ p, p < (params i).lambda → qCol i v u ch3 p = qCol i v' (fun _ => u j) ch3 p := by
  classical
  have hn : (params i).lambda = 128 ∨ (params i).lambda = 192 ∨ (params i).lambda = 256 := by
    cases i <;> decide
  have h8n : 8 ∣ (params i).lambda := by rcases hn with h | h | h <;> rw [h] <;> decide
  have hl : (params i).l % 8 = 0 := by cases i <;> decide
  have htau : 0 < (params i).tau := (params_wf i).taupos
  have hL := colLen_eq i
  have hLn : ((params i).l + (params i).lambda) / 8 + ((params i).lambda / 8 + 2) = colLen i := by
    rw [hL]; rcases hn with h | h | h <;> rw [h] <;> omega
  -- the hash as a function of the column
  let H : (Nat → Byte) → Nat → Byte := Spec.voleHash (params i).lambda (params i).l (seedFn ch1)
  have hH : ∀ g : Nat → Byte, voleHash (ofList (List.ofFn ch1)) (ofList (tabP (colLen i) g)) (params i).l (params i).lambda
      = some (tabP ((params i).lambda / 8 + 2) (H g)) := by
    intro g
    rw [C39_vole_hash_value hn hl _ _ (by simp) ((tabP_length _ _).trans (colLen_eq i)), byteFn_ofFn]
    exact congrArg some (tabP_congr fun t ht => voleHash_congr ht fun k hk => byteFn_tabP (by omega))
  have hHx : ∀ g h : Nat → Byte, ∀ t, H (fun k => g k ^^^ h k) t = H g t ^^^ H h t := fun g h t => voleHash_xor h8n _ _ _ _ _
  have hH0 : ∀ t, t < (params i).lambda / 8 + 2 → H (fun _ => 0) t = 0 := by
    intro t _
    have := hHx (fun _ => 0) (fun _ => 0) t
    have e : (fun _ : Nat => (0 : Byte) ^^^ 0) = fun _ => 0 := by funext; simp
    rw [e, BitVec.xor_self] at this
    exact this
  let good : Nat → Prop := fun j => ∀ t, t < (params i).lambda / 8 + 2 → H (u j) t = byteFn ut t
  have hgood : ∀ j k, j < (params i).tau → k < (params i).tau → good j → good k → ∀ t, t < colLen i → u j t = u k t := by
    intro j k hj hk gj gk
    have hsym : ∀ j k, j < k → k < (params i).tau → good j → good k → ∀ t, t < colLen i → u j t = u k t := by
      intro j k hjk hk gj gk
      by_contra hne
      refine hch1 ⟨j, k, hjk, hk, ?_, ?_⟩
      · intro he
        apply hne
        intro t ht
        have := congrArg (fun l : List Byte => l[t]?) he
        simp only [tabP_getElem?, if_pos ht] at this
        exact Option.some.inj this
      · rw [hH, hH]
        exact congrArg some (tabP_congr fun t ht => (gj t ht).trans (gk t ht).symm)
    rcases Nat.lt_trichotomy j k with h | h | h
    · exact hsym j k h hk gj gk
    · subst h; exact fun _ _ => rfl
    · exact fun t ht => (hsym k j h hj gk gj t ht).symm
  obtain ⟨js, hjs, hjsg⟩ : ∃ js, js < (params i).tau ∧ ((∃ j, j < (params i).tau ∧ good j) → good js) := by
    by_cases h : ∃ j, j < (params i).tau ∧ good j
    · obtain ⟨j, hj, hg⟩ := h
      exact ⟨j, hj, fun _ => hg⟩
    · exact ⟨0, htau, fun h' => absurd h' h⟩
  refine ⟨js, hjs, fun T => ?_⟩
  let ds : Nat → Bool := fun p => decide (T p ≠ tabP ((params i).lambda / 8 + 2) (H (v p)))
  refine ⟨fun p t => v p t ^^^ if ds p then u (treeOf (params i) p) t ^^^ u js t else 0, ?_⟩
  intro ch3 hpass p hp
  obtain ⟨h, hh, hT⟩ := hpass p hp
  have htr := treeOf_lt i hp
  unfold qCol at hh ⊢
  rw [hH] at hh
  obtain rfl := Option.some.inj hh
  refine tabP_congr fun t ht => ?_
  cases hb : (ch3.getD (p / 8) 0).getLsbD (p % 8) with
  | false =>
    rw [hb] at hT
    simp only [Bool.false_eq_true, if_false] at hT ⊢
    have hds : ds p = false := by
      simp only [ds, decide_eq_false_iff_not, not_not]
      rw [hT]
      exact tabP_congr fun k hk => by simp
    rw [hds]; simp
  | true =>
    rw [hb] at hT
    simp only [if_true] at hT ⊢
    have hzip : List.zipWith (· ^^^ ·) (tabP ((params i).lambda / 8 + 2) (H fun k => v p k ^^^ u (treeOf (params i) p) k)) ut
        = tabP ((params i).lambda / 8 + 2) fun k => H (v p) k ^^^ (H (u (treeOf (params i) p)) k ^^^ byteFn ut k) := by
      refine list_eq_tabP _ _ _ (by simp [hut]) fun k hk => ?_
      rw [List.getElem?_zipWith, tabP_getElem?, if_pos hk, byteFn_getElem? rfl (by omega), hHx]
      simp [BitVec.xor_assoc]
    rw [hzip] at hT
    by_cases hg : good (treeOf (params i) p)
    · have hds : ds p = false := by
        simp only [ds, decide_eq_false_iff_not, not_not]
        rw [hT]
        refine tabP_congr fun k hk => ?_
        rw [hg k hk, BitVec.xor_self, BitVec.xor_zero]
      rw [hds, hgood _ _ htr hjs hg (hjsg ⟨_, htr, hg⟩) t ht]
      simp
    · have hds : ds p = true := by
        simp only [ds, decide_eq_true_eq]
        intro he
        apply hg
        intro k hk
        have := congrArg (fun l : List Byte => l[k]?) (hT.symm.trans he)
        simp only [tabP_getElem?, if_pos hk] at this
        have := congrArg (fun x => H (v p) k ^^^ x) (Option.some.inj this)
        simp only [← BitVec.xor_assoc, BitVec.xor_self, BitVec.zero_xor] at this
        have := congrArg (fun x => x ^^^ byteFn ut k) this
        simpa [BitVec.xor_assoc] using this
      rw [hds]
      simp [BitVec.xor_assoc]

/-- **C40.** A prover is committed to the columns `v` and the values `u j` of the trees.  After `chall_1` they answer
with `u_tilde`, the hashed columns `T` and the corrected witness `d`, after `chall_2` with `a`, `b`; then they
get `chall_3`.  The number of challenges for which the checks pass although none of the `tau` strings `d + u j`
starts with a key of the public key is at most the stated part of the `2^(5n+64) 2^(3n+64) 2^n` challenges. -/
theorem C40_knowledge_soundness (i : ParamId) {inp out : Mem Byte} {I O : Nat → Byte} (v u : Nat → Nat → Byte)
    (hi : Has inp 0 ((params i).pkSize / 2) I) (ho : Has out 0 ((params i).pkSize / 2) O)
    (ut : (Fin (5 * ((params i).lambda / 8) + 8) → Byte) → List Byte)
    (T : (Fin (5 * ((params i).lambda / 8) + 8) → Byte) → Nat → List Byte)
    (d : (Fin (5 * ((params i).lambda / 8) + 8) → Byte) → List Byte)
    (a b : (Fin (5 * ((params i).lambda / 8) + 8) → Byte) → (Fin (3 * ((params i).lambda / 8) + 8) → Byte) → List Byte)
    (hut : ∀ c1, (ut c1).length = (params i).lambda / 8 + 2) (hd : ∀ c1, (d c1).length = (params i).l / 8)
    (ha : ∀ c1 c2, (a c1 c2).length = (params i).lambda / 8)
    (S : Finset (((Fin ((params i).lambda / 8) → Byte) × (Fin (3 * ((params i).lambda / 8) + 8) → Byte))
      × (Fin (5 * ((params i).lambda / 8) + 8) → Byte)))
    (hS : ∀ c3 c2 c1, ((c3, c2), c1) ∈ S ↔ ChecksPass i v u inp out (List.ofFn c1) (ut c1) (T c1) (d c1) (List.ofFn c2)
      (a c1 c2) (b c1 c2) (List.ofFn c3) ∧ ExtractFails i u inp O (d c1)) :
    S.card ≤ 2 ^ (5 * (params i).lambda + 64) * (2 ^ (3 * (params i).lambda + 64) * 2
          + (2 ^ (2 * (params i).lambda + 64) + (conCount (params i) - 1) ^ 2 * 2 ^ (2 * (params i).lambda))
            * 2 ^ (params i).lambda)
      + (params i).tau.choose 2 * (2 ^ (4 * (params i).lambda + 48)
          + (((params i).l + 2 * (params i).lambda - 1) / (params i).lambda - 1)
            * (((params i).l + 2 * (params i).lambda - 1) / (params i).lambda * ((params i).lambda / 64) - 1)
            * 2 ^ (4 * (params i).lambda)) * 2 ^ (4 * (params i).lambda + 64) := by
  classical
  have h8n : 8 * ((params i).lambda / 8) = (params i).lambda := by cases i <;> decide
  have hcount := card_prod_le (A := (Fin ((params i).lambda / 8) → Byte) × (Fin (3 * ((params i).lambda / 8) + 8) → Byte))
    (B := Fin (5 * ((params i).lambda / 8) + 8) → Byte)
    (fun q c1 => ChecksPass i v u inp out (List.ofFn c1) (ut c1) (T c1) (d c1) (List.ofFn q.2)
      (a c1 q.2) (b c1 q.2) (List.ofFn q.1) ∧ ExtractFails i u inp O (d c1))
    (Finset.univ.filter (· ∈ badKeys i u))
    (L := 2 ^ (3 * (params i).lambda + 64) * 2
          + (2 ^ (2 * (params i).lambda + 64) + (conCount (params i) - 1) ^ 2 * 2 ^ (2 * (params i).lambda))
            * 2 ^ (params i).lambda) (by
      intro c1 hc1
      have hc1 : c1 ∉ badKeys i u := by simpa using hc1
      by_cases hf : ExtractFails i u inp O (d c1)
      · obtain ⟨j, hj, hjT⟩ := C40_consistency_check i v u c1 hc1 (ut c1) (hut c1)
        obtain ⟨v', hv'⟩ := hjT (T c1)
        have hdh := has_byteFn (d c1)
        rw [hd c1] at hdh
        refine le_trans (Finset.card_le_card fun q hq => ?_) (C40_constraint_check i (d := ofList (d c1)) (inp := inp)
          (out := out) (L := colLen i) (I := I) (O := O)
          (wf := fun t => byteFn (d c1) t ^^^ u j t) (uf := u j) (v := v') (fun t ht => ?_) ?_ hi ho
          (hf j hj) (a c1) (b c1) (ha c1)
          (fun ch => ofList (tabP (params i).lambda (qCol i v' (fun _ => u j) ch))) ?_)
        · rw [Finset.mem_filter] at hq ⊢
          obtain ⟨-, ⟨h1, h2⟩, -⟩ := hq
          refine ⟨Finset.mem_univ _, ?_⟩
          rw [← h2, tabP_congr fun p hp => (hv' _ h1 p hp).symm]
        · rw [hdh.rd0 ht, BitVec.xor_assoc, BitVec.xor_self, BitVec.xor_zero]
        · have := (params_wf i).l8; have := colLen_eq i; omega
        · intro ch c hc
          rw [rd_ofList, tabP_getElem?, if_pos hc]
          rfl
      · rw [Finset.filter_false_of_mem (fun _ _ h => hf h.2), Finset.card_empty]
        exact Nat.zero_le _)
  refine (Finset.card_le_card (fun q hq => ?_)).trans (hcount.trans ?_)
  · rw [Finset.mem_filter]
    exact ⟨Finset.mem_univ _, (hS _ _ _).1 hq⟩
  · rw [Fintype.card_prod, card_seeds, card_seeds, card_seeds]
    have e1 : 8 * (5 * ((params i).lambda / 8) + 8) = 5 * (params i).lambda + 64 := by omega
    have e2 : 2 ^ (8 * ((params i).lambda / 8)) * 2 ^ (8 * (3 * ((params i).lambda / 8) + 8))
        = 2 ^ (4 * (params i).lambda + 64) := by
      rw [← Nat.pow_add]; congr 1; omega
    rw [e1, e2]
    exact Nat.add_le_add_left (Nat.mul_le_mul_right _ (badKeys_card i u)) _

/-- **C40 for the parameter sets.** The knowledge error is at most `2^-(lambda-2)`. -/
theorem C40_parameters (i : ParamId) {inp out : Mem Byte} {I O : Nat → Byte} (v u : Nat → Nat → Byte)
    (hi : Has inp 0 ((params i).pkSize / 2) I) (ho : Has out 0 ((params i).pkSize / 2) O)
    (ut : (Fin (5 * ((params i).lambda / 8) + 8) → Byte) → List Byte)
    (T : (Fin (5 * ((params i).lambda / 8) + 8) → Byte) → Nat → List Byte)
    (d : (Fin (5 * ((params i).lambda / 8) + 8) → Byte) → List Byte)
    (a b : (Fin (5 * ((params i).lambda / 8) + 8) → Byte) → (Fin (3 * ((params i).lambda / 8) + 8) → Byte) → List Byte)
    (hut : ∀ c1, (ut c1).length = (params i).lambda / 8 + 2) (hd : ∀ c1, (d c1).length = (params i).l / 8)
    (ha : ∀ c1 c2, (a c1 c2).length = (params i).lambda / 8)
    (S : Finset (((Fin ((params i).lambda / 8) → Byte) × (Fin (3 * ((params i).lambda / 8) + 8) → Byte))
      × (Fin (5 * ((params i).lambda / 8) + 8) → Byte)))
    (hS : ∀ c3 c2 c1, ((c3, c2), c1) ∈ S ↔ ChecksPass i v u inp out (List.ofFn c1) (ut c1) (T c1) (d c1) (List.ofFn c2)
      (a c1 c2) (b c1 c2) (List.ofFn c3) ∧ ExtractFails i u inp O (d c1)) :
    S.card * 2 ^ ((params i).lambda - 2)
      ≤ Fintype.card (((Fin ((params i).lambda / 8) → Byte) × (Fin (3 * ((params i).lambda / 8) + 8) → Byte))
        × (Fin (5 * ((params i).lambda / 8) + 8) → Byte)) := by
  rw [Fintype.card_prod, Fintype.card_prod, card_seeds, card_seeds, card_seeds]
  refine (Nat.mul_le_mul_right _ (C40_knowledge_soundness i v u hi ho ut T d a b hut hd ha S hS)).trans ?_
  cases i <;> decide +kernel

/-- The values hashed by `faest_verify` pass the checks. -/
theorem accepted_checks (X : XOF) (i : ParamId) {pk m sg : List Byte} (hpk : pk.length = (params i).pkSize)
    (hsg : sg.length = (params i).sigSize)
    (hver : verify X i (some (ofList pk)) (ofList m) m.length (some (ofList sg)) sg.length = some 0)
    (v u : Nat → Nat → Byte)
    (hcom : ∀ p, p < (params i).lambda → ∀ t, t < colLen i → Spec.vCol X (params i) (byteFn sg) p t
      = v p t ^^^ if strBit (Spec.sgChall (params i) (byteFn sg)) p then u (treeOf (params i) p) t else 0) :
    hashMu X (pk.take ((params i).pkSize / 2)) (pk.drop ((params i).pkSize / 2)) m (params i).lambda
        = Spec.muOf X (params i) (byteFn pk) (byteFn (pk.drop ((params i).pkSize / 2))) m ∧
      Spec.vChall1 X (params i) (byteFn sg) (Spec.muOf X (params i) (byteFn pk) (byteFn (pk.drop ((params i).pkSize / 2))) m)
        = hashChallenge1 X (Spec.muOf X (params i) (byteFn pk) (byteFn (pk.drop ((params i).pkSize / 2))) m)
          (Spec.vHcom X (params i) (byteFn sg)) (sg.take (Spec.posU (params i)))
          (Spec.sgIv (params i) (byteFn sg)) (params i).lambda ∧
      Spec.vChall3 X (params i) (byteFn sg) (byteFn pk) (byteFn (pk.drop ((params i).pkSize / 2))) m
        = tabP ((params i).lambda / 8) (Spec.sgChall (params i) (byteFn sg)) ∧
      ChecksPass i v u (ofList pk) (ofList (pk.drop ((params i).pkSize / 2)))
        (Spec.vChall1 X (params i) (byteFn sg) (Spec.muOf X (params i) (byteFn pk) (byteFn (pk.drop ((params i).pkSize / 2))) m))
        (Spec.sgU (params i) (byteFn sg))
        (fun p => tabP ((params i).lambda / 8 + 2) (Spec.vTag X (params i) (byteFn sg)
          (Spec.vChall1 X (params i) (byteFn sg) (Spec.muOf X (params i) (byteFn pk) (byteFn (pk.drop ((params i).pkSize / 2))) m)) p))
        (Spec.sgD (params i) (byteFn sg))
        (Spec.vChall2 X (params i) (byteFn sg) (Spec.muOf X (params i) (byteFn pk) (byteFn (pk.drop ((params i).pkSize / 2))) m))
        (Spec.sgA (params i) (byteFn sg))
        (Spec.vB X (params i) (byteFn sg) (byteFn pk) (byteFn (pk.drop ((params i).pkSize / 2)))
          (Spec.vChall2 X (params i) (byteFn sg) (Spec.muOf X (params i) (byteFn pk) (byteFn (pk.drop ((params i).pkSize / 2))) m))).toBytes
        (tabP ((params i).lambda / 8) (Spec.sgChall (params i) (byteFn sg))) := by
  have h := params_wf i
  have hp2 := params_pk2 i
  have hl8 := h.l8
  have hlam8 : 8 * ((params i).lambda / 8) = (params i).lambda := by cases i <;> decide
  have hhs : Has (ofList sg) 0 (params i).sigSize (byteFn sg) := hsg ▸ has_byteFn sg
  obtain ⟨r, h1, -, h3⟩ := verify_ok X hpk (rdN_ofList m) hhs
  rw [← hsg, hver] at h1
  have hval := h3.1 (Option.some.inj h1).symm
  unfold Spec.ValidSig Spec.Valid Spec.vChall3 at hval
  have hmu : Spec.muOf X (params i) (byteFn pk) (byteFn (pk.drop ((params i).pkSize / 2))) m
      = hashMu X (pk.take ((params i).pkSize / 2)) (pk.drop ((params i).pkSize / 2)) m (params i).lambda := by
    rw [← muOf_eq h]
    congr 1
    · symm
      refine list_eq_tabP _ _ _ (by simp; omega) fun t ht => ?_
      rw [List.getElem?_take, if_pos ht]
      exact byteFn_getElem? rfl (by omega)
    · symm
      exact list_eq_tabP _ _ _ (by simp; omega) fun t ht => byteFn_getElem? rfl (by simp; omega)
  have hposU : Spec.posU (params i) ≤ sg.length := by rw [hsg]; cases i <;> decide
  have hbit : ∀ p, p < (params i).lambda →
      ((tabP ((params i).lambda / 8) (Spec.sgChall (params i) (byteFn sg))).getD (p / 8) 0).getLsbD (p % 8)
        = strBit (Spec.sgChall (params i) (byteFn sg)) p := by
    intro p hp
    unfold strBit
    rw [List.getD_eq_getElem?_getD, tabP_getElem?, if_pos (by omega), Option.getD_some]
  have hq : ∀ p, p < (params i).lambda →
      qCol i v u (tabP ((params i).lambda / 8) (Spec.sgChall (params i) (byteFn sg))) p
        = tabP (colLen i) (Spec.vCol X (params i) (byteFn sg) p) := by
    intro p hp
    unfold qCol
    rw [hbit p hp]
    exact tabP_congr fun t ht => (hcom p hp t ht).symm
  have hcb : Spec.colBytes (params i) = colLen i := by
    unfold Spec.colBytes colLen; omega
  dsimp only at hval
  set ch1 := Spec.vChall1 X (params i) (byteFn sg)
    (Spec.muOf X (params i) (byteFn pk) (byteFn (pk.drop ((params i).pkSize / 2))) m) with hch1
  set ch2 := Spec.vChall2 X (params i) (byteFn sg)
    (Spec.muOf X (params i) (byteFn pk) (byteFn (pk.drop ((params i).pkSize / 2))) m) with hch2
  refine ⟨hmu.symm, ?_, hval, ?_, ?_⟩
  · rw [hch1]
    unfold Spec.vChall1 hashChallenge1
    have : tabP (Spec.posU (params i)) (byteFn sg) = sg.take (Spec.posU (params i)) := by
      symm
      refine list_eq_tabP _ _ _ (by simp; omega) fun t ht => ?_
      rw [List.getElem?_take, if_pos ht]
      exact byteFn_getElem? rfl (by omega)
    rw [this]
    rfl
  · intro p hp
    rw [hq p hp, ← hcb]
    refine ⟨_, voleHash_model h (has_ro _ _ _ _ _) (has_tabP _ _), ?_⟩
    rw [hbit p hp]
    symm
    split
    · rename_i hb
      refine list_eq_tabP _ _ _ (by simp [Spec.sgU]) fun t ht => ?_
      rw [List.getElem?_zipWith, tabP_getElem?, if_pos ht]
      unfold Spec.sgU
      rw [tabP_getElem?, if_pos ht]
      unfold Spec.vTag Spec.sel
      rw [if_pos hb]
      rfl
    · rename_i hb
      refine tabP_congr fun t ht => ?_
      unfold Spec.vTag Spec.sel
      rw [if_neg hb]
      exact (BitVec.xor_zero).symm
  · have hV := aesVerify_ok i (params_fieldBits i) (L := colLen i) (inp := ofList pk)
      (out := ofList (pk.drop ((params i).pkSize / 2))) (d := ofList (Spec.sgD (params i) (byteFn sg)))
      (chall2 := ofList ch2) (chall3 := ofList (tabP ((params i).lambda / 8) (Spec.sgChall (params i) (byteFn sg))))
      (aT := ofList (Spec.sgA (params i) (byteFn sg)))
      (Q := ofList (tabP (params i).lambda
        (qCol i v u (tabP ((params i).lambda / 8) (Spec.sgChall (params i) (byteFn sg))))))
      (qf := Spec.vCol X (params i) (byteFn sg)) (has_tabP _ _)
      (fun c hc => by rw [rd_ofList, tabP_getElem?, if_pos hc, hq c hc])
      (by unfold colLen; omega)
      (has_ofList_le pk (n := (params i).pkSize / 2) (by omega))
      (has_ofList_le (pk.drop ((params i).pkSize / 2)) (by rw [List.length_drop]; omega))
      (has_ro _ _ _ _ _) (has_tabP _ _) (has_tabP _ _)
    rw [hV]
    have hcc : corrCol (Spec.sgChall (params i) (byteFn sg)) (fun t => byteFn sg (Spec.posD (params i) + t))
        ((params i).l / 8) (Spec.vCol X (params i) (byteFn sg)) = Spec.vColW X (params i) (byteFn sg) := by
      funext p t
      exact corrCol_sel ..
    rw [hcc]
    rfl

/-- **C40, connection with `faest_verify`.** Let a signature be accepted and let the columns recomputed from its
openings and corrections be those of the commitment `v`, `u`.  Then the checks pass for the challenges, which are
the hashes of the messages sent before: `chall_2` of `chall_1`, `u_tilde`, the hash of `T`, and `d`; `chall_3` of
`chall_2`, `a`, `b`. -/
theorem C40_accepted_signature (X : XOF) (i : ParamId) {pk m sg : List Byte} (hpk : pk.length = (params i).pkSize)
    (hsg : sg.length = (params i).sigSize)
    (hver : verify X i (some (ofList pk)) (ofList m) m.length (some (ofList sg)) sg.length = some 0)
    (v u : Nat → Nat → Byte)
    (hcom : ∀ p, p < (params i).lambda → ∀ t, t < colLen i → Spec.vCol X (params i) (byteFn sg) p t
      = v p t ^^^ if strBit (Spec.sgChall (params i) (byteFn sg)) p then u (treeOf (params i) p) t else 0) :
    ∃ (mu ch1 ch2 b : List Byte) (T : Nat → List Byte),
      mu = hashMu X (pk.take ((params i).pkSize / 2)) (pk.drop ((params i).pkSize / 2)) m (params i).lambda ∧
      ch1 = hashChallenge1 X mu (Spec.vHcom X (params i) (byteFn sg)) (sg.take (Spec.posU (params i)))
        (Spec.sgIv (params i) (byteFn sg)) (params i).lambda ∧
      ch2 = hashChallenge2 X ch1 (Spec.sgU (params i) (byteFn sg))
        (H1 X (params i).lambda (tabP (params i).lambda T).flatten ((params i).lambda / 8 * 2))
        (Spec.sgD (params i) (byteFn sg)) (params i).lambda ∧
      tabP ((params i).lambda / 8) (Spec.sgChall (params i) (byteFn sg))
        = hashChallenge3 X ch2 (Spec.sgA (params i) (byteFn sg)) b (params i).lambda ∧
      ChecksPass i v u (ofList pk) (ofList (pk.drop ((params i).pkSize / 2))) ch1
        (Spec.sgU (params i) (byteFn sg)) T (Spec.sgD (params i) (byteFn sg)) ch2 (Spec.sgA (params i) (byteFn sg)) b
        (tabP ((params i).lambda / 8) (Spec.sgChall (params i) (byteFn sg))) := by
  obtain ⟨h1, h2, h3, h4⟩ := accepted_checks X i hpk hsg hver v u hcom
  refine ⟨_, _, _, _, _, rfl, ?_, ?_, h3.symm, h4⟩
  · rw [h1]
    exact h2
  · unfold Spec.vChall2
    rw [Nat.mul_comm ((params i).lambda / 8) 2]
    rfl

/-- A case for the hypotheses of the theorems above: for the all-zero public key, a prover committed to zeros who
sends `d = 0` knows no key, and the bound applies to whatever else they send. -/
example : ExtractFails .p128F (fun _ _ => 0) (full 16 fun _ => 0) (fun _ => 0) (List.replicate 200 0) := by
  intro j _ key hkey h
  have hk : Has key 0 16 fun _ => 0 := hkey.congr fun t ht => by
    have ht : t < 16 := ht
    unfold byteFn
    rw [List.getElem?_replicate, if_pos (by omega)]
    exact (by decide : (0 : Byte) ^^^ 0 = 0)
  obtain ⟨⟨o, ok⟩, h1, h2, -⟩ := owf_ok .p128F hk (has_full 16 fun _ => (0 : Byte))
  obtain ⟨⟨o', ok'⟩, h1', h2', -⟩ := owf_ok .p128F (has_full 16 fun _ => (0 : Byte)) (has_full 16 fun _ => (0 : Byte))
  have e : o' = o := h2'.trans h2.symm
  rw [h1] at h
  have e' : o = tabP 16 fun _ => 0 := congrArg Prod.fst (Option.some.inj h)
  have : (owf .p128F (full 16 fun _ => 0) (full 16 fun _ => 0)).map Prod.fst ≠ some (tabP 16 fun _ => 0) := by
    decide +kernel
  rw [h1'] at this
  exact this (congrArg some (e.trans e'))

end Faest.Props
