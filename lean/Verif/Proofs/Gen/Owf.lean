/-
The translated owf.c computes what the model computes.
-/
import Verif.Proofs.Gen.Aes2
import Verif.Model.Gen.Owf
import Verif.Model.Owf

set_option linter.unusedVariables false

namespace Faest.C

section
variable {D E F : Blocks} {δ : Type} {Q : δ → Blocks → Prop} {kd : Kind}

theorem encryptBlock_drop (rk μ : Mem Byte) (o bw r : Nat) : encryptBlock rk μ o bw r = encryptBlock rk (μ.drop o) 0 bw r := by
  unfold encryptBlock
  rw [loadState_drop]

theorem encryptBlock_length {rk μ : Mem Byte} {o bw r : Nat} {l : List Byte} {z : Bool} (h : encryptBlock rk μ o bw r = some (l, z)) :
    l.length = bw * 4 := by
  unfold encryptBlock at h
  inv h
  obtain ⟨s0, h0, ⟨s1, z1⟩, h1, l', h2, h3⟩ := h
  simp only [Prod.mk.injEq] at h3
  obtain ⟨rfl, rfl⟩ := h3
  exact storeState_length h2

theorem owf_128_run {s o : Nat} {m m' key inp : Mem Byte} {out : List Byte} {ok : Bool} {pk pi : CPtr} (hk : View F pk key)
    (hi : View F pi inp) (h : owf128 key inp = some (out, ok)) (hw : wrN m o out = some m') :
    Runs (bl kd s m + F) (Gen.owf_128 pk pi (some ⟨s, o⟩)) ok (bl kd s m' + F) := by
  unfold owf128 at h
  obtain ⟨⟨rk, z⟩, h1, h⟩ := Option.bind_eq_some_iff.1 h
  obtain ⟨⟨out', z1⟩, h2, h⟩ := Option.bind_eq_some_iff.1 h
  cases h
  unfold Gen.owf_128
  refine t_alloc fun t => ?_
  refine t_run rfl (aes128_init_run hk.there h1) ?_
  refine t_run (by hfind) (aes128_encrypt_block_run (kd := kd) (s := s) (rk := rk) (μ := inp) (by hview) (by hview) h2 hw) ?_
  refine t_free (by hfind1) (t_pure ⟨?_, rfl⟩)
  cases z <;> cases z1 <;> rfl

theorem owf_192_run {s o : Nat} {m m' key inp : Mem Byte} {out : List Byte} {ok : Bool} {pk pi : CPtr} (hk : View F pk key)
    (hi : View F pi inp) (h : owf192 key inp = some (out, ok)) (hw : wrN m o out = some m') :
    Runs (bl kd s m + F) (Gen.owf_192 pk pi (some ⟨s, o⟩)) ok (bl kd s m' + F) := by
  unfold owf192 at h
  obtain ⟨⟨rk, z⟩, h1, h⟩ := Option.bind_eq_some_iff.1 h
  obtain ⟨⟨out1, z1⟩, h2, h⟩ := Option.bind_eq_some_iff.1 h
  obtain ⟨⟨out2, z2⟩, h3, h⟩ := Option.bind_eq_some_iff.1 h
  cases h
  have hl := encryptBlock_length h2
  rw [encryptBlock_drop] at h3
  obtain ⟨hm, rfl⟩ := wrN_eq_W hw
  rw [List.length_append] at hm
  have hw2 := wrN_W_append hm
  rw [hl] at hw2
  unfold Gen.owf_192
  refine t_alloc fun t => ?_
  refine t_run rfl (aes192_init_run hk.there h1) ?_
  refine t_run (by hfind) (aes192_encrypt_block_run (kd := kd) (s := s) (rk := rk) (μ := inp) (by hview) (by hview) h2 (wrN_W (by omega))) ?_
  refine t_run rfl (aes192_encrypt_block_run (kd := kd) (s := s) (rk := rk) (μ := inp.drop 16) (by hview) hi.padd.there.there h3 hw2) ?_
  refine t_free (by hfind1) (t_pure ⟨?_, rfl⟩)
  cases z <;> cases z1 <;> cases z2 <;> rfl

theorem owf_256_run {s o : Nat} {m m' key inp : Mem Byte} {out : List Byte} {ok : Bool} {pk pi : CPtr} (hk : View F pk key)
    (hi : View F pi inp) (h : owf256 key inp = some (out, ok)) (hw : wrN m o out = some m') :
    Runs (bl kd s m + F) (Gen.owf_256 pk pi (some ⟨s, o⟩)) ok (bl kd s m' + F) := by
  unfold owf256 at h
  obtain ⟨⟨rk, z⟩, h1, h⟩ := Option.bind_eq_some_iff.1 h
  obtain ⟨⟨out1, z1⟩, h2, h⟩ := Option.bind_eq_some_iff.1 h
  obtain ⟨⟨out2, z2⟩, h3, h⟩ := Option.bind_eq_some_iff.1 h
  cases h
  have hl := encryptBlock_length h2
  rw [encryptBlock_drop] at h3
  obtain ⟨hm, rfl⟩ := wrN_eq_W hw
  rw [List.length_append] at hm
  have hw2 := wrN_W_append hm
  rw [hl] at hw2
  unfold Gen.owf_256
  refine t_alloc fun t => ?_
  refine t_run rfl (aes256_init_run hk.there h1) ?_
  refine t_run (by hfind) (aes256_encrypt_block_run (kd := kd) (s := s) (rk := rk) (μ := inp) (by hview) (by hview) h2 (wrN_W (by omega))) ?_
  refine t_run rfl (aes256_encrypt_block_run (kd := kd) (s := s) (rk := rk) (μ := inp.drop 16) (by hview) hi.padd.there.there h3 hw2) ?_
  refine t_free (by hfind1) (t_pure ⟨?_, rfl⟩)
  cases z <;> cases z1 <;> cases z2 <;> rfl

/-- owf.c:38-40: the output is changed in place. -/
theorem t_emXor {s o n : Nat} {m key : Mem Byte} {c l : List Byte} {pk : CPtr} {g : Nat → CM δ} (hk : View F pk key) (hn : n ≤ 32)
    (hc : c.length = n) (hm : o + n ≤ m.length) (h : xorArr (ofList c) key n = some l)
    (k : T (bl kd s (W m o l) + F) (g n) Q) :
    T (bl kd s (W m o c) + F) (cwhile
      (fun _s1 =>
        let i : Nat := _s1
        decide (i ≠ n))
      (fun _s1 => do
        let i : Nat := _s1
        let e4 : Byte ← ld (some ⟨s, o⟩) i
        let e5 : Byte ← ld pk i
        st (some ⟨s, o⟩) i (BitVec.ofNat 8 (e4.toNat ^^^ e5.toNat))
        let i : Nat := (i + 1) % U32
        pure i)
      0 >>= g) Q := by
  obtain ⟨hl, hx⟩ := tabM_some h
  have hm1 : o + l.length ≤ (W m o c).length := by rw [length_W (by omega)]; omega
  refine t_while n (fun i => i) (fun i => bl kd s (W (W m o c) o (l.take i)) + F) (by omega) rfl (by rw [W_take_zero])
    (fun i hi => by simp; omega) (by simp) (fun i hi => ?_) ?_
  · have hx := hx i hi
    rw [List.getElem?_eq_getElem (by omega)] at hx
    simp only [Option.bind_eq_bind, Option.bind_eq_some_iff, Option.pure_def, Option.some.injEq] at hx
    obtain ⟨x, hx, y, hy, hxy⟩ := hx
    have ht : (l.take i).length = i := by rw [List.length_take]; omega
    have hr : rd (W (W m o c) o (l.take i)) (o + i) = some x := by
      rw [rd_W (by rw [ht]; omega), if_neg (by omega), rd_W (by omega), if_pos (by omega), Nat.add_sub_cancel_left]
      rw [rd_ofList] at hx
      exact hx
    refine t_ld View.here (by rw [rd_drop]; exact hr) (t_ld hk.there hy ?_)
    refine t_st rfl (wr_W hm1 ?_) (t_pure ⟨?_, rfl⟩)
    · rw [List.getElem?_eq_getElem (by omega), ← hxy]
      bsimp
    · omega
  · rw [W_take_full _ _ _ (by omega), W_W (by omega) (by omega)]
    exact k

theorem owf_em_128_run {s o : Nat} {m m' key inp : Mem Byte} {out : List Byte} {ok : Bool} {pk pi : CPtr} (hk : View F pk key)
    (hi : View F pi inp) (h : owfEm 4 10 key inp = some (out, ok)) (hw : wrN m o out = some m') :
    Runs (bl kd s m + F) (Gen.owf_em_128 pk pi (some ⟨s, o⟩)) ok (bl kd s m' + F) := by
  unfold owfEm at h
  obtain ⟨⟨rk, z⟩, h1, h⟩ := Option.bind_eq_some_iff.1 h
  obtain ⟨⟨c, z1⟩, h2, h⟩ := Option.bind_eq_some_iff.1 h
  obtain ⟨x, h3, h⟩ := Option.bind_eq_some_iff.1 h
  cases h
  have hl := encryptBlock_length h2
  have hx := (tabM_some h3).1
  obtain ⟨hm, rfl⟩ := wrN_eq_W hw
  unfold Gen.owf_em_128
  refine t_alloc fun t => ?_
  refine t_run rfl (aes128_init_run hi.there h1) ?_
  refine t_run (by hfind) (aes128_encrypt_block_run (kd := kd) (s := s) (rk := rk) (μ := key) (by hview) (by hview) h2 (wrN_W (by omega))) ?_
  refine t_emXor hk.there (by omega) (by omega) (by omega) h3 ?_
  refine t_free (by hfind1) (t_pure ⟨?_, rfl⟩)
  cases z1 <;> rfl

theorem owf_em_192_run {s o : Nat} {m m' key inp : Mem Byte} {out : List Byte} {ok : Bool} {pk pi : CPtr} (hk : View F pk key)
    (hi : View F pi inp) (h : owfEm 6 12 key inp = some (out, ok)) (hw : wrN m o out = some m') :
    Runs (bl kd s m + F) (Gen.owf_em_192 pk pi (some ⟨s, o⟩)) ok (bl kd s m' + F) := by
  unfold owfEm at h
  obtain ⟨⟨rk, z⟩, h1, h⟩ := Option.bind_eq_some_iff.1 h
  obtain ⟨⟨c, z1⟩, h2, h⟩ := Option.bind_eq_some_iff.1 h
  obtain ⟨x, h3, h⟩ := Option.bind_eq_some_iff.1 h
  cases h
  have hl := encryptBlock_length h2
  have hx := (tabM_some h3).1
  obtain ⟨hm, rfl⟩ := wrN_eq_W hw
  unfold Gen.owf_em_192
  refine t_alloc fun t => ?_
  refine t_run rfl (rijndael192_init_run hi.there h1) ?_
  refine t_run (by hfind) (rijndael192_encrypt_block_run (kd := kd) (s := s) (rk := rk) (μ := key) (by hview) (by hview) h2 (wrN_W (by omega))) ?_
  refine t_emXor hk.there (by omega) (by omega) (by omega) h3 ?_
  refine t_free (by hfind1) (t_pure ⟨?_, rfl⟩)
  cases z1 <;> rfl

theorem owf_em_256_run {s o : Nat} {m m' key inp : Mem Byte} {out : List Byte} {ok : Bool} {pk pi : CPtr} (hk : View F pk key)
    (hi : View F pi inp) (h : owfEm 8 14 key inp = some (out, ok)) (hw : wrN m o out = some m') :
    Runs (bl kd s m + F) (Gen.owf_em_256 pk pi (some ⟨s, o⟩)) ok (bl kd s m' + F) := by
  unfold owfEm at h
  obtain ⟨⟨rk, z⟩, h1, h⟩ := Option.bind_eq_some_iff.1 h
  obtain ⟨⟨c, z1⟩, h2, h⟩ := Option.bind_eq_some_iff.1 h
  obtain ⟨x, h3, h⟩ := Option.bind_eq_some_iff.1 h
  cases h
  have hl := encryptBlock_length h2
  have hx := (tabM_some h3).1
  obtain ⟨hm, rfl⟩ := wrN_eq_W hw
  unfold Gen.owf_em_256
  refine t_alloc fun t => ?_
  refine t_run rfl (rijndael256_init_run hi.there h1) ?_
  refine t_run (by hfind) (rijndael256_encrypt_block_run (kd := kd) (s := s) (rk := rk) (μ := key) (by hview) (by hview) h2 (wrN_W (by omega))) ?_
  refine t_emXor hk.there (by omega) (by omega) (by omega) h3 ?_
  refine t_free (by hfind1) (t_pure ⟨?_, rfl⟩)
  cases z1 <;> rfl

end

end Faest.C
