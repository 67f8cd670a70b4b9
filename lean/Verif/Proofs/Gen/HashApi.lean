/-
The translated hash interface and random oracles (hash_shake.h, random_oracle.c) for one state.
-/
import Verif.Model.Gen.RandomOracle
import Verif.Proofs.Gen.SpSpec
import Verif.Proofs.ShakeRun

namespace Faest.GenH
open Faest.C Faest.Keccak
open Spec.Keccak (shakeX)

theorem rate_cases (sel : Nat) : rateOf sel = 136 ∨ rateOf sel = 168 := by
  unfold rateOf; split <;> omega

/-- The state after `M` was taken in. -/
def aM (sel : Nat) (M : List Byte) : MSt := absorbM (rateOf sel) (fun _ => 0, 0) M

theorem aM_lt (sel : Nat) (M : List Byte) : (aM sel M).2 < rateOf sel :=
  absorbM_lt (rateOf_facts sel).2.1 _ _ (rateOf_facts sel).2.1

variable {K1 : SpImpl} (S1 : SpSpec K1)

/-- The context at block `b` has taken in `M`; `m` are the bytes of the state. -/
def HAbsC (sel : Nat) (M : List Byte) (b : Nat) (c : HashC) (m : Mem Byte) : Prop :=
  c = ⟨spA (some ⟨b, 0⟩) (rateOf sel) (aM sel M).2, some 0, some 0x1F⟩ ∧ m = S1.lay (aM sel M).1

/-- The context at block `b` was closed on the input `M` and has given out `p` bytes. -/
def HSqC (sel : Nat) (M : List Byte) (p b : Nat) (c : HashC) (m : Mem Byte) : Prop :=
  ∃ k x, p = rateOf sel * k + x ∧ x ≤ rateOf sel ∧
    c = ⟨spS (some ⟨b, 0⟩) (rateOf sel) x, some 0, some 0x1F⟩ ∧ m = S1.lay (iterB k (finB (rateOf sel) M))

/-- The members of the context need not be initialised. -/
def HRaw (b : Nat) (c : HashC) (m : Mem Byte) : Prop := c.sponge.state = some ⟨b, 0⟩ ∧ m.length = 200

variable {S1}

theorem HAbsC.raw {sel b : Nat} {M : List Byte} {c : HashC} {m : Mem Byte} (h : HAbsC S1 sel M b c m) : HRaw b c m := by
  obtain ⟨rfl, rfl⟩ := h
  exact ⟨rfl, S1.len _⟩

theorem HSqC.raw {sel b p : Nat} {M : List Byte} {c : HashC} {m : Mem Byte} (h : HSqC S1 sel M p b c m) : HRaw b c m := by
  obtain ⟨_, _, _, _, rfl, rfl⟩ := h
  exact ⟨rfl, S1.len _⟩

section
variable {kd : Kind} {b : Nat} {m : Mem Byte} {F : Blocks} {c : HashC}

theorem hash_init_t {sel : Nat} (h : HRaw b c m) :
    T (bl kd b m + F) (hash_init K1 c sel) fun c' D' => ∃ m', HAbsC S1 sel [] b c' m' ∧ D' = bl kd b m' + F := by
  have key : ∀ r cap, (r = 136 ∨ r = 168) → 8 * r + cap = 1600 →
      Runs (bl kd b m + F) (Keccak_HashInitialize K1 c (8 * r) cap 0 (31 : Byte))
        (0, ⟨spA (some ⟨b, 0⟩) r 0, some 0, some 0x1F⟩) (bl kd b (S1.lay fun _ => 0) + F) := by
    intro r cap hr hc
    unfold Keccak_HashInitialize Runs
    rw [if_neg (by decide)]
    refine t_run rfl (S1.init h.1 hr hc h.2) ?_
    dsimp only
    rw [if_neg (by decide)]
    exact t_pure ⟨rfl, rfl⟩
  unfold hash_init
  by_cases e : sel = 128
  · subst e
    refine t_ite_pos rfl ?_
    refine t_assoc (t_run rfl (key 168 256 (by omega) (by omega)) ?_)
    exact t_pbind (t_pure ⟨_, ⟨rfl, rfl⟩, rfl⟩)
  · refine t_ite_neg e ?_
    refine t_assoc (t_run rfl (key 136 512 (by omega) (by omega)) ?_)
    have hr : rateOf sel = 136 := by unfold rateOf; rw [if_neg e]
    refine t_pbind (t_pure ⟨_, ⟨?_, rfl⟩, rfl⟩)
    rw [hr]
    rfl

theorem hash_update_t {sel n : Nat} {M : List Byte} {data : CPtr} {μ : Mem Byte} {d : Nat → Byte}
    (h : HAbsC S1 sel M b c m) (hv : View F data μ) (hd : Has μ 0 n d) (hn : UpdateFits 64 sel M.length n) :
    T (bl kd b m + F) (hash_update K1 c data n) fun c' D' => ∃ m', HAbsC S1 sel (M ++ tabP n d) b c' m' ∧ D' = bl kd b m' + F := by
  obtain ⟨rfl, rfl⟩ := h
  obtain ⟨hn1, hn2⟩ := hn
  rw [← idx_eq] at hn2
  have hr := rate_cases sel
  unfold hash_update
  rw [Nat.shiftLeft_eq, show n * 2 ^ 3 % 18446744073709551616 = 8 * n by omega]
  unfold Keccak_HashUpdate
  rw [if_pos (by omega), show 8 * n / 8 = n by omega]
  have := S1.absorb (kd := kd) (b := b) (s := aM sel M) hr hv hd (aM_lt sel M) (by omega) hn2
  refine t_assoc (t_run rfl this ?_)
  refine t_pbind (t_pure ⟨_, ⟨?_, rfl⟩, ?_⟩)
  · unfold aM
    rw [absorbM_append]
  · unfold aM
    rw [absorbM_append]

theorem hash_final_t {sel : Nat} {M : List Byte} (h : HAbsC S1 sel M b c m) :
    T (bl kd b m + F) (hash_final K1 c) fun c' D' => ∃ m', HSqC S1 sel M 0 b c' m' ∧ D' = bl kd b m' + F := by
  obtain ⟨rfl, rfl⟩ := h
  have hr := rate_cases sel
  unfold hash_final Keccak_HashFinal
  refine t_assoc (t_uget rfl ?_)
  have := S1.last (kd := kd) (b := b) (s := aM sel M) (F := F) hr (aM_lt sel M)
  refine t_assoc (t_run rfl this ?_)
  dsimp only
  rw [if_pos rfl]
  refine t_assoc (t_uget rfl ?_)
  refine t_assoc (t_run rfl S1.squeeze0 ?_)
  exact t_pbind (t_pure ⟨_, ⟨0, 0, by omega, Nat.zero_le _, rfl, rfl⟩, rfl⟩)

theorem hash_squeeze_t {sel n p : Nat} {M : List Byte} {q : Ptr} (h : HSqC S1 sel M p b c m) (hv : Valid F q n)
    (hn : Small 64 n) :
    T (bl kd b m + F) (hash_squeeze K1 c (some q) n) fun c' D' => ∃ m', HSqC S1 sel M (p + n) b c' m' ∧
      D' = bl kd b m' + up F q (tabP n fun j => shakeX sel M (p + j)) := by
  obtain ⟨k, x, hp, hx, rfl, rfl⟩ := h
  have hr := rate_cases sel
  have hs := hn.squeeze hx
  obtain ⟨hs1, hs2⟩ := hs
  unfold hash_squeeze
  rw [Nat.shiftLeft_eq, show n * 2 ^ 3 % 18446744073709551616 = 8 * n by omega]
  unfold Keccak_HashSqueeze
  rw [if_neg (by omega), show 8 * n / 8 = n by omega]
  have := S1.squeeze (kd := kd) (b := b) (B := finB (rateOf sel) M) hr hv hp hx (by omega) hs2
  refine t_assoc (t_call rfl this ?_)
  rintro y D' ⟨k', x', hp', hx', rfl, rfl⟩
  refine t_pbind (t_pure ⟨_, ⟨k', x', hp', hx', rfl, rfl⟩, ?_⟩)
  rw [tabP_congr fun j _ => shakeX_eq sel M (p + j)]

theorem squeeze_tab (X : XOF) (sel : Nat) (M : List Byte) (p n : Nat) : squeeze X sel M p n = tabP n fun j => X sel M (p + j) := by
  rfl

theorem tabP_getD_self {l : List Byte} {n : Nat} (h : l.length = n) : (tabP n fun j => l.getD j 0) = l := by
  subst h
  refine List.ext_getElem? fun i => ?_
  rw [tabP_getElem?]
  split
  · next h => simp [List.getD_eq_getElem?_getD, List.getElem?_eq_getElem h]
  · next h => rw [List.getElem?_eq_none (by omega)]

/-! ### The random oracles -/

/-- The context has the value `a`. -/
def Rep (S1 : SpSpec K1) (b : Nat) (a : HCtx) (c : HashC) (m : Mem Byte) : Prop :=
  HRaw b c m ∧ ∀ s, a.st = some s → HAbsC S1 (hashSel s.1) s.2 b c m

theorem H_init_t {lambda : Nat} {a a' : HCtx} {F' : Blocks} (h : Rep S1 b a c m) (hr : Runs F (hinit a lambda) a' F') :
    T (bl kd b m + F) (do
      let e1 ← hash_init K1 c (if lambda = 128 then 128 else 256)
      let ctx := e1
      pure ctx) fun c' D' => ∃ m', Rep S1 b a' c' m' ∧ D' = bl kd b m' + F' := by
  refine t_at hr fun hat => ?_
  obtain ⟨rfl, rfl⟩ := hat.pure
  refine t_call rfl (hash_init_t (S1 := S1) h.1) ?_
  rintro c' D' ⟨m', h', rfl⟩
  refine t_pure ⟨m', ⟨h'.raw, ?_⟩, rfl⟩
  rintro _ ⟨⟩
  exact h'

theorem H_update_t {n : Nat} {data : CPtr} {a a' : HCtx} {F' : Blocks} (h : Rep S1 b a c m) (hr : Runs F (hupdate a data n) a' F')
    (hn : ∀ s, a.st = some s → UpdateFits 64 (hashSel s.1) s.2.length n) :
    T (bl kd b m + F) (do
      let e1 ← hash_update K1 c data n
      let ctx := e1
      pure ctx) fun c' D' => ∃ m', Rep S1 b a' c' m' ∧ D' = bl kd b m' + F' := by
  refine t_at hr fun hat => ?_
  obtain ⟨s, hs, hat⟩ := hat.lft
  obtain ⟨l, μ, hl, hv, hd, hat⟩ := hat.ldN
  obtain ⟨rfl, rfl⟩ := hat.pure
  refine t_call rfl (hash_update_t (h.2 s hs) hv hd (hn s hs)) ?_
  rintro c' D' ⟨m', h', rfl⟩
  refine t_pure ⟨m', ⟨h'.raw, ?_⟩, rfl⟩
  rintro _ ⟨⟩
  rw [tabP_getD_self hl] at h'
  exact h'

/-- The domain separation byte and the end of the input. -/
theorem close_t {δ : Type} {Q : δ → Blocks → Prop} {sel : Nat} {M : List Byte} {v : Byte} {g : CPtr → HashC → CM δ}
    (h : HAbsC S1 sel M b c m)
    (k : ∀ i c' m', HSqC S1 sel (M ++ [v]) 0 b c' m' →
      T (bl kd b m' + (bl .stack i (ofList [v]) + F)) (g (some ⟨i, 0⟩) c') Q) :
    T (bl kd b m + F) (alloc .stack (malloc 1 : Mem Byte) >>= fun p => st p 0 v >>= fun _ =>
      hash_update K1 c p 1 >>= fun e1 => hash_final K1 e1 >>= fun e2 => g p e2) Q := by
  refine t_alloc fun i => ?_
  refine t_st rfl (m' := ofList [v]) rfl ?_
  refine t_call (add_left_comm _ _ _) (hash_update_t (d := fun _ => v) (μ := ofList [v]) (n := 1) h View.here0 ?_ ?_) ?_
  · intro j hj
    obtain rfl : j = 0 := by omega
    rfl
  · exact Small.update ⟨by decide, by decide⟩
  rintro c1 D1 ⟨m1, h1, rfl⟩
  refine t_call rfl (hash_final_t h1) ?_
  rintro c2 D2 ⟨m2, h2, rfl⟩
  exact k i c2 m2 h2

theorem H1_final_t {n : Nat} {p : CPtr} {a a' : HCtx} {F' : Blocks} (h : Rep S1 b a c m) (hr : Runs F (C.H1_final shakeX a p n) a' F')
    (hn : Small 64 n) :
    T (bl kd b m + F) (H1_final K1 c p n) fun c' D' => ∃ m', Rep S1 b a' c' m' ∧ D' = bl kd b m' + F' := by
  refine t_at hr fun hat => ?_
  obtain ⟨s, hs, hat⟩ := hat.lft
  obtain ⟨q, rfl, hv, hat⟩ := hat.stN
  obtain ⟨rfl, rfl⟩ := hat.pure
  unfold Faest.H1 at hv ⊢
  rw [squeeze_tab] at hv ⊢
  rw [tabP_length] at hv
  unfold H1_final
  refine close_t (h.2 s hs) fun i c1 m1 h1 => ?_
  refine t_call rfl (hash_squeeze_t h1 hv.right hn) ?_
  rintro c2 D2 ⟨m2, h2, rfl⟩
  refine t_nd fun hnd => ?_
  rw [up_frame (ND.of_up hnd.right) hv]
  refine t_free (by hfind) ?_
  exact t_pure ⟨m2, ⟨h2.raw, by rintro _ ⟨⟩⟩, rfl⟩

theorem H2_final_t {n : Nat} {p : CPtr} {a a' : HCtx} {F' : Blocks} (h : Rep S1 b a c m) (hr : Runs F (C.H2_final shakeX a p n) a' F')
    (hn : Small 64 n) :
    T (bl kd b m + F) (H2_final K1 c p n) fun c' D' => ∃ m', Rep S1 b a' c' m' ∧ D' = bl kd b m' + F' := by
  refine t_at hr fun hat => ?_
  obtain ⟨s, hs, hat⟩ := hat.lft
  obtain ⟨q, rfl, hv, hat⟩ := hat.stN
  obtain ⟨rfl, rfl⟩ := hat.pure
  unfold Faest.H2 at hv ⊢
  rw [squeeze_tab] at hv ⊢
  rw [tabP_length] at hv
  unfold H2_final
  refine close_t (h.2 s hs) fun i c1 m1 h1 => ?_
  refine t_call rfl (hash_squeeze_t h1 hv.right hn) ?_
  rintro c2 D2 ⟨m2, h2, rfl⟩
  refine t_nd fun hnd => ?_
  rw [up_frame (ND.of_up hnd.right) hv]
  refine t_free (by hfind) ?_
  exact t_pure ⟨m2, ⟨h2.raw, by rintro _ ⟨⟩⟩, rfl⟩

/-- Two outputs. -/
theorem squeeze2_t {δ : Type} {Q : δ → Blocks → Prop} {sel p n n' i : Nat} {M : List Byte} {mm : Mem Byte} {q q' : Ptr}
    {g : HashC → CM δ} (h : HSqC S1 sel M p b c m) (hv : Valid F q n)
    (hv' : Valid (up F q (tabP n fun j => shakeX sel M (p + j))) q' n') (hn : Small 64 n) (hn' : Small 64 n')
    (k : ∀ c' m', HSqC S1 sel M (p + n + n') b c' m' →
      T (bl kd b m' + (bl .stack i mm + up (up F q (tabP n fun j => shakeX sel M (p + j))) q'
        (tabP n' fun j => shakeX sel M (p + n + j)))) (g c') Q) :
    T (bl kd b m + (bl .stack i mm + F)) (hash_squeeze K1 c (some q) n >>= fun e3 => hash_squeeze K1 e3 (some q') n' >>= g) Q := by
  refine t_call rfl (hash_squeeze_t h hv.right hn) ?_
  rintro c2 D2 ⟨m2, h2, rfl⟩
  refine t_nd fun hnd => ?_
  rw [up_frame (ND.of_up hnd.right) hv]
  refine t_call rfl (hash_squeeze_t h2 hv'.right hn') ?_
  rintro c3 D3 ⟨m3, h3, rfl⟩
  refine t_nd fun hnd => ?_
  rw [up_frame (ND.of_up hnd.right) hv']
  exact k c3 m3 h3

theorem H0_final_t {n n' : Nat} {p p' : CPtr} {a a' : HCtx} {F' : Blocks} (h : Rep S1 b a c m)
    (hr : Runs F (C.H0_final shakeX a p n p' n') a' F') (hn : Small 64 n) (hn' : Small 64 n') :
    T (bl kd b m + F) (H0_final K1 c p n p' n') fun c' D' => ∃ m', Rep S1 b a' c' m' ∧ D' = bl kd b m' + F' := by
  refine t_at hr fun hat => ?_
  obtain ⟨s, hs, hat⟩ := hat.lft
  obtain ⟨q, rfl, hv, hat⟩ := hat.stN
  obtain ⟨q', rfl, hv', hat⟩ := hat.stN
  obtain ⟨rfl, rfl⟩ := hat.pure
  unfold Faest.H0 at hv hv' ⊢
  dsimp only at hv hv' ⊢
  rw [squeeze_tab] at hv hv' ⊢
  rw [tabP_length] at hv
  rw [squeeze_tab] at hv' ⊢
  rw [tabP_length] at hv'
  unfold H0_final
  refine close_t (h.2 s hs) fun i c1 m1 h1 => ?_
  refine squeeze2_t h1 hv hv' hn hn' fun c2 m2 h2 => ?_
  refine t_free (by hfind) ?_
  refine t_pure ⟨m2, ⟨h2.raw, by rintro _ ⟨⟩⟩, ?_⟩
  simp only [Nat.zero_add]

theorem H3_final_t {n : Nat} {p p' : CPtr} {a a' : HCtx} {F' : Blocks} (h : Rep S1 b a c m)
    (hr : Runs F (C.H3_final shakeX a p n p') a' F') (hn : Small 64 n) :
    T (bl kd b m + F) (H3_final K1 c p n p') fun c' D' => ∃ m', Rep S1 b a' c' m' ∧ D' = bl kd b m' + F' := by
  refine t_at hr fun hat => ?_
  obtain ⟨s, hs, hat⟩ := hat.lft
  obtain ⟨q, rfl, hv, hat⟩ := hat.stN
  obtain ⟨q', rfl, hv', hat⟩ := hat.stN
  obtain ⟨rfl, rfl⟩ := hat.pure
  unfold Faest.H3 at hv hv' ⊢
  dsimp only at hv hv' ⊢
  rw [squeeze_tab] at hv hv' ⊢
  rw [tabP_length] at hv
  rw [squeeze_tab] at hv' ⊢
  rw [tabP_length] at hv'
  unfold H3_final
  refine close_t (h.2 s hs) fun i c1 m1 h1 => ?_
  refine squeeze2_t h1 hv hv' hn ⟨by decide, by decide⟩ fun c2 m2 h2 => ?_
  refine t_free (by hfind) ?_
  refine t_pure ⟨m2, ⟨h2.raw, by rintro _ ⟨⟩⟩, ?_⟩
  simp only [Nat.zero_add]

end

end Faest.GenH
