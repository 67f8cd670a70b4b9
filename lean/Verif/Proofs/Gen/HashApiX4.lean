/-
The translated hash interface and H_0 (hash_shake.h, random_oracle.c) for four states.
-/
import Verif.Proofs.Gen.KeccakX4
import Verif.Proofs.Gen.HashApi

namespace Faest.C
variable {F : Blocks}

theorem Valid.of_up {q p : Ptr} {l : List Byte} {n : Nat} (h : Valid (C.up F q l) p n) (hq : Valid F q l.length) (hn : ND F) :
    Valid F p n := by
  obtain ⟨kd, m, hm, hl⟩ := h
  obtain ⟨kd', m', hm', hl'⟩ := hq
  unfold C.up at hm
  obtain ⟨⟨i, c⟩, hx, he⟩ := Multiset.mem_map.1 hm
  by_cases e : i = q.blk
  · subst e
    rw [if_pos rfl] at he
    obtain ⟨e1, e2⟩ := Prod.mk.inj he
    obtain rfl := hn.uniq hx hm'
    have e3 : W m' q.off l = m := by
      have e4 := congrArg Cell.data e2
      exact Data.bytes.inj e4
    dsimp only at e1
    refine ⟨kd', m', by rw [← e1]; exact hx, ?_⟩
    rw [← e3, length_W hl'] at hl
    exact hl
  · dsimp only at he
    rw [if_neg e] at he
    rw [he] at hx
    exact ⟨kd, m, hx, hl⟩

end Faest.C

namespace Faest.GenH
open Faest.C Faest.Keccak
open Spec.Keccak (shakeX)

/-- One of four. -/
def sel4 {α : Type} (a0 a1 a2 a3 : α) : Nat → α := fun i => if i = 0 then a0 else if i = 1 then a1 else if i = 2 then a2 else a3

theorem aM_idx (sel : Nat) (M : List Byte) : (aM sel M).2 = M.length % rateOf sel := by
  unfold aM
  rw [absorbM_idx (rateOf_facts sel).2.1 _ _ (rateOf_facts sel).2.1, Nat.zero_add]

variable {K4 : P4Impl} (S : P4Spec K4)

/-- The context at block `b` has taken in four inputs of `L` bytes. -/
def HAbs4 (sel : Nat) (Ms : Nat → List Byte) (L b : Nat) (c : HashC) (m : Mem Byte) : Prop :=
  (∀ j, (Ms j).length = L) ∧ c = ⟨spA (some ⟨b, 0⟩) (rateOf sel) (L % rateOf sel), some 0, some 0x1F⟩ ∧
    m = S.lay fun j => (aM sel (Ms j)).1

/-- The context at block `b` was closed on four inputs and has given out `p` bytes for each. -/
def HSq4 (sel : Nat) (Ms : Nat → List Byte) (p b : Nat) (c : HashC) (m : Mem Byte) : Prop :=
  ∃ k x, p = rateOf sel * k + x ∧ x ≤ rateOf sel ∧
    c = ⟨spS (some ⟨b, 0⟩) (rateOf sel) x, some 0, some 0x1F⟩ ∧ m = S.lay fun j => iterB k (finB (rateOf sel) (Ms j))

/-- The members of the context need not be initialised. -/
def HRaw4 (b : Nat) (c : HashC) (m : Mem Byte) : Prop := c.sponge.state = some ⟨b, 0⟩ ∧ m.length = 800

variable {S}

theorem HAbs4.raw {sel L b : Nat} {Ms : Nat → List Byte} {c : HashC} {m : Mem Byte} (h : HAbs4 S sel Ms L b c m) : HRaw4 b c m := by
  obtain ⟨-, rfl, rfl⟩ := h
  exact ⟨rfl, S.len _⟩

theorem HSq4.raw {sel p b : Nat} {Ms : Nat → List Byte} {c : HashC} {m : Mem Byte} (h : HSq4 S sel Ms p b c m) : HRaw4 b c m := by
  obtain ⟨_, _, _, _, rfl, rfl⟩ := h
  exact ⟨rfl, S.len _⟩

section
variable {kd : Kind} {b : Nat} {m : Mem Byte} {F : Blocks} {c : HashC}

theorem hash_init_x4_t {sel : Nat} (h : HRaw4 b c m) :
    T (bl kd b m + F) (hash_init_x4 K4 c sel) fun c' D' => ∃ m', HAbs4 S sel (fun _ => []) 0 b c' m' ∧ D' = bl kd b m' + F := by
  have key : ∀ r cap, (r = 136 ∨ r = 168) → 8 * r + cap = 1600 →
      Runs (bl kd b m + F) (Keccak_HashInitializetimes4 K4 c (8 * r) cap 0 (31 : Byte))
        (0, ⟨spA (some ⟨b, 0⟩) r 0, some 0, some 0x1F⟩) (bl kd b (S.lay fun _ _ => 0) + F) := by
    intro r cap hr hc
    unfold Keccak_HashInitializetimes4 Runs
    rw [if_neg (by decide)]
    refine t_run rfl (spInit4_runs S h.1 hr hc h.2) ?_
    dsimp only
    rw [if_neg (by decide)]
    exact t_pure ⟨rfl, rfl⟩
  unfold hash_init_x4
  by_cases e : sel = 128
  · subst e
    refine t_ite_pos rfl ?_
    refine t_assoc (t_run rfl (key 168 256 (by omega) (by omega)) ?_)
    exact t_pbind (t_pure ⟨_, ⟨fun _ => rfl, rfl, rfl⟩, rfl⟩)
  · refine t_ite_neg e ?_
    refine t_assoc (t_run rfl (key 136 512 (by omega) (by omega)) ?_)
    have hr : rateOf sel = 136 := by unfold rateOf; rw [if_neg e]
    refine t_pbind (t_pure ⟨_, ⟨fun _ => rfl, ?_, rfl⟩, rfl⟩)
    rw [hr]

theorem hash_update_x4_t {sel n L : Nat} {Ms : Nat → List Byte} {data : CPtr} {P : Nat → CPtr} {μ : Nat → Mem Byte}
    {d : Nat → Nat → Byte} (h : HAbs4 S sel Ms L b c m) (hP : View F data (PA P)) (hv : ∀ j, j < 4 → View F (P j) (μ j))
    (hd : ∀ j, j < 4 → Has (μ j) 0 n (d j)) (hn : UpdateFits 64 sel L n) :
    T (bl kd b m + F) (hash_update_x4 K4 c data n) fun c' D' => ∃ m', HAbs4 S sel (fun j => Ms j ++ tabP n (d j)) (L + n) b c' m' ∧
      D' = bl kd b m' + F := by
  obtain ⟨hL, rfl, rfl⟩ := h
  obtain ⟨hn1, hn2⟩ := hn
  have hr := rate_cases sel
  unfold hash_update_x4
  rw [Nat.shiftLeft_eq, show n * 2 ^ 3 % 18446744073709551616 = 8 * n by omega]
  unfold Keccak_HashUpdatetimes4
  rw [if_neg (by omega), show 8 * n / 8 = n by omega]
  have := spAbsorb4_runs S (kd := kd) (b := b) (B := fun j => (aM sel (Ms j)).1) (x := L % rateOf sel) hr hP hv hd
    (Nat.mod_lt _ (by omega)) (by omega) hn2
  refine t_assoc (t_run rfl this ?_)
  refine t_pbind (t_pure ⟨_, ⟨?_, ?_, rfl⟩, ?_⟩)
  · intro j
    rw [List.length_append, tabP_length, hL]
  · rw [Nat.mod_add_mod]
  · refine congrArg (fun x => bl kd b (S.lay x) + F) (funext fun j => ?_)
    unfold aB
    rw [show ((aM sel (Ms j)).1, L % rateOf sel) = aM sel (Ms j) from Prod.ext rfl (by rw [aM_idx, hL])]
    unfold aM
    rw [absorbM_append]

theorem hash_final_x4_t {sel L : Nat} {Ms : Nat → List Byte} (h : HAbs4 S sel Ms L b c m) :
    T (bl kd b m + F) (hash_final_x4 K4 c) fun c' D' => ∃ m', HSq4 S sel Ms 0 b c' m' ∧ D' = bl kd b m' + F := by
  obtain ⟨hL, rfl, rfl⟩ := h
  have hr := rate_cases sel
  unfold hash_final_x4 Keccak_HashFinaltimes4
  refine t_assoc (t_uget rfl ?_)
  refine t_assoc (t_run rfl (spLast4_runs S hr (Nat.mod_lt _ (by omega))) ?_)
  dsimp only
  rw [if_pos rfl]
  refine t_assoc (t_uget rfl ?_)
  refine t_assoc (t_run rfl spSqueeze40_runs ?_)
  refine t_pbind (t_pure ⟨_, ⟨0, 0, by omega, Nat.zero_le _, rfl, rfl⟩, ?_⟩)
  refine congrArg (fun x => bl kd b (S.lay x) + F) (funext fun j => ?_)
  rw [show ((aM sel (Ms j)).1, L % rateOf sel) = aM sel (Ms j) from Prod.ext rfl (by rw [aM_idx, hL])]
  rfl

theorem hash_squeeze_x4_t {sel n p : Nat} {Ms : Nat → List Byte} {data : CPtr} {q : Nat → Ptr} (h : HSq4 S sel Ms p b c m)
    (hP : View F data (PA fun j => some (q j))) (hv : ∀ j, j < 4 → Valid F (q j) n)
    (hq : ∀ i j, i < 4 → j < 4 → i ≠ j → Apart (q i) n (q j) n) (hn : Small 64 n) :
    T (bl kd b m + F) (hash_squeeze_x4 K4 c data n) fun c' D' => ∃ m', HSq4 S sel Ms (p + n) b c' m' ∧
      D' = bl kd b m' + ups 4 F q fun j => tabP n fun t => shakeX sel (Ms j) (p + t) := by
  obtain ⟨k, x, hp, hx, rfl, rfl⟩ := h
  have hr := rate_cases sel
  have hs := hn.squeeze hx
  obtain ⟨hs1, hs2⟩ := hs
  unfold hash_squeeze_x4
  rw [Nat.shiftLeft_eq, show n * 2 ^ 3 % 18446744073709551616 = 8 * n by omega]
  unfold Keccak_HashSqueezetimes4
  rw [if_neg (by omega), show 8 * n / 8 = n by omega]
  rcases Nat.eq_zero_or_pos n with rfl | h0
  · refine t_assoc (t_run rfl spSqueeze40_runs ?_)
    refine t_pbind (t_pure ⟨_, ⟨k, x, hp, hx, rfl, rfl⟩, ?_⟩)
    rw [show (fun j => tabP 0 fun t => shakeX sel (Ms j) (p + t)) = fun _ => [] from rfl, ups_nil]
  · refine t_assoc (t_call rfl (spSqueeze4_t S (B := fun j => finB (rateOf sel) (Ms j)) hr h0 hP hv hq hp hx (by omega) hs2) ?_)
    rintro y D' ⟨k', x', hp', hx', rfl, rfl⟩
    refine t_pbind (t_pure ⟨_, ⟨k', x', hp', hx', rfl, rfl⟩, ?_⟩)
    rw [ups_congr fun j _ => ?_]
    exact tabP_congr fun t _ => (shakeX_eq sel (Ms j) (p + t)).symm

/-- A table of four pointers. -/
theorem t_tab4 {δ : Type} {Q : δ → Blocks → Prop} {p0 p1 p2 p3 : CPtr} {g : CPtr → CM δ} {D : Blocks}
    (k : ∀ i, T (bl .stack i (PA (sel4 p0 p1 p2 p3)) + D) (g (some ⟨i, 0⟩)) Q) :
    T D (alloc .stack (malloc 4 : Mem CPtr) >>= fun p => st p 0 p0 >>= fun _ => st p 1 p1 >>= fun _ => st p 2 p2 >>= fun _ =>
      st p 3 p3 >>= fun _ => g p) Q := by
  refine t_alloc fun i => ?_
  exact t_st rfl rfl (t_st rfl rfl (t_st rfl rfl (t_st rfl rfl (k i))))

theorem hash_update_x4_4_t {sel n L : Nat} {Ms : Nat → List Byte} {p0 p1 p2 p3 : CPtr} {μ : Nat → Mem Byte}
    {d : Nat → Nat → Byte} (h : HAbs4 S sel Ms L b c m) (hv : ∀ j, j < 4 → View F (sel4 p0 p1 p2 p3 j) (μ j))
    (hd : ∀ j, j < 4 → Has (μ j) 0 n (d j)) (hn : UpdateFits 64 sel L n) :
    T (bl kd b m + F) (hash_update_x4_4 K4 c p0 p1 p2 p3 n) fun c' D' =>
      ∃ m', HAbs4 S sel (fun j => Ms j ++ tabP n (d j)) (L + n) b c' m' ∧ D' = bl kd b m' + F := by
  unfold hash_update_x4_4
  refine t_tab4 fun i => ?_
  refine t_call (add_left_comm _ _ _) (hash_update_x4_t h View.here0 (fun j hj => (hv j hj).there) hd hn) ?_
  rintro c' D' ⟨m', h', rfl⟩
  refine t_free (by hfind1) ?_
  exact t_pure ⟨m', h', rfl⟩

theorem hash_update_x4_1_t {sel n L : Nat} {Ms : Nat → List Byte} {p : CPtr} {μ : Mem Byte}
    {d : Nat → Byte} (h : HAbs4 S sel Ms L b c m) (hv : View F p μ) (hd : Has μ 0 n d) (hn : UpdateFits 64 sel L n) :
    T (bl kd b m + F) (hash_update_x4_1 K4 c p n) fun c' D' =>
      ∃ m', HAbs4 S sel (fun j => Ms j ++ tabP n d) (L + n) b c' m' ∧ D' = bl kd b m' + F := by
  unfold hash_update_x4_1
  refine t_tab4 fun i => ?_
  have hs : ∀ j, sel4 p p p p j = p := by intro j; unfold sel4; split <;> (try split) <;> (try split) <;> rfl
  refine t_call (add_left_comm _ _ _) (hash_update_x4_t h View.here0 (μ := fun _ => μ) (d := fun _ => d)
    (fun j hj => by rw [hs]; exact hv.there) (fun j _ => hd) hn) ?_
  rintro c' D' ⟨m', h', rfl⟩
  refine t_free (by hfind1) ?_
  exact t_pure ⟨m', h', rfl⟩

theorem up_ups {D : Blocks} {q : Nat → Ptr} {l : Nat → List Byte} {n : Nat} (h : ND (D + F))
    (hv : ∀ j, j < n → Valid F (q j) (l j).length) : ups n (D + F) q l = D + ups n F q l := by
  induction n with
  | zero => rfl
  | succ n ih =>
    unfold ups
    rw [ih fun j hj => hv j (by omega)]
    refine up_frame (n := (l n).length) ?_ (Valid.ups (hv n (by omega)) (fun j hj => hv j (by omega)) h.right)
    have := ND.ups h n q l
    rwa [ih fun j hj => hv j (by omega)] at this

theorem hash_squeeze_x4_4_t {sel n p : Nat} {Ms : Nat → List Byte} {q0 q1 q2 q3 : Ptr} (h : HSq4 S sel Ms p b c m)
    (hv : ∀ j, j < 4 → Valid F (sel4 q0 q1 q2 q3 j) n)
    (hq : ∀ i j, i < 4 → j < 4 → i ≠ j → Apart (sel4 q0 q1 q2 q3 i) n (sel4 q0 q1 q2 q3 j) n) (hn : Small 64 n) :
    T (bl kd b m + F) (hash_squeeze_x4_4 K4 c (some q0) (some q1) (some q2) (some q3) n) fun c' D' => ∃ m', HSq4 S sel Ms (p + n) b c' m' ∧
      D' = bl kd b m' + ups 4 F (sel4 q0 q1 q2 q3) fun j => tabP n fun t => shakeX sel (Ms j) (p + t) := by
  unfold hash_squeeze_x4_4
  refine t_tab4 fun i => ?_
  have hs : sel4 (some q0) (some q1) (some q2) (some q3) = fun j => some (sel4 q0 q1 q2 q3 j) := by
    funext j; unfold sel4; split <;> (try split) <;> (try split) <;> rfl
  rw [hs]
  refine t_nd fun hnd => ?_
  rw [add_left_comm] at hnd
  refine t_call (add_left_comm _ _ _) (hash_squeeze_x4_t h View.here0 (fun j hj => (hv j hj).right) hq hn) ?_
  rintro c' D' ⟨m', h', rfl⟩
  rw [up_ups hnd.right (fun j hj => by rw [tabP_length]; exact hv j hj)]
  refine t_free (by hfind1) ?_
  exact t_pure ⟨m', h', rfl⟩

/-! ### The random oracle -/

/-- The context has the value `a`. -/
def Rep4 (S : P4Spec K4) (b : Nat) (a : HCtx4) (c : HashC) (m : Mem Byte) : Prop :=
  HRaw4 b c m ∧ ∀ s, a.st = some s → ∃ L, HAbs4 S (hashSel s.1) (sel4 s.2.1 s.2.2.1 s.2.2.2.1 s.2.2.2.2) L b c m

theorem H0_x4_init_t {lambda : Nat} {a a' : HCtx4} {F' : Blocks} (h : Rep4 S b a c m) (hr : Runs F (C.H0_x4_init a lambda) a' F') :
    T (bl kd b m + F) (H0_x4_init K4 c lambda) fun c' D' => ∃ m', Rep4 S b a' c' m' ∧ D' = bl kd b m' + F' := by
  refine t_at hr fun hat => ?_
  obtain ⟨rfl, rfl⟩ := hat.pure
  unfold H0_x4_init
  refine t_call rfl (hash_init_x4_t (S := S) h.1) ?_
  rintro c' D' ⟨m', h', rfl⟩
  refine t_pure ⟨m', ⟨h'.raw, ?_⟩, rfl⟩
  rintro _ ⟨⟩
  refine ⟨0, ?_⟩
  have e : (sel4 [] [] [] [] : Nat → List Byte) = fun _ => [] := by
    funext j; unfold sel4; split <;> (try split) <;> (try split) <;> rfl
  dsimp only
  rw [e]
  exact h'

theorem H0_x4_update_t {n : Nat} {p0 p1 p2 p3 : CPtr} {a a' : HCtx4} {F' : Blocks} (h : Rep4 S b a c m)
    (hr : Runs F (C.H0_x4_update a p0 p1 p2 p3 n) a' F')
    (hn : ∀ s, a.st = some s → UpdateFits 64 (hashSel s.1) s.2.1.length n) :
    T (bl kd b m + F) (H0_x4_update K4 c p0 p1 p2 p3 n) fun c' D' => ∃ m', Rep4 S b a' c' m' ∧ D' = bl kd b m' + F' := by
  refine t_at hr fun hat => ?_
  obtain ⟨s, hs, hat⟩ := hat.lft
  obtain ⟨l0, μ0, hl0, hv0, hd0, hat⟩ := hat.ldN
  obtain ⟨l1, μ1, hl1, hv1, hd1, hat⟩ := hat.ldN
  obtain ⟨l2, μ2, hl2, hv2, hd2, hat⟩ := hat.ldN
  obtain ⟨l3, μ3, hl3, hv3, hd3, hat⟩ := hat.ldN
  obtain ⟨rfl, rfl⟩ := hat.pure
  obtain ⟨L, hL⟩ := h.2 s hs
  obtain rfl : s.2.1.length = L := hL.1 0
  unfold H0_x4_update
  refine t_call rfl (hash_update_x4_4_t hL (μ := sel4 μ0 μ1 μ2 μ3) (d := fun j t => (sel4 l0 l1 l2 l3 j).getD t 0) (n := n) ?_ ?_ (hn s hs)) ?_
  · intro j hj
    unfold sel4
    split
    · exact hv0
    split
    · exact hv1
    split
    · exact hv2
    · exact hv3
  · intro j hj
    unfold sel4
    split
    · exact hd0
    split
    · exact hd1
    split
    · exact hd2
    · exact hd3
  rintro c' D' ⟨m', h', rfl⟩
  refine t_pure ⟨m', ⟨h'.raw, ?_⟩, rfl⟩
  rintro _ ⟨⟩
  refine ⟨s.2.1.length + n, ?_⟩
  have e : sel4 (s.2.1 ++ l0) (s.2.2.1 ++ l1) (s.2.2.2.1 ++ l2) (s.2.2.2.2 ++ l3)
      = fun j => sel4 s.2.1 s.2.2.1 s.2.2.2.1 s.2.2.2.2 j ++ tabP n fun t => (sel4 l0 l1 l2 l3 j).getD t 0 := by
    funext j
    unfold sel4
    split
    · rw [tabP_getD_self hl0]
    split
    · rw [tabP_getD_self hl1]
    split
    · rw [tabP_getD_self hl2]
    · rw [tabP_getD_self hl3]
  dsimp only
  rw [e]
  exact h'

/-- The areas at two pointers have no byte in common. -/
def ApartC (p p' : CPtr) (n : Nat) : Prop := ∀ q q', p = some q → p' = some q' → Apart q n q' n

/-- The areas at four pointers have no byte in common. -/
def Apart4 (p0 p1 p2 p3 : CPtr) (n : Nat) : Prop :=
  ApartC p0 p1 n ∧ ApartC p0 p2 n ∧ ApartC p0 p3 n ∧ ApartC p1 p2 n ∧ ApartC p1 p3 n ∧ ApartC p2 p3 n

theorem Apart.symm {q q' : Ptr} {n n' : Nat} (h : Apart q n q' n') : Apart q' n' q n := fun e => (h e.symm).symm

theorem Apart4.get {q0 q1 q2 q3 : Ptr} {n : Nat} (h : Apart4 (some q0) (some q1) (some q2) (some q3) n) :
    ∀ i j, i < 4 → j < 4 → i ≠ j → Apart (sel4 q0 q1 q2 q3 i) n (sel4 q0 q1 q2 q3 j) n := by
  obtain ⟨h1, h2, h3, h4, h5, h6⟩ := h
  have h1 := h1 _ _ rfl rfl
  have h2 := h2 _ _ rfl rfl
  have h3 := h3 _ _ rfl rfl
  have h4 := h4 _ _ rfl rfl
  have h5 := h5 _ _ rfl rfl
  have h6 := h6 _ _ rfl rfl
  intro i j hi hj hij
  have ci : i = 0 ∨ i = 1 ∨ i = 2 ∨ i = 3 := by omega
  have cj : j = 0 ∨ j = 1 ∨ j = 2 ∨ j = 3 := by omega
  rcases ci with rfl | rfl | rfl | rfl <;> rcases cj with rfl | rfl | rfl | rfl <;>
    first
    | exact absurd rfl hij
    | assumption
    | (apply Apart.symm; assumption)

/-- Four stores. -/
theorem At.stN4 {δ : Type} {Q : δ → Blocks → Prop} {p0 p1 p2 p3 : CPtr} {l0 l1 l2 l3 : List Byte} {n : Nat} {g : Unit → CM δ}
    (h : At F (stN p0 l0 >>= fun _ => stN p1 l1 >>= fun _ => stN p2 l2 >>= fun _ => stN p3 l3 >>= g) Q)
    (e : ∀ j, j < 4 → (sel4 l0 l1 l2 l3 j).length = n) (hn : ND F) :
    ∃ q0 q1 q2 q3, p0 = some q0 ∧ p1 = some q1 ∧ p2 = some q2 ∧ p3 = some q3 ∧ (∀ j, j < 4 → Valid F (sel4 q0 q1 q2 q3 j) n) ∧
      At (ups 4 F (sel4 q0 q1 q2 q3) (sel4 l0 l1 l2 l3)) (g ()) Q := by
  obtain ⟨q0, e0, v0, h⟩ := h.stN
  obtain ⟨q1, e1, v1, h⟩ := h.stN
  obtain ⟨q2, e2, v2, h⟩ := h.stN
  obtain ⟨q3, e3, v3, h⟩ := h.stN
  have v1' := v1.of_up v0 hn
  have v2' := (v2.of_up v1 (hn.up _ _)).of_up v0 hn
  have v3' := ((v3.of_up v2 ((hn.up _ _).up _ _)).of_up v1 (hn.up _ _)).of_up v0 hn
  refine ⟨q0, q1, q2, q3, e0, e1, e2, e3, ?_, h⟩
  rw [show l0.length = n from e 0 (by omega)] at v0
  rw [show l1.length = n from e 1 (by omega)] at v1'
  rw [show l2.length = n from e 2 (by omega)] at v2'
  rw [show l3.length = n from e 3 (by omega)] at v3'
  intro j _
  unfold sel4
  split
  · exact v0
  split
  · exact v1'
  split
  · exact v2'
  · exact v3'

theorem sel4_fun {α : Type} (f : Nat → α) {j : Nat} (hj : j < 4) : sel4 (f 0) (f 1) (f 2) (f 3) j = f j := by
  have cj : j = 0 ∨ j = 1 ∨ j = 2 ∨ j = 3 := by omega
  rcases cj with rfl | rfl | rfl | rfl <;> rfl

theorem H0_x4_final_t {n n' : Nat} {p0 p1 p2 p3 p0' p1' p2' p3' : CPtr} {a a' : HCtx4} {F' : Blocks} (h : Rep4 S b a c m)
    (hr : Runs F (C.H0_x4_final shakeX a p0 p1 p2 p3 n p0' p1' p2' p3' n') a' F') (hn : Small 64 n) (hn' : Small 64 n')
    (ha : Apart4 p0 p1 p2 p3 n) (ha' : Apart4 p0' p1' p2' p3' n') :
    T (bl kd b m + F) (H0_x4_final K4 c p0 p1 p2 p3 n p0' p1' p2' p3' n') fun c' D' => ∃ m', Rep4 S b a' c' m' ∧
      D' = bl kd b m' + F' := by
  refine t_nd fun hnd => ?_
  have hF := hnd.right
  refine t_at hr fun hat => ?_
  obtain ⟨s, hs, hat⟩ := hat.lft
  obtain ⟨L, hL⟩ := h.2 s hs
  dsimp only at hat
  generalize hR : H0x4 shakeX s.1 _ n n' = R at hat
  have hR1 : ∀ j, (R j).1 = tabP n fun t => shakeX (hashSel s.1) (sel4 s.2.1 s.2.2.1 s.2.2.2.1 s.2.2.2.2 j ++ [0]) (0 + t) := by
    intro j; rw [← hR]; rfl
  have hR2 : ∀ j, (R j).2 = tabP n' fun t => shakeX (hashSel s.1) (sel4 s.2.1 s.2.2.1 s.2.2.2.1 s.2.2.2.2 j ++ [0]) (0 + n + t) := by
    intro j; rw [← hR, Nat.zero_add]; rfl
  clear hR
  obtain ⟨q0, q1, q2, q3, rfl, rfl, rfl, rfl, hv, hat⟩ := At.stN4 (n := n) hat
    (fun j hj => by rw [sel4_fun (fun j => (R j).1) hj, hR1, tabP_length]) hF
  rw [ups_congr fun j hj => (sel4_fun (fun j => (R j).1) hj).trans (hR1 j)] at hat
  obtain ⟨q0', q1', q2', q3', rfl, rfl, rfl, rfl, hv', hat⟩ := At.stN4 (n := n') hat
    (fun j hj => by rw [sel4_fun (fun j => (R j).2) hj, hR2, tabP_length]) (ND.ups hF _ _ _)
  rw [ups_congr fun j hj => (sel4_fun (fun j => (R j).2) hj).trans (hR2 j)] at hat
  obtain ⟨rfl, rfl⟩ := hat.pure
  unfold H0_x4_final
  refine t_alloc fun i => ?_
  refine t_st rfl (m' := ofList [(0 : Byte)]) rfl ?_
  refine t_call (add_left_comm _ _ _) (hash_update_x4_1_t (d := fun _ => 0) (μ := ofList [(0 : Byte)]) (n := 1) hL View.here0 ?_
    (Small.update ⟨by decide, by decide⟩)) ?_
  · intro j hj
    obtain rfl : j = 0 := by omega
    rfl
  rintro c1 D1 ⟨m1, h1, rfl⟩
  refine t_call rfl (hash_final_x4_t h1) ?_
  rintro c2 D2 ⟨m2, h2, rfl⟩
  refine t_nd fun hnd2 => ?_
  refine t_call rfl (hash_squeeze_x4_4_t h2 (fun j hj => (hv j hj).right) ha.get hn) ?_
  rintro c3 D3 ⟨m3, h3, rfl⟩
  rw [up_ups hnd2.right (fun j hj => by rw [tabP_length]; exact hv j hj)]
  refine t_nd fun hnd3 => ?_
  refine t_call rfl (hash_squeeze_x4_4_t h3 (fun j hj => (hv' j hj).right) ha'.get hn') ?_
  rintro c4 D4 ⟨m4, h4, rfl⟩
  rw [up_ups hnd3.right (fun j hj => by rw [tabP_length]; exact hv' j hj)]
  refine t_free (by hfind) ?_
  exact t_pure ⟨m4, ⟨h4.raw, by rintro _ ⟨⟩⟩, rfl⟩

end

end Faest.GenH
