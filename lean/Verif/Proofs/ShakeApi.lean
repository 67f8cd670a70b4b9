/-
The hash interface on top of the sponge: contexts after `hash_init`, `hash_update`, `hash_final` and
`hash_squeeze`, for one and for four states.
-/
import Verif.Model.RandomOracle
import Verif.Model.Oracle
import Verif.Proofs.KeccakFips
import Verif.Proofs.KeccakX4

namespace Faest.Keccak
open Spec.Keccak (shake shakeX)

theorem rateOf_facts (sel : Nat) : rateOf sel % 8 = 0 ∧ 0 < rateOf sel ∧ rateOf sel < 200 := by
  unfold rateOf; split <;> omega

/-- The context has taken in `M`. -/
structure HAbs (sel : Nat) (M : List Byte) (ctx : HashInstance) : Prop where
  sp : AOk (rateOf sel) (absorbM (rateOf sel) (fun _ => 0, 0) M) ctx.sponge
  fixed : ctx.fixedOutputLength = 0
  suffix : ctx.delimitedSuffix = 0x1F

/-- The context was closed on the input `M` and has given out `p` bytes. -/
def HSq (sel : Nat) (M : List Byte) (p : Nat) (ctx : HashInstance) : Prop :=
  QOk (rateOf sel) (finB (rateOf sel) M) p ctx.sponge

theorem idx_eq (sel : Nat) (M : List Byte) :
    (absorbM (rateOf sel) (fun _ => 0, 0) M).2 = M.length % rateOf sel := by
  have h := rateOf_facts sel
  rw [absorbM_idx h.2.1 M _ h.2.1]
  simp

theorem HAbs.idx {sel : Nat} {M : List Byte} {ctx : HashInstance} (h : HAbs sel M ctx) :
    ctx.sponge.byteIOIndex = M.length % rateOf sel := by rw [h.sp.idx, idx_eq]

theorem initState_ok {st : Mem U64} {base : Nat} (h : base + 25 ≤ st.length) :
    Ok (initState st base) (SOk st base (fun _ => 0)) := by
  unfold initState
  refine Ok.wrN (by simpa using h) ?_
  intro m' hl hr
  simp only [List.length_replicate] at hr
  refine ⟨?_, hl, ?_⟩
  · intro i hi
    rw [hr, if_pos (by omega), List.getElem?_replicate, if_pos (by omega)]
    have h0 : packL (fun _ => 0) 0 = 0 := by decide
    exact congrArg some h0.symm
  · intro j hj
    rw [hr, if_neg (by omega)]

theorem spongeInit_ok {inst : SpongeInstance} (hl : inst.state.length = 25) {r : Nat} (hr : 0 < r)
    (hr2 : r ≤ 200) {cap : Nat} (hc : 8 * r + cap = 1600) :
    Ok (spongeInitialize inst (8 * r) cap) (fun x => x.2 = true ∧ AOk r (fun _ => 0, 0) x.1) := by
  unfold spongeInitialize
  have hu : uint (8 * r + cap) = 1600 := by rw [hc]; rfl
  rw [hu, if_neg (by simp), if_neg (by omega)]
  refine Ok.bind (initState_ok (base := 0) (by omega)) ?_
  intro st h
  exact Ok.pure ⟨rfl, h.has, h.len.trans hl, rfl, rfl, hr, rfl⟩

theorem hashInit_ok {ctx : HashInstance} (hl : ctx.sponge.state.length = 25) (sel : Nat) :
    Ok (hashInit ctx sel) (HAbs sel []) := by
  have key : ∀ r cap : Nat, 0 < r → r ≤ 200 → 8 * r + cap = 1600 →
      Ok (hashInitialize ctx (8 * r) cap 0 0x1F) (fun x => AOk r (fun _ => 0, 0) x.1.sponge ∧
        x.1.fixedOutputLength = 0 ∧ x.1.delimitedSuffix = 0x1F) := by
    intro r cap h1 h2 h3
    unfold hashInitialize
    rw [if_neg (by decide)]
    refine Ok.bind (spongeInit_ok hl h1 h2 h3) ?_
    rintro ⟨sp, ok⟩ ⟨rfl, h⟩
    exact Ok.pure ⟨h, rfl, rfl⟩
  unfold hashInit
  by_cases e : sel = 128
  · subst e
    rw [if_pos rfl]
    refine Ok.bind (key 168 256 (by omega) (by omega) (by omega)) ?_
    rintro ⟨c, ok⟩ ⟨h1, h2, h3⟩
    exact Ok.pure ⟨h1, h2, h3⟩
  · rw [if_neg e]
    refine Ok.bind (key 136 512 (by omega) (by omega) (by omega)) ?_
    rintro ⟨c, ok⟩ ⟨h1, h2, h3⟩
    refine Ok.pure ⟨?_, h2, h3⟩
    have : rateOf sel = 136 := by unfold rateOf; rw [if_neg e]
    rw [this]; exact h1

theorem shl3 {w n : Nat} (h : 8 * n < 2 ^ w) : sizeT w (n <<< 3) = 8 * n := by
  unfold sizeT
  rw [Nat.shiftLeft_eq, show n * 2 ^ 3 = 8 * n by omega, Nat.mod_eq_of_lt h]

theorem add_rate_lt {w n sel : Nat} (hw : 32 ≤ w) (h : 8 * n < 2 ^ w) : n + rateOf sel < 2 ^ w := by
  have := rateOf_facts sel
  have : 2 ^ 32 ≤ 2 ^ w := Nat.pow_le_pow_right (by omega) hw
  omega

/-- The sizes for which `hash_update` works when `m` bytes were taken in before. -/
def UpdateFits (w sel m n : Nat) : Prop :=
  8 * n < 2 ^ w ∧ (m % rateOf sel = 0 ∨ Fits (rateOf sel) (m % rateOf sel) n)

theorem hashUpdate_ok {w : Nat} (hw : 32 ≤ w) {sel : Nat} {M : List Byte} {ctx : HashInstance}
    (h : HAbs sel M ctx) {data : Mem Byte} {l : List Byte} (hd : Data data l)
    (hs : UpdateFits w sel M.length l.length) :
    Ok (hashUpdate w ctx data l.length) (HAbs sel (M ++ l)) := by
  obtain ⟨f1, f2, f3⟩ := rateOf_facts sel
  obtain ⟨hs1, hs2⟩ := hs
  unfold hashUpdate hashUpdateBits
  rw [shl3 hs1, if_pos (by omega), Nat.mul_div_cancel_left _ (by omega : 0 < 8)]
  rw [← idx_eq] at hs2
  rw [bind_assoc]
  refine Ok.bind (spongeAbsorb_ok f1 f2 (by omega) hd (add_rate_lt hw hs1) h.sp hs2) ?_
  rintro ⟨sp, ok⟩ ⟨h1, _⟩
  refine Ok.pure ⟨?_, h.fixed, h.suffix⟩
  rw [absorbM_append]; exact h1

theorem hashFinal_ok (w : Nat) {sel : Nat} {M : List Byte} {ctx : HashInstance} (h : HAbs sel M ctx) :
    Ok (hashFinal w ctx) (fun c => HSq sel M 0 c ∧ c.sponge.byteIOIndex = 0) := by
  obtain ⟨f1, f2, f3⟩ := rateOf_facts sel
  unfold hashFinal hashFinalBits
  rw [h.suffix, h.fixed, bind_assoc]
  refine Ok.bind (spongeLast_ok f2 (by omega) h.sp (b := 0x1F) (by decide) (by decide)) ?_
  rintro ⟨sp, ok⟩ ⟨rfl, h1, h2⟩
  dsimp only at h1 h2 ⊢
  simp only [if_true]
  rw [bind_assoc]
  refine Ok.step (a := (sp, [])) ?_ ?_
  · unfold spongeSqueeze
    rw [h2.sq]
    simp only [if_true]
    show squeezeLoop w 0 1 sp [] 0 = _
    unfold squeezeLoop
    rfl
  · exact Ok.pure ⟨h2, h1⟩

/-- The sizes for which `hash_squeeze` works when `byteIOIndex` is `idx`. -/
def SqueezeFits (w sel idx n : Nat) : Prop :=
  8 * n < 2 ^ w ∧ (idx = rateOf sel ∨ Fits (rateOf sel) idx n)

theorem squeezeFits_small {w sel idx n : Nat} (hw : 32 ≤ w) (hi : idx ≤ rateOf sel) (h : 8 * n < 2 ^ 32) :
    SqueezeFits w sel idx n := by
  have := rateOf_facts sel
  have : 2 ^ 32 ≤ 2 ^ w := Nat.pow_le_pow_right (by omega) hw
  refine ⟨by omega, Or.inr (Or.inl ?_)⟩
  omega

theorem hashSqueeze_ok {w : Nat} (hw : 32 ≤ w) {sel : Nat} {M : List Byte} {p : Nat} {ctx : HashInstance}
    (h : HSq sel M p ctx) {buf : Mem Byte} {n : Nat} (hn : n ≤ buf.length)
    (hs : SqueezeFits w sel ctx.sponge.byteIOIndex n) :
    Ok (hashSqueeze w ctx buf n) (fun x => HSq sel M (p + n) x.1 ∧
      Wrote buf 0 n (fun i => shakeX sel M (p + i)) x.2) := by
  obtain ⟨f1, f2, f3⟩ := rateOf_facts sel
  obtain ⟨hs1, hs2⟩ := hs
  unfold hashSqueeze hashSqueezeBits
  rw [shl3 hs1, if_neg (by omega), Nat.mul_div_cancel_left _ (by omega : 0 < 8)]
  refine Ok.bind (spongeSqueeze_ok f2 f3 hn (add_rate_lt hw hs1) h hs2) ?_
  rintro ⟨sp, out⟩ ⟨h1, h2⟩
  refine Ok.pure ⟨h1, h2.congr ?_⟩
  intro i _
  rw [shakeX_eq]

theorem HSq.le {sel : Nat} {M : List Byte} {p : Nat} {ctx : HashInstance} (h : HSq sel M p ctx) :
    ctx.sponge.byteIOIndex ≤ rateOf sel := QOk.le h

/-! ### Four states -/

/-- The four states have taken in `M 0 … M 3`, all of length `m`. -/
structure HAbs4 (sel m : Nat) (M : Nat → List Byte) (ctx : HashInstance) : Prop where
  sp : AOk4 (rateOf sel) (fun k => absorbM (rateOf sel) (fun _ => 0, 0) (M k)) ctx.sponge
  len : ∀ k, k < 4 → (M k).length = m
  fixed : ctx.fixedOutputLength = 0
  suffix : ctx.delimitedSuffix = 0x1F

def HSq4 (sel : Nat) (M : Nat → List Byte) (p : Nat) (ctx : HashInstance) : Prop :=
  QOk4 (rateOf sel) (fun k => finB (rateOf sel) (M k)) p ctx.sponge

theorem initializeAll_ok {st : Mem U64} (h : st.length = 100) :
    Ok (initializeAll st) (fun st' => HasAll st' (fun _ _ => 0) ∧ st'.length = 100) := by
  unfold initializeAll
  refine (Ok.forN (n := 4) (fun i s => s.length = 100 ∧
    ∀ k, k < i → k < 4 → Has s (stateWithIndex k) 25 (packL (fun _ => 0))) ⟨h, fun _ h => by omega⟩ ?_).mono ?_
  · rintro i hi s ⟨h1, h2⟩
    refine (initState_ok (st := s) (base := stateWithIndex i) (by unfold stateWithIndex; omega)).mono ?_
    intro s' hs
    refine ⟨hs.len.trans h1, ?_⟩
    intro k hk hk4
    by_cases e : k = i
    · subst e; exact hs.has
    · intro j hj
      have := hs.frame (stateWithIndex k + j) (by unfold stateWithIndex; omega)
      rw [this]
      exact h2 k (by omega) hk4 j hj
  · rintro s ⟨h1, h2⟩
    exact ⟨fun k hk => h2 k hk hk, h1⟩

theorem hashInitX4_ok {ctx : HashInstance} (hl : ctx.sponge.state.length = 100) (sel : Nat) :
    Ok (hashInitX4 ctx sel) (HAbs4 sel 0 (fun _ => [])) := by
  have key : ∀ r cap : Nat, 0 < r → r ≤ 200 → 8 * r + cap = 1600 →
      Ok (hashInitializeX4 ctx (8 * r) cap 0 0x1F) (fun x => AOk4 r (fun _ => (fun _ => 0, 0)) x.1.sponge ∧
        x.1.fixedOutputLength = 0 ∧ x.1.delimitedSuffix = 0x1F) := by
    intro r cap h1 h2 h3
    unfold hashInitializeX4 spongeInitializeX4
    have hu : uint (8 * r + cap) = 1600 := by rw [h3]; rfl
    rw [if_neg (by decide), hu, if_neg (by simp), if_neg (by omega), bind_assoc]
    refine Ok.bind (initializeAll_ok hl) ?_
    rintro st ⟨h4, h5⟩
    exact Ok.pure ⟨⟨h4, h5, rfl, fun _ _ => rfl, h1, rfl⟩, rfl, rfl⟩
  unfold hashInitX4
  by_cases e : sel = 128
  · subst e
    rw [if_pos rfl]
    refine Ok.bind (key 168 256 (by omega) (by omega) (by omega)) ?_
    rintro ⟨c, ok⟩ ⟨h1, h2, h3⟩
    exact Ok.pure ⟨h1, fun _ _ => rfl, h2, h3⟩
  · rw [if_neg e]
    refine Ok.bind (key 136 512 (by omega) (by omega) (by omega)) ?_
    rintro ⟨c, ok⟩ ⟨h1, h2, h3⟩
    refine Ok.pure ⟨?_, fun _ _ => rfl, h2, h3⟩
    have : rateOf sel = 136 := by unfold rateOf; rw [if_neg e]
    rw [this]; exact h1

theorem HAbs4.idx {sel m : Nat} {M : Nat → List Byte} {ctx : HashInstance} (h : HAbs4 sel m M ctx) :
    ctx.sponge.byteIOIndex = m % rateOf sel := by
  rw [← h.sp.idx 0 (by omega), idx_eq, h.len 0 (by omega)]

theorem hashUpdateX4_ok {w : Nat} (hw : 32 ≤ w) {sel m : Nat} {M : Nat → List Byte} {ctx : HashInstance}
    (h : HAbs4 sel m M ctx) {data : Nat → Mem Byte} {l : Nat → List Byte} {n : Nat}
    (hd : ∀ k, k < 4 → Data (data k) (l k)) (hn : ∀ k, k < 4 → (l k).length = n) (hs : UpdateFits w sel m n) :
    Ok (hashUpdateX4 w ctx data n) (HAbs4 sel (m + n) (fun k => M k ++ l k)) := by
  obtain ⟨f1, f2, f3⟩ := rateOf_facts sel
  obtain ⟨hs1, hs2⟩ := hs
  unfold hashUpdateX4 hashUpdateBitsX4
  rw [shl3 hs1, if_neg (by omega), Nat.mul_div_cancel_left _ (by omega : 0 < 8)]
  rw [← h.idx] at hs2
  rw [bind_assoc]
  refine Ok.bind (spongeAbsorbX4_ok f2 (by omega) hd hn (add_rate_lt hw hs1) h.sp hs2) ?_
  rintro ⟨sp, ok⟩ ⟨h1, _⟩
  refine Ok.pure ⟨?_, ?_, h.fixed, h.suffix⟩
  · have : (fun k => absorbM (rateOf sel) (fun _ => 0, 0) (M k ++ l k))
        = fun k => absorbM (rateOf sel) (absorbM (rateOf sel) (fun _ => 0, 0) (M k)) (l k) := by
      funext k; rw [absorbM_append]
    rw [this]; exact h1
  · intro k hk
    rw [List.length_append, h.len k hk, hn k hk]

theorem hashFinalX4_ok (w : Nat) {sel m : Nat} {M : Nat → List Byte} {ctx : HashInstance} (h : HAbs4 sel m M ctx) :
    Ok (hashFinalX4 w ctx) (fun c => HSq4 sel M 0 c ∧ c.sponge.byteIOIndex = 0) := by
  obtain ⟨f1, f2, f3⟩ := rateOf_facts sel
  unfold hashFinalX4 hashFinalBitsX4
  rw [h.suffix, h.fixed, bind_assoc]
  refine Ok.bind (spongeLastX4_ok f2 (by omega) h.sp (b := 0x1F) (by decide) (by decide)) ?_
  rintro ⟨sp, ok⟩ ⟨rfl, h1, h2⟩
  dsimp only at h1 h2 ⊢
  simp only [if_true]
  rw [bind_assoc]
  refine Ok.step (a := (sp, fun _ => [])) ?_ ?_
  · unfold spongeSqueezeX4
    rw [h2.sq]
    simp only [if_true]
    show squeezeLoopX4 w 0 1 sp (fun _ => []) 0 = _
    unfold squeezeLoopX4
    rfl
  · exact Ok.pure ⟨h2, h1⟩

theorem hashSqueezeX4_ok {w : Nat} (hw : 32 ≤ w) {sel : Nat} {M : Nat → List Byte} {p : Nat} {ctx : HashInstance}
    (h : HSq4 sel M p ctx) {buf : Nat → Mem Byte} {n : Nat} (hn : ∀ k, k < 4 → n ≤ (buf k).length)
    (hs : SqueezeFits w sel ctx.sponge.byteIOIndex n) :
    Ok (hashSqueezeX4 w ctx buf n) (fun x => HSq4 sel M (p + n) x.1 ∧
      WroteAll buf 0 n (fun k i => shakeX sel (M k) (p + i)) x.2) := by
  obtain ⟨f1, f2, f3⟩ := rateOf_facts sel
  obtain ⟨hs1, hs2⟩ := hs
  unfold hashSqueezeX4 hashSqueezeBitsX4
  rw [shl3 hs1, if_neg (by omega), Nat.mul_div_cancel_left _ (by omega : 0 < 8)]
  refine Ok.bind (spongeSqueezeX4_ok f2 f3 hn (add_rate_lt hw hs1) h hs2) ?_
  rintro ⟨sp, out⟩ ⟨h1, h2⟩
  refine Ok.pure ⟨h1, ?_⟩
  intro k hk
  refine (h2 k hk).congr ?_
  intro i _
  beta_reduce
  rw [shakeX_eq]

theorem HSq4.le {sel : Nat} {M : Nat → List Byte} {p : Nat} {ctx : HashInstance} (h : HSq4 sel M p ctx) :
    ctx.sponge.byteIOIndex ≤ rateOf sel := QOk4.le h

end Faest.Keccak
