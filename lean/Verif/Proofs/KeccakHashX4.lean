/-
The interface of KeccakHashtimes4.h for any rate, suffix and length of the hash.
-/
import Verif.Model.KeccakHashX4
import Verif.Proofs.KeccakHash

namespace Faest.Keccak
open Spec.Keccak

theorem spongeLastGX4_ok {r : Nat} (hr0 : 0 < r) (hr200 : r ≤ 200) {s : Nat → MSt} {inst : SpongeInstance}
    (h : AOk4 r s inst) {b : Byte} (hb : b ≠ 0) :
    Ok (spongeAbsorbLastFewBitsX4 inst b) (fun x => x.2 = true ∧ x.1.byteIOIndex = 0 ∧ QOk4 r (fun k => finG r (s k) b) 0 x.1) := by
  unfold spongeAbsorbLastFewBitsX4
  have hrate : inst.rate / 8 = r := by rw [h.rate]; omega
  dsimp only
  rw [hrate, if_neg hb, h.sq]
  have hu : uint (r + 2 ^ 32 - 1) = r - 1 := by unfold uint; omega
  have hlt := h.lt
  simp only [Bool.false_eq_true, if_false]
  rw [hu]
  refine Ok.bind (addByteAll_ok h.has (by omega) b) ?_
  rintro st1 ⟨h1, hl1⟩
  have fin : ∀ st2 : Mem U64, (HasAll st2 (fun k => if 0x80#8 ≤ b ∧ inst.byteIOIndex = r - 1 then
          keccakB (xorB (s k).1 inst.byteIOIndex 1 (fun _ => b)) else xorB (s k).1 inst.byteIOIndex 1 (fun _ => b)) ∧
        st2.length = st1.length) →
      Ok (do
        let st ← forN 4 st2 (fun k st => addByte st (stateWithIndex k) 0x80 (r - 1))
        let st ← permuteAll st
        pure (({ state := st, rate := inst.rate, byteIOIndex := 0, squeezing := true } : SpongeInstance), true))
        (fun x => x.2 = true ∧ x.1.byteIOIndex = 0 ∧ QOk4 r (fun k => finG r (s k) b) 0 x.1) := by
    rintro st2 ⟨h2, hl2⟩
    refine Ok.bind (addByteAll_ok h2 (by omega) 0x80) ?_
    rintro st3 ⟨h3, hl3⟩
    refine Ok.bind (permuteAll_ok h3) ?_
    rintro st4 ⟨h4, hl4⟩
    refine Ok.pure ⟨rfl, rfl, ⟨0, by simp, ?_⟩, hl4.trans (hl3.trans (hl2.trans (hl1.trans h.len))), h.rate, Nat.zero_le _, rfl⟩
    intro k hk
    have := h4 k hk
    rw [← h.idx k hk] at this
    exact this
  by_cases hc : 0x80#8 ≤ b ∧ inst.byteIOIndex = r - 1
  · simp only [if_pos hc] at fin ⊢
    exact Ok.bind (permuteAll_ok h1) fin
  · simp only [if_neg hc] at fin ⊢
    exact Ok.bind (Ok.pure (Q := fun x => HasAll x _ ∧ x.length = st1.length) ⟨h1, rfl⟩) fin

/-- The four contexts have taken in `M 0 … M 3`. -/
structure GAbs4 (r n : Nat) (M : Nat → List Byte) (s : List Bool) (ctx : HashInstance) : Prop where
  sp : AOk4 r (fun k => absorbM r (fun _ => 0, 0) (M k)) ctx.sponge
  fixed : ctx.fixedOutputLength = 8 * n
  suffix : ctx.delimitedSuffix = suffixByte s

theorem GAbs4.congr {r n : Nat} {M M' : Nat → List Byte} {s : List Bool} {ctx : HashInstance} (h : GAbs4 r n M s ctx)
    (e : ∀ k, M k = M' k) : GAbs4 r n M' s ctx := by
  have : M = M' := funext e
  rw [← this]; exact h

theorem initializeX4_ok {ctx : HashInstance} (hl : ctx.sponge.state.length = 100) {r : Nat} (hr : 0 < r) (hr2 : r ≤ 200)
    {cap : Nat} (hc : 8 * r + cap = 1600) (n : Nat) {s : List Bool} (hs : s.length ≤ 7) :
    Ok (hashInitializeX4 ctx (8 * r) cap (8 * n) (suffixByte s)) (fun x => x.2 = true ∧ GAbs4 r n (fun _ => []) s x.1) := by
  unfold hashInitializeX4 spongeInitializeX4
  have hu : uint (8 * r + cap) = 1600 := by rw [hc]; rfl
  rw [if_neg (suffixByte_ne hs), hu, if_neg (by simp), if_neg (by omega), bind_assoc]
  refine Ok.bind (initializeAll_ok hl) ?_
  rintro st ⟨h4, h5⟩
  exact Ok.pure ⟨rfl, ⟨h4, h5, rfl, fun _ _ => rfl, hr, rfl⟩, rfl, rfl⟩

theorem updatesX4_ok {w r n : Nat} (hw : 32 ≤ w) (hr : 0 < r) (hr2 : r < 200) {s : List Bool}
    (chunks : List (Nat × (Nat → List Byte))) : ∀ {M : Nat → List Byte} {ctx : HashInstance}, GAbs4 r n M s ctx →
      (∀ c ∈ chunks, Small w c.1 ∧ ∀ k, k < 4 → (c.2 k).length = c.1) →
      Ok (runKeccakUpdatesX4 w ctx chunks) (GAbs4 r n (fun k => M k ++ (chunks.map (fun c => c.2 k)).flatten) s) := by
  induction chunks with
  | nil => intro M ctx h _; exact Ok.some (h.congr fun k => by simp)
  | cons c cs ih =>
    intro M ctx h hs
    obtain ⟨m, c⟩ := c
    obtain ⟨s1, s2⟩ := hs (m, c) (by simp)
    have hup : Ok (hashUpdateBitsX4 w ctx (fun k => ofList (c k)) (8 * m))
        (fun x => x.2 = true ∧ GAbs4 r n (fun k => M k ++ c k) s x.1) := by
      unfold hashUpdateBitsX4
      rw [if_neg (by omega), Nat.mul_div_cancel_left _ (by omega : 0 < 8)]
      refine Ok.bind (spongeAbsorbX4_ok hr (by omega) (l := c) (fun k _ => data_ofList (c k)) s2 (small_lt hw hr2 s1.2) h.sp
        (Or.inr (Or.inl (by have := s1.1; have := h.sp.lt; omega)))) ?_
      rintro ⟨sp, ok⟩ ⟨h1, rfl⟩
      refine Ok.pure ⟨rfl, ?_, h.fixed, h.suffix⟩
      have : (fun k => absorbM r (fun _ => 0, 0) (M k ++ c k)) = fun k => absorbM r (absorbM r (fun _ => 0, 0) (M k)) (c k) := by
        funext k; rw [absorbM_append]
      rw [this]; exact h1
    refine Ok.bind hup ?_
    rintro ⟨ctx', ok⟩ ⟨rfl, h'⟩
    refine (ih h' fun c' hc' => hs c' (by simp [hc'])).mono ?_
    intro ctx2 h2
    exact h2.congr fun k => by simp

theorem tabP_getD4 {g : Nat → List Byte} {k : Nat} (hk : k < 4) : (tabP 4 g).getD k [] = g k := by
  rw [List.getD_eq_getElem?_getD, tabP_getElem?, if_pos hk]; rfl

theorem squeezesX4_ok {w r : Nat} (hw : 32 ≤ w) (hr : 0 < r) (hr2 : r < 200) {B : Nat → Nat → Byte} (outs : List Nat) :
    ∀ {p : Nat} {ctx : HashInstance}, QOk4 r B p ctx.sponge → (∀ n ∈ outs, Small w n) →
      Ok (runKeccakSqueezesX4 w ctx outs) (fun x => (∀ y ∈ x, y.length = 4) ∧ ∀ k, k < 4 →
        x.map (fun y => (y.getD k []).length) = outs ∧
        (x.map (fun y => y.getD k [])).flatten = tabP outs.sum (fun i => sqByte r (B k) (p + i))) := by
  induction outs with
  | nil => intro p ctx _ _; exact Ok.some ⟨by simp, fun k _ => ⟨rfl, rfl⟩⟩
  | cons n ns ih =>
    intro p ctx h hs
    have hq : Ok (hashSqueezeBitsX4 w ctx (fun _ => malloc n) (8 * n)) (fun x => QOk4 r B (p + n) x.1.sponge ∧
        WroteAll (fun _ => malloc n) 0 n (fun k j => sqByte r (B k) (p + j)) x.2) := by
      unfold hashSqueezeBitsX4
      rw [if_neg (by omega), Nat.mul_div_cancel_left _ (by omega : 0 < 8)]
      have hn := hs n (by simp)
      refine Ok.bind (spongeSqueezeX4_ok hr hr2 (fun _ _ => by simp) (small_lt hw hr2 hn.2) h
        (Or.inr (Or.inl (by have := hn.1; have := h.le; omega)))) ?_
      rintro ⟨sp, out⟩ h1
      exact Ok.pure h1
    refine Ok.bind hq ?_
    rintro ⟨ctx', buf⟩ ⟨h1, h2⟩
    refine Ok.step (tabM_eq (g := fun k => tabP n (fun i => sqByte r (B k) (p + i))) fun k hk =>
      wrote_rdN (h2 k hk) (by simp)) ?_
    refine Ok.bind (ih h1 fun n' hn' => hs n' (by simp [hn'])) ?_
    rintro xs ⟨h3, h4⟩
    refine Ok.pure ⟨?_, ?_⟩
    · intro y hy
      rcases List.mem_cons.1 hy with rfl | hy
      · simp [tabP]
      · exact h3 y hy
    · intro k hk
      obtain ⟨h5, h6⟩ := h4 k hk
      refine ⟨?_, ?_⟩
      · rw [List.map_cons, h5, tabP_getD4 hk]; congr 1; simp [tabP]
      · rw [List.map_cons, List.flatten_cons, h6, tabP_getD4 hk, List.sum_cons, tabP_add]
        congr 1
        apply tabP_congr
        intro i _
        rw [Nat.add_assoc]

/-- The whole program. -/
theorem runKeccakX4_ok {w r : Nat} (hw : 32 ≤ w) (hr : 0 < r) (hr2 : r < 200) {cap n : Nat} (hc : 8 * r + cap = 1600)
    {s : List Bool} (hs : s.length ≤ 7) (chunks : List (Nat × (Nat → List Byte))) (outs : List Nat)
    (h1 : ∀ c ∈ chunks, Small w c.1 ∧ ∀ k, k < 4 → (c.2 k).length = c.1) (h2 : Small w n) (h3 : ∀ n ∈ outs, Small w n) :
    Ok (runKeccakX4 w ⟨8 * r, cap, 8 * n, suffixByte s⟩ chunks outs) (fun x => x.1.length = 4 ∧ (∀ y ∈ x.2, y.length = 4) ∧
      ∀ k, k < 4 → (x.1.getD k []).length = n ∧ x.2.map (fun y => (y.getD k []).length) = outs ∧
        x.1.getD k [] ++ (x.2.map (fun y => y.getD k [])).flatten =
          bytesOf (sponge keccakP (8 * r) (bitsOf (chunks.map (fun c => c.2 k)).flatten ++ s) (8 * (n + outs.sum)))) := by
  unfold runKeccakX4
  dsimp only
  rw [Nat.mul_div_cancel_left _ (by omega : 0 < 8)]
  refine Ok.bind (initializeX4_ok (by simp [hashFreshX4]) hr (by omega) hc n hs) ?_
  rintro ⟨ctx, ok⟩ ⟨rfl, g0⟩
  simp only [if_true]
  refine Ok.bind (updatesX4_ok hw hr hr2 chunks g0 h1) ?_
  intro ctx g1
  have g1 := g1.congr (M' := fun k => (chunks.map (fun c => c.2 k)).flatten) fun k => List.nil_append _
  generalize hB : (fun k => finG r (absorbM r (fun _ => 0, 0) (chunks.map (fun c => c.2 k)).flatten) (suffixByte s)) = B
  have hf : Ok (hashFinalBitsX4 w ctx (fun _ => malloc n)) (fun x => QOk4 r B n x.1.sponge ∧
      ∀ k, k < 4 → rdN (x.2 k) 0 n = some (tabP n (sqByte r (B k)))) := by
    unfold hashFinalBitsX4
    rw [g1.suffix, g1.fixed, Nat.mul_div_cancel_left _ (by omega : 0 < 8)]
    refine Ok.bind (spongeLastGX4_ok hr (by omega) g1.sp (suffixByte_ne hs)) ?_
    rintro ⟨sp, ok⟩ ⟨rfl, e1, e2⟩
    dsimp only at e1 e2 ⊢
    simp only [if_true]
    rw [hB] at e2
    refine Ok.bind (spongeSqueezeX4_ok hr hr2 (data := fun _ => malloc n) (n := n) (fun _ _ => by simp) (small_lt hw hr2 h2.2) e2
      (Or.inr (Or.inl (by have := h2.1; omega)))) ?_
    rintro ⟨sp', out⟩ ⟨e3, e4⟩
    refine Ok.pure ⟨by rwa [Nat.zero_add] at e3, ?_⟩
    intro k hk
    rw [wrote_rdN (e4 k hk) (by simp)]
    simp only [Nat.zero_add]
  refine Ok.bind hf ?_
  rintro ⟨ctx', hash⟩ ⟨g2, g3⟩
  refine Ok.step (tabM_eq g3) ?_
  refine Ok.bind (squeezesX4_ok hw hr hr2 outs g2 h3) ?_
  rintro xs ⟨g5, g6⟩
  refine Ok.pure ⟨by simp [tabP], g5, ?_⟩
  intro k hk
  obtain ⟨g7, g8⟩ := g6 k hk
  dsimp only
  rw [tabP_getD4 hk]
  refine ⟨by simp [tabP], g7, ?_⟩
  rw [sponge_bytes hr (by omega) _ _ (absorb_suffix hr _ hs), g8, tabP_add, ← hB]

end Faest.Keccak
