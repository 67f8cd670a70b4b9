/-
The functions on four states of sha3/opt64/KeccakP-1600-times4-on1.c (PlSnP-Fallback.inc): one state after the other.
-/
import Verif.Model.ShakeImpl
import Verif.Proofs.Gen.P4Spec
import Verif.Proofs.Gen.SpSpec

namespace Faest.GenH
open Faest.C Faest.Keccak

/-- The bytes of four states. -/
def M4 (B : Nat → Nat → Byte) : Mem Byte := ofList (tabP 800 fun t => B (t / 200) (t % 200))

theorem M4_len (B : Nat → Nat → Byte) : (M4 B).length = 800 := by simp [M4, ofList]

theorem M4_congr {B B' : Nat → Nat → Byte} (h : ∀ k, k < 4 → B k = B' k) : M4 B = M4 B' := by
  unfold M4
  rw [tabP_congr fun t ht => by rw [h (t / 200) (by omega)]]

theorem M4_has (B : Nat → Nat → Byte) {i : Nat} (hi : i < 4) : Has (M4 B) (200 * i) 200 (B i) := by
  intro j hj
  unfold M4
  rw [rd_ofList, tabP_getElem?, if_pos (by omega), show (200 * i + j) / 200 = i by omega, show (200 * i + j) % 200 = j by omega]

theorem M4_eq {B : Nat → Nat → Byte} {m : Mem Byte} (hl : m.length = 800)
    (h : ∀ k, k < 4 → Has m (200 * k) 200 (B k)) : m = M4 B := by
  refine mem_ext (by rw [hl, M4_len]) fun t ht => ?_
  have h1 := cell_eq (h (t / 200) (by omega) (t % 200) (by omega))
  have h2 := cell_eq (M4_has B (i := t / 200) (by omega) (t % 200) (by omega))
  rw [show 200 * (t / 200) + t % 200 = t by omega] at h1 h2
  rw [h1, h2]

theorem M4_set (B : Nat → Nat → Byte) {i : Nat} (hi : i < 4) (B' : Nat → Byte) :
    St (M4 B) (200 * i) B' = M4 (setS B i B') := by
  have hl : 200 * i + 200 ≤ (M4 B).length := by rw [M4_len]; omega
  refine M4_eq (by rw [st_len hl, M4_len]) fun k hk => ?_
  by_cases e : k = i
  · subst e
    unfold setS
    rw [if_pos rfl]
    exact st_has hl _
  · intro j hj
    unfold setS
    rw [if_neg e]
    have h2 := M4_has B hk j hj
    rw [← h2]
    unfold St
    rw [rd_W (by rw [tabP_length]; exact hl), tabP_length, if_neg (by omega)]

section
variable {kd : Kind} {b : Nat} {F : Blocks} {B : Nat → Nat → Byte}

/-- Work on one of the states. -/
theorem win_runs {β : Type} {p : CM β} {v : β} {i w : Nat} {B' : Nat → Byte} {F' : Blocks} (hi : i < 4) (hw : w = 200 * i)
    (h : ∀ m : Mem Byte, w + 200 ≤ m.length → Runs (bl kd b (St m w (B i)) + F) p v (bl kd b (St m w B') + F')) :
    Runs (bl kd b (M4 B) + F) p v (bl kd b (M4 (setS B i B')) + F') := by
  subst hw
  have := h (M4 B) (by rw [M4_len]; omega)
  rw [st_self (M4_has B hi), M4_set B hi] at this
  exact this

theorem idx200 {i : Nat} (hi : i < 4) : 0 + i * 200 % 4294967296 = 200 * i := by omega

theorem initAll_runs {m : Mem Byte} (hl : m.length = 800) :
    Runs (bl kd b m + F) (KeccakP1600times4_InitializeAll (some ⟨b, 0⟩)) () (bl kd b (M4 fun _ _ => 0) + F) := by
  unfold KeccakP1600times4_InitializeAll
  refine t_whileI (I := fun i D => i ≤ 4 ∧ ∃ m : Mem Byte, m.length = 800 ∧
      (∀ k, k < i → Has m (200 * k) 200 fun _ => 0) ∧ D = bl kd b m + F) (μ := fun i => 4 - i)
    ⟨by omega, m, hl, fun k hk => absurd hk (by omega), rfl⟩ (by decide) ?_ ?_
  · rintro i D ⟨hi, m, hl, hm, rfl⟩ hc
    rw [decide_eq_true_eq] at hc
    have hl2 : 0 + i * 200 % 4294967296 + 200 ≤ m.length := by rw [idx200 hc]; omega
    refine t_run rfl (init_runs hl2) ?_
    rw [show (i + 1) % 4294967296 = i + 1 by omega]
    refine t_pure ⟨⟨by omega, _, by rw [st_len hl2, hl], ?_, rfl⟩, by omega⟩
    intro k hk
    by_cases e : k = i
    · subst e
      have := st_has hl2 (fun _ => 0)
      rw [idx200 hc] at this ⊢
      exact this
    · intro j hj
      rw [← hm k (by omega) j hj]
      unfold St
      rw [rd_W (by rw [tabP_length]; exact hl2), tabP_length, if_neg (by rw [idx200 hc]; omega)]
  · rintro i D ⟨hi, m, hl, hm, rfl⟩ hc
    rw [decide_eq_false_iff_not] at hc
    rw [M4_eq (B := fun _ _ => 0) hl fun k hk => hm k (by omega)]
    exact t_pure ⟨rfl, rfl⟩

theorem permuteAll_runs :
    Runs (bl kd b (M4 B) + F) (KeccakP1600times4_PermuteAll_24rounds (some ⟨b, 0⟩)) ()
      (bl kd b (M4 fun k => keccakB (B k)) + F) := by
  unfold KeccakP1600times4_PermuteAll_24rounds
  refine t_for4 (fun i => bl kd b (M4 fun k => if k < i then keccakB (B k) else B k) + F) rfl ?_ ?_
  · intro i hi
    refine t_run rfl (win_runs hi (idx200 hi) fun m hm => permute_runs hm) ?_
    rw [show (i + 1) % 4294967296 = i + 1 by omega]
    refine t_pure ⟨rfl, ?_⟩
    rw [M4_congr fun k _ => ?_]
    unfold setS
    by_cases e : k = i
    · rw [if_pos e, if_neg (by omega), if_pos (by omega), e]
    · rw [if_neg e]
      dsimp only
      by_cases e2 : k < i
      · rw [if_pos e2, if_pos (by omega)]
      · rw [if_neg e2, if_neg (by omega)]
  · refine t_pure ⟨rfl, ?_⟩
    rw [M4_congr fun k hk => ?_]
    rw [if_pos hk]

end

theorem setS_self (B : Nat → Nat → Byte) (i : Nat) : setS B i (B i) = B := by
  funext j
  unfold setS
  split
  · next h => rw [h]
  · rfl

/-- Four states one after the other. -/
def on1Spec : P4Spec on1 where
  lay := M4
  len := M4_len
  congr := M4_congr
  static := t_pure ⟨rfl, rfl⟩
  init := initAll_runs
  addByte := by
    intro kd b F B c i y hi hy
    refine win_runs hi (idx200 hi) fun m hm => ?_
    show Runs _ (KeccakP1600times4_AddByte _ _ _ _) _ _
    unfold KeccakP1600times4_AddByte Runs
    exact t_addByte hm hy rfl (t_pure ⟨rfl, rfl⟩)
  addBytes := by
    intro kd b F B i x k p μ d hi hv hd _ hx
    refine win_runs hi (idx200 hi) fun m hm => ?_
    show Runs _ (KeccakP1600times4_AddBytes _ _ _ _ _) _ _
    unfold KeccakP1600times4_AddBytes
    exact t_run rfl (addBytes_runs hm hv hd (by omega)) (t_pure ⟨rfl, rfl⟩)
  extract := by
    intro kd b F B i x k q hi hv hx
    have := win_runs (kd := kd) (b := b) (B := B) (F := F) hi (idx200 hi) (p := KeccakP1600times4_ExtractBytes (some ⟨b, 0⟩) i (some q) x k)
      (v := ()) (B' := B i) (F' := up F q (tabP k fun j => B i (x + j))) fun m hm => by
        unfold KeccakP1600times4_ExtractBytes
        exact t_run rfl (extractBytes_runs hm hv hx) (t_pure ⟨rfl, rfl⟩)
    rwa [setS_self] at this
  permute := permuteAll_runs

/-- The sponge over the 64-bit implementation. -/
def sponge64Spec : SpSpec sponge64 where
  lay := M1
  len := M1_len
  init := by
    intro kd b F m c r cap hc hr hcap hl
    have := spInit_runs (kd := kd) (F := F) hc hr hcap (by rw [hl])
    rwa [st_M1 hl] at this
  absorb := by
    intro kd b F r n s data μ d hr hv hd hs hn hf
    have := spAbsorb_runs (kd := kd) (b := b) (w := 0) (m := M1 s.1) (s := s) hr (by rw [M1_len]) hv hd hs hn hf
    rwa [st_M1 (M1_len _), st_M1 (M1_len _)] at this
  last := by
    intro kd b F r s hr hs
    have := spLast_runs (kd := kd) (b := b) (w := 0) (m := M1 s.1) (s := s) (F := F) hr (by rw [M1_len]) hs
    rwa [st_M1 (M1_len _), st_M1 (M1_len _)] at this
  squeeze0 := spSqueeze0_runs
  squeeze := by
    intro kd b F r n k x p q B hr hv hp hx hn hf
    have := spSqueeze_t (kd := kd) (b := b) (w := 0) (m := M1 (iterB k B)) (B := B) hr (by rw [M1_len]) hv hp hx hn hf
    simp only [st_M1 (M1_len _)] at this
    exact this

end Faest.GenH
