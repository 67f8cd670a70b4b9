/-
The functions on four states of sha3/plain32/KeccakP-1600-times4-on1.c (PlSnP-Fallback.inc): one state after the other,
the lanes of each in interleaved form, on a big-endian host.
-/
import Verif.Proofs.Gen.Sponge32be
import Verif.Proofs.Gen.X4On1

namespace Faest.GenPB
open Faest.C Faest.Keccak
open Faest.GenH (St st_len st_has M1 M1_len st_M1 M4 M4_len M4_has M4_eq M4_congr setS setS_self idx200 t_for4 win_runs P4Spec SpSpec plain32be sponge32be)

/-- The bytes of four states. -/
def M4P (B : Nat → Nat → Byte) : Mem Byte := M4 fun k => ilb (B k)

theorem M4P_congr {B B' : Nat → Nat → Byte} (h : ∀ k, k < 4 → B k = B' k) : M4P B = M4P B' :=
  M4_congr fun k hk => by rw [h k hk]

section
variable {kd : Kind} {b : Nat} {F : Blocks} {B : Nat → Nat → Byte}

/-- Work on one of the states. -/
theorem winP_runs {β : Type} {p : CM β} {v : β} {i w : Nat} {B' : Nat → Byte} {F' : Blocks} (hi : i < 4) (hw : w = 200 * i)
    (h : ∀ m : Mem Byte, w + 200 ≤ m.length → Runs (bl kd b (St m w (ilb (B i))) + F) p v (bl kd b (St m w (ilb B')) + F')) :
    Runs (bl kd b (M4P B) + F) p v (bl kd b (M4P (setS B i B')) + F') := by
  have := win_runs (B := fun k => ilb (B k)) (B' := ilb B') hi hw h
  have e : (fun k => ilb (setS B i B' k)) = setS (fun k => ilb (B k)) i (ilb B') := by
    funext k
    unfold setS
    split <;> rfl
  unfold M4P
  rw [e]
  exact this

theorem initAll_runs {m : Mem Byte} (hl : m.length = 800) :
    Runs (bl kd b m + F) (KeccakP1600times4_InitializeAll (some ⟨b, 0⟩)) () (bl kd b (M4P fun _ _ => 0) + F) := by
  unfold KeccakP1600times4_InitializeAll
  refine t_whileI (I := fun i D => i ≤ 4 ∧ ∃ m : Mem Byte, m.length = 800 ∧
      (∀ k, k < i → Has m (200 * k) 200 (ilb fun _ => 0)) ∧ D = bl kd b m + F) (μ := fun i => 4 - i)
    ⟨by omega, m, hl, fun k hk => absurd hk (by omega), rfl⟩ (by decide) ?_ ?_
  · rintro i D ⟨hi, m, hl, hm, rfl⟩ hc
    rw [decide_eq_true_eq] at hc
    have hl2 : 0 + i * 200 % 4294967296 + 200 ≤ m.length := by rw [idx200 hc]; omega
    refine t_run rfl (init_runs hl2) ?_
    rw [show (i + 1) % 4294967296 = i + 1 by omega]
    refine t_pure ⟨⟨by omega, _, by rw [st_len hl2, hl], ?_, rfl⟩, by omega⟩
    intro k hk
    by_cases e : k = i
    · subst e
      have := st_has hl2 (ilb fun _ => 0)
      rw [idx200 hc] at this ⊢
      exact this
    · intro j hj
      rw [← hm k (by omega) j hj]
      unfold St
      rw [rd_W (by rw [tabP_length]; exact hl2), tabP_length, if_neg (by rw [idx200 hc]; omega)]
  · rintro i D ⟨hi, m, hl, hm, rfl⟩ hc
    rw [decide_eq_false_iff_not] at hc
    rw [M4_eq (B := fun _ => ilb fun _ => 0) hl fun k hk => hm k (by omega)]
    exact t_pure ⟨rfl, rfl⟩

theorem permuteAll_runs :
    Runs (bl kd b (M4P B) + F) (KeccakP1600times4_PermuteAll_24rounds (some ⟨b, 0⟩)) ()
      (bl kd b (M4P fun k => keccakB (B k)) + F) := by
  unfold KeccakP1600times4_PermuteAll_24rounds
  refine t_for4 (fun i => bl kd b (M4P fun k => if k < i then keccakB (B k) else B k) + F) rfl ?_ ?_
  · intro i hi
    refine t_run rfl (winP_runs hi (idx200 hi) fun m hm => permute_runs hm) ?_
    rw [show (i + 1) % 4294967296 = i + 1 by omega]
    refine t_pure ⟨rfl, ?_⟩
    rw [M4P_congr fun k _ => ?_]
    unfold setS
    by_cases e : k = i
    · rw [if_pos e, if_neg (by omega), if_pos (by omega), e]
    · rw [if_neg e]
      dsimp only
      by_cases e2 : k < i
      · rw [if_pos e2, if_pos (by omega)]
      · rw [if_neg e2, if_neg (by omega)]
  · refine t_pure ⟨rfl, ?_⟩
    rw [M4P_congr fun k hk => ?_]
    rw [if_pos hk]

end

end Faest.GenPB

namespace Faest.GenH
open Faest.C Faest.Keccak Faest.GenPB

/-- Four states one after the other, with interleaved lanes. -/
def plain32beSpec : P4Spec plain32be where
  lay := M4P
  len B := M4_len _
  congr := M4P_congr
  static := t_pure ⟨rfl, rfl⟩
  init := GenPB.initAll_runs
  addByte := by
    intro kd b F B c i y hi hy
    refine winP_runs hi (idx200 hi) fun m hm => ?_
    show Runs _ (GenPB.KeccakP1600times4_AddByte _ _ _ _) _ _
    unfold GenPB.KeccakP1600times4_AddByte
    exact t_run rfl (GenPB.addByte_runs hm hy) (t_pure ⟨rfl, rfl⟩)
  addBytes := by
    intro kd b F B i x k p μ d hi hv hd h0 hx
    refine winP_runs hi (idx200 hi) fun m hm => ?_
    show Runs _ (GenPB.KeccakP1600times4_AddBytes _ _ _ _ _) _ _
    unfold GenPB.KeccakP1600times4_AddBytes
    exact t_run rfl (GenPB.addBytes_runs hm hv hd h0 hx) (t_pure ⟨rfl, rfl⟩)
  extract := by
    intro kd b F B i x k q hi hv hx
    have := winP_runs (kd := kd) (b := b) (B := B) (F := F) hi (idx200 hi) (p := GenPB.KeccakP1600times4_ExtractBytes (some ⟨b, 0⟩) i (some q) x k)
      (v := ()) (B' := B i) (F' := up F q (tabP k fun j => B i (x + j))) fun m hm => by
        unfold GenPB.KeccakP1600times4_ExtractBytes
        exact t_run rfl (GenPB.extractBytes_runs hm hv hx) (t_pure ⟨rfl, rfl⟩)
    rwa [setS_self] at this
  permute := GenPB.permuteAll_runs

/-- The sponge over the state with interleaved lanes. -/
def sponge32beSpec : SpSpec sponge32be where
  lay B := M1 (ilb B)
  len B := M1_len _
  init := by
    intro kd b F m c r cap hc hr hcap hl
    have := GenPB.spInit_runs (kd := kd) (F := F) hc hr hcap (by rw [hl])
    rwa [st_M1 hl] at this
  absorb := by
    intro kd b F r n s data μ d hr hv hd hs hn hf
    have := GenPB.spAbsorb_runs (kd := kd) (b := b) (w := 0) (m := M1 s.1) (s := s) hr (by rw [M1_len]) hv hd hs hn hf
    rwa [st_M1 (M1_len _), st_M1 (M1_len _)] at this
  last := by
    intro kd b F r s hr hs
    have := GenPB.spLast_runs (kd := kd) (b := b) (w := 0) (m := M1 s.1) (s := s) (F := F) hr (by rw [M1_len]) hs
    rwa [st_M1 (M1_len _), st_M1 (M1_len _)] at this
  squeeze0 := GenPB.spSqueeze0_runs
  squeeze := by
    intro kd b F r n k x p q B hr hv hp hx hn hf
    have := GenPB.spSqueeze_t (kd := kd) (b := b) (w := 0) (m := M1 (iterB k B)) (B := B) hr (by rw [M1_len]) hv hp hx hn hf
    simp only [st_M1 (M1_len _)] at this
    exact this

end Faest.GenH
