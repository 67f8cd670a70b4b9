/-
faest_aes.c, translated: what the three copies of the Even-Mansour functions share.
-/
import Verif.Proofs.Gen.FaQ

namespace Faest.C

section
variable {D F : Blocks} {kd kd' : Kind} {P : Params} {n : Nat}

/-- The sizes of one copy of the Even-Mansour functions. -/
structure EmP (P : Params) (lam nwd r senc lenc : Nat) : Prop where
  lam : P.lambda = lam
  nwd : P.Nwd = nwd
  r : P.R = r
  senc : P.Senc = senc
  lenc : P.Lenc = lenc

/-- A pointer which may be null. -/
def OptV {α : Type} [Ty α] (D : Blocks) (p : CPtr) (x : Option (Mem α)) : Prop :=
  match x with
  | some m => p.isSome = true ∧ View D p m
  | none => p = none

theorem OptV.there {α : Type} [Ty α] {E : Blocks} {p : CPtr} {x : Option (Mem α)} (h : OptV D p x) : OptV (E + D) p x := by
  rcases x with _ | m
  · exact h
  · exact ⟨h.1, h.2.there⟩

theorem View.opt {α : Type} [Ty α] {p : CPtr} {m : Mem α} (h : View D p m) : OptV D p (some m) := by
  refine ⟨?_, h⟩
  obtain ⟨b, o, kd, m', rfl, h⟩ := h
  rfl

theorem wr_twice {α : Type} {m m' : Mem α} {i : Nat} {b : α} (h : wr m i b = some m') (a : α) :
    ∃ m1, wr m i a = some m1 ∧ rd m1 i = some a ∧ wr m1 i b = some m' := by
  unfold wr at h
  split at h
  · rename_i hi
    refine ⟨m.set i (some a), by unfold wr; rw [if_pos hi], ?_, ?_⟩
    · unfold rd; rw [List.getElem?_set_self hi]; rfl
    · unfold wr; rw [if_pos (by rwa [List.length_set]), List.set_set]; exact h
  · cases h

theorem icol_4 {c r : Nat} (hc : c < 4) (hr : r < 4) :
    ((((c + 4294967296 - r) % 4294967296) + 4) % 4294967296) % 4 = emIcol 4 c r := by
  unfold emIcol; simp; omega

theorem icol_6 {c r : Nat} (hc : c < 6) (hr : r < 4) :
    ((((c + 4294967296 - r) % 4294967296) + 6) % 4294967296) % 6 = emIcol 6 c r := by
  unfold emIcol; simp; omega

theorem icol_8 {c r : Nat} (hc : c < 8) (hr : r < 4) :
    T D (if (8 = 8) ∧ (r ≥ 2) then
        (pure ((((((((c + 4294967296 - r) % 4294967296) + 8) % 4294967296) % 8) + 4294967296 - 1) % 4294967296 + 8) % 4294967296 % 8) : CM Nat)
      else pure (((((c + 4294967296 - r) % 4294967296) + 8) % 4294967296) % 8)) (fun x D' => x = emIcol 8 c r ∧ D' = D) := by
  by_cases h : r ≥ 2
  · rw [if_pos ⟨rfl, h⟩]
    refine t_pure ⟨?_, rfl⟩
    unfold emIcol; simp only [h, and_self, if_true]; omega
  · rw [if_neg (by simpa using h)]
    refine t_pure ⟨?_, rfl⟩
    unfold emIcol; simp only [h, and_false, if_false]; omega

theorem icol_8' {c r : Nat} (hc : c < 8) (hr : r < 4) :
    T D (if True ∧ (r ≥ 2) then
        (pure ((((((((c + 4294967296 - r) % 4294967296) + 8) % 4294967296) % 8) + 4294967296 - 1) % 4294967296 + 8) % 4294967296 % 8) : CM Nat)
      else pure (((((c + 4294967296 - r) % 4294967296) + 8) % 4294967296) % 8)) (fun x D' => x = emIcol 8 c r ∧ D' = D) := by
  by_cases h : r ≥ 2
  · rw [if_pos ⟨trivial, h⟩]
    refine t_pure ⟨?_, rfl⟩
    unfold emIcol; simp only [h, and_self, if_true]; omega
  · rw [if_neg (by simpa using h)]
    refine t_pure ⟨?_, rfl⟩
    unfold emIcol; simp only [h, and_false, if_false]; omega

theorem emIcol_lt {nwd c r : Nat} (h : 0 < nwd) : emIcol nwd c r < nwd := by
  unfold emIcol
  simp only
  split
  · exact Nat.mod_lt _ h
  · exact Nat.mod_lt _ h

theorem emConstraints1_sd {out x d : Mem Byte} {v : Mem (BF n)} {c c' : ZkCtx n}
    (h : emConstraints1 P out x v d c = some c') : c'.sd = c.sd := by
  unfold emConstraints1 at h
  inv h
  obtain ⟨_, -, _, -, _, -, _, -, _, -, h⟩ := h
  exact hashLoop1_sd h

/-- The loop which lays out the round keys. -/
theorem t_expand {sx N nwd size e : Nat} {rk x : Mem Byte} {pk : CPtr} {g : CPtr × Nat → CM δ} (hN : N < 32) (hW : nwd < 32)
    (hD : D = bl kd sx (malloc size : Mem Byte) + F) (hk : View F pk rk)
    (h : forN N ((malloc size : Mem Byte), 0) (fun r s =>
      forN nwd s (fun i (s : Mem Byte × Nat) => do
        let wd ← rdN rk (rkIdx r i 0) 4
        let x ← wrN s.1 s.2 wd
        pure (x, s.2 + 4))) = some (x, e))
    (k : ∀ s, T (bl kd sx x + F) (g s) Q) :
    T D (cwhile
      (fun _s1 => decide (_s1.2 ≠ N))
      (fun _s1 => do
        let e3 : CPtr × Nat ← cwhile
            (fun _s2 => decide (_s2.2 ≠ nwd))
            (fun _s2 => do
              memcpy (α := Byte) _s2.1 (padd pk (32 * _s1.2 + (4 * _s2.2))) 4
              pure (padd _s2.1 4, (_s2.2 + 1) % U32))
            (_s1.1, 0)
        pure (e3.1, (_s1.2 + 1) % U32))
      ((some ⟨sx, 0⟩ : CPtr), 0) >>= g) Q := by
  obtain ⟨f, f0, fN, hf⟩ := forN_seq h
  refine t_while N (fun r => ((some ⟨sx, (f r).2⟩ : CPtr), r)) (fun r => bl kd sx (f r).1 + F) (by omega) (by rw [f0])
    (by rw [f0, hD]) (fun i hi => by simp; omega) (by simp) (fun r hr => ?_) ?_
  · obtain ⟨u, u0, uN, hu⟩ := forN_seq (hf r hr)
    refine t_while nwd (fun i => ((some ⟨sx, (u i).2⟩ : CPtr), i)) (fun i => bl kd sx (u i).1 + F) (by omega) (by rw [u0])
      (by rw [u0]) (fun i hi => by simp; omega) (by simp) (fun i hi => ?_) ?_
    · have hb := hu i hi
      inv hb
      obtain ⟨wd, h1, x', h2, e⟩ := hb
      rw [← e]
      refine t_memcpy rfl (View.padd hk) (by decide) (rdN_at (o := 32 * r + 4 * i) ?_) h2 ?_
      · rw [← h1]; congr 1; unfold rkIdx; omega
      · exact t_pure ⟨by nowrap; rfl, rfl⟩
    rw [uN]
    exact t_pure ⟨by nowrap, rfl⟩
  · rw [fN]; exact k _

end

end Faest.C
