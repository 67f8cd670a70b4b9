/-
utils.h, translated.
-/
import Verif.Model.Gen.Utils
import Verif.Proofs.Gen.Base

namespace Faest.C

/-- `n` cells at `p` hold at least what is in `μ`, and can still be read while cells from `o` on of block `s` are
overwritten one after the other. -/
def Src {α : Type} [Ty α] (F : Blocks) (s : Nat) (m : Mem α) (o n : Nat) (p : CPtr) (μ : Mem α) : Prop :=
  View F p μ ∨ ∃ oa, p = some ⟨s, oa⟩ ∧ Le μ (m.drop oa) ∧ (o ≤ oa ∨ oa + n ≤ o)

theorem Src.view {α : Type} [Ty α] {F : Blocks} {kd : Kind} {s o n i : Nat} {m μ : Mem α} {p : CPtr} {l : List α} {x : α}
    (h : Src F s m o n p μ) (hl : l.length = n) (hm : o + l.length ≤ m.length) (hi : i < n) (hr : rd μ i = some x) :
    ∃ μ', View (bl kd s (W m o (l.take i)) + F) p μ' ∧ rd μ' i = some x := by
  rcases h with h | ⟨oa, rfl, hle, hd⟩
  · exact ⟨μ, h.there, hr⟩
  · refine ⟨_, View.here, ?_⟩
    have := hle.dat i x hr
    rw [rd_drop] at this ⊢
    rw [rd_W (by simp; omega), if_neg (by simp; omega), this]

theorem xor_run {F : Blocks} {kd : Kind} {s o n : Nat} {m m' α β : Mem Byte} {a b : CPtr} {l : List Byte}
    (ha : Src F s m o n a α) (hb : Src F s m o n b β) (h : xorArr α β n = some l) (hw : wrN m o l = some m')
    (hn : n < 18446744073709551616) :
    Runs (bl kd s m + F) (Gen.xor_u8_array a b (some ⟨s, o⟩) n) () (bl kd s m' + F) := by
  obtain ⟨hl, hx⟩ := tabM_some h
  obtain ⟨hm, rfl⟩ := wrN_eq_W hw
  unfold Gen.xor_u8_array
  refine t_while n (fun i => i) (fun i => bl kd s (W m o (l.take i)) + F) hn rfl (by rw [W_take_zero])
    (fun i hi => by simpa using hi) (by simp) (fun i hi => ?_) ?_
  · have hx := hx i hi
    rw [List.getElem?_eq_getElem (by omega)] at hx
    simp only [Option.bind_eq_bind, Option.bind_eq_some_iff, Option.pure_def, Option.some.injEq] at hx
    obtain ⟨x, hx, y, hy, hxy⟩ := hx
    obtain ⟨μ, hv, hr⟩ := ha.view (kd := kd) hl hm hi hx
    obtain ⟨ν, hv', hr'⟩ := hb.view (kd := kd) hl hm hi hy
    refine t_ld hv hr (t_ld hv' hr' ?_)
    refine t_st rfl (wr_W hm ?_) (t_pure ⟨?_, rfl⟩)
    · rw [List.getElem?_eq_getElem (by omega), ← hxy]
      bsimp
    · omega
  · rw [W_take_full _ _ _ (by omega)]
    exact t_pure ⟨rfl, rfl⟩

theorem mask_eq (x : Byte) : BitVec.ofNat 8 ((4294967296 - (x.toNat &&& 1)) % 4294967296) = 0 - (x &&& 1) := by
  revert x; decide

theorem masked_xor_run {F : Blocks} {kd : Kind} {s o n : Nat} {m m' α β : Mem Byte} {a b : CPtr} {c : Byte}
    {l : List Byte} (ha : Src F s m o n a α) (hb : Src F s m o n b β) (h : maskedXorArr α β c n = some l)
    (hw : wrN m o l = some m') (hn : n < 18446744073709551616) :
    Runs (bl kd s m + F) (Gen.masked_xor_u8_array a b (some ⟨s, o⟩) c n) () (bl kd s m' + F) := by
  obtain ⟨hl, hx⟩ := tabM_some h
  obtain ⟨hm, rfl⟩ := wrN_eq_W hw
  unfold Gen.masked_xor_u8_array
  refine t_while n (fun i => i) (fun i => bl kd s (W m o (l.take i)) + F) hn rfl (by rw [W_take_zero])
    (fun i hi => by simpa using hi) (by simp) (fun i hi => ?_) ?_
  · have hx := hx i hi
    rw [List.getElem?_eq_getElem (by omega)] at hx
    simp only [Option.bind_eq_bind, Option.bind_eq_some_iff, Option.pure_def, Option.some.injEq] at hx
    obtain ⟨x, hx, y, hy, hxy⟩ := hx
    obtain ⟨μ, hv, hr⟩ := ha.view (kd := kd) hl hm hi hx
    obtain ⟨ν, hv', hr'⟩ := hb.view (kd := kd) hl hm hi hy
    refine t_ld hv hr (t_ld hv' hr' ?_)
    refine t_st rfl (wr_W hm ?_) (t_pure ⟨?_, rfl⟩)
    · rw [List.getElem?_eq_getElem (by omega), ← hxy]
      bsimp
      rw [mask_eq]
    · omega
  · rw [W_take_full _ _ _ (by omega)]
    exact t_pure ⟨rfl, rfl⟩

end Faest.C
