/-
`KeccakWidth1600_Sponge` is the sponge of FIPS 202.
-/
import Verif.Model.SpongeOnce
import Verif.Proofs.KeccakHash

namespace Faest.Keccak
open Spec.Keccak

theorem spongeOnceBlocks_ok {r : Nat} (hr0 : 0 < r) (hr200 : r < 200) (B : Nat → Byte) :
    ∀ fuel k left (st : Mem U64) (data : Mem Byte) cur, left < fuel → Has st 0 25 (packL (iterB k B)) → cur + left ≤ data.length →
      Ok (spongeOnceBlocks r fuel st data cur left >>= fun x => extractBytes x.1 0 x.2.1 x.2.2.1 0 (uint x.2.2.2))
        (Wrote data cur left (fun i => sqByte r B (r * k + i))) := by
  intro fuel
  induction fuel with
  | zero => intro _ _ _ _ _ h; omega
  | succ f ih =>
    intro k left st data cur hf h hl
    unfold spongeOnceBlocks
    have hread : ∀ n, n ≤ r → cur + n ≤ data.length →
        Ok (extractBytes st 0 data cur 0 n) (Wrote data cur n (fun i => sqByte r B (r * k + i))) := by
      intro n hn hn2
      refine (extractBytes_ok h (off := 0) (by omega) hn2).mono ?_
      intro d hd
      refine hd.congr ?_
      intro i hi
      rw [Nat.zero_add, sqByte_eq _ _ _ (by omega)]
    by_cases e : left > r
    · rw [if_pos e, bind_assoc]
      refine Ok.bind (hread r (by omega) (by omega)) ?_
      intro data1 h1
      have hl1 := h1.len
      rw [bind_assoc]
      refine Ok.bind (permute24_ok h) ?_
      intro st1 h2
      refine (ih (k + 1) (left - r) st1 data1 (cur + r) (by omega) h2.has (by omega)).mono ?_
      intro data2 h3
      have e2 : Wrote data1 (cur + r) (left - r) (fun i => sqByte r B (r * k + (r + i))) data2 := by
        refine h3.congr ?_
        intro i _
        congr 1
        ring
      have := h1.append e2
      rwa [show r + (left - r) = left by omega] at this
    · rw [if_neg e]
      show Ok (extractBytes st 0 data cur 0 (uint left)) _
      rw [uint_eq (by omega)]
      exact hread left (by omega) hl

theorem spongeOnce_ok {r : Nat} (hr0 : 0 < r) (hr200 : r < 200) {cap : Nat} (hc : 8 * r + cap = 1600) {s : List Bool}
    (hs : s.length ≤ 7) {input : Mem Byte} {M : List Byte} (hd : Data input M) {output : Mem Byte} {n : Nat} (hn : n ≤ output.length) :
    Ok (spongeOnce (8 * r) cap input M.length (suffixByte s) output n) (fun x => x.2 = 0 ∧
      Wrote output 0 n (sqByte r (finG r (absorbM r (fun _ => 0, 0) M) (suffixByte s))) x.1) := by
  unfold spongeOnce
  have hu : uint (8 * r + cap) = 1600 := by rw [hc]; rfl
  have hur : uint (r + 2 ^ 32 - 1) = r - 1 := by unfold uint; omega
  have hrr : 8 * r / 8 = r := by omega
  have hl := hd.len
  have hmod := Nat.mod_lt M.length hr0
  have hmle := Nat.mod_le M.length r
  dsimp only
  rw [hu, hrr, hur, if_neg (by simp), if_neg (by omega), if_neg (suffixByte_ne hs)]
  refine Ok.bind (initState_ok (base := 0) (by simp)) ?_
  intro st0 h0
  -- the part from the remaining bytes on
  have tail : ∀ (st : Mem U64) (B : Nat → Byte) (cur : Mem Byte), Has st 0 25 (packL B) →
      absorbM r (fun _ => 0, 0) (M.take (M.length - M.length % r)) = (B, 0) → cur = input.drop (M.length - M.length % r) →
      Ok (do
        let st ← addBytes st 0 cur 0 (uint (M.length % r))
        let st ← addByte st 0 (suffixByte s) (uint (M.length % r))
        let st ←
          if 0x80#8 ≤ suffixByte s ∧ uint (M.length % r) = r - 1 then permute24 st 0
          else pure st
        let st ← addByte st 0 0x80 (r - 1)
        let st ← permute24 st 0
        let (st, output, cur, left) ← spongeOnceBlocks r (n + 1) st output 0 n
        let output ← extractBytes st 0 output cur 0 (uint left)
        pure (output, 0)) (fun x => x.2 = 0 ∧
      Wrote output 0 n (sqByte r (finG r (absorbM r (fun _ => 0, 0) M) (suffixByte s))) x.1) := by
    intro st B cur hst hB hcur
    have hd' := hd.drop (i := M.length - M.length % r) (by omega)
    have hlen : (M.drop (M.length - M.length % r)).length = M.length % r := by rw [List.length_drop]; omega
    have hM : absorbM r (fun _ => 0, 0) M =
        (xorB B 0 (M.length % r) (fun i => (M.drop (M.length - M.length % r)).getD i 0), M.length % r) := by
      conv_lhs => rw [← List.take_append_drop (M.length - M.length % r) M, absorbM_append, hB]
      rw [absorbM_part _ (B, 0) (by rw [hlen]; simpa using hmod), hlen]
      simp
    rw [hM]
    subst hcur
    have hdh := hd'.has
    rw [hlen] at hdh
    rw [uint_eq (by omega)]
    refine Ok.bind (addBytes_ok hst (off := 0) hdh (by have := hd'.len; omega) (by omega)) ?_
    intro st1 h1
    refine Ok.bind (addByte_ok h1.has (by omega) (suffixByte s)) ?_
    intro st2 h2
    have fin : ∀ st3 : Mem U64, SOk st2 0 (if 0x80#8 ≤ suffixByte s ∧ M.length % r = r - 1 then
          keccakB (xorB (xorB B 0 (M.length % r) (fun i => (M.drop (M.length - M.length % r)).getD i 0)) (M.length % r) 1
            (fun _ => suffixByte s))
        else xorB (xorB B 0 (M.length % r) (fun i => (M.drop (M.length - M.length % r)).getD i 0)) (M.length % r) 1
            (fun _ => suffixByte s)) st3 →
        Ok (do
          let st ← addByte st3 0 0x80 (r - 1)
          let st ← permute24 st 0
          let (st, output, cur, left) ← spongeOnceBlocks r (n + 1) st output 0 n
          let output ← extractBytes st 0 output cur 0 (uint left)
          pure (output, 0)) (fun x => x.2 = 0 ∧
        Wrote output 0 n (sqByte r (finG r
          (xorB B 0 (M.length % r) (fun i => (M.drop (M.length - M.length % r)).getD i 0), M.length % r) (suffixByte s))) x.1) := by
      intro st3 h3
      refine Ok.bind (addByte_ok h3.has (by omega) 0x80) ?_
      intro st4 h4
      refine Ok.bind (permute24_ok h4.has) ?_
      intro st5 h5
      have := spongeOnceBlocks_ok hr0 hr200 (finG r
          (xorB B 0 (M.length % r) (fun i => (M.drop (M.length - M.length % r)).getD i 0), M.length % r) (suffixByte s))
          (n + 1) 0 n st5 output 0 (by omega) h5.has (by omega)
      obtain ⟨out, e, hW⟩ := this
      refine ⟨(out, 0), ?_, rfl, ?_⟩
      · have e' := congrArg (fun y => y >>= fun o => (pure (o, 0) : Option (Mem Byte × Nat))) e
        simp only [bind_assoc] at e'
        exact e'
      · refine hW.congr ?_
        intro i _
        simp
    by_cases hcnd : 0x80#8 ≤ suffixByte s ∧ M.length % r = r - 1
    · rw [if_pos hcnd] at fin ⊢
      exact Ok.bind (permute24_ok h2.has) fin
    · rw [if_neg hcnd] at fin ⊢
      exact Ok.bind (Ok.pure (SOk.refl h2.has)) fin
  by_cases e : r % 8 = 0 ∧ M.length ≥ r
  · rw [if_pos e]
    refine Ok.bind (fastLoopAbsorb_ok (r := r) (lc := r / 8) (by omega) hr0 h0.has hd) ?_
    rintro ⟨st1, i⟩ ⟨e1, B, h1, h2⟩
    dsimp only at e1 h1 ⊢
    subst e1
    refine Ok.step (ptr_eq (by omega)) ?_
    have hj : M.length - (M.length - M.length % r) = M.length % r := by omega
    rw [hj]
    have hb : absorbBlocks r (M.length + 1) st1 (input.drop (M.length - M.length % r)) (M.length % r) = some (st1, M.length % r) := by
      unfold absorbBlocks
      rw [if_neg (by omega)]
    refine Ok.step hb ?_
    refine Ok.step (ptr_eq (by omega)) ?_
    exact tail st1 B _ h1.has h2 (by simp)
  · rw [if_neg e]
    refine Ok.step (a := (st0, 0)) rfl ?_
    refine Ok.step (ptr_eq (by omega)) ?_
    rw [Nat.sub_zero]
    refine Ok.bind (absorbBlocks_ok hr0 (by omega) (M.length + 1) M st0 (input.drop 0) _ (by omega) h0.has (by simpa using hd)) ?_
    rintro ⟨st1, j⟩ ⟨e1, B, h1, h2⟩
    dsimp only at e1 h1 ⊢
    subst e1
    refine Ok.step (ptr_eq (by simp; omega)) ?_
    exact tail st1 B _ h1.has h2 (by simp)

end Faest.Keccak
