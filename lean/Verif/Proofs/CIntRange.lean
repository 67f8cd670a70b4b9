/-
Range analysis of C integer expressions, and its soundness.
-/
import Verif.Model.CInt

namespace Faest.CInt

/-- `chk` on a range. -/
def chkR (W : Nat) (t : CTy) (r : Int × Int) : Option (Int × Int) :=
  if t.fits W r.1 ∧ t.fits W r.2 then some r else none

/-- Ranges of the operations, for nonnegative operands except for addition and subtraction. -/
def opR : Op → Int × Int → Int × Int → Option (Int × Int)
  | .add, x, y => some (x.1 + y.1, x.2 + y.2)
  | .sub, x, y => some (x.1 - y.2, x.2 - y.1)
  | .mul, x, y => if 0 ≤ x.1 ∧ 0 ≤ y.1 then some (x.1 * y.1, x.2 * y.2) else none
  | .div, x, y => if 0 ≤ x.1 ∧ 0 < y.1 then some (x.1 / y.2, x.2 / y.1) else none
  | .mod, x, y => if 0 ≤ x.1 ∧ 0 < y.1 then some (0, min x.2 (y.2 - 1)) else none
  | .xor, x, y => if 0 ≤ x.1 ∧ 0 ≤ y.1 then some (0, 2 ^ ((max x.2 y.2).toNat.log2 + 1) - 1) else none
  | .max, x, y => some (max x.1 y.1, max x.2 y.2)

/-- Range of an expression over a box, if all results fit their types. -/
def CE.range (W : Nat) (P : Params) (b : Box) : CE → Option (Int × Int)
  | .lit n => chkR W .i32 (n, n)
  | .sizeof n => chkR W .size (n, n)
  | .par f => chkR W .u16 (f P, f P)
  | .mac f => chkR W .i32 (f P, f P)
  | .var k t => do chkR W t (← b[k]?)
  | .cast t e => do chkR W t (← e.range W P b)
  | .bin o x y => do
    let t := CTy.common x.ty.promote y.ty.promote
    let r ← chkR W t (← x.range W P b)
    let s ← chkR W t (← y.range W P b)
    chkR W t (← opR o r s)
  | .shl x y => do
    let t := x.ty.promote
    let r ← chkR W t (← x.range W P b)
    let s ← y.range W P b
    if 0 ≤ r.1 ∧ 0 ≤ s.1 ∧ s.2 < t.width W then chkR W t (r.1 * 2 ^ s.1.toNat, r.2 * 2 ^ s.2.toNat) else none
  | .shr x y => do
    let t := x.ty.promote
    let r ← chkR W t (← x.range W P b)
    let s ← y.range W P b
    if 0 ≤ r.1 ∧ 0 ≤ s.1 ∧ s.2 < t.width W then chkR W t (r.1 / 2 ^ s.2.toNat, r.2 / 2 ^ s.1.toNat) else none

theorem fits_between {W : Nat} {t : CTy} {a b x : Int} (ha : t.fits W a) (hb : t.fits W b) (h1 : a ≤ x) (h2 : x ≤ b) :
    t.fits W x := by
  cases t <;> unfold CTy.fits at * <;> dsimp only at * <;> omega

theorem chk_of_chkR {W : Nat} {t : CTy} {r r' : Int × Int} {x : Int} (h : chkR W t r = some r') (h1 : r.1 ≤ x)
    (h2 : x ≤ r.2) : chk W t x = some x ∧ r' = r := by
  unfold chkR at h
  split at h
  · next hf =>
    refine ⟨?_, (Option.some.inj h).symm⟩
    unfold chk
    rw [if_pos (fits_between hf.1 hf.2 h1 h2)]
  · exact absurd h (by simp)

theorem pow_mono {a b : Nat} (h : a ≤ b) : (2 : Int) ^ a ≤ 2 ^ b := by
  have := Nat.pow_le_pow_right (n := 2) (by decide) h
  exact_mod_cast this

theorem opR_sound {o : Op} {r s t : Int × Int} {x y : Int} (h : opR o r s = some t) (hx : r.1 ≤ x ∧ x ≤ r.2)
    (hy : s.1 ≤ y ∧ y ≤ s.2) : o.defined x y = true ∧ t.1 ≤ o.ideal x y ∧ o.ideal x y ≤ t.2 := by
  obtain ⟨a, b⟩ := r
  obtain ⟨c, d⟩ := s
  obtain ⟨hx1, hx2⟩ := hx
  obtain ⟨hy1, hy2⟩ := hy
  dsimp only at hx1 hx2 hy1 hy2
  cases o <;> unfold opR at h <;> dsimp only at h
  case add =>
    cases h
    exact ⟨rfl, Int.add_le_add hx1 hy1, Int.add_le_add hx2 hy2⟩
  case sub =>
    cases h
    exact ⟨rfl, Int.sub_le_sub hx1 hy2, Int.sub_le_sub hx2 hy1⟩
  case mul =>
    split at h
    · next hc =>
      cases h
      exact ⟨rfl, Int.mul_le_mul hx1 hy1 hc.2 (by omega), Int.mul_le_mul hx2 hy2 (by omega) (by omega)⟩
    · cases h
  case div =>
    split at h
    · next hc =>
      cases h
      have hy0 : 0 < y := by omega
      have e : x.tdiv y = x / y := Int.tdiv_eq_ediv_of_nonneg (by omega)
      refine ⟨?_, ?_, ?_⟩
      · show (y != 0) = true
        simp only [bne_iff_ne, ne_eq]; omega
      · show a / d ≤ x.tdiv y
        rw [e]
        refine Int.le_trans (b := a / y) ?_ (Int.ediv_le_ediv hy0 hx1)
        refine Int.le_ediv_of_mul_le hy0 ?_
        have h0 : 0 ≤ a / d := Int.ediv_nonneg hc.1 (by omega)
        exact Int.le_trans (Int.mul_le_mul_of_nonneg_left hy2 h0) (Int.ediv_mul_le a (by omega))
      · show x.tdiv y ≤ b / c
        rw [e]
        refine Int.le_trans (Int.ediv_le_ediv hy0 hx2) ?_
        refine Int.le_ediv_of_mul_le hc.2 ?_
        have h0 : 0 ≤ b / y := Int.ediv_nonneg (by omega) (by omega)
        exact Int.le_trans (Int.mul_le_mul_of_nonneg_left hy1 h0) (Int.ediv_mul_le b (by omega))
    · cases h
  case mod =>
    split at h
    · next hc =>
      cases h
      have hy0 : 0 < y := by omega
      have e : x.tmod y = x % y := Int.tmod_eq_emod_of_nonneg (by omega)
      refine ⟨?_, ?_, ?_⟩
      · show (y != 0) = true
        simp only [bne_iff_ne, ne_eq]; omega
      · show 0 ≤ x.tmod y
        rw [e]; exact Int.emod_nonneg _ (by omega)
      · show x.tmod y ≤ min b (d - 1)
        rw [e]
        refine Int.le_min.2 ⟨?_, ?_⟩
        · have h1 := Int.mul_ediv_add_emod x y
          have h2 : 0 ≤ y * (x / y) := Int.mul_nonneg (by omega) (Int.ediv_nonneg (by omega) (by omega))
          omega
        · have := Int.emod_lt_of_pos x hy0
          omega
    · cases h
  case xor =>
    split at h
    · next hc =>
      cases h
      have hb : ∀ n : Nat, (n : Int) ≤ max b d → n < 2 ^ ((max b d).toNat.log2 + 1) := by
        intro n hn
        have : n ≤ (max b d).toNat := by omega
        exact Nat.lt_of_le_of_lt this Nat.lt_log2_self
      refine ⟨?_, Int.natCast_nonneg _, ?_⟩
      · show (decide (0 ≤ x) && decide (0 ≤ y)) = true
        simp only [Bool.and_eq_true, decide_eq_true_eq]; omega
      · show ((x.toNat ^^^ y.toNat : Nat) : Int) ≤ _
        have := Nat.xor_lt_two_pow (hb x.toNat (by omega)) (hb y.toNat (by omega))
        have h2 : ((x.toNat ^^^ y.toNat : Nat) : Int) < ((2 ^ ((max b d).toNat.log2 + 1) : Nat) : Int) := by
          exact_mod_cast this
        push_cast at h2 ⊢
        omega
    · cases h
  case max =>
    cases h
    refine ⟨rfl, ?_, ?_⟩
    · show max a c ≤ if x > y then x else y
      split <;> omega
    · show (if x > y then x else y) ≤ max b d
      split <;> omega

/-- If the analysis succeeds on a box, then for all values in the box evaluation succeeds, and the value is the
mathematical value of the expression. -/
theorem range_sound {W : Nat} {P : Params} {b : Box} {env : Nat → Int} (hb : InBox b env) (e : CE) :
    ∀ {r : Int × Int}, e.range W P b = some r →
      e.eval W P env = some (e.ideal P env) ∧ r.1 ≤ e.ideal P env ∧ e.ideal P env ≤ r.2 := by
  induction e with
  | lit n =>
    intro r h
    obtain ⟨h1, rfl⟩ := chk_of_chkR h (Int.le_refl _) (Int.le_refl _)
    exact ⟨h1, Int.le_refl _, Int.le_refl _⟩
  | sizeof n =>
    intro r h
    obtain ⟨h1, rfl⟩ := chk_of_chkR h (Int.le_refl _) (Int.le_refl _)
    exact ⟨h1, Int.le_refl _, Int.le_refl _⟩
  | par f =>
    intro r h
    obtain ⟨h1, rfl⟩ := chk_of_chkR h (Int.le_refl _) (Int.le_refl _)
    exact ⟨h1, Int.le_refl _, Int.le_refl _⟩
  | mac f =>
    intro r h
    obtain ⟨h1, rfl⟩ := chk_of_chkR h (Int.le_refl _) (Int.le_refl _)
    exact ⟨h1, Int.le_refl _, Int.le_refl _⟩
  | var k t =>
    intro r h
    unfold CE.range at h
    obtain ⟨r0, h0, h⟩ := Option.bind_eq_some_iff.1 h
    have hk := hb k r0 h0
    obtain ⟨h1, rfl⟩ := chk_of_chkR h hk.1 hk.2
    exact ⟨h1, hk.1, hk.2⟩
  | cast t e ih =>
    intro r h
    unfold CE.range at h
    obtain ⟨r0, h0, h⟩ := Option.bind_eq_some_iff.1 h
    obtain ⟨e1, e2, e3⟩ := ih h0
    obtain ⟨h1, rfl⟩ := chk_of_chkR h e2 e3
    refine ⟨?_, e2, e3⟩
    unfold CE.eval
    rw [e1]
    exact h1
  | bin o x y ihx ihy =>
    intro r h
    unfold CE.range at h
    dsimp only at h
    obtain ⟨rx, h0, ha⟩ := Option.bind_eq_some_iff.1 h
    obtain ⟨rx', h1, hb⟩ := Option.bind_eq_some_iff.1 ha
    obtain ⟨ry, h2, hc⟩ := Option.bind_eq_some_iff.1 hb
    obtain ⟨ry', h3, hd⟩ := Option.bind_eq_some_iff.1 hc
    obtain ⟨ro, h4, he⟩ := Option.bind_eq_some_iff.1 hd
    clear h ha hb hc hd
    obtain ⟨x1, x2, x3⟩ := ihx h0
    obtain ⟨y1, y2, y3⟩ := ihy h2
    obtain ⟨cx, rfl⟩ := chk_of_chkR h1 x2 x3
    obtain ⟨cy, rfl⟩ := chk_of_chkR h3 y2 y3
    obtain ⟨o1, o2, o3⟩ := opR_sound h4 ⟨x2, x3⟩ ⟨y2, y3⟩
    obtain ⟨co, rfl⟩ := chk_of_chkR he o2 o3
    refine ⟨?_, o2, o3⟩
    unfold CE.eval CE.ideal
    dsimp only
    rw [x1, y1]
    show (do
      let x ← chk W _ (x.ideal P env)
      let y ← chk W _ (y.ideal P env)
      if o.defined x y then chk W _ (o.ideal x y) else none) = _
    rw [cx, cy]
    show (if o.defined _ _ then _ else none) = _
    rw [if_pos o1]
    exact co
  | shl x y ihx ihy =>
    intro r h
    unfold CE.range at h
    dsimp only at h
    obtain ⟨rx, h0, ha⟩ := Option.bind_eq_some_iff.1 h
    obtain ⟨rx', h1, hb⟩ := Option.bind_eq_some_iff.1 ha
    obtain ⟨ry, h2, hd⟩ := Option.bind_eq_some_iff.1 hb
    clear h ha hb
    obtain ⟨x1, x2, x3⟩ := ihx h0
    obtain ⟨y1, y2, y3⟩ := ihy h2
    obtain ⟨cx, rfl⟩ := chk_of_chkR h1 x2 x3
    split at hd
    · next hc =>
      have b1 : rx'.1 * 2 ^ ry.1.toNat ≤ x.ideal P env * 2 ^ (y.ideal P env).toNat :=
        Int.mul_le_mul x2 (pow_mono (by omega)) (Int.le_of_lt (Int.pow_pos (by decide))) (by omega)
      have b2 : x.ideal P env * 2 ^ (y.ideal P env).toNat ≤ rx'.2 * 2 ^ ry.2.toNat :=
        Int.mul_le_mul x3 (pow_mono (by omega)) (Int.le_of_lt (Int.pow_pos (by decide))) (by omega)
      obtain ⟨co, rfl⟩ := chk_of_chkR hd b1 b2
      refine ⟨?_, b1, b2⟩
      unfold CE.eval CE.ideal
      dsimp only
      rw [x1, y1]
      show (do
        let x ← chk W _ (x.ideal P env)
        if 0 ≤ x ∧ _ then _ else none) = _
      rw [cx]
      show (if 0 ≤ _ ∧ _ then _ else none) = _
      rw [if_pos (by omega)]
      exact co
    · cases hd
  | shr x y ihx ihy =>
    intro r h
    unfold CE.range at h
    dsimp only at h
    obtain ⟨rx, h0, ha⟩ := Option.bind_eq_some_iff.1 h
    obtain ⟨rx', h1, hb⟩ := Option.bind_eq_some_iff.1 ha
    obtain ⟨ry, h2, hd⟩ := Option.bind_eq_some_iff.1 hb
    clear h ha hb
    obtain ⟨x1, x2, x3⟩ := ihx h0
    obtain ⟨y1, y2, y3⟩ := ihy h2
    obtain ⟨cx, rfl⟩ := chk_of_chkR h1 x2 x3
    split at hd
    · next hc =>
      have p : ∀ n : Nat, (0 : Int) < 2 ^ n := fun n => Int.pow_pos (by decide)
      have b1 : rx'.1 / 2 ^ ry.2.toNat ≤ x.ideal P env / 2 ^ (y.ideal P env).toNat := by
        refine Int.le_trans (b := rx'.1 / 2 ^ (y.ideal P env).toNat) ?_ (Int.ediv_le_ediv (p _) x2)
        refine Int.le_ediv_of_mul_le (p _) ?_
        have h0 : 0 ≤ rx'.1 / 2 ^ ry.2.toNat := Int.ediv_nonneg hc.1 (Int.le_of_lt (p _))
        exact Int.le_trans (Int.mul_le_mul_of_nonneg_left (pow_mono (by omega)) h0)
          (Int.ediv_mul_le _ (Int.ne_of_gt (p _)))
      have b2 : x.ideal P env / 2 ^ (y.ideal P env).toNat ≤ rx'.2 / 2 ^ ry.1.toNat := by
        refine Int.le_trans (Int.ediv_le_ediv (p _) x3) ?_
        refine Int.le_ediv_of_mul_le (p _) ?_
        have h0 : 0 ≤ rx'.2 / 2 ^ (y.ideal P env).toNat := Int.ediv_nonneg (by omega) (Int.le_of_lt (p _))
        exact Int.le_trans (Int.mul_le_mul_of_nonneg_left (pow_mono (by omega)) h0)
          (Int.ediv_mul_le _ (Int.ne_of_gt (p _)))
      obtain ⟨co, rfl⟩ := chk_of_chkR hd b1 b2
      refine ⟨?_, b1, b2⟩
      unfold CE.eval CE.ideal
      dsimp only
      rw [x1, y1]
      show (do
        let x ← chk W _ (x.ideal P env)
        if 0 ≤ x ∧ _ then _ else none) = _
      rw [cx]
      show (if 0 ≤ _ ∧ _ then _ else none) = _
      rw [if_pos (by omega)]
      exact co
    · cases hd

/-! ### Evaluation never gives a wrong value -/

theorem chk_eq_some {W : Nat} {t : CTy} {x v : Int} (h : chk W t x = some v) : t.fits W x ∧ v = x := by
  unfold chk at h
  split at h
  · exact ⟨‹_›, (Option.some.inj h).symm⟩
  · cases h

theorem eval_cast_inv {W : Nat} {P : Params} {env : Nat → Int} {t : CTy} {e : CE} {v : Int}
    (h : (CE.cast t e).eval W P env = some v) : e.eval W P env = some v ∧ t.fits W v := by
  unfold CE.eval at h
  obtain ⟨x, h0, h⟩ := Option.bind_eq_some_iff.1 h
  obtain ⟨hf, rfl⟩ := chk_eq_some h
  exact ⟨h0, hf⟩

theorem eval_bin_inv {W : Nat} {P : Params} {env : Nat → Int} {o : Op} {a b : CE} {v : Int}
    (h : (CE.bin o a b).eval W P env = some v) : ∃ x y, a.eval W P env = some x ∧ b.eval W P env = some y ∧
      v = o.ideal x y ∧ (CTy.common a.ty.promote b.ty.promote).fits W v := by
  unfold CE.eval at h
  dsimp only at h
  obtain ⟨x, h0, ha⟩ := Option.bind_eq_some_iff.1 h
  obtain ⟨x', h1, hb⟩ := Option.bind_eq_some_iff.1 ha
  obtain ⟨y, h2, hc⟩ := Option.bind_eq_some_iff.1 hb
  obtain ⟨y', h3, hd⟩ := Option.bind_eq_some_iff.1 hc
  clear h ha hb hc
  obtain ⟨-, e1⟩ := chk_eq_some h1
  obtain ⟨-, e2⟩ := chk_eq_some h3
  subst e1 e2
  split at hd
  · obtain ⟨hf, e⟩ := chk_eq_some hd
    exact ⟨x', y', h0, h2, e, by rw [e]; exact hf⟩
  · cases hd

theorem eval_shl_inv {W : Nat} {P : Params} {env : Nat → Int} {a b : CE} {v : Int}
    (h : (CE.shl a b).eval W P env = some v) : ∃ x y, a.eval W P env = some x ∧ b.eval W P env = some y ∧
      v = x * 2 ^ y.toNat ∧ y < a.ty.promote.width W ∧ a.ty.promote.fits W v := by
  unfold CE.eval at h
  dsimp only at h
  obtain ⟨x, h0, ha⟩ := Option.bind_eq_some_iff.1 h
  obtain ⟨x', h1, hb⟩ := Option.bind_eq_some_iff.1 ha
  obtain ⟨y, h2, hd⟩ := Option.bind_eq_some_iff.1 hb
  clear h ha hb
  obtain ⟨-, e1⟩ := chk_eq_some h1
  subst e1
  split at hd
  · next hc =>
    obtain ⟨hf, e⟩ := chk_eq_some hd
    exact ⟨x', y, h0, h2, e, hc.2.2, by rw [e]; exact hf⟩
  · cases hd

theorem eval_shr_inv {W : Nat} {P : Params} {env : Nat → Int} {a b : CE} {v : Int}
    (h : (CE.shr a b).eval W P env = some v) : ∃ x y, a.eval W P env = some x ∧ b.eval W P env = some y ∧
      v = x / 2 ^ y.toNat ∧ y < a.ty.promote.width W := by
  unfold CE.eval at h
  dsimp only at h
  obtain ⟨x, h0, ha⟩ := Option.bind_eq_some_iff.1 h
  obtain ⟨x', h1, hb⟩ := Option.bind_eq_some_iff.1 ha
  obtain ⟨y, h2, hd⟩ := Option.bind_eq_some_iff.1 hb
  clear h ha hb
  obtain ⟨-, e1⟩ := chk_eq_some h1
  subst e1
  split at hd
  · next hc =>
    obtain ⟨hf, e⟩ := chk_eq_some hd
    exact ⟨x', y, h0, h2, e, hc.2.2⟩
  · cases hd

theorem eval_ideal {W : Nat} {P : Params} {env : Nat → Int} (e : CE) :
    ∀ {v : Int}, e.eval W P env = some v → v = e.ideal P env := by
  induction e with
  | lit n => intro v h; exact (chk_eq_some h).2
  | sizeof n => intro v h; exact (chk_eq_some h).2
  | par f => intro v h; exact (chk_eq_some h).2
  | mac f => intro v h; exact (chk_eq_some h).2
  | var k t => intro v h; exact (chk_eq_some h).2
  | cast t e ih => intro v h; exact ih (eval_cast_inv h).1
  | bin o a b iha ihb =>
    intro v h
    obtain ⟨x, y, h1, h2, rfl, -⟩ := eval_bin_inv h
    rw [iha h1, ihb h2]
    rfl
  | shl a b iha ihb =>
    intro v h
    obtain ⟨x, y, h1, h2, rfl, -⟩ := eval_shl_inv h
    rw [iha h1, ihb h2]
    rfl
  | shr a b iha ihb =>
    intro v h
    obtain ⟨x, y, h1, h2, rfl, -⟩ := eval_shr_inv h
    rw [iha h1, ihb h2]
    rfl

end Faest.CInt
