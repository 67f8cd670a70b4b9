/-
The translated permutation and state functions (Model/Gen/KeccakP.lean) on the 200 bytes of a state.
-/
import Verif.Model.Gen.KeccakP
import Verif.Proofs.Gen.Up
import Verif.Proofs.KeccakSponge

namespace Faest.GenH
open Faest.C Faest.Keccak

/-! ### The rounds -/

theorem prepareTheta_eq (A : Lanes) : prepareTheta A = pure (Keccak.prepareTheta A) := rfl

theorem constants_eq : KeccakF1600RoundConstants = Keccak.roundConstants.toList := rfl

theorem tget64_rc {i : Nat} (hi : i < 24) :
    tget64 KeccakF1600RoundConstants i = pure (Keccak.roundConstants[(⟨i, hi⟩ : Fin 24)]) := by
  unfold tget64
  have : KeccakF1600RoundConstants[i]? = some (Keccak.roundConstants[(⟨i, hi⟩ : Fin 24)]) := by
    rw [constants_eq]
    simp
  rw [this]; rfl

theorem round_eq {i : Nat} (hi : i < 24) (A : Lanes) (C : Par) :
    thetaRhoPiChiIotaPrepareTheta i A C = pure (Keccak.thetaRhoPiChiIotaPrepareTheta ⟨i, hi⟩ A C) := by
  unfold thetaRhoPiChiIotaPrepareTheta
  rw [tget64_rc hi]
  rfl

theorem last_eq {i : Nat} (hi : i < 24) (A : Lanes) (C : Par) :
    thetaRhoPiChiIota i A C = pure (Keccak.thetaRhoPiChiIota ⟨i, hi⟩ A C) := by
  unfold thetaRhoPiChiIota
  rw [tget64_rc hi]
  rfl

theorem step_pure {α β : Type} {x : CM α} {a : α} {g : α → CM β} {r : CM β} (h : x = pure a) (k : g a = r) :
    x >>= g = r := by rw [h, pure_bind, k]

theorem round_eq' (i : Fin 24) (A : Lanes) (C : Par) :
    thetaRhoPiChiIotaPrepareTheta i.val A C = pure (Keccak.thetaRhoPiChiIotaPrepareTheta i A C) := round_eq i.isLt A C

theorem rounds24_pure (A : Lanes) : rounds24 A = pure (Keccak.rounds24 A) := by
  unfold rounds24 Keccak.rounds24
  refine step_pure (prepareTheta_eq A) ?_
  generalize Keccak.prepareTheta A = C
  dsimp (config := { etaStruct := .none }) only
  have hr := round_eq'
  revert hr
  generalize Keccak.thetaRhoPiChiIotaPrepareTheta = f
  generalize thetaRhoPiChiIotaPrepareTheta = g
  intro hr
  refine step_pure (hr 0 A C) ?_
  generalize f 0 A C = x
  obtain ⟨A, C⟩ := x
  dsimp (config := { etaStruct := .none }) only
  refine step_pure (hr 1 A C) ?_
  generalize f 1 A C = x
  obtain ⟨A, C⟩ := x
  dsimp (config := { etaStruct := .none }) only
  refine step_pure (hr 2 A C) ?_
  generalize f 2 A C = x
  obtain ⟨A, C⟩ := x
  dsimp (config := { etaStruct := .none }) only
  refine step_pure (hr 3 A C) ?_
  generalize f 3 A C = x
  obtain ⟨A, C⟩ := x
  dsimp (config := { etaStruct := .none }) only
  refine step_pure (hr 4 A C) ?_
  generalize f 4 A C = x
  obtain ⟨A, C⟩ := x
  dsimp (config := { etaStruct := .none }) only
  refine step_pure (hr 5 A C) ?_
  generalize f 5 A C = x
  obtain ⟨A, C⟩ := x
  dsimp (config := { etaStruct := .none }) only
  refine step_pure (hr 6 A C) ?_
  generalize f 6 A C = x
  obtain ⟨A, C⟩ := x
  dsimp (config := { etaStruct := .none }) only
  refine step_pure (hr 7 A C) ?_
  generalize f 7 A C = x
  obtain ⟨A, C⟩ := x
  dsimp (config := { etaStruct := .none }) only
  refine step_pure (hr 8 A C) ?_
  generalize f 8 A C = x
  obtain ⟨A, C⟩ := x
  dsimp (config := { etaStruct := .none }) only
  refine step_pure (hr 9 A C) ?_
  generalize f 9 A C = x
  obtain ⟨A, C⟩ := x
  dsimp (config := { etaStruct := .none }) only
  refine step_pure (hr 10 A C) ?_
  generalize f 10 A C = x
  obtain ⟨A, C⟩ := x
  dsimp (config := { etaStruct := .none }) only
  refine step_pure (hr 11 A C) ?_
  generalize f 11 A C = x
  obtain ⟨A, C⟩ := x
  dsimp (config := { etaStruct := .none }) only
  refine step_pure (hr 12 A C) ?_
  generalize f 12 A C = x
  obtain ⟨A, C⟩ := x
  dsimp (config := { etaStruct := .none }) only
  refine step_pure (hr 13 A C) ?_
  generalize f 13 A C = x
  obtain ⟨A, C⟩ := x
  dsimp (config := { etaStruct := .none }) only
  refine step_pure (hr 14 A C) ?_
  generalize f 14 A C = x
  obtain ⟨A, C⟩ := x
  dsimp (config := { etaStruct := .none }) only
  refine step_pure (hr 15 A C) ?_
  generalize f 15 A C = x
  obtain ⟨A, C⟩ := x
  dsimp (config := { etaStruct := .none }) only
  refine step_pure (hr 16 A C) ?_
  generalize f 16 A C = x
  obtain ⟨A, C⟩ := x
  dsimp (config := { etaStruct := .none }) only
  refine step_pure (hr 17 A C) ?_
  generalize f 17 A C = x
  obtain ⟨A, C⟩ := x
  dsimp (config := { etaStruct := .none }) only
  refine step_pure (hr 18 A C) ?_
  generalize f 18 A C = x
  obtain ⟨A, C⟩ := x
  dsimp (config := { etaStruct := .none }) only
  refine step_pure (hr 19 A C) ?_
  generalize f 19 A C = x
  obtain ⟨A, C⟩ := x
  dsimp (config := { etaStruct := .none }) only
  refine step_pure (hr 20 A C) ?_
  generalize f 20 A C = x
  obtain ⟨A, C⟩ := x
  dsimp (config := { etaStruct := .none }) only
  refine step_pure (hr 21 A C) ?_
  generalize f 21 A C = x
  obtain ⟨A, C⟩ := x
  dsimp (config := { etaStruct := .none }) only
  refine step_pure (hr 22 A C) ?_
  generalize f 22 A C = x
  obtain ⟨A, C⟩ := x
  dsimp (config := { etaStruct := .none }) only
  exact step_pure (last_eq (i := 23) (by decide) _ _) rfl

/-! ### Words in memory -/

section
variable {δ : Type} {D F : Blocks} {Q : δ → Blocks → Prop}

/-- The word with the bytes `G o … G (o + 7)`. -/
def pk (G : Nat → Byte) (o : Nat) : BitVec 64 := leWord (tabP 8 fun j => G (o + j))

theorem pk_packL (G : Nat → Byte) (k : Nat) : pk G (8 * k) = packL G k := rfl

theorem wordBytes_pk (G : Nat → Byte) (o : Nat) : wordBytes (pk G o) = tabP 8 fun j => G (o + j) := by
  unfold wordBytes pk
  refine tabP_congr fun j hj => ?_
  rw [laneByte_leWord _ _ hj, List.getD_eq_getElem?_getD, tabP_getElem?, if_pos hj]
  rfl

theorem wordBytes_length (x : BitVec 64) : (wordBytes x).length = 8 := tabP_length _ _

theorem t_ld64 {p : CPtr} {o N : Nat} {μ : Mem Byte} {G : Nat → Byte} {g : BitVec 64 → CM δ} (hv : View D p μ)
    (hm : Has μ 0 N G) (ho : o + 8 ≤ N) (k : T D (g (pk G o)) Q) : T D (ld64 p o >>= g) Q := by
  unfold ld64
  refine t_assoc (t_ldN (l := tabP 8 fun j => G (o + j)) hv.padd (by decide) ?_ (t_pbind k))
  have h : Has μ o 8 fun j => G (o + j) := fun i hi => by rw [← hm (o + i) (by omega), Nat.zero_add]
  have h2 := rdN_has h (by decide)
  exact rdN_at h2

/-- A read from a window of a block. -/
theorem t_ld64w {kd : Kind} {b w o N : Nat} {m : Mem Byte} {G : Nat → Byte} {g : BitVec 64 → CM δ}
    (hD : D = bl kd b m + F) (hm : Has m w N G) (ho : o + 8 ≤ N) (k : T D (g (pk G o)) Q) :
    T D (ld64 (some ⟨b, w⟩) o >>= g) Q := by
  subst hD
  refine t_ld64 (μ := m.drop w) View.here (fun i hi => ?_) ho k
  rw [rd_drop, Nat.zero_add]
  exact hm i hi

theorem t_st64 {kd : Kind} {b w o : Nat} {m : Mem Byte} {x : BitVec 64} {g : Unit → CM δ}
    (hD : D = bl kd b m + F) (hl : w + o + 8 ≤ m.length)
    (k : T (bl kd b (W m (w + o) (wordBytes x)) + F) (g ()) Q) : T D (st64 (some ⟨b, w⟩) o x >>= g) Q := by
  unfold st64
  exact t_stN hD (wrN_W (by rw [wordBytes_length]; omega)) k

/-- The next word of a window. -/
theorem t_st64n {kd : Kind} {b w n : Nat} {m : Mem Byte} {G : Nat → Byte} {x : BitVec 64} {g : Unit → CM δ}
    (hD : D = bl kd b (W m w (tabP n G)) + F) (hl : w + (n + 8) ≤ m.length) (hx : x = pk G n)
    (k : T (bl kd b (W m w (tabP (n + 8) G)) + F) (g ()) Q) : T D (st64 (some ⟨b, w⟩) n x >>= g) Q := by
  unfold st64
  refine t_stN hD ?_ k
  have := wrN_W_append (m := m) (o := w) (xs := tabP n G) (ys := wordBytes x) (by
    rw [wordBytes_length, tabP_length]; omega)
  rw [tabP_length] at this
  rw [this, tabP_add, hx, wordBytes_pk]

end

/-! ### Windows -/

/-- The memory `m` with the state at `w` replaced by the bytes `B`. -/
def St (m : Mem Byte) (w : Nat) (B : Nat → Byte) : Mem Byte := W m w (tabP 200 B)

theorem st_len {m : Mem Byte} {w : Nat} (h : w + 200 ≤ m.length) (B : Nat → Byte) : (St m w B).length = m.length :=
  length_W (by rw [tabP_length]; exact h)

theorem st_has {m : Mem Byte} {w : Nat} (h : w + 200 ≤ m.length) (B : Nat → Byte) : Has (St m w B) w 200 B := by
  intro i hi
  unfold St
  rw [rd_W (by rw [tabP_length]; exact h), if_pos (by rw [tabP_length]; omega), tabP_getElem?, if_pos (by omega),
    show w + i - w = i by omega]

theorem st_st {m : Mem Byte} {w : Nat} (h : w + 200 ≤ m.length) (B B' : Nat → Byte) : St (St m w B) w B' = St m w B' :=
  W_W (by rw [tabP_length]; exact h) (by rw [tabP_length, tabP_length])

theorem cell_eq {m : Mem Byte} {i : Nat} {x : Byte} (h : rd m i = some x) : m[i]? = some (some x) := by
  unfold rd at h
  cases e : m[i]? with
  | none => rw [e] at h; cases h
  | some y => rw [e] at h; exact congrArg some h

theorem st_congr {m : Mem Byte} {w : Nat} {B B' : Nat → Byte} (h : ∀ t, t < 200 → B t = B' t) : St m w B = St m w B' := by
  unfold St; rw [tabP_congr h]

/-- Writing one lane. -/
theorem st_lane {m : Mem Byte} {w k : Nat} {B B' : Nat → Byte} (h : w + 200 ≤ m.length) (hk : k < 25) {x : BitVec 64}
    (hx : ∀ j, j < 8 → laneByte x j = B' (8 * k + j)) (ho : ∀ t, t < 200 → t / 8 ≠ k → B' t = B t) :
    W (St m w B) (w + 8 * k) (wordBytes x) = St m w B' := by
  have hl := st_len h B
  have h1 : w + 8 * k + (wordBytes x).length ≤ (St m w B).length := by rw [wordBytes_length, hl]; omega
  refine mem_ext (by rw [length_W h1, hl, st_len h]) fun i hi => ?_
  have hx8 : (wordBytes x).length = 8 := wordBytes_length x
  have h2 : w + (tabP 200 B).length ≤ m.length := by rw [tabP_length]; exact h
  have h3 : w + (tabP 200 B').length ≤ m.length := by rw [tabP_length]; exact h
  rw [getElem?_W h1]
  unfold St
  rw [getElem?_W h2, getElem?_W h3, tabP_length, tabP_length, hx8]
  by_cases c1 : w ≤ i ∧ i < w + 200
  · rw [if_pos c1, if_pos c1]
    by_cases c2 : w + 8 * k ≤ i ∧ i < w + 8 * k + 8
    · rw [if_pos c2, tabP_getElem?, if_pos (by omega)]
      unfold wordBytes
      rw [tabP_getElem?, if_pos (by omega), hx _ (by omega), show 8 * k + (i - (w + 8 * k)) = i - w by omega]
    · rw [if_neg c2, tabP_getElem?, tabP_getElem?, if_pos (by omega), if_pos (by omega), ho _ (by omega) (by omega)]
  · rw [if_neg c1, if_neg c1, if_neg (by omega)]

theorem st_self {m : Mem Byte} {w : Nat} {B : Nat → Byte} (h : Has m w 200 B) : St m w B = m := by
  have hl := h.le (by decide)
  refine mem_ext (st_len hl B) fun i _ => ?_
  unfold St
  rw [getElem?_W (by rw [tabP_length]; exact hl), tabP_length]
  split
  · rw [tabP_getElem?, if_pos (by omega)]
    have := cell_eq (h (i - w) (by omega))
    rw [show w + (i - w) = i by omega] at this
    rw [this]; rfl
  · rfl

/-! ### The state functions -/

section
variable {kd : Kind} {b w : Nat} {m : Mem Byte} {B : Nat → Byte} {F : Blocks}

theorem copyFrom_runs (hl : w + 200 ≤ m.length) :
    Runs (bl kd b (St m w B) + F) (copyFromState (some ⟨b, w⟩)) (lanesOf (packL B)) (bl kd b (St m w B) + F) := by
  have hm := st_has hl B
  unfold copyFromState
  iterate 25 refine t_ld64w rfl hm (by decide) ?_
  exact t_pure ⟨rfl, rfl⟩

theorem copyTo_runs (hl : w + 200 ≤ m.length) :
    Runs (bl kd b m + F) (copyToState (some ⟨b, w⟩) (lanesOf (packL B))) () (bl kd b (St m w B) + F) := by
  unfold copyToState
  refine t_perm (D' := bl kd b (W m w (tabP 0 B)) + F) (by rw [show tabP 0 B = [] from rfl, W_nil]) ?_
  iterate 25 refine t_st64n rfl (by omega) rfl ?_
  exact t_pure ⟨rfl, rfl⟩

theorem permute_runs (hl : w + 200 ≤ m.length) :
    Runs (bl kd b (St m w B) + F) (KeccakP1600_Permute_24rounds (some ⟨b, w⟩)) () (bl kd b (St m w (keccakB B)) + F) := by
  unfold KeccakP1600_Permute_24rounds
  refine t_run rfl (copyFrom_runs hl) ?_
  dsimp only
  rw [rounds24_pure, rounds24_eq]
  refine t_pbind ?_
  refine t_run rfl (copyTo_runs (by rw [st_len hl]; exact hl)) ?_
  rw [st_st hl]
  exact t_pure ⟨rfl, rfl⟩

theorem init_runs (hl : w + 200 ≤ m.length) :
    Runs (bl kd b m + F) (KeccakP1600_Initialize (some ⟨b, w⟩)) () (bl kd b (St m w fun _ => 0) + F) := by
  unfold KeccakP1600_Initialize
  refine t_memset0 rfl (m' := St m w fun _ => 0) ?_ (t_pure ⟨rfl, rfl⟩)
  rw [wrN_W (by rw [List.length_replicate]; exact hl)]
  have e : List.replicate 200 (0 : Byte) = tabP 200 fun _ => 0 := by
    refine List.ext_getElem? fun i => ?_
    rw [List.getElem?_replicate, tabP_getElem?]
  unfold St
  rw [← e]

/-- Adding one lane. -/
theorem t_xor {δ : Type} {Q : δ → Blocks → Prop} {g : Unit → CM δ} {D : Blocks} {x : BitVec 64} {k off n : Nat}
    {d : Nat → Byte} (hl : w + 200 ≤ m.length) (hk : k < 25) (hn : off + n ≤ 8)
    (hx : ∀ j, j < 8 → laneByte x j = if off ≤ j ∧ j < off + n then d (j - off) else 0)
    (hD : D = bl kd b (St m w B) + F)
    (h : T (bl kd b (St m w (xorB B (8 * k + off) n d)) + F) (g ()) Q) :
    T D (st64 (some ⟨b, w⟩) (8 * k) (pk B (8 * k) ^^^ x) >>= g) Q := by
  refine t_st64 hD (by rw [st_len hl]; omega) ?_
  rw [st_lane hl hk (B' := xorB B (8 * k + off) n d)]
  · exact h
  · intro j hj
    rw [laneByte_xor, hx j hj, pk_packL, laneByte_packL _ _ _ hj]
    unfold xorB
    by_cases e : off ≤ j ∧ j < off + n
    · rw [if_pos e, if_pos (by omega), show 8 * k + j - (8 * k + off) = j - off by omega]
    · rw [if_neg e, if_neg (by omega)]
      simp
  · intro t _ hne
    unfold xorB
    rw [if_neg (by omega)]

theorem addLane_runs {data : CPtr} {μ : Mem Byte} {d : Nat → Byte} {N lp off n : Nat} (hl : w + 200 ≤ m.length)
    (hv : View F data μ) (hd : Has μ 0 N d) (hN : n ≤ N) (hlp : n = 0 ∨ lp < 25) (ho : off < 8) (hn : off + n ≤ 8) :
    Runs (bl kd b (St m w B) + F) (KeccakP1600_AddBytesInLane (some ⟨b, w⟩) lp data off n) ()
      (bl kd b (St m w (xorB B (8 * lp + off) n d)) + F) := by
  unfold KeccakP1600_AddBytesInLane
  refine t_alloc fun i => ?_
  by_cases h0 : n = 0
  · subst h0
    rw [if_pos rfl]
    refine t_free (by hfind) ?_
    rw [xorB_zero]
    exact t_pure ⟨rfl, rfl⟩
  rw [if_neg h0]
  -- the word in the variable `lane`
  have key : ∀ G : Nat → Byte, (∀ j, j < 8 → G j = if j < n then d j else 0) →
      T (bl .stack i (ofList (tabP 8 G)) + (bl kd b (St m w B) + F)) (do
        let e3 : BitVec 64 ← ld64 (some ⟨i, 0⟩) 0
        let e4 ← w64shl e3 ((off * 8) % 4294967296)
        st64 (some ⟨i, 0⟩) 0 e4
        let e5 : BitVec 64 ← ld64 (some ⟨b, w⟩) (8 * lp)
        let e6 : BitVec 64 ← ld64 (some ⟨i, 0⟩) 0
        st64 (some ⟨b, w⟩) (8 * lp) (e5 ^^^ e6)
        cfree .stack (some ⟨i, 0⟩)
        pure ()) (fun b' D' => b' = () ∧ D' = bl kd b (St m w (xorB B (8 * lp + off) n d)) + F) := by
    intro G hG
    have hh : Has (ofList (tabP 8 G)) 0 8 G := by
      intro j hj
      rw [rd_ofList, Nat.zero_add, tabP_getElem?, if_pos hj]
    refine t_ld64w (by hfind) hh (by decide) ?_
    rw [Nat.mod_eq_of_lt (by omega : off * 8 < 4294967296)]
    refine t_lft (if_pos (by omega)) ?_
    refine t_st64 rfl (by simp [ofList]) ?_
    generalize hx : pk G 0 <<< (off * 8) = x
    have hW : W (ofList (tabP 8 G)) (0 + 0) (wordBytes x) = ofList (wordBytes x) := by
      have e1 : (wordBytes x).length = 8 := wordBytes_length x
      have e2 : (ofList (tabP 8 G)).length = 8 := by simp [ofList]
      unfold W
      rw [e1, List.drop_eq_nil_of_le (by omega), List.take_zero]
      simp [ofList]
    rw [hW]
    refine t_ld64w (F := bl .stack i (ofList (wordBytes x)) + F) (add_left_comm _ _ _) (st_has hl B) (by omega) ?_
    have hh2 : Has (ofList (wordBytes x)) 0 8 (laneByte x) := by
      intro j hj
      unfold wordBytes
      rw [rd_ofList, Nat.zero_add, tabP_getElem?, if_pos hj]
    refine t_ld64w rfl hh2 (by decide) ?_
    have hx2 : pk (laneByte x) 0 = x := by
      apply u64_ext
      intro j hj
      unfold pk
      rw [laneByte_leWord _ _ hj, List.getD_eq_getElem?_getD, tabP_getElem?, if_pos hj, Nat.zero_add]
      rfl
    rw [hx2]
    refine t_xor (k := lp) (off := off) (n := n) (d := d) hl (by omega) hn ?_ (add_left_comm _ _ _) ?_
    · intro j hj
      rw [← hx, Nat.mul_comm off 8, laneByte_shl _ _ _ hj]
      by_cases e : off ≤ j
      · rw [if_pos e, show pk G 0 = packL G 0 from rfl, laneByte_packL _ _ _ (by omega), hG _ (by omega), Nat.mul_zero,
          Nat.zero_add]
        by_cases e2 : j - off < n
        · rw [if_pos e2, if_pos (by omega)]
        · rw [if_neg e2, if_neg (by omega)]
      · rw [if_neg e, if_neg (by omega)]
    · refine t_free (by hfind) ?_
      exact t_pure ⟨rfl, rfl⟩
  by_cases h1 : n = 1
  · subst h1
    refine t_ite_pos rfl ?_
    refine t_assoc (t_ld (hv.there.there) (hd.rd0 (k := 0) (by omega)) ?_)
    refine t_assoc (t_st64 rfl (by simp [malloc]) ?_)
    refine t_pbind ?_
    have hW : W (malloc 8 : Mem Byte) (0 + 0) (wordBytes ((d 0).setWidth 64))
        = ofList (tabP 8 (laneByte ((d 0).setWidth 64))) := rfl
    rw [hW]
    refine key _ fun j hj => ?_
    have := laneByte_zeroExtend (d 0) j
    rw [show (d 0).zeroExtend 64 = (d 0).setWidth 64 from rfl] at this
    rw [this]
    by_cases e : j = 0
    · subst e; rfl
    · rw [if_neg e, if_neg (by omega)]
  · refine t_ite_neg h1 ?_
    refine t_assoc (t_st64 rfl (by simp [malloc]) ?_)
    have hW : W (malloc 8 : Mem Byte) (0 + 0) (wordBytes 0) = ofList (tabP 8 (laneByte 0)) := rfl
    rw [hW]
    refine t_assoc (t_memcpy (l := tabP n d) rfl hv.there (by omega) (rdN_has (hd.mono hN) (by omega))
      (wrN_W (by simp [ofList]; omega)) ?_)
    refine t_pbind ?_
    have hW : W (ofList (tabP 8 (laneByte 0))) 0 (tabP n d) = ofList (tabP 8 fun j => if j < n then d j else 0) := by
      have h8 : 0 + (tabP n d).length ≤ (ofList (tabP 8 (laneByte 0))).length := by simp [ofList]; omega
      refine mem_ext (by rw [length_W h8]; simp [ofList]) fun j _ => ?_
      rw [getElem?_W h8, tabP_length]
      unfold ofList
      rw [List.getElem?_map, List.getElem?_map, tabP_getElem?, tabP_getElem?, tabP_getElem?, Nat.sub_zero]
      by_cases e : j < n
      · rw [if_pos (by omega), if_pos e, if_pos (by omega), if_pos e]
      · rw [if_neg (by omega)]
        split
        · have : laneByte 0 j = 0 := by
            unfold laneByte
            simp
          rw [this]
        · rfl
    rw [hW]
    exact key _ fun j hj => rfl

/-- One lane of `AddLanes`. -/
theorem t_addLane {δ : Type} {Q : δ → Blocks → Prop} {g : Unit → CM δ} {data : CPtr} {μ : Mem Byte} {d : Nat → Byte}
    {N i x y : Nat} (hl : w + 200 ≤ m.length) (hv : View F data μ) (hd : Has μ 0 N d) (hN : 8 * i + 8 ≤ N)
    (hi : i < 25) (hx : x = 8 * i) (hy : y = i + 1)
    (h : T (bl kd b (St m w (xorB B 0 (8 * y) d)) + F) (g ()) Q) :
    T (bl kd b (St m w (xorB B 0 (8 * i) d)) + F) (ld64 (some ⟨b, w⟩) x >>= fun e2 => ld64 data x >>= fun e3 =>
      st64 (some ⟨b, w⟩) x (e2 ^^^ e3) >>= g) Q := by
  subst hx hy
  refine t_ld64w rfl (st_has hl _) (by omega) ?_
  refine t_ld64 hv.there hd (by omega) ?_
  refine t_xor (k := i) (off := 0) (n := 8) (d := fun j => d (8 * i + j)) hl hi (by omega) ?_ rfl ?_
  · intro j hj
    rw [pk_packL, laneByte_packL _ _ _ hj, if_pos (by omega), Nat.sub_zero]
  · rw [Nat.add_zero]
    refine t_perm (congrArg (fun B => bl kd b (St m w B) + F) ?_) h
    funext t
    unfold xorB
    by_cases h1 : 8 * i ≤ t ∧ t < 8 * i + 8
    · rw [if_pos h1, if_neg (by omega), if_pos (by omega)]
      dsimp only
      rw [show 8 * i + (t - 8 * i) = t - 0 by omega]
    · rw [if_neg h1]
      by_cases h2 : 0 ≤ t ∧ t < 0 + 8 * i
      · rw [if_pos h2, if_pos (by omega)]
      · rw [if_neg h2, if_neg (by omega)]

theorem addLanes_runs {data : CPtr} {μ : Mem Byte} {d : Nat → Byte} {N c : Nat} (hl : w + 200 ≤ m.length)
    (hv : View F data μ) (hd : Has μ 0 N d) (hN : 8 * c ≤ N) (hc : c ≤ 25) :
    Runs (bl kd b (St m w B) + F) (KeccakP1600_AddLanes (some ⟨b, w⟩) data c) ()
      (bl kd b (St m w (xorB B 0 (8 * c) d)) + F) := by
  unfold KeccakP1600_AddLanes
  dsimp only
  refine t_perm (D' := bl kd b (St m w (xorB B 0 (8 * 0) d)) + F) (by rw [Nat.mul_zero, xorB_zero]) ?_
  have e0 : ∀ x y, x + y ≤ 64 → (x + y) % U32 = x + y := fun x y h => Nat.mod_eq_of_lt (by omega)
  refine t_whileI (I := fun i D => i ≤ c ∧ D = bl kd b (St m w (xorB B 0 (8 * i) d)) + F) (μ := fun i => c - i)
    ⟨by omega, rfl⟩ (by omega) ?_ ?_
  · rintro i D ⟨hi, rfl⟩ hb
    rw [decide_eq_true_eq, e0 _ _ (by omega)] at hb
    have e1 : (i + 8) % U32 = i + 8 := e0 _ _ (by omega)
    rw [e1]
    refine t_addLane (i := i) hl hv hd (by omega) (by omega) (by rw [e0 _ _ (by omega)]; rfl) rfl ?_
    iterate 7 refine t_addLane hl hv hd (by omega) (by omega) (by rw [e0 _ _ (by omega)]) rfl ?_
    exact t_pure ⟨⟨hb, rfl⟩, by omega⟩
  rintro i1 D ⟨hi1, rfl⟩ hb1
  rw [decide_eq_false_iff_not, e0 _ _ (by omega)] at hb1
  refine t_whileI (I := fun i D => i ≤ c ∧ D = bl kd b (St m w (xorB B 0 (8 * i) d)) + F) (μ := fun i => c - i)
    ⟨by omega, rfl⟩ (by omega) ?_ ?_
  · rintro i D ⟨hi, rfl⟩ hb
    rw [decide_eq_true_eq, e0 _ _ (by omega)] at hb
    have e1 : (i + 4) % U32 = i + 4 := e0 _ _ (by omega)
    rw [e1]
    refine t_addLane (i := i) hl hv hd (by omega) (by omega) (by rw [e0 _ _ (by omega)]; rfl) rfl ?_
    iterate 3 refine t_addLane hl hv hd (by omega) (by omega) (by rw [e0 _ _ (by omega)]) rfl ?_
    exact t_pure ⟨⟨hb, rfl⟩, by omega⟩
  rintro i2 D ⟨hi2, rfl⟩ hb2
  rw [decide_eq_false_iff_not, e0 _ _ (by omega)] at hb2
  refine t_whileI (I := fun i D => i ≤ c ∧ D = bl kd b (St m w (xorB B 0 (8 * i) d)) + F) (μ := fun i => c - i)
    ⟨by omega, rfl⟩ (by omega) ?_ ?_
  · rintro i D ⟨hi, rfl⟩ hb
    rw [decide_eq_true_eq, e0 _ _ (by omega)] at hb
    have e1 : (i + 2) % U32 = i + 2 := e0 _ _ (by omega)
    rw [e1]
    refine t_addLane (i := i) hl hv hd (by omega) (by omega) (by rw [e0 _ _ (by omega)]; rfl) rfl ?_
    refine t_addLane hl hv hd (by omega) (by omega) (by rw [e0 _ _ (by omega)]) rfl ?_
    exact t_pure ⟨⟨hb, rfl⟩, by omega⟩
  rintro i3 D ⟨hi3, rfl⟩ hb3
  rw [decide_eq_false_iff_not, e0 _ _ (by omega)] at hb3
  by_cases h : i3 < c
  · refine t_ite_pos h ?_
    refine t_run rfl (b := ()) (E := bl kd b (St m w (xorB B 0 (8 * c) d)) + F) (t_addLane (i := i3) (y := c) hl hv hd
      (by omega) (by omega) (by rw [e0 _ _ (by omega)]; rfl) (by omega) (t_pure ⟨rfl, rfl⟩)) ?_
    exact t_pure ⟨rfl, rfl⟩
  · refine t_ite_neg h ?_
    rw [show i3 = c by omega]
    exact t_pbind (t_pure ⟨rfl, rfl⟩)

theorem addBytes_runs {data : CPtr} {μ : Mem Byte} {d : Nat → Byte} {off n : Nat} (hl : w + 200 ≤ m.length)
    (hv : View F data μ) (hd : Has μ 0 n d) (hn : off + n ≤ 200) :
    Runs (bl kd b (St m w B) + F) (KeccakP1600_AddBytes (some ⟨b, w⟩) data off n) ()
      (bl kd b (St m w (xorB B off n d)) + F) := by
  unfold KeccakP1600_AddBytes
  dsimp only
  by_cases h0 : off = 0
  · subst h0
    refine t_ite_pos rfl ?_
    refine t_assoc (t_run rfl (addLanes_runs hl hv hd (by omega) (by omega)) ?_)
    rw [Nat.mod_eq_of_lt (by omega : n / 8 * 8 < U32)]
    refine t_assoc (t_run rfl (addLane_runs (d := fun j => d (8 * (n / 8) + j)) hl (hv.padd (k := n / 8 * 8))
      (N := n % 8) ?_ (by omega) (by omega) (by omega) (by omega)) ?_)
    · refine has_drop.2 ?_
      intro j hj
      have := hd (n / 8 * 8 + j) (by omega)
      dsimp only
      rw [show 8 * (n / 8) + j = n / 8 * 8 + j by omega]
      rw [← this]
      congr 1
      omega
    · refine t_pbind ?_
      have := xorB_xorB B 0 (8 * (n / 8)) (n % 8) d
      rw [Nat.zero_add, show 8 * (n / 8) + n % 8 = n by omega] at this
      rw [Nat.add_zero, this]
      exact t_pure ⟨rfl, rfl⟩
  · refine t_ite_neg h0 ?_
    refine t_assoc ?_
    refine t_whileI (I := fun s D => ∃ t, t ≤ n ∧ s.1 = n - t ∧ s.2.2.2 = padd data t ∧
      (t < n → 8 * s.2.1 + s.2.2.1 = off + t ∧ s.2.2.1 < 8) ∧
      D = bl kd b (St m w (xorB B off t d)) + F) (μ := fun s => s.1)
      ⟨0, by omega, rfl, by cases data <;> rfl, fun _ => ⟨by dsimp only; omega, by dsimp only; omega⟩, by rw [xorB_zero]⟩
      (by dsimp only; omega) ?_ ?_
    · rintro ⟨sl, lp, ol, cd⟩ D ⟨t, ht, h1, h2, h3, rfl⟩ hb
      dsimp only at h1 h2 h3 hb ⊢
      rw [decide_eq_true_eq] at hb
      subst h1 h2
      obtain ⟨h3, h4⟩ := h3 (by omega)
      rw [show (8 + 4294967296 - ol) % 4294967296 = 8 - ol by omega]
      have key : ∀ k, 0 < k → k ≤ n - t → k ≤ 8 - ol → (k = 8 - ol ∨ k = n - t) →
          T (bl kd b (St m w (xorB B off t d)) + F) (do
            KeccakP1600_AddBytesInLane (some ⟨b, w⟩) lp (padd data t) ol k
            pure ((n - t + 4294967296 - k) % 4294967296, (lp + 1) % 4294967296, 0, padd (padd data t) k))
          fun s' D' => (∃ t, t ≤ n ∧ s'.1 = n - t ∧ s'.2.2.2 = padd data t ∧
            (t < n → 8 * s'.2.1 + s'.2.2.1 = off + t ∧ s'.2.2.1 < 8) ∧
            D' = bl kd b (St m w (xorB B off t d)) + F) ∧ s'.1 < n - t := by
        intro k hk0 hk1 hk2 hk3
        refine t_run rfl (addLane_runs (d := fun j => d (t + j)) hl (hv.padd (k := t)) (N := k) ?_
          (by omega) (by omega) (by omega) (by omega)) ?_
        · refine has_drop.2 fun j hj => ?_
          have := hd (t + j) (by omega)
          rw [← this]
          congr 1
          omega
        · rw [h3, xorB_xorB]
          refine t_pure ⟨⟨t + k, by omega, by dsimp only; omega, ?_, fun h => ⟨by dsimp only; omega, by dsimp only; omega⟩, rfl⟩,
            by dsimp only; omega⟩
          cases data
          · rfl
          · simp [padd, Nat.add_assoc]
      by_cases e : 8 - ol > n - t
      · refine t_ite_pos e ?_
        exact t_pbind (key _ (by omega) (by omega) (by omega) (by omega))
      · refine t_ite_neg e ?_
        exact t_pbind (key _ (by omega) (by omega) (by omega) (by omega))
    · rintro ⟨sl, lp, ol, cd⟩ D ⟨t, ht, h1, h2, h3, rfl⟩ hb
      dsimp only at h1 h2 h3 hb ⊢
      rw [decide_eq_false_iff_not] at hb
      rw [show t = n by omega]
      exact t_pbind (t_pure ⟨rfl, rfl⟩)

/-! ### Reading the state -/

theorem extractLane_runs {q : Ptr} {lp off n : Nat} (hl : w + 200 ≤ m.length) (hv : Valid F q n) (hlp : lp < 25)
    (hn : off + n ≤ 8) :
    Runs (bl kd b (St m w B) + F) (KeccakP1600_ExtractBytesInLane (some ⟨b, w⟩) lp (some q) off n) ()
      (bl kd b (St m w B) + up F q (tabP n fun j => B (8 * lp + off + j))) := by
  unfold KeccakP1600_ExtractBytesInLane
  refine t_ld64w rfl (st_has hl _) (by omega) ?_
  refine t_alloc fun i => ?_
  refine t_st64 rfl (by simp [malloc]) ?_
  have hW : ∀ x, W (malloc 8 : Mem Byte) (0 + 0) (wordBytes x) = ofList (tabP 8 (laneByte x)) := fun x => rfl
  rw [hW]
  have hh : Has (ofList (tabP 8 (laneByte (pk B (8 * lp))))) 0 8 fun j => B (8 * lp + j) := by
    intro j hj
    rw [rd_ofList, Nat.zero_add, tabP_getElem?, if_pos hj, pk_packL, laneByte_packL _ _ _ hj]
  refine t_memcpy_up (b := i) (o := 0 + off) rfl hv.right (rdN_eq ((hh.sub off n hn).congr (g' := fun j => B (8 * lp + off + j)) ?_) ?_) ?_
  · intro j hj
    rw [Nat.add_assoc]
  · simp [ofList]; omega
  refine t_nd fun hnd => ?_
  rw [up_frame (ND.of_up hnd.right) hv]
  refine t_free rfl ?_
  exact t_pure ⟨rfl, rfl⟩

theorem extractLanes_runs {q : Ptr} {c : Nat} (hl : w + 200 ≤ m.length) (hv : Valid F q (8 * c)) (hc : c ≤ 25) :
    Runs (bl kd b (St m w B) + F) (KeccakP1600_ExtractLanes (some ⟨b, w⟩) (some q) c) ()
      (bl kd b (St m w B) + up F q (tabP (8 * c) B)) := by
  unfold KeccakP1600_ExtractLanes
  rw [show c * 8 % 4294967296 = 8 * c by omega]
  refine t_memcpy_up rfl hv (rdN_eq ((st_has hl B).mono (by omega)) ?_) (t_pure ⟨rfl, rfl⟩)
  rw [st_len hl]
  omega

theorem extractBytes_runs {q : Ptr} {off n : Nat} (hl : w + 200 ≤ m.length) (hv : Valid F q n) (hn : off + n < 200) :
    Runs (bl kd b (St m w B) + F) (KeccakP1600_ExtractBytes (some ⟨b, w⟩) (some q) off n) ()
      (bl kd b (St m w B) + up F q (tabP n fun j => B (off + j))) := by
  refine runs_nd fun hnd => ?_
  have hF : ND F := hnd.right
  unfold KeccakP1600_ExtractBytes
  dsimp only
  by_cases h0 : off = 0
  · subst h0
    refine t_ite_pos rfl ?_
    refine t_assoc (t_run rfl (extractLanes_runs hl (hv.mono (by omega)) (by omega)) ?_)
    rw [Nat.mod_eq_of_lt (by omega : n / 8 * 8 < U32)]
    have hv2 : Valid F ⟨q.blk, q.off + n / 8 * 8⟩ (n % 8) := hv.sub (by omega)
    refine t_assoc (t_run rfl (extractLane_runs (q := ⟨q.blk, q.off + n / 8 * 8⟩) hl
      (hv2.up (by rw [tabP_length]; exact hv.mono (by omega)) hF) (by omega) (by omega)) ?_)
    have e := up_append (F := F) (q := q) (l := tabP (8 * (n / 8)) B) (l' := tabP (n % 8) fun j => B (8 * (n / 8) + j))
      (by rw [tabP_length, tabP_length]; exact hv.mono (by omega)) hF
    rw [tabP_length, ← tabP_add, show 8 * (n / 8) + n % 8 = n by omega] at e
    rw [show n / 8 * 8 = 8 * (n / 8) by omega]
    simp only [Nat.add_zero]
    rw [e]
    refine t_pbind (t_pure ⟨trivial, ?_⟩)
    simp only [Nat.zero_add]
  · refine t_ite_neg h0 ?_
    refine t_assoc ?_
    refine t_whileI (I := fun s D => ∃ t, t ≤ n ∧ s.1 = n - t ∧ s.2.2.2 = some ⟨q.blk, q.off + t⟩ ∧
      (t < n → 8 * s.2.1 + s.2.2.1 = off + t ∧ s.2.2.1 < 8) ∧
      D = bl kd b (St m w B) + up F q (tabP t fun j => B (off + j))) (μ := fun s => s.1)
      ⟨0, by omega, rfl, rfl, fun _ => ⟨by dsimp only; omega, by dsimp only; omega⟩, by
        rw [show (tabP 0 fun j => B (off + j)) = [] from rfl, up_nil]⟩
      (by dsimp only; omega) ?_ ?_
    · rintro ⟨sl, lp, ol, cd⟩ D ⟨t, ht, h1, h2, h3, rfl⟩ hb
      dsimp only at h1 h2 h3 hb ⊢
      rw [decide_eq_true_eq] at hb
      subst h1 h2
      obtain ⟨h3, h4⟩ := h3 (by omega)
      rw [show (8 + 4294967296 - ol) % 4294967296 = 8 - ol by omega]
      have key : ∀ k, 0 < k → k ≤ n - t → k ≤ 8 - ol → (k = 8 - ol ∨ k = n - t) →
          T (bl kd b (St m w B) + up F q (tabP t fun j => B (off + j))) (do
            KeccakP1600_ExtractBytesInLane (some ⟨b, w⟩) lp (some ⟨q.blk, q.off + t⟩) ol k
            pure ((n - t + 4294967296 - k) % 4294967296, (lp + 1) % 4294967296, 0, padd (some ⟨q.blk, q.off + t⟩) k))
          fun s' D' => (∃ t, t ≤ n ∧ s'.1 = n - t ∧ s'.2.2.2 = some ⟨q.blk, q.off + t⟩ ∧
            (t < n → 8 * s'.2.1 + s'.2.2.1 = off + t ∧ s'.2.2.1 < 8) ∧
            D' = bl kd b (St m w B) + up F q (tabP t fun j => B (off + j))) ∧ s'.1 < n - t := by
        intro k hk0 hk1 hk2 hk3
        have hv2 : Valid F ⟨q.blk, q.off + t⟩ k := hv.sub (by omega)
        refine t_run rfl (extractLane_runs hl (hv2.up (by rw [tabP_length]; exact hv.mono (by omega)) hF)
          (by omega) (by omega)) ?_
        have e := up_append (F := F) (q := q) (l := tabP t fun j => B (off + j))
          (l' := tabP k fun j => B (off + (t + j)))
          (by rw [tabP_length, tabP_length]; exact hv.mono (by omega)) hF
        rw [tabP_length, ← tabP_add t k (fun j => B (off + j))] at e
        rw [h3]
        simp only [Nat.add_assoc]
        rw [e]
        exact t_pure ⟨⟨t + k, by omega, by dsimp only; omega, by simp [padd, Nat.add_assoc],
          fun h => ⟨by dsimp only; omega, by dsimp only; omega⟩, rfl⟩, by dsimp only; omega⟩
      by_cases e : 8 - ol > n - t
      · refine t_ite_pos e ?_
        exact t_pbind (key _ (by omega) (by omega) (by omega) (by omega))
      · refine t_ite_neg e ?_
        exact t_pbind (key _ (by omega) (by omega) (by omega) (by omega))
    · rintro ⟨sl, lp, ol, cd⟩ D ⟨t, ht, h1, h2, h3, rfl⟩ hb
      dsimp only at h1 h2 h3 hb ⊢
      rw [decide_eq_false_iff_not] at hb
      rw [show t = n by omega]
      exact t_pbind (t_pure ⟨rfl, rfl⟩)

/-! ### The fast loop -/

theorem xor_lanes (B d : Nat → Byte) (c : Nat) :
    lanesOf (packL (xorB B 0 (8 * c) d)) = lanesOf fun k => if k < c then packL B k ^^^ packL d k else packL B k := by
  refine lanesOf_congr fun k _ => ?_
  refine u64_ext fun j hj => ?_
  by_cases h : k < c
  · rw [if_pos h, laneByte_xor]
    iterate 3 rw [laneByte_packL _ _ _ hj]
    unfold xorB
    rw [if_pos (by omega)]
    rfl
  · rw [if_neg h]
    iterate 2 rw [laneByte_packL _ _ _ hj]
    unfold xorB
    rw [if_neg (by omega)]

theorem addInput_runs {data : CPtr} {μ : Mem Byte} {d : Nat → Byte} {c : Nat} (hc : c = 17 ∨ c = 21)
    (hv : View F data μ) (hd : Has μ 0 (8 * c) d) :
    Runs F (addInput (lanesOf (packL B)) data c) (lanesOf (packL (xorB B 0 (8 * c) d))) F := by
  rw [xor_lanes]
  rcases hc with rfl | rfl
  all_goals
    unfold addInput Runs
    dsimp only
    repeat' first
      | (with_reducible refine t_ld64 hv hd ?ho ?_); focus (case ho => decide)
      | (with_reducible refine t_pbind ?_); dsimp only
      | (with_reducible refine t_assoc ?_)
      | (with_reducible refine t_ite_pos ?hp ?_); focus (case hp => decide)
      | (with_reducible refine t_ite_neg ?hp ?_); focus (case hp => decide)
    exact t_pure ⟨rfl, rfl⟩

/-- The data from the position `t` on. -/
theorem has_from {μ : Mem Byte} {d : Nat → Byte} {n t k : Nat} (hd : Has μ 0 n d) (h : t + k ≤ n) :
    Has (μ.drop t) 0 k fun j => d (t + j) := by
  refine has_drop.2 fun j hj => ?_
  have := hd (t + j) (by omega)
  rw [← this]
  congr 1
  omega

/-- Taking in one whole block. -/
theorem absorb_block {r : Nat} (hr : 0 < r) (B d : Nat → Byte) (t : Nat) {B' : Nat → Byte}
    (h : absorbM r (B, 0) (tabP t d) = (B', 0)) :
    absorbM r (B, 0) (tabP (t + r) d) = (keccakB (xorB B' 0 r fun j => d (t + j)), 0) := by
  rw [tabP_add, absorbM_append, h, absorbM_full _ _ (by rw [tabP_length]; omega) (by rw [tabP_length]; exact hr), tabP_length]
  refine congrArg (fun X => (keccakB X, 0)) (xorB_congr fun i hi => ?_)
  rw [List.getD_eq_getElem?_getD, tabP_getElem?, if_pos hi]
  rfl

theorem fastAbsorb_runs {data : CPtr} {μ : Mem Byte} {d : Nat → Byte} {c n : Nat} (hc : c = 17 ∨ c = 21)
    (hl : w + 200 ≤ m.length) (hv : View F data μ) (hd : Has μ 0 n d) (hn : n < 2 ^ 64) :
    Runs (bl kd b (St m w B) + F) (KeccakF1600_FastLoop_Absorb (some ⟨b, w⟩) c data n) (n - n % (8 * c))
      (bl kd b (St m w (absorbM (8 * c) (B, 0) (tabP (n - n % (8 * c)) d)).1) + F) := by
  unfold KeccakF1600_FastLoop_Absorb
  refine t_run rfl (copyFrom_runs hl) ?_
  dsimp only
  rw [show c * 8 % 4294967296 = 8 * c by omega]
  refine t_whileI (I := fun s D => ∃ k B', 8 * c * k ≤ n ∧ s.1 = n - 8 * c * k ∧ s.2.1 = lanesOf (packL B') ∧
      s.2.2 = padd data (8 * c * k) ∧ absorbM (8 * c) (B, 0) (tabP (8 * c * k) d) = (B', 0) ∧
      D = bl kd b (St m w B) + F) (μ := fun s => s.1)
    ⟨0, B, by omega, by simp, rfl, by cases data <;> rfl, rfl, rfl⟩ hn ?_ ?_
  · rintro ⟨j, A, p⟩ D ⟨k, B', hk, h1, h2, h3, h4, rfl⟩ hb
    dsimp only at h1 h2 h3 hb ⊢
    rw [decide_eq_true_eq] at hb
    subst h1 h2 h3
    refine t_run rfl (addInput_runs hc (hv.there.padd (k := 8 * c * k)) (has_from hd (k := 8 * c) (by omega))) ?_
    rw [rounds24_pure, rounds24_eq]
    refine t_pbind (t_pure ⟨⟨k + 1, _, ?_, ?_, rfl, ?_, absorb_block (by omega) _ _ _ h4, rfl⟩, ?_⟩)
    · rw [Nat.mul_add]; omega
    · dsimp only
      rw [Nat.mul_add]; omega
    · rw [Nat.mul_add]
      cases data
      · rfl
      · simp [padd, Nat.add_assoc]
    · dsimp only; omega
  · rintro ⟨j, A, p⟩ D ⟨k, B', hk, h1, h2, h3, h4, rfl⟩ hb
    dsimp only at h1 h2 h3 hb ⊢
    rw [decide_eq_false_iff_not] at hb
    subst h1 h2 h3
    have e : n - n % (8 * c) = 8 * c * k := by
      have h5 : n % (8 * c) = n - 8 * c * k := by
        conv_lhs => rw [show n = n - 8 * c * k + 8 * c * k by omega, Nat.add_mul_mod_self_left]
        exact Nat.mod_eq_of_lt (by omega)
      omega
    rw [e, h4]
    refine t_run rfl (copyTo_runs (by rw [st_len hl]; exact hl)) ?_
    rw [st_st hl]
    exact t_pure ⟨by omega, rfl⟩

end

end Faest.GenH
