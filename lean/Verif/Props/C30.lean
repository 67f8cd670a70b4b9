/-
C30: no overflow in sizes, offsets, node counts and indices.
-/
import Verif.Proofs.CIntCheck
import Verif.Model.Faest

namespace Faest.Props
open CInt

/-- **C30.** Every expression of `sites` — the sizes, offsets, node counts and indices of signing and verification —
evaluates in C to its mathematical value, for every parameter set and all values of its local variables: no operand,
intermediate result or converted value leaves the range of its type.  `size_t` may have 32 or 64 bits. -/
theorem C30_no_overflow (i : ParamId) (W : Nat) (hW : W = 32 ∨ W = 64) (s : Site) (hs : s ∈ sites) (b : Box)
    (hb : b ∈ s.dom (params i)) (env : Nat → Int) (he : InBox b env) :
    s.e.eval W (params i) env = some (s.e.ideal (params i) env) := by
  have := sites_ok i
  rw [List.all_eq_true, List.all_eq_true] at this
  rcases hW with rfl | rfl
  · exact siteOk_sound (this.2 s hs) hb he
  · exact siteOk_sound (this.1 s hs) hb he

/-- All fields of the parameter table are `uint16_t` values. -/
theorem C30_params_fit (i : ParamId) :
    ∀ f ∈ [Params.lambda, Params.Nwd, Params.Ske, Params.R, Params.Senc, Params.l, Params.Lke, Params.Lenc,
      Params.tau, Params.k0, Params.k1, Params.t0, Params.t1, Params.sigSize, Params.pkSize],
      f (params i) < 2 ^ 16 := by
  cases i <;> decide

/-! ### The values used in the model -/

/-- One local variable. -/
def env1 (x : Nat) : Nat → Int := fun _ => x
/-- Two local variables. -/
def env2 (x y : Nat) : Nat → Int := fun k => if k = 0 then x else y

theorem chk_some {W : Nat} {t : CTy} {x : Int} (h : t.fits W x) : chk W t x = some x := if_pos h
theorem chk_none {W : Nat} {t : CTy} {x : Int} (h : ¬ t.fits W x) : chk W t x = none := if_neg h

/-- **C30 (node count).** For every depth, the C expression of `getBinaryTreeNodeCount` gives the number of nodes,
`2 ^ (depth + 1) - 1`, or overflows `int`; the first exactly for `depth ≤ 29`, which includes all depths of the
parameter sets. -/
theorem C30_node_count (W : Nat) (P : Params) (depth : Nat) :
    (nodeCountE (u 0)).eval W P (env1 depth) = if depth ≤ 29 then some (2 ^ (depth + 1) - 1 : Int) else none := by
  split
  · next h =>
    have hb : InBox [(0, 29)] (env1 depth) := by
      intro k r hk
      match k, hk with
      | 0, hk => cases hk; exact ⟨Int.natCast_nonneg _, Int.ofNat_le.2 h⟩
    have : ((nodeCountE (u 0)).range W P [(0, 29)]).isSome := rfl
    obtain ⟨r, hr⟩ := Option.isSome_iff_exists.1 this
    rw [(range_sound hb _ hr).1]
    show some ((1 : Int) * 2 ^ ((depth : Int) + 1).toNat - 1) = _
    rw [Int.one_mul]
    rfl
  · next h =>
    cases he : (nodeCountE (u 0)).eval W P (env1 depth) with
    | none => rfl
    | some v =>
      exfalso
      obtain ⟨h1, -⟩ := eval_cast_inv he
      obtain ⟨x, y, h2, -, -, -⟩ := eval_bin_inv h1
      obtain ⟨a, b, h3, h4, h5, h6, h7⟩ := eval_shl_inv h2
      have e1 : a = 1 := eval_ideal _ h3
      have e2 : b = (depth : Int) + 1 := eval_ideal _ h4
      subst e1 e2
      have h6 : (depth : Int) + 1 < (32 : Nat) := h6
      have h7 : x ≤ 2 ^ 31 - 1 := h7.2
      have e3 : ((depth : Int) + 1).toNat = 31 := by omega
      rw [e3] at h5
      omega

/-- The model of `getBinaryTreeNodeCount` is the C expression. -/
theorem C30_node_count_model (W : Nat) (P : Params) (depth : Nat) :
    ((nodeCountE (u 0)).eval W P (env1 depth)).map Int.toNat = getBinaryTreeNodeCount depth := by
  rw [C30_node_count]
  unfold getBinaryTreeNodeCount
  by_cases h : depth ≤ 29
  · rw [if_pos h, if_pos (by omega)]
    show some _ = some _
    congr 1
    have : (1:Int) ≤ 2 ^ (depth + 1) := by exact_mod_cast Nat.one_le_two_pow
    have e : (2 : Int) ^ (depth + 1) = ((2 ^ (depth + 1) : Nat) : Int) := by push_cast; rfl
    rw [e]
    omega
  · rw [if_neg h, if_neg (by omega)]
    rfl

/-- **C30 (node index).** For every depth from 1 to 29 and every position on that level, the C expression of
`getNodeIndex` gives the position of the node in breadth-first order. -/
theorem C30_node_index (W : Nat) (P : Params) (depth pos : Nat) (h1 : 1 ≤ depth) (h2 : depth ≤ 29)
    (hp : pos < 2 ^ depth) : (nodeIndexE (u 0) (u 1)).eval W P (env2 depth pos) = some ((2 ^ depth - 1 + pos : Nat) : Int) := by
  have hd : ((2 ^ depth : Nat) : Int) ≤ 2 ^ 29 := by
    have := Nat.pow_le_pow_right (n := 2) (by decide) h2
    omega
  have hb : InBox [(1, 29), (0, 2 ^ 29)] (env2 depth pos) := by
    intro k r hk
    match k, hk with
    | 0, hk => cases hk; exact ⟨Int.ofNat_le.2 h1, Int.ofNat_le.2 h2⟩
    | 1, hk => cases hk; exact ⟨Int.natCast_nonneg _, by show (pos : Int) ≤ 2 ^ 29; omega⟩
  have : ((nodeIndexE (u 0) (u 1)).range W P [(1, 29), (0, 2 ^ 29)]).isSome := rfl
  obtain ⟨r, hr⟩ := Option.isSome_iff_exists.1 this
  rw [(range_sound hb _ hr).1]
  show some ((2 : Int) * 2 ^ ((depth : Int) - 1).toNat - 2 + ((pos : Int) + 1)) = _
  congr 1
  have e : ((depth : Int) - 1).toNat = depth - 1 := by omega
  rw [e]
  obtain ⟨d, rfl⟩ : ∃ d, depth = d + 1 := ⟨depth - 1, by omega⟩
  rw [Nat.add_sub_cancel]
  have e2 : (2 : Int) ^ d = ((2 ^ d : Nat) : Int) := by push_cast; rfl
  have e3 : 2 ^ (d + 1) = 2 * 2 ^ d := by rw [Nat.pow_succ]; omega
  have e4 : 1 ≤ 2 ^ d := Nat.one_le_two_pow
  rw [e2, e3]
  omega

/-- The model of `getNodeIndex` computes the same value. -/
theorem C30_node_index_model (W : Nat) (P : Params) (depth pos : Nat) (h1 : 1 ≤ depth) (h2 : depth ≤ 29)
    (hp : pos < 2 ^ depth) :
    ((nodeIndexE (u 0) (u 1)).eval W P (env2 depth pos)).map Int.toNat = getNodeIndex depth pos := by
  rw [C30_node_index W P depth pos h1 h2 hp]
  unfold getNodeIndex
  rw [if_neg (by omega), if_pos h2]
  show some _ = some _
  congr 1
  obtain ⟨d, rfl⟩ : ∃ d, depth = d + 1 := ⟨depth - 1, by omega⟩
  rw [Nat.add_sub_cancel, Int.toNat_natCast, Nat.pow_succ]
  have e4 : 1 ≤ 2 ^ d := Nat.one_le_two_pow
  omega

/-- The signature offsets computed with the types of the code. -/
def cOffset (W : Nat) (P : Params) (e0 e1 : CE) (k : Nat) : Option Int :=
  if k < P.t0 then e0.eval W P (env1 k) else e1.eval W P (env1 k)

theorem offsets_ok (i : ParamId) :
    let P := params i
    ([32, 64].all fun W =>
      (sigUTilde.eval W P (env1 0) == some (offUTilde P : Int)) && (sigD.eval W P (env1 0) == some (offD P : Int)) &&
      (sigATilde.eval W P (env1 0) == some (offATilde P : Int)) &&
      (sigChall3.eval W P (env1 0) == some (offChall3 P : Int)) && (sigIv.eval W P (env1 0) == some (offIv P : Int)) &&
      (List.range P.tau).all fun k => (sigC.eval W P (env1 k) == some (offC P k : Int)) &&
        (cOffset W P sigPdec0 sigPdec1 k == some (offPdec P k : Int)) &&
        (cOffset W P sigCom0 sigCom1 k == some (offCom P k : Int)) &&
        decide (offCom P k + 2 * (P.lambda / 8) ≤ P.sigSize)) = true := by
  cases i <;> decide +kernel

/-- **C30 (signature offsets).** The offsets of all parts of the signature, evaluated with the types of the code, are
those used in the model, and lie inside the signature. -/
theorem C30_offsets (i : ParamId) (W : Nat) (hW : W = 32 ∨ W = 64) :
    let P := params i
    sigUTilde.eval W P (env1 0) = some (offUTilde P : Int) ∧ sigD.eval W P (env1 0) = some (offD P : Int) ∧
    sigATilde.eval W P (env1 0) = some (offATilde P : Int) ∧
    sigChall3.eval W P (env1 0) = some (offChall3 P : Int) ∧ sigIv.eval W P (env1 0) = some (offIv P : Int) ∧
    ∀ k, k < P.tau → sigC.eval W P (env1 k) = some (offC P k : Int) ∧
      cOffset W P sigPdec0 sigPdec1 k = some (offPdec P k : Int) ∧
      cOffset W P sigCom0 sigCom1 k = some (offCom P k : Int) ∧ offCom P k + 2 * (P.lambda / 8) ≤ P.sigSize := by
  intro P
  have h := offsets_ok i
  dsimp only at h
  rw [List.all_eq_true] at h
  have h := h W (by rcases hW with rfl | rfl <;> decide)
  simp only [Bool.and_eq_true, beq_iff_eq, List.all_eq_true, List.mem_range, decide_eq_true_eq] at h
  obtain ⟨⟨⟨⟨⟨a1, a2⟩, a3⟩, a4⟩, a5⟩, a6⟩ := h
  exact ⟨a1, a2, a3, a4, a5, fun k hk => ⟨(a6 k hk).1.1.1, (a6 k hk).1.1.2, (a6 k hk).1.2, (a6 k hk).2⟩⟩

/-! ### The ranges of the loops -/

theorem inBox_nil {env : Nat → Int} : InBox [] env := fun _ _ h => nomatch h

theorem inBox_cons {r : Int × Int} {b : Box} {env : Nat → Int} (h : r.1 ≤ env 0 ∧ env 0 ≤ r.2) (hb : InBox b fun k => env (k + 1)) :
    InBox (r :: b) env := by
  intro k x hk
  match k, hk with
  | 0, hk => cases hk; exact h
  | k + 1, hk => exact hb k x hk

theorem inBox_point {n : Nat} {b : Box} {env : Nat → Int} (h : env 0 = n) (hb : InBox b fun k => env (k + 1)) :
    InBox (point n :: b) env := inBox_cons ⟨by show (n : Int) ≤ _; omega, by show _ ≤ (n : Int); omega⟩ hb

theorem inBox_below {n : Nat} {b : Box} {env : Nat → Int} (h : 0 ≤ env 0 ∧ env 0 < n) (hb : InBox b fun k => env (k + 1)) :
    InBox (below n :: b) env := inBox_cons ⟨h.1, by show _ ≤ (n : Int) - 1; omega⟩ hb

/-- Local variables with the given values. -/
def envL (l : List Nat) : Nat → Int := fun k => (l.getD k 0 : Nat)

/-- **C30 (ranges).** The values which the loops of the code give to the local variables are among those of C30: the
trees `i < tau` and their depths, levels and positions; the rounds, columns, rows and bits of the constraints; the words of
the key schedule. -/
theorem C30_ranges (i : ParamId) : let P := params i
    (∀ t, t < P.tau → ∃ b ∈ perDepth P, InBox b (envL [P.depth t])) ∧
    (∀ f t x, t < P.tau → x < f (P.depth t) → ∃ b ∈ perDepthBelow f P, InBox b (envL [P.depth t, x])) ∧
    (∀ t l a x, t < P.tau → l < P.depth t → a < 2 ^ l → x < 2 → ∃ b ∈ perLevel P, InBox b (envL [P.depth t, l, a, x])) ∧
    (∀ t, t < P.t0 → ∃ b ∈ first P, InBox b (envL [t])) ∧
    (∀ t, P.t0 ≤ t → t < P.tau → ∃ b ∈ second P, InBox b (envL [t])) ∧
    (∀ j c r x, j < P.R → c < 4 → r < 4 → x < 8 → ∃ b ∈ encBox P, InBox b (envL [j, c, r, x])) ∧
    (∀ c r x, c < 4 → r < 4 → x < 8 → ∃ b ∈ lastRound P, InBox b (envL [P.R - 1, c, r, x])) ∧
    (∀ j c r, 1 ≤ j → j < P.R → c < 4 → r < 4 → ∃ b ∈ rounds P, InBox b (envL [j, c, r])) ∧
    (∀ j c r x, j < P.R → c < P.Nwd → r < 4 → x < 8 → ∃ b ∈ emBox P, InBox b (envL [j, c, r, x])) ∧
    (∀ c r x, c < P.Nwd → r < 4 → x < 8 → ∃ b ∈ emLast P, InBox b (envL [P.R - 1, c, r, x])) ∧
    (∀ j c r, 1 ≤ j → j < P.R → c < P.Nwd → r < 4 → ∃ b ∈ emRounds P, InBox b (envL [j, c, r])) ∧
    (∀ j, P.Nwd ≤ j → j < 4 * (P.R + 1) → InBox [keyWords P] (envL [j])) ∧
    (∀ w k, w = (if P.Lke = 0 then P.Nwd else 4) → P.Nwd ≤ k → k < w * (P.R + 1) →
      ∃ b ∈ expandBox P, InBox b (envL [k, w, P.Nwd])) := by
  intro P
  have hd : ∀ t, t < P.tau → P.depth t ∈ depths P := by
    intro t _
    unfold Params.depth depths
    split <;> split <;> simp
    omega
  have hbw : blockWords P = if P.Lke = 0 then P.Nwd else 4 := by
    unfold blockWords isEm
    simp only [beq_iff_eq]
  refine ⟨fun t ht => ⟨_, List.mem_map.2 ⟨_, hd t ht, rfl⟩, inBox_point rfl inBox_nil⟩,
    fun f t x ht hx => ⟨_, List.mem_map.2 ⟨_, hd t ht, rfl⟩, inBox_point rfl (inBox_below ⟨?_, ?_⟩ inBox_nil)⟩,
    fun t l a x ht hl ha hx => ⟨_, List.mem_flatMap.2 ⟨_, hd t ht, List.mem_map.2 ⟨l, List.mem_range.2 hl, rfl⟩⟩,
      inBox_point rfl (inBox_point rfl (inBox_below ⟨?_, ?_⟩ (inBox_cons ⟨?_, ?_⟩ inBox_nil)))⟩,
    fun t ht => ⟨_, List.mem_singleton.2 rfl, inBox_below ⟨?_, ?_⟩ inBox_nil⟩,
    fun t h0 ht => ⟨_, List.mem_singleton.2 rfl, inBox_cons ⟨?_, ?_⟩ inBox_nil⟩,
    fun j c r x hj hc hr hx => ⟨_, List.mem_singleton.2 rfl,
      inBox_below ⟨?_, ?_⟩ (inBox_cons ⟨?_, ?_⟩ (inBox_cons ⟨?_, ?_⟩ (inBox_cons ⟨?_, ?_⟩ inBox_nil)))⟩,
    fun c r x hc hr hx => ⟨_, List.mem_singleton.2 rfl,
      inBox_point rfl (inBox_cons ⟨?_, ?_⟩ (inBox_cons ⟨?_, ?_⟩ (inBox_cons ⟨?_, ?_⟩ inBox_nil)))⟩,
    fun j c r h1 hj hc hr => ⟨_, List.mem_singleton.2 rfl, inBox_cons ⟨?_, ?_⟩ (inBox_cons ⟨?_, ?_⟩ (inBox_cons ⟨?_, ?_⟩ inBox_nil))⟩,
    fun j c r x hj hc hr hx => ⟨_, List.mem_singleton.2 rfl,
      inBox_below ⟨?_, ?_⟩ (inBox_below ⟨?_, ?_⟩ (inBox_cons ⟨?_, ?_⟩ (inBox_cons ⟨?_, ?_⟩ inBox_nil)))⟩,
    fun c r x hc hr hx => ⟨_, List.mem_singleton.2 rfl,
      inBox_point rfl (inBox_below ⟨?_, ?_⟩ (inBox_cons ⟨?_, ?_⟩ (inBox_cons ⟨?_, ?_⟩ inBox_nil)))⟩,
    fun j c r h1 hj hc hr => ⟨_, List.mem_singleton.2 rfl, inBox_cons ⟨?_, ?_⟩ (inBox_below ⟨?_, ?_⟩ (inBox_cons ⟨?_, ?_⟩ inBox_nil))⟩,
    fun j h1 h2 => inBox_cons ⟨?_, ?_⟩ inBox_nil,
    fun w k hw h1 h2 => ⟨_, List.mem_singleton.2 rfl, inBox_cons ⟨?_, ?_⟩ (inBox_point ?_ (inBox_point rfl inBox_nil))⟩⟩
  all_goals try (simp only [envL, List.getD_cons_zero, List.getD_cons_succ, keyWords]; omega)
  · rw [hbw, ← hw]
    simp only [envL, List.getD_cons_zero]
    omega

/-- **C30 (lengths).** The local variables of C30 for lengths have the values of the model. -/
theorem C30_lengths (i : ParamId) (W : Nat) (hW : W = 32 ∨ W = 64) : let P := params i
    lambdaU.eval W P (env1 0) = some (P.lambda : Int) ∧ lambdaBytesU.eval W P (env1 0) = some ((P.lambda / 8 : Nat) : Int) ∧
    lambdaBytesZ.eval W P (env1 0) = some ((P.lambda / 8 : Nat) : Int) ∧ lU.eval W P (env1 0) = some (P.l : Int) ∧
    tauU.eval W P (env1 0) = some (P.tau : Int) ∧ t0U.eval W P (env1 0) = some (P.t0 : Int) ∧ t1U.eval W P (env1 0) = some (P.t1 : Int) ∧
    k0U.eval W P (env1 0) = some (P.k0 : Int) ∧ k1U.eval W P (env1 0) = some (P.k1 : Int) ∧
    ellHatU.eval W P (env1 0) = some (P.ellHat : Int) ∧ ellHatBytesU.eval W P (env1 0) = some (P.ellHatBytes : Int) ∧
    ellHatBytesZ.eval W P (env1 0) = some (P.ellHatBytes : Int) ∧
    lengthLambda1.eval W P (env1 0) = some (elems P : Int) ∧ (lengthLambda NB).eval W P (env1 0) = some (elems P : Int) ∧
    R_U.eval W P (env1 0) = some (P.R : Int) ∧ NwdU.eval W P (env1 0) = some (P.Nwd : Int) := by
  rcases hW with rfl | rfl <;> cases i <;> decide +kernel

/-! ### The column indices which wrap -/

/-- **C30 (columns).** `c - r + 4` and the like wrap modulo `2 ^ 32` and back: the result is the column of ShiftRows,
below the number of columns, for all columns and rows. -/
theorem C30_columns :
    (∀ c, c < 4 → ∀ r, r < 4 → (shiftCol4 (BitVec.ofNat 32 c) (BitVec.ofNat 32 r)).toNat = (c + 4 - r) % 4) ∧
    (∀ N, N = 4 ∨ N = 6 → ∀ c, c < N → ∀ r, r < 4 →
      (shiftColEm (BitVec.ofNat 32 N) (BitVec.ofNat 32 c) (BitVec.ofNat 32 r)).toNat = (c + N - r) % N) ∧
    (∀ c, c < 8 → ∀ r, r < 4 → (shiftColEm8 (BitVec.ofNat 32 c) (BitVec.ofNat 32 r)).toNat
      = if r ≤ 1 then (c + 8 - r) % 8 else (c + 8 - (r + 1)) % 8) := by
  refine ⟨by decide +kernel, ?_, by decide +kernel⟩
  rintro N (rfl | rfl)
  · decide +kernel
  · decide +kernel

/-! ### Cases -/

-- there are sites, with boxes and points in them
example : ∃ s ∈ sites, ∃ b ∈ s.dom (params .p256S), InBox b (env2 12 4095) ∧
    s.e.eval 64 (params .p256S) (env2 12 4095) = some (4098 * 32 * 2) :=
  ⟨⟨"vc.c:140-141 com + (i + 3) * lambdaBytes * 2", (u 1 + 3) * lambdaBytesU * 2, perDepthBelow (2 ^ ·)⟩,
    by simp [sites, vcSites], [(12, 12), (0, 4095)], by decide, by
      intro k r hk
      match k, hk with
      | 0, hk => cases hk; decide
      | 1, hk => cases hk; decide, by decide +kernel⟩
-- the analysis rejects overflows: `(1 << depth) * lambdaBytes * 2` with depth 27 in `unsigned int`
example : (uint (1 <<ᶜ u 0) * lambdaBytesU * 2).eval 64 (params .p256S) (env1 27) = none := by decide +kernel
-- and a `uint16_t` signature size of 70000
example : sigIv.eval 64 { params .p256F with sigSize := 70000 } (env1 0) = none := by decide +kernel

end Faest.Props
