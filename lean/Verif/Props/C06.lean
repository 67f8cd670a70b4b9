/-
C06: the layout of signatures.  C35: the parameter table.
-/
import Verif.Model.Faest

namespace Faest.Props

/-! ### C06 -/

/-- The fields of a signature in order, as (offset, length) pairs, with the offsets computed by the helper
functions of signing. -/
def signFields (P : Params) : List (Nat × Nat) :=
  (List.range (P.tau - 1)).map (fun i => (offC P i, P.l / 8 + 2 * (P.lambda / 8) + 2))
    ++ [(offUTilde P, P.lambda / 8 + 2), (offD P, P.l / 8), (offATilde P, P.lambda / 8)]
    ++ (List.range P.tau).flatMap (fun i =>
        [(offPdec P i, (if i < P.t0 then P.k0 else P.k1) * (P.lambda / 8)), (offCom P i, 2 * (P.lambda / 8))])
    ++ [(offChall3 P, P.lambda / 8), (offIv P, 16)]

/-- The fields `fs` lie one behind the other and cover exactly `[a, b)`. -/
def Consecutive : Nat → List (Nat × Nat) → Nat → Prop
  | a, [], b => a = b
  | a, f :: fs, b => f.1 = a ∧ 0 < f.2 ∧ Consecutive (a + f.2) fs b

instance : ∀ a fs b, Decidable (Consecutive a fs b)
  | a, [], b => inferInstanceAs (Decidable (a = b))
  | a, f :: fs, b =>
    have : Decidable (Consecutive (a + f.2) fs b) := instDecidableConsecutive (a + f.2) fs b
    inferInstanceAs (Decidable (f.1 = a ∧ 0 < f.2 ∧ Consecutive (a + f.2) fs b))

theorem Consecutive.lt_of_mem {a b : Nat} {fs : List (Nat × Nat)} (h : Consecutive a fs b) {f : Nat × Nat}
    (hf : f ∈ fs) : a ≤ f.1 ∧ f.1 + f.2 ≤ b ∧ a ≤ b := by
  induction fs generalizing a with
  | nil => cases hf
  | cons g gs ih =>
    obtain ⟨h1, h2, h3⟩ := h
    have hle : a + g.2 ≤ b := by
      cases gs with
      | nil => exact Nat.le_of_eq h3
      | cons k ks =>
        have := ih h3
        clear ih
        have hk : ∀ (c : Nat) (l : List (Nat × Nat)), Consecutive c l b → c ≤ b := by
          intro c l
          induction l generalizing c with
          | nil => intro h; exact Nat.le_of_eq h
          | cons x xs ih => rintro ⟨-, -, h⟩; have := ih _ h; omega
        exact hk _ _ h3
    rcases List.mem_cons.1 hf with rfl | hf
    · omega
    · have := ih h3 hf
      omega

theorem Consecutive.cover {a b : Nat} {fs : List (Nat × Nat)} (h : Consecutive a fs b) {p : Nat} (h1 : a ≤ p)
    (h2 : p < b) : ∃ (k : Nat) (f : Nat × Nat), fs[k]? = some f ∧ f.1 ≤ p ∧ p < f.1 + f.2 := by
  induction fs generalizing a with
  | nil => have : a = b := h; omega
  | cons g gs ih =>
    obtain ⟨h3, -, h5⟩ := h
    by_cases hp : p < a + g.2
    · exact ⟨0, g, rfl, by omega, by omega⟩
    · obtain ⟨k, f, hk, hf⟩ := ih h5 (by omega)
      exact ⟨k + 1, f, by rw [List.getElem?_cons_succ]; exact hk, hf⟩

theorem Consecutive.disjoint {a b : Nat} {fs : List (Nat × Nat)} (h : Consecutive a fs b) {k k' : Nat}
    {f f' : Nat × Nat} (hk : fs[k]? = some f) (hk' : fs[k']? = some f') (hlt : k < k') : f.1 + f.2 ≤ f'.1 := by
  induction fs generalizing a k k' with
  | nil => simp at hk
  | cons g gs ih =>
    obtain ⟨h3, -, h5⟩ := h
    obtain ⟨k', rfl⟩ : ∃ n, k' = n + 1 := ⟨k' - 1, by omega⟩
    rw [List.getElem?_cons_succ] at hk'
    cases k with
    | zero =>
      rw [List.getElem?_cons_zero] at hk
      obtain rfl := Option.some.inj hk
      have := (h5.lt_of_mem (List.mem_of_getElem? hk')).1
      omega
    | succ k =>
      rw [List.getElem?_cons_succ] at hk
      exact ih h5 hk hk' (by omega)

/-- **C06.** For each of the 12 parameter sets the fields `c[0..tau-2]`, `u_tilde`, `d`, `a_tilde`,
`(pdec, com)[0..tau-1]`, `chall_3`, `iv` are consecutive, from 0 to `SIGNATURE_SIZE`. -/
theorem C06_consecutive (i : ParamId) : Consecutive 0 (signFields (params i)) (params i).sigSize := by
  cases i <;> decide +kernel

/-- **C06.** Hence every byte of a signature belongs to exactly one field. -/
theorem C06_partition (i : ParamId) (p : Nat) (hp : p < (params i).sigSize) :
    ∃ (k : Nat) (f : Nat × Nat), (signFields (params i))[k]? = some f ∧ (f.1 ≤ p ∧ p < f.1 + f.2) ∧
      ∀ (k' : Nat) (f' : Nat × Nat), (signFields (params i))[k']? = some f' → f'.1 ≤ p → p < f'.1 + f'.2 → k' = k := by
  have h := C06_consecutive i
  obtain ⟨k, f, hk, h1, h2⟩ := h.cover (Nat.zero_le p) hp
  refine ⟨k, f, hk, ⟨h1, h2⟩, fun k' f' hk' h3 h4 => ?_⟩
  rcases Nat.lt_trichotomy k' k with hl | he | hl
  · have := h.disjoint hk' hk hl
    omega
  · exact he
  · have := h.disjoint hk hk' hl
    omega

/-- **C06.** No field reaches beyond the signature. -/
theorem C06_inside (i : ParamId) (f : Nat × Nat) (hf : f ∈ signFields (params i)) :
    f.1 + f.2 ≤ (params i).sigSize := ((C06_consecutive i).lt_of_mem hf).2.1

/-- **C06.** Verification uses the same offsets as signing. -/
theorem C06_same_offsets (P : Params) (i : Nat) :
    dOffC P i = offC P i ∧ dOffUTilde P = offUTilde P ∧ dOffD P = offD P ∧ dOffATilde P = offATilde P ∧
      dOffPdec P i = offPdec P i ∧ dOffCom P i = offCom P i ∧ dOffChall3 P = offChall3 P ∧ dOffIv P = offIv P :=
  ⟨rfl, rfl, rfl, rfl, rfl, rfl, rfl, rfl⟩

/-- The layout of FAEST-128s: 10 correction strings of 234 bytes, then `u_tilde`. -/
example : (signFields (params .p128S)).length = 37 ∧ (signFields (params .p128S))[10]? = some (2340, 18) ∧
    (signFields (params .p128S))[36]? = some (4990, 16) := by decide

/-! ### C35 -/

/-- Number of bytes of a signature as implied by the layout. -/
def layoutSize (P : Params) : Nat :=
  (P.tau - 1) * (P.l / 8 + 2 * (P.lambda / 8) + 2) + (P.lambda / 8 + 2) + P.l / 8 + P.lambda / 8
    + ((List.range P.tau).map fun i => ((if i < P.t0 then P.k0 else P.k1) + 2) * (P.lambda / 8)).sum
    + P.lambda / 8 + 16

/-- **C35.** Consistency of the parameter table. -/
theorem C35_table (i : ParamId) :
    let P := params i
    P.id = some i ∧ P.k0 * P.t0 + P.k1 * P.t1 = P.lambda ∧ P.t0 + P.t1 = P.tau ∧
      P.l = P.Lke + P.beta * P.Lenc ∧ P.sigSize = layoutSize P ∧
      P.lambda % 8 = 0 ∧ P.l % 8 = 0 ∧ P.pkSize % 2 = 0 ∧ P.skSize = P.pkSize / 2 + P.lambda / 8 ∧
      P.lambda = 32 * P.Nwd ∧ P.R = P.Nwd + 6 := by
  cases i <;> decide

/-- Number of S-boxes of the key schedule that expands `nk` words to `n` words (FIPS 197, section 5.2): four for each
word whose index is a multiple of `nk`, and for `nk = 8` also for those with remainder 4. -/
def scheduleSboxes (nk n : Nat) : Nat :=
  4 * ((List.range n).filter fun j => nk ≤ j ∧ (j % nk = 0 ∨ (6 < nk ∧ j % nk = 4))).length

/-- **C35.** The sizes fit the circuit.  AES sets: `Ske` S-boxes of the key schedule for `R + 1` round keys of four
words, `Senc` S-boxes of one block of 16 bytes in `R` rounds, as many blocks as the key needs, a witness of the key
and the outputs of the key schedule's S-boxes, and of the states after all rounds but the last for each block.
EM sets: no key schedule, one block of the size of the key, whose witness begins with the key. -/
theorem C35_circuit (i : ParamId) :
    let P := params i
    let em := i ∈ [.pEM128S, .pEM128F, .pEM192S, .pEM192F, .pEM256S, .pEM256F]
    (¬em → P.Ske = scheduleSboxes P.Nwd (4 * (P.R + 1)) ∧ P.Senc = 16 * P.R ∧ P.beta = (P.lambda + 127) / 128 ∧
      P.Lke = P.lambda + 8 * P.Ske ∧ P.Lenc = 128 * (P.R - 1) ∧ P.pkSize = 2 * (16 * P.beta) ∧
      P.C = P.Ske + P.beta * P.Senc) ∧
    (em → P.Ske = 0 ∧ P.Senc = 4 * P.Nwd * P.R ∧ P.beta = 1 ∧ P.Lke = 0 ∧
      P.Lenc = P.lambda + 32 * P.Nwd * (P.R - 1) ∧ P.pkSize = 2 * (4 * P.Nwd)) := by
  cases i <;> decide

/-- **C35.** The bounds used for arrays suffice: `uint8_t[MAX_LAMBDA_BYTES]`, `[MAX_DEPTH]`, `[MAX_TAU]`. -/
theorem C35_bounds (i : ParamId) :
    (params i).lambda / 8 ≤ MAX_LAMBDA_BYTES ∧ (params i).lambda ≤ MAX_LAMBDA ∧ (params i).k0 ≤ MAX_DEPTH ∧
      (params i).k1 ≤ MAX_DEPTH ∧ (params i).tau ≤ MAX_TAU := by
  cases i <;> decide

/-- **C35.** Known ids give their parameter set ... -/
theorem C35_known :
    getParamset 1 = params .p128S ∧ getParamset 2 = params .p128F ∧ getParamset 3 = params .p192S ∧
      getParamset 4 = params .p192F ∧ getParamset 5 = params .p256S ∧ getParamset 6 = params .p256F ∧
      getParamset 7 = params .pEM128S ∧ getParamset 8 = params .pEM128F ∧ getParamset 9 = params .pEM192S ∧
      getParamset 10 = params .pEM192F ∧ getParamset 11 = params .pEM256S ∧ getParamset 12 = params .pEM256F := by
  decide

/-- **C35.** ... and every other value of the id gives the invalid parameter set, whose id is
`PARAMETER_SET_INVALID` and whose fields are 0. -/
theorem C35_unknown (n : Nat) (h : n = 0 ∨ 13 ≤ n) :
    getParamset n = ⟨none, 0, 0, 0, 0, 0, 0, 0, 0, 0, 0, 0, 0, 0, 0, 0, 0, 0, 0⟩ := by
  have : paramIdOfNat n = none := by
    unfold paramIdOfNat
    split <;> first | omega | rfl
  unfold getParamset
  rw [this]
  rfl

example : (getParamset 13).id = none ∧ (getParamset 13).sigSize = 0 := by
  rw [C35_unknown 13 (.inr (by decide))]; exact ⟨rfl, rfl⟩

end Faest.Props
