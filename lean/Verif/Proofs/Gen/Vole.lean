/-
vole.c, translated: it does what the flat model (Model/Flat.lean) says.
-/
import Verif.Proofs.Gen.Vc

set_option linter.unusedVariables false

namespace Faest.C

section
variable {D E F : Blocks} {kd : Kind} {δ : Type} {Q : δ → Blocks → Prop}

/-! ### `ConvertToVole` -/

theorem rIdx_le {N r c o : Nat} (hc : c ≤ N) : (r % 2 * N + c) * o ≤ 2 * N * o := by
  have h1 : r % 2 * N ≤ 1 * N := Nat.mul_le_mul_right _ (by omega)
  exact Nat.mul_le_mul_right _ (by omega)

theorem t_convert {lam depth outLen sv voff : Nat} {iv : List Byte} {sd mv mv' : Mem Byte} {bot : Bool} {ou : Option (List Byte)}
    {piv psd pu : CPtr} (hlb : lam / 8 ≤ 32) (hd : depth ≤ 12) (hol : outLen ≤ 65536)
    (hiv : View F piv (ofList iv)) (hsd : View F psd sd)
    (h : Flat.convertToVole iv sd bot lam depth outLen mv voff = some (mv', ou))
    {R : Unit → Blocks → Prop}
    (k : ∀ s mr, (bot = true → ou = none) →
      (bot = false → ∃ ul, ou = some ul ∧ rdN mr (rIdx (2 ^ depth) depth 0 * outLen) outLen = some ul) →
      T (bl .heap s mr + (bl kd sv mv' + F))
        ((if (¬ (bot = true)) ∧ (pu.isSome = true) then (do
          memcpy (α := Byte) pu (padd (some ⟨s, 0⟩) (rIdx (2 ^ depth) depth 0 * outLen)) outLen
          pure ())
        else (do
          pure ())) >>= fun _ => cfree .heap (some ⟨s, 0⟩) >>= fun _ => pure ()) R) :
    T (bl kd sv mv + F) (Gen.ConvertToVole piv psd bot lam depth outLen pu (some ⟨sv, voff⟩)) R := by
  unfold Flat.convertToVole at h
  rw [if_pos (by omega)] at h
  inv h
  obtain ⟨N, hN, _, hu1, _, hu2, r0, hr0, r1, hr1, v1, hv1, ⟨v2, r2⟩, hl, h⟩ := h
  have hp : 2 ^ depth ≤ 2 ^ 12 := Nat.pow_le_pow_right (by decide) hd
  rw [hN] at hp k
  unfold u32 at hu2
  split_ifs at hu2 with hb2
  clear hu1 hu2
  have e2 : 1 <<< depth = N := by rw [Nat.shiftLeft_eq, Nat.one_mul, hN]
  have hov : v2 = mv' ∧ (bot = true → ou = none) ∧ (bot = false → ∃ ul, ou = some ul ∧ rdN r2 (rIdx N depth 0 * outLen) outLen = some ul) := by
    cases bot
    · simp only [Bool.false_eq_true, if_false, Option.bind_eq_some_iff, Option.some.injEq, Prod.mk.injEq] at h
      obtain ⟨ul, hul, rfl, rfl⟩ := h
      exact ⟨rfl, by simp, fun _ => ⟨ul, rfl, hul⟩⟩
    · simp only [if_true, Option.some.injEq, Prod.mk.injEq] at h
      obtain ⟨rfl, rfl⟩ := h
      exact ⟨rfl, by simp, by simp⟩
  obtain ⟨rfl, ho1, ho2⟩ := hov
  clear h
  have hdo : depth * outLen ≤ 12 * 65536 := Nat.mul_le_mul hd hol
  unfold Gen.ConvertToVole
  refine t_ishl (by omega) ?_
  simp only [e2]
  rw [Nat.mod_eq_of_lt (by omega : 2 * N < _)]
  refine t_alloc fun sr => ?_
  have hz : (0 * N % 4294967296 + 0) % 4294967296 * outLen % 4294967296 = rIdx N 0 0 * outLen := by simp [rIdx]
  refine t_run (b := ()) (E := bl .heap sr r0 + (bl kd sv mv + F)) rfl ?_ ?_
  · unfold Flat.cvInit at hr0
    cases bot
    · rw [if_pos (by simp)]
      simp only [Bool.false_eq_true, if_false] at hr0
      inv hr0
      obtain ⟨o, ho, hw⟩ := hr0
      rw [hz]
      refine t_run rfl (prg_run (View.there (View.there hsd)) (View.there (View.there hiv)) ho (o := 0 + rIdx N 0 0 * outLen) ?_ (by omega)) (t_pure ⟨rfl, rfl⟩)
      rw [Nat.zero_add]; exact hw
    · rw [if_neg (by simp)]
      simp only [if_true, Option.some.injEq] at hr0
      rw [← hr0]
      exact t_pure ⟨rfl, rfl⟩
  obtain ⟨f, f0, fN, hf⟩ := forR_seq hr1
  have hN0 : 0 < N := by rw [← hN]; exact Nat.pow_pos (by decide)
  refine t_while (N - 1) (fun i => 1 + i) (fun i => bl .heap sr (f i) + (bl kd sv mv + F)) (by omega) rfl (by rw [f0])
    (fun i hi => by simp; omega) (by simp; omega) (fun i hi => ?_) ?_
  · have hb := hf i hi
    inv hb
    obtain ⟨s, hs, o, ho, hw⟩ := hb
    have m1 : lam / 8 * (1 + i) ≤ 32 * 4096 := Nat.mul_le_mul hlb (by omega)
    have m2 : (0 % 2 * N + (1 + i)) * outLen ≤ 2 * N * outLen := rIdx_le (by omega)
    have w1 : (0 * N % 4294967296 + (1 + i)) % 4294967296 * outLen % 4294967296 = rIdx N 0 (1 + i) * outLen := by
      unfold rIdx
      rw [Nat.zero_mul, Nat.zero_mod, Nat.zero_add, Nat.mod_eq_of_lt (by omega : 1 + i < _)]
      simp only [Nat.zero_mod, Nat.zero_mul, Nat.zero_add] at m2 ⊢
      exact Nat.mod_eq_of_lt (by omega)
    rw [w1, Nat.mod_eq_of_lt (by omega : lam / 8 * (1 + i) < _)]
    refine t_run rfl (prg_run (View.ptr (View.there (View.there hsd)) hs) (View.there (View.there hiv)) ho
      (o := 0 + rIdx N 0 (1 + i) * outLen) ?_ (by omega)) (t_pure ⟨?_, rfl⟩)
    · rw [Nat.zero_add]; exact hw
    · omega
  rw [fN, Nat.mod_eq_of_lt (by omega : depth * outLen < _)]
  refine t_memset0 (by hfind1) hv1 ?_
  obtain ⟨G, G0, GN, hG⟩ := forN_seq hl
  refine t_while depth (fun i => i) (fun i => bl .heap sr (G i).2 + (bl kd sv (G i).1 + F)) (by omega) rfl (by rw [G0]; hfind)
    (fun i hi => by simpa using hi) (by simp) (fun j hj => ?_) ?_
  · have hb := hG j hj
    obtain ⟨K, K0, KN, hK⟩ := forN_seq hb
    rw [Nat.mod_eq_of_lt (by omega : j + 1 < _)]
    refine t_cshr (by omega) ?_
    rw [Nat.shiftRight_eq_div_pow]
    have hdiv : N / 2 ^ (j + 1) ≤ N / 2 := by
      rw [Nat.pow_succ, Nat.mul_comm, ← Nat.div_div_eq_div_mul]
      exact Nat.div_le_self _ _
    refine t_while (N / 2 ^ (j + 1)) (fun i => i) (fun i => bl .heap sr (K i).2 + (bl kd sv (K i).1 + F)) (by omega) rfl
      (by rw [K0]) (fun i hi => by simpa using hi) (by simp) (fun i hi => ?_) ?_
    · have hb := hK i hi
      inv hb
      obtain ⟨vj, hvj, p1, hp1, x, hx, v', hv', p0, hp0, p1', hp1', y, hy, r', hr', e⟩ := hb
      rw [hp1] at hp1'
      cases hp1'
      unfold ptr at hvj hp1 hp0
      split_ifs at hvj hp1 hp0
      cases hvj; cases hp1; cases hp0
      have m0 : j * outLen ≤ 12 * 65536 := Nat.mul_le_mul (by omega) hol
      have m1 : (j % 2 * N + (2 * i + 1)) * outLen ≤ 2 * N * outLen := rIdx_le (by omega)
      have m2 : (j % 2 * N + 2 * i) * outLen ≤ 2 * N * outLen := rIdx_le (by omega)
      have m3 : ((j + 1) % 2 * N + i) * outLen ≤ 2 * N * outLen := rIdx_le (by omega)
      have n1 : j % 2 * N ≤ 1 * N := Nat.mul_le_mul_right _ (by omega)
      have n2 : (j + 1) % 2 * N ≤ 1 * N := Nat.mul_le_mul_right _ (by omega)
      have w1 : (j % 2 * N % 4294967296 + (2 * i % 4294967296 + 1) % 4294967296) % 4294967296 * outLen % 4294967296 =
          rIdx N j (2 * i + 1) * outLen := by
        unfold rIdx
        rw [show (j % 2 * N % 4294967296 + (2 * i % 4294967296 + 1) % 4294967296) % 4294967296 = j % 2 * N + (2 * i + 1) by omega]
        exact Nat.mod_eq_of_lt (by omega)
      have w2 : (j % 2 * N % 4294967296 + 2 * i % 4294967296) % 4294967296 * outLen % 4294967296 =
          rIdx N j (2 * i) * outLen := by
        unfold rIdx
        rw [show (j % 2 * N % 4294967296 + 2 * i % 4294967296) % 4294967296 = j % 2 * N + 2 * i by omega]
        exact Nat.mod_eq_of_lt (by omega)
      have w3 : ((j + 1) % 2 * N % 4294967296 + i) % 4294967296 * outLen % 4294967296 =
          rIdx N (j + 1) i * outLen := by
        unfold rIdx
        rw [show ((j + 1) % 2 * N % 4294967296 + i) % 4294967296 = (j + 1) % 2 * N + i by omega]
        exact Nat.mod_eq_of_lt (by omega)
      rw [w1, w2, w3, Nat.mod_eq_of_lt (by omega : j * outLen < _)]
      simp only [padd, Option.map_some, Nat.zero_add]
      refine t_run (by hfind1) (xor_run (Or.inr ⟨_, rfl, Le.rfl, Or.inl (Nat.le_refl _)⟩) (Or.inl View.here) hx hv' (by omega)) ?_
      have hdis : rIdx N (j + 1) i * outLen ≤ rIdx N j (2 * i) * outLen ∧ rIdx N (j + 1) i * outLen ≤ rIdx N j (2 * i + 1) * outLen ∨
          rIdx N j (2 * i) * outLen + outLen ≤ rIdx N (j + 1) i * outLen ∧
          rIdx N j (2 * i + 1) * outLen + outLen ≤ rIdx N (j + 1) i * outLen := by
        unfold rIdx
        rcases Nat.mod_two_eq_zero_or_one j with hj2 | hj2
        · right
          have : (j + 1) % 2 = 1 := by omega
          rw [hj2, this]
          constructor
          · rw [← Nat.succ_mul]; exact Nat.mul_le_mul_right _ (by omega)
          · rw [← Nat.succ_mul]; exact Nat.mul_le_mul_right _ (by omega)
        · left
          have : (j + 1) % 2 = 0 := by omega
          rw [hj2, this]
          constructor
          · exact Nat.mul_le_mul_right _ (by omega)
          · exact Nat.mul_le_mul_right _ (by omega)
      refine t_run (by hfind1) (xor_run (Or.inr ⟨_, rfl, Le.rfl, by omega⟩) (Or.inr ⟨_, rfl, Le.rfl, by omega⟩) hy hr' (by omega))
        (t_pure ⟨by omega, ?_⟩)
      rw [← e]
    · rw [KN]
      exact t_pure ⟨rfl, rfl⟩
  rw [GN]
  have m0 : (depth % 2 * N + 0) * outLen ≤ 2 * N * outLen := rIdx_le (by omega)
  have w0 : (depth % 2 * N % 4294967296 + 0) % 4294967296 * outLen % 4294967296 = rIdx N depth 0 * outLen := by
    unfold rIdx
    have : depth % 2 * N ≤ 1 * N := Nat.mul_le_mul_right _ (by omega)
    rw [Nat.mod_eq_of_lt (by omega : depth % 2 * N < _), Nat.mod_eq_of_lt (by omega : depth % 2 * N + 0 < _)]
    exact Nat.mod_eq_of_lt (by omega)
  rw [w0]
  exact k sr r2 ho1 ho2

theorem convert_run {lam depth outLen sv voff su uoff : Nat} {iv : List Byte} {sd mv mv' mu mu' : Mem Byte} {ul : List Byte}
    {piv psd : CPtr} {kd' : Kind} (hlb : lam / 8 ≤ 32) (hd : depth ≤ 12) (hol : 0 < outLen ∧ outLen ≤ 65536)
    (hiv : View F piv (ofList iv)) (hsd : View F psd sd)
    (h : Flat.convertToVole iv sd false lam depth outLen mv voff = some (mv', some ul)) (hw : wrN mu uoff ul = some mu') :
    Runs (bl kd sv mv + (bl kd' su mu + F)) (Gen.ConvertToVole piv psd false lam depth outLen (some ⟨su, uoff⟩) (some ⟨sv, voff⟩)) ()
      (bl kd sv mv' + (bl kd' su mu' + F)) := by
  refine t_convert hlb hd hol.2 (View.there hiv) (View.there hsd) h fun s mr _ h2 => ?_
  obtain ⟨ul', e, hr⟩ := h2 rfl
  cases e
  rw [if_pos (by simp)]
  refine t_assoc (t_memcpy (by hfind1) (View.padd View.here0) hol.1 (rdN_at hr) hw (t_pbind ?_))
  exact t_free (by hfind1) (t_pure ⟨rfl, by hfind⟩)

theorem convert_bot_run {lam depth outLen sv voff : Nat} {iv : List Byte} {sd mv mv' : Mem Byte} {ou : Option (List Byte)}
    {piv psd : CPtr} (hlb : lam / 8 ≤ 32) (hd : depth ≤ 12) (hol : outLen ≤ 65536)
    (hiv : View F piv (ofList iv)) (hsd : View F psd sd)
    (h : Flat.convertToVole iv sd true lam depth outLen mv voff = some (mv', ou)) :
    Runs (bl kd sv mv + F) (Gen.ConvertToVole piv psd true lam depth outLen none (some ⟨sv, voff⟩)) () (bl kd sv mv' + F) := by
  refine t_convert hlb hd hol hiv hsd h fun s mr _ h2 => ?_
  rw [if_neg (by simp)]
  exact t_pbind (t_free (by hfind1) (t_pure ⟨rfl, by hfind⟩))

/-! ### `vole_commit` -/

/-- The blocks of one vector commitment. -/
structure ComId where
  h : Nat
  k : Nat
  com : Nat
  sd : Nat

/-- The pointers to the blocks. -/
def ComId.c (x : ComId) : VecComC := ⟨some (some ⟨x.h, 0⟩), some (some ⟨x.k, 0⟩), some (some ⟨x.com, 0⟩), some (some ⟨x.sd, 0⟩)⟩

/-- The contents of the blocks. -/
def ComId.bl (x : ComId) (vc : Flat.VecCom) : Blocks :=
  C.bl .heap x.h vc.h + (C.bl .heap x.k vc.k + (C.bl .heap x.com vc.com + C.bl .heap x.sd vc.sd))

/-- The blocks of several vector commitments. -/
def comsBl : List (ComId × Flat.VecCom) → Blocks
  | [] => 0
  | x :: l => x.1.bl x.2 + comsBl l

theorem comsBl_append (l l' : List (ComId × Flat.VecCom)) : comsBl (l ++ l') = comsBl l + comsBl l' := by
  induction l with
  | nil => simp [comsBl]
  | cons x l ih => rw [List.cons_append, comsBl, comsBl, ih, add_assoc]

/-- The array of the vector commitments after the first ones. -/
def comArr (tau : Nat) (L : List (ComId × Flat.VecCom)) : Mem VecComC :=
  L.map (fun x => some x.1.c) ++ List.replicate (tau - L.length) (some zeroed)

theorem comArr_rd {tau : Nat} {L : List (ComId × Flat.VecCom)} (h : L.length < tau) :
    rd (comArr tau L) L.length = some zeroed := by
  unfold rd comArr
  rw [List.getElem?_append_right (by simp)]
  simp only [List.length_map, Nat.sub_self]
  rw [List.getElem?_replicate, if_pos (by omega)]
  rfl

theorem comArr_wr {tau : Nat} {L : List (ComId × Flat.VecCom)} {x : ComId × Flat.VecCom} (h : L.length < tau) :
    wr (comArr tau L) L.length x.1.c = some (comArr tau (L ++ [x])) := by
  unfold wr comArr
  rw [if_pos (by simp; omega)]
  rw [List.set_append_right _ _ (by simp)]
  simp only [List.length_map, Nat.sub_self, List.map_append, List.map_cons, List.map_nil, List.length_append,
    List.length_cons, List.length_nil, List.append_assoc]
  rw [show tau - L.length = tau - (L.length + 1) + 1 by omega, List.replicate_succ, List.set_cons_zero]
  rfl

theorem comArr_rd' {tau i : Nat} {L : List (ComId × Flat.VecCom)} {x : ComId × Flat.VecCom} (h : L[i]? = some x) :
    rd (comArr tau L) i = some x.1.c := by
  unfold rd comArr
  have hi : i < L.length := by
    by_contra hc
    rw [List.getElem?_eq_none (by omega)] at h
    cases h
  rw [List.getElem?_append_left (by simpa using hi), List.getElem?_map, h]
  rfl

theorem View.sub {α : Type} [Ty α] {A : Blocks} {p : CPtr} {μ : Mem α} (h : View A p μ) (hs : ∀ x, x ∈ A → x ∈ D) :
    View D p μ := by
  obtain ⟨b, o, kd, m, e, hm, hle⟩ := h
  exact ⟨b, o, kd, m, e, hs _ hm, hle⟩

/-- Some blocks are among others. -/
macro "hsub" : tactic => `(tactic| (intro x hx; simp only [Multiset.mem_add] at hx ⊢; tauto))

/-- The parameters of the vector commitments. -/
structure VoleP (P : Params) (cnt : Nat) : Prop extends ChalP P where
  lam : LamOk P.lambda
  col : ∀ i, i < P.tau → colAt P i < cnt
  tau0 : 0 < P.tau
  cntl : cnt ≤ 65536

theorem voleCommit_inv {X : XOF} {iv : List Byte} {P : Params} {eb i : Nat} {ek : Mem Byte} {s s' : Flat.VoleCommitSt}
    (h : Flat.voleCommitStep X iv P eb ek i s = some s') :
    ∃ key vc v u ui hb, ptr ek (i * (P.lambda / 8)) = some key ∧
      Flat.vectorCommitment X key iv P.lambda (if i < P.t0 then P.k0 else P.k1) = some vc ∧
      Flat.convertToVole iv vc.sd false P.lambda (if i < P.t0 then P.k0 else P.k1) eb s.v (s.vIdx * eb) = some (v, some u) ∧
      wrN s.ui (i * eb) u = some ui ∧ rdN vc.h 0 (P.lambda / 8 * 2) = some hb ∧
      s' = ⟨s.vecCom ++ [vc], ui, v, s.vIdx + (if i < P.t0 then P.k0 else P.k1), s.ctx ++ hb⟩ := by
  unfold Flat.voleCommitStep at h
  obtain ⟨key, hkey, h⟩ := Option.bind_eq_some_iff.1 h
  obtain ⟨vc, hvc, h⟩ := Option.bind_eq_some_iff.1 h
  obtain ⟨⟨v, u⟩, hv, h⟩ := Option.bind_eq_some_iff.1 h
  simp only at h
  obtain ⟨u, hu, h4⟩ := Option.bind_eq_some_iff.1 h
  obtain ⟨ui, hui, h4⟩ := Option.bind_eq_some_iff.1 h4
  obtain ⟨hb, hhb, h4⟩ := Option.bind_eq_some_iff.1 h4
  subst hu
  exact ⟨key, vc, v, u, ui, hb, hkey, hvc, hv, hui, hhb, (Option.some.inj h4).symm⟩

theorem t_vole_commit {I : HImpl} {X : XOF} (S : HSpec I X) {P : Params} {root dst dst' mh mh' mu mv : Mem Byte} {iv : List Byte} {ellhat cnt : Nat}
    {vc : Flat.VoleCom} {sh sV sg su sv offC : Nat} {kh kg : Kind} {proot piv pV : CPtr} {g : Unit → CM δ}
    (hP : VoleP P cnt) (hivl : iv.length = 16) (hel : 8 ≤ ellhat ∧ ellhat ≤ 65536)
    (hroot : View F proot root) (hiv : View (bl kg sg dst + F) piv (ofList iv))
    (hV : Cols F pV (some ⟨sv, 0⟩) ((ellhat + 7) / 8) cnt)
    (h : Flat.voleCommit X root iv ellhat P dst offC mu mv = some (vc, dst'))
    (hw : wrN mh 0 vc.hcom = some mh')
    (k : ∀ L : List (ComId × Flat.VecCom), L.map Prod.snd = vc.vecCom → L.length = P.tau →
      T (bl kh sh mh' + (bl .heap sV (comArr P.tau L) + (bl kg sg dst' + (bl .heap su vc.u + (bl .heap sv vc.v + (comsBl L + F))))))
        (g ()) Q) :
    T (bl kh sh mh + (bl .heap sV (comArr P.tau []) + (bl kg sg dst + (bl .heap su mu + (bl .heap sv mv + F)))))
      (Gen.vole_commit I proot piv ellhat P (some ⟨sh, 0⟩) (some ⟨sV, 0⟩) (some ⟨sg, offC⟩) (some ⟨su, 0⟩) pV >>= g) Q := by
  unfold Flat.voleCommit at h
  inv h
  obtain ⟨_, -, ek, hek, ex, hex, s, hs, u0, hu0, u1, hu1, d1, hd1, e⟩ := h
  obtain ⟨rfl, rfl⟩ : _ = vc ∧ d1 = dst' := by simpa using e
  simp only at hw k
  obtain ⟨f, f0, fN, hf⟩ := forN_seq hs
  have hstep := fun i hi => voleCommit_inv (hf i hi)
  have hvi : ∀ i, i ≤ P.tau → (f i).vIdx = colAt P i ∧ (f i).vecCom.length = i := by
    intro i
    induction i with
    | zero => intro _; rw [f0]; simp [colAt]
    | succ i ih =>
      intro hi
      obtain ⟨_, _, _, _, _, _, -, -, -, -, -, e⟩ := hstep i (by omega)
      obtain ⟨h1, h2⟩ := ih (by omega)
      rw [e]
      simp only [List.length_append, List.length_cons, List.length_nil, h1, h2, colAt_succ, and_self]
  have htau := hP.taul
  have hlb : 0 < P.lambda / 8 ∧ P.lambda / 8 ≤ 32 := by rcases hP.lam with hl | hl | hl <;> rw [hl] <;> decide
  have we : (ellhat + 7) % 4294967296 / 8 = (ellhat + 7) / 8 := by omega
  have heb : 0 < (ellhat + 7) / 8 ∧ (ellhat + 7) / 8 ≤ 8192 + 1 := by omega
  unfold Gen.vole_commit
  simp only [we]
  generalize (ellhat + 7) / 8 = eb at *
  have mt1 : P.tau * eb ≤ 64 * 8193 := Nat.mul_le_mul htau heb.2
  have mt2 : P.tau * (P.lambda / 8) ≤ 64 * 32 := Nat.mul_le_mul htau hlb.2
  have mt3 : P.lambda / 8 * P.tau ≤ 32 * 64 := Nat.mul_le_mul hlb.2 htau
  have w1 : P.tau * eb % 4294967296 = P.tau * eb := Nat.mod_eq_of_lt (by omega)
  have w2 : P.tau * (P.lambda / 8) % 4294967296 = P.tau * (P.lambda / 8) := Nat.mod_eq_of_lt (by omega)
  have w3 : P.lambda / 8 * P.tau % 4294967296 = P.lambda / 8 * P.tau := Nat.mod_eq_of_lt (by omega)
  have w4 : P.lambda / 8 * 2 % 4294967296 = P.lambda / 8 * 2 := Nat.mod_eq_of_lt (by omega)
  simp only [w1, w2, w3, w4]
  refine t_assoc (t_alloc fun si => t_assoc (t_alloc fun sk => t_assoc ?_))
  refine t_run rfl (prg_run (View.sub hroot (by hsub)) (View.sub hiv (by hsub)) hek hex (by omega)) ?_
  refine t_assoc (t_hnew S fun c0 D0 hr0 => ?_)
  refine t_assoc (t_hinit1 S hr0 fun hb => ?_)
  have hdep : ∀ i, (if i < P.t0 then P.k0 else P.k1) ≤ 12 := by
    intro i
    have := hP.k0
    have := hP.k1
    split_ifs <;> omega
  refine t_assoc (t_whileI (fun t D => ∃ (i : Nat) (L : List (ComId × Flat.VecCom)), i ≤ P.tau ∧
      t = (S.val hb P.lambda (f i).ctx, colAt P i, i) ∧ L.map Prod.snd = (f i).vecCom ∧
      D = S.blk hb P.lambda (f i).ctx + (bl .heap sk ex + (bl .heap si (f i).ui + (bl kh sh mh + (bl .heap sV (comArr P.tau L) + (bl kg sg dst +
        (bl .heap su mu + (bl .heap sv (f i).v + (comsBl L + F))))))))) (fun t => P.tau - t.2.2)
    ⟨0, [], by omega, by rw [f0]; simp [colAt], by rw [f0]; rfl, by rw [f0]; simp only [comsBl, zero_add]⟩
    (by simp only; omega) ?_ ?_)
  · rintro t D ⟨i, L, hi, rfl, hL, rfl⟩ hc
    have hi' : i < P.tau := by simpa using hc
    obtain ⟨key, vc, v, u, ui, hby, hkey, hvc, hv, hui, hhb, e⟩ := hstep i hi'
    obtain ⟨hv1, hv2⟩ := hvi i (by omega)
    have hlen : L.length = i := by
      have := congrArg List.length hL
      simpa [hv2] using this
    have hcol := hP.col i hi'
    have hdi := hdep i
    simp only
    generalize hdE : (if i < P.t0 then P.k0 else P.k1) = depth at *
    have m1 : i * (P.lambda / 8) ≤ 64 * 32 := Nat.mul_le_mul (by omega) hlb.2
    have m2 : i * eb ≤ 64 * 8193 := Nat.mul_le_mul (by omega) heb.2
    refine t_ld (View.sub View.last0 (by hsub)) (hlen ▸ comArr_rd (by omega)) ?_
    rw [Nat.mod_eq_of_lt (by omega : i * (P.lambda / 8) < _), Nat.mod_eq_of_lt (by omega : i * eb < _)]
    refine t_vector_commitment S rfl hP.lam hivl (View.sub hiv (by hsub)) (View.ptr (View.there View.here0) hkey) hvc hdi
      fun a1 a2 a3 a4 => ?_
    have hcl := hP.cntl
    have hL' : (L ++ [((⟨a1, a2, a3, a4⟩ : ComId), vc)]).map Prod.snd = (f (i + 1)).vecCom := by
      rw [e, List.map_append, hL]; rfl
    have hget : (L ++ [((⟨a1, a2, a3, a4⟩ : ComId), vc)])[i]? = some (⟨a1, a2, a3, a4⟩, vc) := by
      rw [List.getElem?_append_right (by omega)]; simp [hlen]
    refine t_st (m' := comArr P.tau (L ++ [((⟨a1, a2, a3, a4⟩ : ComId), vc)])) (by hfind1)
      (by rw [Nat.zero_add, ← hlen]; exact comArr_wr (x := (⟨a1, a2, a3, a4⟩, vc)) (by omega)) ?_
    refine t_ld View.here0 (comArr_rd' hget) (t_uget rfl ?_)
    obtain ⟨μ, hμ, hcols⟩ := hV
    refine t_ld (View.sub hμ (by hsub)) (hcols _ hcol) ?_
    rw [hv1] at hv
    simp only [padd, Option.map_some, Nat.zero_add]
    refine t_run (by hfind) (convert_run (kd := .heap) (kd' := .heap) hlb.2 hdi (by omega) (View.sub hiv (by hsub))
      (View.sub View.last0 (by hsub)) hv hui) ?_
    refine t_ld (View.sub View.last0 (by hsub)) (comArr_rd' hget) (t_uget rfl ?_)
    refine t_perm (by hfind1) (t_hupd1 S (b := hb) (View.sub View.last0 (by hsub)) (by omega) hhb (by omega) (t_pure ?_))
    refine ⟨⟨i + 1, _, by omega, ?_, hL', ?_⟩, by simp only; omega⟩
    · have hd1 := colAt_succ P i
      rw [e, hd1, hdE]
      simp only
      rw [Nat.mod_eq_of_lt (by omega : colAt P i + depth < _), Nat.mod_eq_of_lt (by omega : i + 1 < _)]
    · rw [e, comsBl_append]
      simp only [comsBl, ComId.bl, add_zero, add_assoc]
      hfind
  · rintro t D ⟨i, L, hi, rfl, hL, rfl⟩ hc
    have hi' : i = P.tau := by
      have : ¬ i < P.tau := by simpa using hc
      omega
    subst hi'
    have hLl : L.length = P.tau := by
      have := congrArg List.length hL
      rwa [(hvi P.tau le_rfl).2, List.length_map] at this
    rw [fN] at *
    simp only
    refine t_assoc (t_free (by hfind1) (t_assoc ?_))
    refine t_memcpy (by hfind1) (View.sub (View.last0 (k := .heap) (i := si) (m := s.ui)) (by hsub)) heb.1 hu0 hu1 ?_
    obtain ⟨q, q0, qN, hq⟩ := forR_seq hd1
    refine t_assoc (t_while (P.tau - 1) (fun i => 1 + i) (fun i => bl kg sg (q i) + (S.blk hb P.lambda s.ctx + (bl .heap si s.ui + (bl .heap su u1 + (bl kh sh mh +
      (bl .heap sV (comArr P.tau L) + (bl .heap sv s.v + (comsBl L + F))))))))
      (by omega) rfl (by rw [q0]; hfind) (fun i hi => by simp; omega) (by have := hP.tau0; simp; omega) (fun i hi => ?_) ?_)
    · have hx := hq i hi
      inv hx
      obtain ⟨p, hp, x, hx, hd⟩ := hx
      have m1 : (1 + i) * eb ≤ 64 * 8193 := Nat.mul_le_mul (by omega) heb.2
      have m2 : i * eb ≤ 64 * 8193 := Nat.mul_le_mul (by omega) heb.2
      have w5 : (1 + i + 4294967296 - 1) % 4294967296 = i := by omega
      simp only [w5]
      rw [Nat.mod_eq_of_lt (by omega : (1 + i) * eb < _), Nat.mod_eq_of_lt (by omega : i * eb < _),
        Nat.mod_eq_of_lt (by omega : 1 + i + 1 < _)]
      rw [Nat.add_sub_cancel_left] at hd
      simp only [padd, Option.map_some]
      refine t_run rfl (xor_run (Or.inl (View.there (View.there View.here0)))
        (Or.inl (View.ptr (p := some ⟨si, 0⟩) (View.there View.here0) hp)) hx hd (by omega)) (t_pure ⟨by omega, rfl⟩)
    · rw [qN]
      refine t_assoc (t_free (by hfind1) (t_assoc ?_))
      refine t_perm (by hfind1) (t_H1_final S (c := hb) (by hfind1) hw (by omega) fun c2 D2 hr2 => ?_)
      exact t_assoc (t_hdrop S hr2 (t_pbind (t_perm (by hfind) (k L hL hLl))))

/-! ### `vole_reconstruct` -/

/-- An array of pointers to given blocks. -/
def Ptrs (F : Blocks) (p : CPtr) (n : Nat) (f : Nat → Option (Mem Byte)) : Prop :=
  ∃ μ : Mem CPtr, View F p μ ∧ ∀ i m, i < n → f i = some m → ∃ q, rd μ i = some q ∧ View F q m

theorem voleRec_inv {X : XOF} {iv : List Byte} {ch : Mem Byte} {pd cj : Nat → Option (Mem Byte)} {P : Params} {eb i : Nat}
    {s s' : Flat.VoleRecSt} (h : Flat.voleRecStep X iv ch pd cj P eb i s = some s') :
    ∃ r co idx mp mc vr sd q ou hb, chalDec ch i P.k0 P.t0 P.k1 P.t1 (malloc 12) = some (r, co) ∧
      numRec (if i < P.t0 then P.k0 else P.k1) co = some idx ∧ pd i = some mp ∧ cj i = some mc ∧
      Flat.vectorReconstruction X iv mp mc co P.lambda (if i < P.t0 then P.k0 else P.k1) s.vrec = some vr ∧
      forR 1 (2 ^ (if i < P.t0 then P.k0 else P.k1)) s.sd (fun j sd => do
        let x ← rdN vr.s (P.lambda / 8 * Nat.xor j idx) (P.lambda / 8)
        wrN sd (j * (P.lambda / 8)) x) = some sd ∧
      Flat.convertToVole iv sd true P.lambda (if i < P.t0 then P.k0 else P.k1) eb s.q (s.qIdx * eb) = some (q, ou) ∧
      rdN vr.h 0 (P.lambda / 8 * 2) = some hb ∧
      s' = ⟨vr, sd, q, s.qIdx + (if i < P.t0 then P.k0 else P.k1), s.ctx ++ hb⟩ := by
  unfold Flat.voleRecStep at h
  obtain ⟨⟨r, co⟩, h1, h⟩ := Option.bind_eq_some_iff.1 h
  obtain ⟨idx, h2, h⟩ := Option.bind_eq_some_iff.1 h
  obtain ⟨mp, h3, h⟩ := Option.bind_eq_some_iff.1 h
  obtain ⟨mc, h4, h⟩ := Option.bind_eq_some_iff.1 h
  obtain ⟨vr, h5, h⟩ := Option.bind_eq_some_iff.1 h
  obtain ⟨sd, h6, h⟩ := Option.bind_eq_some_iff.1 h
  obtain ⟨⟨q, ou⟩, h7, h⟩ := Option.bind_eq_some_iff.1 h
  obtain ⟨hb, h8, h⟩ := Option.bind_eq_some_iff.1 h
  exact ⟨r, co, idx, mp, mc, vr, sd, q, ou, hb, h1, h2, h3, h4, h5, h6, h7, h8, (Option.some.inj h).symm⟩

theorem t_vole_reconstruct {I : HImpl} {X : XOF} (S : HSpec I X) {P : Params} {ch mh mh' mq mq' : Mem Byte} {iv hcom : List Byte} {ellhat cnt : Nat}
    {pd cj : Nat → Option (Mem Byte)} {sh sq : Nat} {kh : Kind} {piv pch ppd pcj pQ : CPtr} {g : Unit → CM δ}
    (hP : VoleP P cnt) (hivl : iv.length = 16) (hel : 8 ≤ ellhat ∧ ellhat ≤ 65536)
    (hch : View F pch ch) (hiv : View F piv (ofList iv)) (hpd : Ptrs F ppd P.tau pd) (hcj : Ptrs F pcj P.tau cj)
    (hV : Cols F pQ (some ⟨sq, 0⟩) ((ellhat + 7) / 8) cnt)
    (h : Flat.voleReconstruct X iv ch pd cj mq ellhat P = some (hcom, mq'))
    (hw : wrN mh 0 hcom = some mh')
    (k : T (bl kh sh mh' + (bl .heap sq mq' + F)) (g ()) Q) :
    T (bl kh sh mh + (bl .heap sq mq + F))
      (Gen.vole_reconstruct I piv pch ppd pcj (some ⟨sh, 0⟩) pQ ellhat P >>= g) Q := by
  unfold Flat.voleReconstruct at h
  inv h
  obtain ⟨nodes, hn, _, -, sd, hsd, s, hs, e⟩ := h
  obtain ⟨rfl, rfl⟩ : _ = hcom ∧ s.q = mq' := by simpa using e
  obtain ⟨f, f0, fN, hf⟩ := forN_seq hs
  have hstep := fun i hi => voleRec_inv (hf i hi)
  have hvi : ∀ i, i ≤ P.tau → (f i).qIdx = colAt P i := by
    intro i
    induction i with
    | zero => intro _; rw [f0]; simp [colAt]
    | succ i ih =>
      intro hi
      obtain ⟨_, _, _, _, _, _, _, _, _, _, -, -, -, -, -, -, -, -, e⟩ := hstep i (by omega)
      rw [e]
      simp only [ih (by omega), colAt_succ]
  have htau := hP.taul
  have hcl := hP.cntl
  have hlb : 0 < P.lambda / 8 ∧ P.lambda / 8 ≤ 32 := by rcases hP.lam with hl | hl | hl <;> rw [hl] <;> decide
  have we : (ellhat + 7) % 4294967296 / 8 = (ellhat + 7) / 8 := by omega
  have heb : 0 < (ellhat + 7) / 8 ∧ (ellhat + 7) / 8 ≤ 8192 + 1 := by omega
  have hM : (if P.k0 > P.k1 then P.k0 else P.k1) = max P.k0 P.k1 := by
    split_ifs <;> omega
  have hM' : max P.k0 P.k1 ≤ 12 := by
    have := hP.k0
    have := hP.k1
    omega
  unfold Gen.vole_reconstruct
  simp only [we, hM]
  generalize (ellhat + 7) / 8 = eb at *
  generalize max P.k0 P.k1 = M at *
  obtain ⟨hn1, hn2⟩ := gbt hn hM'
  have hp : 2 ^ M ≤ 4096 := by
    have : 2 ^ M ≤ 2 ^ 12 := Nat.pow_le_pow_right (by decide) hM'
    omega
  have mt1 : 2 ^ M * (P.lambda / 8) ≤ 4096 * 32 := Nat.mul_le_mul hp hlb.2
  have w1 : 2 ^ M * (P.lambda / 8) % 4294967296 = 2 ^ M * (P.lambda / 8) := Nat.mod_eq_of_lt (by omega)
  have w2 : 2 ^ M * (P.lambda / 8) * 2 % 4294967296 = 2 ^ M * (P.lambda / 8) * 2 := Nat.mod_eq_of_lt (by omega)
  have w3 : P.lambda / 8 * 2 % 4294967296 = P.lambda / 8 * 2 := Nat.mod_eq_of_lt (by omega)
  have w0 : 1 <<< M = 2 ^ M := by rw [Nat.shiftLeft_eq, Nat.one_mul]
  refine t_assoc (t_ishl (by rw [w0]; omega) ?_)
  simp only [w0, w1, w3]
  refine t_assoc (t_alloc fun sd0 => t_assoc (t_memset0 (by hfind1) hsd (t_assoc (t_hnew S fun c0 D0 hr0 => ?_))))
  refine t_assoc (t_hinit1 S hr0 fun hb => t_assoc (t_alloc fun r1 => t_assoc ?_))
  refine t_gbt hn hM' (t_assoc (t_alloc fun r2 => t_assoc (t_ishl (by rw [w0]; omega) ?_)))
  simp only [w0, w1, w2]
  refine t_assoc (t_alloc fun r3 => t_assoc (t_ishl (by rw [w0]; omega) ?_))
  simp only [w0, w1]
  refine t_assoc (t_alloc fun r4 => t_assoc ?_)
  rw [show (zeroed : Byte) = 0 from rfl]
  have hdep : ∀ i, (if i < P.t0 then P.k0 else P.k1) ≤ 12 := by
    intro i
    have := hP.k0
    have := hP.k1
    split_ifs <;> omega
  refine t_while P.tau (fun i => (S.val hb P.lambda (f i).ctx,
      ⟨some (some ⟨r1, 0⟩), some (some ⟨r2, 0⟩), some (some ⟨r3, 0⟩), some (some ⟨r4, 0⟩)⟩, colAt P i, i))
    (fun i => bl .heap r1 (f i).vrec.h + (bl .heap r2 (f i).vrec.k + (bl .heap r3 (f i).vrec.com + (bl .heap r4 (f i).vrec.s +
      (bl .heap sd0 (f i).sd + (S.blk hb P.lambda (f i).ctx + (bl kh sh mh + (bl .heap sq (f i).q + F))))))))
    (by omega) (by rw [f0]; simp [colAt]) (by rw [f0]; hfind) (fun i hi => by simpa using hi) (by simp) (fun i hi => ?_) ?_
  · obtain ⟨r, co, idx, mp, mc, vr, sd, q, ou, hby, h1, h2, h3, h4, h5, h6, h7, h8, e⟩ := hstep i hi
    have hcol := hP.col i hi
    have hdi := hdep i
    have hd1 := colAt_succ P i
    rw [hvi i (by omega)] at h7 e
    simp only
    generalize hdE : (if i < P.t0 then P.k0 else P.k1) = depth at *
    have hpd' : 2 ^ depth ≤ 4096 := by
      have : 2 ^ depth ≤ 2 ^ 12 := Nat.pow_le_pow_right (by decide) hdi
      omega
    have hpp : 0 < 2 ^ depth := Nat.pow_pos (by decide)
    have w4 : 1 <<< depth = 2 ^ depth := by rw [Nat.shiftLeft_eq, Nat.one_mul]
    have hidx := numRec_le h2
    refine t_ishl (by rw [w4]; omega) (t_alloc fun sc => ?_)
    simp only [w4]
    refine t_run rfl (ChalDec_run (View.sub hch (by hsub)) h1 (by have := hP.tau; omega) hP.k0 hP.k1 (by omega)) ?_
    refine t_numRec View.here0 h2 hdi ?_
    obtain ⟨μ1, hμ1, hp1⟩ := hpd
    obtain ⟨q1, hq1, hv1⟩ := hp1 i mp hi h3
    obtain ⟨μ2, hμ2, hp2⟩ := hcj
    obtain ⟨q2, hq2, hv2⟩ := hp2 i mc hi h4
    refine t_ld (View.sub hμ1 (by hsub)) hq1 (t_ld (View.sub hμ2 (by hsub)) hq2 ?_)
    refine t_run (by hfind) (vector_reconstruction_run S hP.lam hivl hdi (View.sub hiv (by hsub)) (View.sub hv1 (by hsub))
      (View.sub hv2 (by hsub)) View.here0 h5) ?_
    obtain ⟨y, y0, yN, hy⟩ := forR_seq h6
    refine t_while (2 ^ depth - 1) (fun j => 1 + j) (fun j => bl .heap sd0 (y j) + (bl .heap r4 vr.s + (bl .heap r1 vr.h + (bl .heap r2 vr.k +
      (bl .heap r3 vr.com + (bl .stack sc co + (S.blk hb P.lambda (f i).ctx + (bl kh sh mh + (bl .heap sq (f i).q + F))))))))) (by omega) rfl (by rw [y0]; hfind)
      (fun j hj => by simp; omega) (by simp; omega) (fun j hj => ?_) ?_
    · have hx := hy j hj
      inv hx
      obtain ⟨x, hx, hd⟩ := hx
      have hxor : (1 + j) ^^^ idx < 2 ^ 20 := Nat.xor_lt_two_pow (by omega) (by omega)
      have m1 : (1 + j) * (P.lambda / 8) ≤ 4096 * 32 := Nat.mul_le_mul (by omega) hlb.2
      have m2 : P.lambda / 8 * ((1 + j) ^^^ idx) ≤ 32 * 2 ^ 20 := Nat.mul_le_mul hlb.2 (by omega)
      refine t_uget rfl ?_
      rw [Nat.mod_eq_of_lt (by omega : (1 + j) * (P.lambda / 8) < _),
        Nat.mod_eq_of_lt (by omega : P.lambda / 8 * ((1 + j) ^^^ idx) < _), Nat.mod_eq_of_lt (by omega : 1 + j + 1 < _)]
      simp only [padd, Option.map_some, Nat.zero_add]
      refine t_memcpy rfl (View.here) hlb.1 (rdN_at hx) hd (t_pure ⟨by omega, rfl⟩)
    · rw [yN]
      obtain ⟨μ, hμ, hcols⟩ := hV
      refine t_ld (View.sub hμ (by hsub)) (hcols _ hcol) ?_
      simp only [padd, Option.map_some, Nat.zero_add]
      refine t_run (by hfind) (convert_bot_run (kd := .heap) hlb.2 hdi (by omega) (View.sub hiv (by hsub))
        (View.sub (View.last0 (k := .heap) (i := sd0) (m := sd)) (by hsub)) h7) ?_
      refine t_uget rfl (t_perm (by hfind1) (t_hupd1 S (b := hb) (View.sub (View.last0 (k := .heap) (i := r1) (m := vr.h)) (by hsub)) (by omega) h8 (by omega) ?_))
      refine t_free (by hfind1) (t_pure ⟨?_, ?_⟩)
      · rw [e, hd1, Nat.mod_eq_of_lt (by omega : colAt P i + depth < _), Nat.mod_eq_of_lt (by omega : i + 1 < _)]
      · rw [e]
        hfind
  · rw [fN]
    refine t_assoc (t_run rfl vec_com_rec_clear_run ?_)
    refine t_assoc (t_free (by hfind1) (t_assoc ?_))
    exact t_perm (by hfind1) (t_H1_final S (c := hb) (by hfind1) hw (by omega) fun c2 D2 hr2 => t_assoc (t_hdrop S hr2 (t_pbind (t_perm (by hfind) k))))

end

end Faest.C
