/-
Soundness of the type system of Proofs/Leak/Check.lean: two runs of a certified program from states which agree on
what is public have the same trace, up to the first difference in a value released to a public block.
-/
import Verif.Proofs.Leak.Check
import Mathlib.Tactic.ByContra
import Mathlib.Algebra.Ring.Int.Defs
import Mathlib.Algebra.Ring.Basic
import Mathlib.Tactic.NormNum

namespace Faest.Leak

variable (C : Cert) (P : List Fn) (I : Interp) (pub : Nat → Bool)

/-- record type of the blocks -/
abbrev HT := Nat → Option Nat

def rel (H : HT) : Ty → Val → Val → Prop
  | .hi, _, _ => True
  | .ptr r, v, w => v = w ∧ ∀ b o, v = .ptr b o → H b = some r ∧ ((C.row r).length : Int) ∣ o
  | _, v, w => v = w

def HT.le (H H' : HT) : Prop := ∀ b r, H b = some r → H' b = some r

/-- the two states agree on what is public, apart from their variables -/
structure Base (H : HT) (s1 s2 : St) : Prop where
  mem : ∀ b r, H b = some r → ∀ o, rel C H (cty (C.row r) o) (s1.mem b o) (s2.mem b o)
  next : s1.next = s2.next
  fresh : ∀ b, s1.next ≤ b → H b = none
  out : ∀ b r, H b = some r → Ty.out ∈ C.row r → pub b = true
  tr : s1.tr = s2.tr
  glob : ∀ g r, C.globs[g]? = some r → H g = some r

structure Sim (H : HT) (S : Sig) (s1 s2 : St) : Prop extends Base C pub H s1 s2 where
  env : ∀ x, rel C H (S.var x) (s1.env x) (s2.env x)

/-- equal up to a point where different values are released -/
def Div (t1 t2 : List Ev) : Prop :=
  ∃ a b p v w, v ≠ w ∧ t1 = a ++ .rel v :: p ∧ t2 = b ++ .rel w :: p

variable {C P I pub}

theorem rel_mono {H H' : HT} (h : H.le H') {t : Ty} {v w : Val} (hr : rel C H t v w) : rel C H' t v w := by
  cases t with
  | hi => trivial
  | ptr r => exact ⟨hr.1, fun b o e => ⟨h _ _ (hr.2 b o e).1, (hr.2 b o e).2⟩⟩
  | lo => exact hr
  | out => exact hr

theorem rel_pub {H : HT} {t : Ty} (ht : pubTy (some t) = true) {v w : Val} (hr : rel C H t v w) : v = w := by
  cases t with
  | hi => simp [pubTy] at ht
  | ptr r => exact hr.1
  | lo => exact hr
  | out => exact hr

theorem rel_sub {H : HT} {t t' : Ty} (hs : sub t t' = true) {v w : Val} (hr : rel C H t v w) : rel C H t' v w := by
  cases t' with
  | hi => trivial
  | ptr q =>
    cases t with
    | ptr r => simp only [sub, beq_iff_eq] at hs; subst hs; exact hr
    | _ => simp [sub] at hs
  | lo => cases t with
    | ptr r => simp [sub] at hs
    | hi => simp [sub] at hs
    | _ => exact hr
  | out => cases t with
    | ptr r => simp [sub] at hs
    | hi => simp [sub] at hs
    | _ => exact hr

theorem rel_int {H : HT} (t : Ty) (n : Int) : rel C H t (.int n) (.int n) := by
  cases t with
  | hi => trivial
  | ptr r => exact ⟨rfl, fun b o e => by simp at e⟩
  | _ => rfl

theorem rel_lo {H : HT} {v w : Val} (h : v = w) : rel C H .lo v w := h

theorem cty_add {bt : List Ty} {o : Int} (h : (bt.length : Int) ∣ o) (k : Int) : cty bt (o + k) = cty bt k := by
  obtain ⟨c, rfl⟩ := h
  unfold cty
  rw [Int.add_comm, Int.add_mul_emod_self_left]

theorem cty_single (t : Ty) (o : Int) : cty [t] o = t := by
  simp [cty, Int.emod_one]

theorem join_rel {H : HT} {t u x : Ty} {f : Val → Val → Val} {v v' w w' : Val} (h : join (some t) (some u) = some x)
    (h1 : rel C H t v v') (h2 : rel C H u w w') : rel C H x (f v w) (f v' w') := by
  by_cases a : t = .hi
  · subst a
    have : x = .hi := by cases u <;> simpa [join] using h.symm
    subst this; trivial
  by_cases b : u = .hi
  · subst b
    have : x = .hi := by cases t <;> simp_all [join]
    subst this; trivial
  have e1 : v = v' := rel_pub (t := t) (by cases t <;> simp_all [pubTy]) h1
  have e2 : w = w' := rel_pub (t := u) (by cases u <;> simp_all [pubTy]) h2
  have : x = .lo := by cases t <;> cases u <;> simp_all [join]
  subst this e1 e2; rfl

theorem pub_some {o : Option Ty} (h : pubTy o = true) : ∃ t, o = some t := by
  cases o with
  | none => simp [pubTy] at h
  | some t => exact ⟨t, rfl⟩

theorem eval_rel {H : HT} {S : Sig} {s1 s2 : St} (hs : Sim C pub H S s1 s2) (e : Expr) :
    ∀ {t : Ty}, infer C S e = some t → rel C H t (eval I s1 e).1 (eval I s2 e).1 ∧ (eval I s1 e).2 = (eval I s2 e).2 := by
  induction e with
  | var x => intro t h; simp only [infer, Option.some.injEq] at h; subst h; exact ⟨hs.env x, rfl⟩
  | lit n => intro t h; exact ⟨rel_int _ _, rfl⟩
  | glob g =>
    intro t h
    simp only [infer] at h
    split at h
    · next r hr =>
      simp only [Option.some.injEq] at h
      subst h
      refine ⟨⟨rfl, fun b o e => ?_⟩, rfl⟩
      simp only [eval, Val.ptr.injEq] at e
      rw [← e.1, ← e.2]
      exact ⟨hs.glob _ _ hr, dvd_zero _⟩
    · simp at h
  | un o a ih =>
    intro t h
    simp only [infer] at h
    cases ha : infer C S a with
    | none => rw [ha] at h; simp [join] at h
    | some u =>
      rw [ha] at h
      obtain ⟨h1, h2⟩ := ih ha
      exact ⟨join_rel (f := fun v _ => I.un o v) (w := .int 0) (w' := .int 0) h h1 rfl, h2⟩
  | bin o a b iha ihb =>
    intro t h
    simp only [infer] at h
    cases ha : infer C S a with
    | none => rw [ha] at h; simp [join] at h
    | some u =>
      cases hb : infer C S b with
      | none => rw [ha, hb] at h; cases u <;> simp [join] at h
      | some v =>
        rw [ha, hb] at h
        obtain ⟨h1, h2⟩ := iha ha
        obtain ⟨h3, h4⟩ := ihb hb
        exact ⟨join_rel (f := I.bin o) h h1 h3, by simp only [eval, h2, h4]⟩
  | div o a b iha ihb =>
    intro t h
    simp only [infer] at h
    split at h
    · next hp =>
      simp only [Bool.and_eq_true] at hp
      obtain ⟨u, ha⟩ := pub_some hp.1
      obtain ⟨v, hb⟩ := pub_some hp.2
      obtain ⟨h1, h2⟩ := iha ha
      obtain ⟨h3, h4⟩ := ihb hb
      have e1 := rel_pub (ha ▸ hp.1) h1
      have e2 := rel_pub (hb ▸ hp.2) h3
      simp only [Option.some.injEq] at h
      subst h
      simp only [eval, e1, e2, h2, h4]
      exact ⟨rfl, trivial⟩
    · simp at h
  | padd a i k iha ihi =>
    intro t h
    simp only [infer] at h
    split at h
    · next r ha =>
      split at h
      · next hp =>
        simp only [Bool.and_eq_true, beq_iff_eq] at hp
        obtain ⟨u, hi⟩ := pub_some hp.1
        obtain ⟨h1, h2⟩ := iha ha
        obtain ⟨h3, h4⟩ := ihi hi
        have e2 := rel_pub (hi ▸ hp.1) h3
        simp only [Option.some.injEq] at h
        subst h
        obtain ⟨e1, hpt⟩ := h1
        simp only [eval]
        rw [e1] at hpt
        rw [e1, e2, h2, h4]
        refine ⟨⟨rfl, fun b o e => ?_⟩, rfl⟩
        split at e
        · next b' o' n hb' hn =>
          simp only [Val.ptr.injEq] at e
          obtain ⟨h5, h6⟩ := hpt _ _ hb'
          rw [← e.1, ← e.2]
          refine ⟨h5, Int.dvd_add h6 (Dvd.dvd.mul_left ?_ _)⟩
          exact_mod_cast Nat.dvd_of_mod_eq_zero hp.2
        · simp at e
      · simp at h
    · simp at h
  | ld w a ih =>
    intro t h
    simp only [infer] at h
    split at h
    · next r ha =>
      obtain ⟨⟨e1, hpt⟩, h2⟩ := ih ha
      have key : ∀ u, C.row r = [u] → u ≠ .hi → (∀ q, u ≠ .ptr q) → rel C H .lo (eval I s1 (.ld w a)).1 (eval I s2 (.ld w a)).1 := by
        intro u hu hne hnp
        simp only [eval]
        rw [e1] at hpt
        rw [e1]
        cases hv : (eval I s2 a).1 with
        | int n => rfl
        | ptr b o =>
          have hb := (hpt _ _ hv).1
          refine rel_lo ?_
          show I.ld _ = I.ld _
          congr 1
          unfold cells
          refine List.map_congr_left fun i _ => ?_
          have := hs.mem b r hb (o + i)
          rw [hu, cty_single] at this
          cases u with
          | hi => exact absurd rfl hne
          | ptr q => exact absurd rfl (hnp q)
          | lo => exact this
          | out => exact this
      have hev : (eval I s1 (.ld w a)).2 = (eval I s2 (.ld w a)).2 := by simp only [eval, e1, h2]
      split at h
      · next hr => simp only [Option.some.injEq] at h; subst h; exact ⟨key _ hr (by simp) (by simp), hev⟩
      · next hr => simp only [Option.some.injEq] at h; subst h; exact ⟨key _ hr (by simp) (by simp), hev⟩
      · simp only [Option.some.injEq] at h; subst h; exact ⟨trivial, hev⟩
      · simp at h
    · simp at h
  | cell a k ih =>
    intro t h
    simp only [infer] at h
    split at h
    · next r ha =>
      obtain ⟨⟨e1, hpt⟩, h2⟩ := ih ha
      have hev : (eval I s1 (.cell a k)).2 = (eval I s2 (.cell a k)).2 := by simp only [eval, e1, h2]
      refine ⟨?_, hev⟩
      simp only [eval]
      rw [e1] at hpt
      rw [e1]
      cases hv : (eval I s2 a).1 with
      | int n => exact rel_int _ _
      | ptr b o =>
        obtain ⟨hb, hd⟩ := hpt _ _ hv
        have := hs.mem b r hb (o + k)
        rw [cty_add hd] at this
        cases hc : cty (C.row r) k with
        | hi => rw [hc] at h; simp only [rdTy, Option.some.injEq] at h; subst h; trivial
        | ptr q => rw [hc] at h this; simp only [rdTy, Option.some.injEq] at h; subst h; exact this
        | lo => rw [hc] at h this; simp only [rdTy, Option.some.injEq] at h; subst h; exact this
        | out => rw [hc] at h this; simp only [rdTy, Option.some.injEq] at h; subst h; exact this
    · simp at h

theorem chk_rel {H : HT} {S : Sig} {s1 s2 : St} (hs : Sim C pub H S s1 s2) {e : Expr} {t : Ty}
    (h : chk C S e t = true) :
    rel C H t (eval I s1 e).1 (eval I s2 e).1 ∧ (eval I s1 e).2 = (eval I s2 e).2 := by
  unfold chk at h
  split at h
  · exact ⟨rel_int _ _, rfl⟩
  · split at h
    · next ht =>
      obtain ⟨h1, h2⟩ := eval_rel hs _ ht
      exact ⟨rel_sub h h1, h2⟩
    · simp at h

theorem pub_eval {H : HT} {S : Sig} {s1 s2 : St} (hs : Sim C pub H S s1 s2) {e : Expr}
    (h : pubTy (infer C S e) = true) : eval I s1 e = eval I s2 e := by
  obtain ⟨t, ht⟩ := pub_some h
  obtain ⟨h1, h2⟩ := eval_rel hs (I := I) _ ht
  exact Prod.ext (rel_pub (ht ▸ h) h1) h2

theorem Base.log {H : HT} {s1 s2 : St} (hs : Base C pub H s1 s2) (t : List Ev) :
    Base C pub H (s1.log t) (s2.log t) :=
  ⟨hs.mem, hs.next, hs.fresh, hs.out, by simp only [St.log, hs.tr], hs.glob⟩

theorem Sim.log {H : HT} {S : Sig} {s1 s2 : St} (hs : Sim C pub H S s1 s2) (t : List Ev) :
    Sim C pub H S (s1.log t) (s2.log t) :=
  ⟨hs.toBase.log t, hs.env⟩

theorem Sim.set {H : HT} {S : Sig} {s1 s2 : St} (hs : Sim C pub H S s1 s2) {x : Nat} {v w : Val}
    (h : rel C H (S.var x) v w) : Sim C pub H S (s1.set x v) (s2.set x w) := by
  refine ⟨⟨hs.mem, hs.next, hs.fresh, hs.out, hs.tr, hs.glob⟩, fun y => ?_⟩
  simp only [St.set]
  split
  · next e => subst e; exact h
  · exact hs.env y

/-- stores -/
theorem Sim.put {H : HT} {S : Sig} {s1 s2 : St} (hs : Sim C pub H S s1 s2) {a : Val} {k : Nat} {vs ws : List Val}
    (hl : vs.length = ws.length) {r : Nat} {t : Ty}
    (ha : ∀ b o, a = .ptr b o → H b = some r ∧ ∀ i : Nat, i < vs.length → cty (C.row r) (o + k + i) = t)
    (hout : t = .out → Ty.out ∈ C.row r)
    (hv : t ≠ .out → ∀ i : Nat, i < vs.length → rel C H t (vs.getD i (.int 0)) (ws.getD i (.int 0))) :
    Div (s1.put pub a k vs).tr (s2.put pub a k ws).tr ∨ Sim C pub H S (s1.put pub a k vs) (s2.put pub a k ws) := by
  cases a with
  | int n =>
    right
    exact ⟨⟨hs.mem, hs.next, hs.fresh, hs.out, by simp only [St.put, hs.tr], hs.glob⟩, hs.env⟩
  | ptr b o =>
    obtain ⟨hb, hc⟩ := ha b o rfl
    by_cases hp : pub b = true ∧ vs ≠ ws
    · left
      refine ⟨[], [], .wr (.ptr b (o + k)) :: s1.tr, vs, ws, hp.2, ?_, ?_⟩
      · simp [St.put, Val.off, hp.1]
      · simp [St.put, Val.off, hp.1, hs.tr]
    · right
      have hvw : pub b = true → vs = ws := fun h => by
        by_contra hne; exact hp ⟨h, hne⟩
      refine ⟨⟨?_, hs.next, hs.fresh, hs.out, ?_, hs.glob⟩, hs.env⟩
      · intro b' r' hb' o'
        simp only [St.put]
        rw [hl]
        split
        · next hin =>
          obtain ⟨rfl, h1, h2⟩ := hin
          rw [hb] at hb'
          simp only [Option.some.injEq] at hb'
          subst hb'
          obtain ⟨i, hi⟩ : ∃ i : Nat, o' = o + k + i := ⟨(o' - (o + k)).toNat, by omega⟩
          have hi' : i < vs.length := by omega
          subst hi
          rw [hc i hi']
          have : (o + k + i - (o + k)).toNat = i := by omega
          rw [this]
          by_cases ht : t = .out
          · have := hvw (hs.out _ _ hb (hout ht))
            subst this ht
            rfl
          · exact hv ht i hi'
        · exact hs.mem b' r' hb' o'
      · simp only [St.put]
        split
        · next h => rw [hvw h, hs.tr]
        · rw [hs.tr]

theorem chks_rel {H : HT} {S : Sig} {s1 s2 : St} (hs : Sim C pub H S s1 s2) (es : List Expr) :
    ∀ {ts : List Ty}, chks C S es ts = true →
    (evals I s1 es).2 = (evals I s2 es).2 ∧ (evals I s1 es).1.length = ts.length ∧ (evals I s2 es).1.length = ts.length ∧
    ∀ i : Nat, i < ts.length → rel C H (ts.getD i .hi) ((evals I s1 es).1.getD i (.int 0)) ((evals I s2 es).1.getD i (.int 0)) := by
  induction es with
  | nil =>
    intro ts h
    cases ts with
    | nil => simp [evals]
    | cons => simp [chks] at h
  | cons e es ih =>
    intro ts h
    cases ts with
    | nil => simp [chks] at h
    | cons t ts =>
      simp only [chks, Bool.and_eq_true] at h
      obtain ⟨h1, h2⟩ := chk_rel hs (I := I) h.1
      obtain ⟨h3, h4, h5, h6⟩ := ih h.2
      refine ⟨by simp only [evals, h2, h3], by simp [evals, h4], by simp [evals, h5], fun i hi => ?_⟩
      cases i with
      | zero => simpa [evals] using h1
      | succ i => simpa [evals] using h6 i (by simpa using hi)

/-- traces only grow -/
theorem step_grow {K : Stmt → St → Out × St} (hK : ∀ c s, ∃ a, (K c s).2.tr = a ++ s.tr) (c : Stmt) :
    ∀ s, ∃ a, (step P I pub K c s).2.tr = a ++ s.tr := by
  have put : ∀ (s : St) a k vs, ∃ x, (s.put pub a k vs).tr = x ++ s.tr := by
    intro s a k vs
    cases a with
    | int n => exact ⟨[_], rfl⟩
    | ptr b o =>
      by_cases h : pub b = true
      · exact ⟨[.rel vs, .wr (.ptr b (o + k))], by simp [St.put, Val.off, h]⟩
      · exact ⟨[.wr (.ptr b (o + k))], by simp [St.put, Val.off, h]⟩
  have trans : ∀ {s1 s2 s3 : St}, (∃ a, s2.tr = a ++ s1.tr) → (∃ a, s3.tr = a ++ s2.tr) → ∃ a, s3.tr = a ++ s1.tr := by
    rintro s1 s2 s3 ⟨a, h⟩ ⟨b, h'⟩
    exact ⟨b ++ a, by rw [h', h, List.append_assoc]⟩
  induction c with
  | skip => intro s; exact ⟨[], rfl⟩
  | asg x e => intro s; exact ⟨_, rfl⟩
  | st w a v => intro s; exact trans ⟨_, rfl⟩ (put (s.log _) _ _ _)
  | stc a k v => intro s; exact trans ⟨_, rfl⟩ (put (s.log _) _ _ _)
  | seq p q ihp ihq =>
    intro s
    simp only [step]
    split
    · next s' h =>
      have := ihp s
      rw [h] at this
      exact trans this (ihq s')
    · next r h => exact ihp s
  | ite c p q ihp ihq =>
    intro s
    simp only [step]
    split
    · exact trans ⟨_, rfl⟩ (ihp (s.log _))
    · exact trans ⟨_, rfl⟩ (ihq (s.log _))
  | loop c p i ihp ihi =>
    intro s
    simp only [step]
    split
    · have h0 := ihp (s.log (.br (eval I s c).1.truth :: (eval I s c).2))
      have h1 : ∃ a, (s.log (.br (eval I s c).1.truth :: (eval I s c).2)).tr = a ++ s.tr := ⟨_, rfl⟩
      have h2 := trans h1 h0
      split
      · next h => rw [h] at h2; exact h2
      · next h => rw [h] at h2; exact h2
      · next h => rw [h] at h2; exact h2
      · next s2 _ _ _ h =>
        rw [h] at h2
        have h3 := trans h2 (ihi s2)
        split
        · next s3 h' =>
          rw [h'] at h3
          exact trans h3 (hK _ _)
        · exact h3
    · exact ⟨_, rfl⟩
  | brk => intro s; exact ⟨[], rfl⟩
  | cont => intro s; exact ⟨[], rfl⟩
  | ret e => intro s; exact ⟨_, rfl⟩
  | call x f as =>
    intro s
    simp only [step]
    split
    · exact ⟨_, rfl⟩
    · next g hg =>
      have h0 := hK g.body { (s.log (evals I s as).2) with env := bindArgs (evals I s as).1 }
      have h1 : ∃ a, (K g.body { (s.log (evals I s as).2) with env := bindArgs (evals I s as).1 }).2.tr = a ++ s.tr := by
        obtain ⟨a, h⟩ := h0
        exact ⟨a ++ (evals I s as).2, by rw [h]; simp [St.log]⟩
      split
      · exact h1
      · cases x <;> exact h1
      · cases x <;> exact h1
  | new x n => intro s; exact ⟨_, rfl⟩
  | free e => intro s; exact ⟨_, rfl⟩

theorem run_grow (n : Nat) : ∀ (c : Stmt) (s : St), ∃ a, (run P I pub n c s).2.tr = a ++ s.tr := by
  induction n with
  | zero => intro c s; exact ⟨[], rfl⟩
  | succ n ih => intro c s; exact step_grow ih c s

theorem Div.grow {t1 t2 u1 u2 : List Ev} (h : Div t1 t2) (h1 : ∃ a, u1 = a ++ t1) (h2 : ∃ a, u2 = a ++ t2) : Div u1 u2 := by
  obtain ⟨a, b, p, v, w, hne, rfl, rfl⟩ := h
  obtain ⟨x, rfl⟩ := h1
  obtain ⟨y, rfl⟩ := h2
  exact ⟨x ++ a, y ++ b, p, v, w, hne, by simp, by simp⟩

def OutRel (C : Cert) (H : HT) (t : Ty) : Out → Out → Prop
  | .norm, .norm => True
  | .brk, .brk => True
  | .cont, .cont => True
  | .fuel, .fuel => True
  | .ret v, .ret w => rel C H t v w
  | _, _ => False

/-- what is shown of two runs -/
def Good (C : Cert) (pub : Nat → Bool) (H : HT) (S : Sig) (r1 r2 : Out × St) : Prop :=
  Div r1.2.tr r2.2.tr ∨ ∃ H', HT.le H H' ∧ Sim C pub H' S r1.2 r2.2 ∧ OutRel C H' S.ret r1.1 r2.1

theorem HT.le.refl (H : HT) : H.le H := fun _ _ h => h
theorem HT.le.trans {H H' H'' : HT} (h : H.le H') (h' : H'.le H'') : H.le H'' := fun _ _ x => h' _ _ (h _ _ x)

theorem OutRel.mono {H H' : HT} (h : H.le H') {t : Ty} {a b : Out} (hr : OutRel C H t a b) : OutRel C H' t a b := by
  cases a <;> cases b <;> first | exact hr | exact rel_mono h hr

theorem OutRel.norm_left {H : HT} {t : Ty} {b : Out} (h : OutRel C H t .norm b) : b = .norm := by
  cases b <;> first | rfl | exact h.elim

theorem Good.sim {H : HT} {S : Sig} {o1 o2 : Out} {s1 s2 : St} (h : Sim C pub H S s1 s2) (ho : OutRel C H S.ret o1 o2) :
    Good C pub H S (o1, s1) (o2, s2) := .inr ⟨H, .refl H, h, ho⟩

theorem Good.weaken {H H' : HT} (hle : H.le H') {S : Sig} {r1 r2 : Out × St} (h : Good C pub H' S r1 r2) :
    Good C pub H S r1 r2 := by
  rcases h with h | ⟨H'', h1, h2, h3⟩
  · exact .inl h
  · exact .inr ⟨H'', hle.trans h1, h2, h3⟩

theorem step_sound (hC : C.ok P = true) {K : Stmt → St → Out × St}
    (hg : ∀ c s, ∃ a, (K c s).2.tr = a ++ s.tr)
    (hK : ∀ S ∈ C.sigs, ∀ c, check C P S c = true → ∀ H s1 s2, Sim C pub H S s1 s2 → Good C pub H S (K c s1) (K c s2))
    (S : Sig) (hS : S ∈ C.sigs) (c : Stmt) : check C P S c = true → ∀ H s1 s2, Sim C pub H S s1 s2 →
    Good C pub H S (step P I pub K c s1) (step P I pub K c s2) := by
  have grow := fun (c : Stmt) (s : St) => step_grow (P := P) (I := I) (pub := pub) hg c s
  induction c with
  | skip => intro _ H s1 s2 hs; exact Good.sim hs trivial
  | asg x e =>
    intro h H s1 s2 hs
    obtain ⟨h1, h2⟩ := chk_rel hs (I := I) h
    refine Good.sim ?_ trivial
    show Sim C pub H S ((s1.log (eval I s1 e).2).set x _) ((s2.log (eval I s2 e).2).set x _)
    rw [h2]
    exact (hs.log _).set h1
  | st w a v =>
    intro h H s1 s2 hs
    simp only [check] at h
    split at h
    · next r ha =>
      split at h
      · next t hr =>
        simp only [Bool.and_eq_true] at h
        obtain ⟨hnp, hst⟩ := h
        obtain ⟨⟨e1, hpt⟩, ev1⟩ := eval_rel hs (I := I) _ ha
        have ev2 : (eval I s1 v).2 = (eval I s2 v).2 := by
          unfold chkSt at hst
          split at hst
          · obtain ⟨u, hu⟩ := Option.isSome_iff_exists.1 hst
            exact (eval_rel hs (I := I) _ hu).2
          · exact (chk_rel hs (I := I) hst).2
        simp only [step]
        rw [ev1, ev2, e1]
        rw [e1] at hpt
        rcases Sim.put (k := 0) (r := r) (t := t) (hs.log ((eval I s2 v).2 ++ (eval I s2 a).2)) (a := (eval I s2 a).1)
          (vs := (List.range w).map (I.st w (eval I s1 v).1)) (ws := (List.range w).map (I.st w (eval I s2 v).1))
          (by simp) (fun b o e => ⟨(hpt b o e).1, fun i _ => by rw [hr, cty_single]⟩)
          (fun ht => by rw [hr, ht]; simp)
          (fun ht i hi => by
            have : rel C H t (eval I s1 v).1 (eval I s2 v).1 := by
              unfold chkSt at hst
              split at hst
              · exact absurd rfl ht
              · exact (chk_rel hs (I := I) hst).1
            cases t with
            | hi => trivial
            | out => exact absurd rfl ht
            | ptr q => simp at hnp
            | lo =>
              have e : (eval I s1 v).1 = (eval I s2 v).1 := this
              rw [e]; rfl) with hd | hd
        · exact .inl hd
        · exact Good.sim hd trivial
      · simp at h
    · simp at h
  | stc a k v =>
    intro h H s1 s2 hs
    simp only [check] at h
    split at h
    · next r ha =>
      obtain ⟨⟨e1, hpt⟩, ev1⟩ := eval_rel hs (I := I) _ ha
      have hvv : (eval I s1 v).2 = (eval I s2 v).2 ∧
          (cty (C.row r) k ≠ .out → rel C H (cty (C.row r) k) (eval I s1 v).1 (eval I s2 v).1) := by
        unfold chkSt at h
        split at h
        · next e =>
          obtain ⟨u, hu⟩ := Option.isSome_iff_exists.1 h
          exact ⟨(eval_rel hs (I := I) _ hu).2, fun hne => absurd e hne⟩
        · exact ⟨(chk_rel hs (I := I) h).2, fun _ => (chk_rel hs (I := I) h).1⟩
      simp only [step]
      rw [ev1, hvv.1, e1]
      rw [e1] at hpt
      rcases Sim.put (k := k) (r := r) (t := cty (C.row r) k) (hs.log ((eval I s2 v).2 ++ (eval I s2 a).2)) (a := (eval I s2 a).1)
        (vs := [(eval I s1 v).1]) (ws := [(eval I s2 v).1])
        (by simp) (fun b o e => ⟨(hpt b o e).1, fun i hi => by
          have : i = 0 := by simpa using hi
          subst this
          rw [Nat.cast_zero, Int.add_zero, cty_add (hpt b o e).2]⟩)
        (fun ht => by
          unfold cty at ht
          rw [List.getD_eq_getElem?_getD] at ht
          cases hx : (C.row r)[((k : Int) % ((C.row r).length : Int)).toNat]? with
          | none => rw [hx] at ht; simp at ht
          | some y => rw [hx] at ht; simp at ht; subst ht; exact List.mem_of_getElem? hx)
        (fun ht i hi => by
          have : i = 0 := by simpa using hi
          subst this
          exact hvv.2 ht) with hd | hd
      · exact .inl hd
      · exact Good.sim hd trivial
    · simp at h
  | seq p q ihp ihq =>
    intro h H s1 s2 hs
    simp only [check, Bool.and_eq_true] at h
    simp only [step]
    have := ihp h.1 H s1 s2 hs
    have g1 : ∃ a, (match step P I pub K p s1 with | (.norm, s') => step P I pub K q s' | r => r).2.tr = a ++ (step P I pub K p s1).2.tr := by
      split
      · next s' e => rw [e]; exact grow q s'
      · next r e => exact ⟨[], rfl⟩
    have g2 : ∃ a, (match step P I pub K p s2 with | (.norm, s') => step P I pub K q s' | r => r).2.tr = a ++ (step P I pub K p s2).2.tr := by
      split
      · next s' e => rw [e]; exact grow q s'
      · next r e => exact ⟨[], rfl⟩
    rcases this with hd | ⟨H', hle, hs', ho⟩
    · exact .inl (hd.grow g1 g2)
    · rcases e1 : step P I pub K p s1 with ⟨o1, t1⟩
      rcases e2 : step P I pub K p s2 with ⟨o2, t2⟩
      rw [e1, e2] at ho hs'
      cases o1 <;> cases o2 <;> try exact ho.elim
      · exact Good.weaken hle (ihq h.2 H' t1 t2 hs')
      all_goals exact Good.weaken hle (Good.sim hs' ho)
  | ite c p q ihp ihq =>
    intro h H s1 s2 hs
    simp only [check, Bool.and_eq_true] at h
    have e := pub_eval hs (I := I) h.1.1
    simp only [step, e]
    split
    · exact ihp h.1.2 H _ _ (hs.log _)
    · exact ihq h.2 H _ _ (hs.log _)
  | loop c p i ihp ihi =>
    intro h H s1 s2 hs
    have hc := h
    simp only [check, Bool.and_eq_true] at h
    have e := pub_eval hs (I := I) h.1.1
    simp only [step, e]
    split
    · have := ihp h.1.2 H _ _ (hs.log (.br (eval I s2 c).1.truth :: (eval I s2 c).2))
      have gr : ∀ r : Out × St, ∃ a, (match r with
          | (.brk, s2) => ((.norm, s2) : Out × St)
          | (.ret v, s2) => (.ret v, s2)
          | (.fuel, s2) => (.fuel, s2)
          | (_, s2) => match step P I pub K i s2 with
            | (.norm, s3) => K (.loop c p i) s3
            | r => r).2.tr = a ++ r.2.tr := by
        rintro ⟨o, s⟩
        have aux : ∃ a, (match step P I pub K i s with
            | (.norm, s3) => K (.loop c p i) s3
            | r => r).2.tr = a ++ s.tr := by
          obtain ⟨a, ha⟩ := grow i s
          split
          · next s3 e =>
            rw [e] at ha
            obtain ⟨b, hb⟩ := hg (.loop c p i) s3
            exact ⟨b ++ a, by rw [hb, ha, List.append_assoc]⟩
          · exact ⟨a, ha⟩
        cases o with
        | brk => exact ⟨[], rfl⟩
        | ret v => exact ⟨[], rfl⟩
        | fuel => exact ⟨[], rfl⟩
        | norm => exact aux
        | cont => exact aux
      rcases this with hd | ⟨H', hle, hs', ho⟩
      · exact .inl (hd.grow (gr _) (gr _))
      · rcases e1 : step P I pub K p (s1.log (.br (eval I s2 c).1.truth :: (eval I s2 c).2)) with ⟨o1, t1⟩
        rcases e2 : step P I pub K p (s2.log (.br (eval I s2 c).1.truth :: (eval I s2 c).2)) with ⟨o2, t2⟩
        rw [e1, e2] at ho hs'
        have next : Good C pub H' S (match step P I pub K i t1 with
            | (.norm, s3) => K (.loop c p i) s3
            | r => r) (match step P I pub K i t2 with
            | (.norm, s3) => K (.loop c p i) s3
            | r => r) := by
          have gi : ∀ s, ∃ a, (match step P I pub K i s with
              | (.norm, s3) => K (.loop c p i) s3
              | r => r).2.tr = a ++ (step P I pub K i s).2.tr := by
            intro s
            split
            · next s3 e => rw [e]; exact hg _ s3
            · exact ⟨[], rfl⟩
          rcases ihi h.2 H' t1 t2 hs' with hd | ⟨H2, hle2, hs2, ho2⟩
          · exact .inl (hd.grow (gi t1) (gi t2))
          · rcases e3 : step P I pub K i t1 with ⟨o3, t3⟩
            rcases e4 : step P I pub K i t2 with ⟨o4, t4⟩
            rw [e3, e4] at ho2 hs2
            cases o3 <;> cases o4 <;> try exact ho2.elim
            · exact Good.weaken hle2 (hK S hS _ hc H2 t3 t4 hs2)
            all_goals exact Good.weaken hle2 (Good.sim hs2 ho2)
        cases o1 <;> cases o2 <;> try exact ho.elim
        · exact Good.weaken hle next
        · exact Good.weaken hle (Good.sim hs' trivial)
        · exact Good.weaken hle next
        · exact Good.weaken hle (Good.sim hs' ho)
        · exact Good.weaken hle (Good.sim hs' ho)
    · exact Good.sim (hs.log _) trivial
  | brk => intro _ H s1 s2 hs; exact Good.sim hs trivial
  | cont => intro _ H s1 s2 hs; exact Good.sim hs trivial
  | ret e =>
    intro h H s1 s2 hs
    obtain ⟨h1, h2⟩ := chk_rel hs (I := I) h
    simp only [step]
    rw [h2]
    exact Good.sim (hs.log _) h1
  | call x f as =>
    intro h H s1 s2 hs
    simp only [check, List.any_eq_true, Bool.and_eq_true, beq_iff_eq] at h
    obtain ⟨T, hT, ⟨hf, hargs⟩, hx⟩ := h
    subst hf
    have hx' : ∀ y, x = some y → sub T.ret (S.var y) = true := by
      rintro y rfl; exact hx
    clear hx
    have hok : (match P[T.f]? with | some g => decide (g.arity ≤ T.vars.length) && check C P T g.body | none => false) = true :=
      (List.all_eq_true.1 hC) T hT
    cases hg' : P[T.f]? with
    | none => rw [hg'] at hok; simp at hok
    | some g =>
      rw [hg'] at hok hargs
      simp only [Bool.and_eq_true, decide_eq_true_eq] at hok
      simp only at hargs
      obtain ⟨ev, l1, l2, hr⟩ := chks_rel hs (I := I) as hargs
      simp only [step, hg']
      rw [ev]
      have hlen : (T.vars.take g.arity).length = g.arity := by simp [hok.1]
      rw [hlen] at l1 l2 hr
      have hs0 := hs.log (evals I s2 as).2
      have hsim : Sim C pub H T { (s1.log (evals I s2 as).2) with env := bindArgs (evals I s1 as).1 }
          { (s2.log (evals I s2 as).2) with env := bindArgs (evals I s2 as).1 } := by
        refine ⟨⟨hs0.mem, hs0.next, hs0.fresh, hs0.out, hs0.tr, hs0.glob⟩, fun y => ?_⟩
        by_cases hy : y < g.arity
        · have := hr y hy
          have e : (T.vars.take g.arity).getD y .hi = T.var y := by
            simp [Sig.var, List.getD_eq_getElem?_getD, hy]
          rw [e] at this
          exact this
        · have e1 : bindArgs (evals I s1 as).1 y = .int 0 := by
            simp only [bindArgs, List.getD_eq_getElem?_getD]
            rw [List.getElem?_eq_none (by omega)]; rfl
          have e2 : bindArgs (evals I s2 as).1 y = .int 0 := by
            simp only [bindArgs, List.getD_eq_getElem?_getD]
            rw [List.getElem?_eq_none (by omega)]; rfl
          show rel C H _ (bindArgs _ y) (bindArgs _ y)
          rw [e1, e2]
          exact rel_int _ _
      have hgood := hK T hT g.body hok.2 H _ _ hsim
      generalize K g.body { (s1.log (evals I s2 as).2) with env := bindArgs (evals I s1 as).1 } = q1 at hgood ⊢
      generalize K g.body { (s2.log (evals I s2 as).2) with env := bindArgs (evals I s2 as).1 } = q2 at hgood ⊢
      rcases q1 with ⟨o1, t1⟩
      rcases q2 with ⟨o2, t2⟩
      rcases hgood with hd | ⟨H', hle, hs', ho⟩
      · left
        have g1 : ∀ (o : Out) (t : St) (e : Nat → Val), ∃ a, (match o with
            | .fuel => ((.fuel, ({ t with env := e } : St)) : Out × St)
            | .ret v => (.norm, ({ t with env := e } : St).setO x v)
            | _ => (.norm, ({ t with env := e } : St).setO x (.int 0))).2.tr
              = a ++ t.tr := by
          intro o t e
          refine ⟨[], ?_⟩
          cases o <;> cases x <;> rfl
        exact hd.grow (g1 o1 t1 s1.env) (g1 o2 t2 s2.env)
      · have hback : Sim C pub H' S { t1 with env := s1.env } { t2 with env := s2.env } :=
          ⟨⟨hs'.mem, hs'.next, hs'.fresh, hs'.out, hs'.tr, hs'.glob⟩, fun y => rel_mono hle (hs.env y)⟩
        have hset : ∀ v w, rel C H' T.ret v w → Sim C pub H' S
            (({ t1 with env := s1.env } : St).setO x v) (({ t2 with env := s2.env } : St).setO x w) := by
          intro v w hvw
          cases x with
          | none => exact hback
          | some x => exact hback.set (rel_sub (hx' _ rfl) hvw)
        refine Good.weaken hle ?_
        cases o1 <;> cases o2 <;> try exact ho.elim
        · exact Good.sim (hset _ _ (rel_int _ _)) trivial
        · exact Good.sim (hset _ _ (rel_int _ _)) trivial
        · exact Good.sim (hset _ _ (rel_int _ _)) trivial
        · exact Good.sim (hset _ _ ho) trivial
        · exact Good.sim hback trivial
  | new x n =>
    intro h H s1 s2 hs
    simp only [check, Bool.and_eq_true] at h
    have e := pub_eval hs (I := I) h.1
    have hn := hs.next
    cases hv : S.var x with
    | ptr r =>
      rw [hv] at h
      have hno : Ty.out ∉ C.row r := by
        have := h.2
        simp only [Bool.not_eq_true', List.contains_eq_mem, decide_eq_false_iff_not] at this
        exact this
      let H' : HT := fun b => if b = s1.next then some r else H b
      have hle : H.le H' := fun b q hb => by
        have : b ≠ s1.next := fun hc => by
          rw [hc, hs.fresh _ (le_refl _)] at hb; simp at hb
        simp only [H', if_neg this, hb]
      simp only [step, e]
      refine .inr ⟨H', hle, ⟨⟨?_, ?_, ?_, ?_, ?_, ?_⟩, ?_⟩, trivial⟩
      · intro b q hb o
        show rel C H' _ (if b = s1.next then Val.int 0 else s1.mem b o) (if b = s2.next then Val.int 0 else s2.mem b o)
        rw [← hn]
        split
        · exact rel_int _ _
        · next hne => simp only [H', if_neg hne] at hb; exact rel_mono hle (hs.mem b q hb o)
      · show s1.next + 1 = s2.next + 1
        rw [hn]
      · intro b hb
        have h1 : s1.next + 1 ≤ b := hb
        simp only [H', if_neg (show b ≠ s1.next by omega)]
        exact hs.fresh b (by omega)
      · intro b q hb ho
        by_cases hc : b = s1.next
        · simp only [H', if_pos hc, Option.some.injEq] at hb
          subst hb; exact absurd ho hno
        · simp only [H', if_neg hc] at hb
          exact hs.out b q hb ho
      · show _ ++ s1.tr = _ ++ s2.tr
        rw [hs.tr]
      · intro g q hg; exact hle _ _ (hs.glob g q hg)
      · intro y
        show rel C H' _ (if y = x then Val.ptr s1.next 0 else s1.env y) (if y = x then Val.ptr s2.next 0 else s2.env y)
        split
        · next hy =>
          subst hy
          rw [hv, ← hn]
          refine ⟨rfl, fun b o hbo => ?_⟩
          simp only [Val.ptr.injEq] at hbo
          rw [← hbo.1, ← hbo.2]
          exact ⟨by simp [H'], dvd_zero _⟩
        · exact rel_mono hle (hs.env y)
    | _ => rw [hv] at h; simp at h
  | free e =>
    intro h H s1 s2 hs
    have e' := pub_eval hs (I := I) h
    simp only [step, e']
    exact Good.sim (hs.log _) trivial

theorem run_sound (hC : C.ok P = true) (n : Nat) : ∀ S ∈ C.sigs, ∀ c, check C P S c = true → ∀ H s1 s2,
    Sim C pub H S s1 s2 → Good C pub H S (run P I pub n c s1) (run P I pub n c s2) := by
  induction n with
  | zero => intro S hS c h H s1 s2 hs; exact Good.sim hs trivial
  | succ n ih => intro S hS c h H s1 s2 hs; exact step_sound hC (run_grow n) ih S hS c h H s1 s2 hs

theorem released_append (a b : List Ev) : released (a ++ b) = released a ++ released b := by
  simp [released]

/-- With equal released values nothing is different. -/
theorem Div.released {t1 t2 : List Ev} (h : Div t1 t2) : released t1 ≠ released t2 := by
  obtain ⟨a, b, p, v, w, hne, rfl, rfl⟩ := h
  intro e
  rw [released_append, released_append] at e
  have h1 : Leak.released (.rel v :: p) = v :: Leak.released p := rfl
  have h2 : Leak.released (.rel w :: p) = w :: Leak.released p := rfl
  rw [h1, h2] at e
  have := (List.append_inj' e (by simp)).2
  simp only [List.cons.injEq] at this
  exact hne this.1

end Faest.Leak
