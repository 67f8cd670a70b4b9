/-
A type system for ARM assembler code: which registers and flags are public at every label.  Runs of well-typed code which
agree on what is public have the same trace.
-/
import Verif.Model.A64Leak
import Verif.Model.Gen.KeccakNeon
import Verif.Proofs.Asm.Leak

namespace Faest.A64
open Faest.C
open Faest.Asm (Val Ev bind_some lft_some' pure_some)

/-! ### Types -/

/-- The registers and flags which are public; vectors are secret. -/
structure A where
  pub : List Reg
  zf : Bool
  cf : Bool
deriving DecidableEq

def A.get (a : A) (r : Reg) : Bool := decide (r ∈ a.pub)
def A.set (a : A) (t : Bool) (r : Reg) : A :=
  if t then { a with pub := r :: a.pub.filter (· ≠ r) } else { a with pub := a.pub.filter (· ≠ r) }

/-- `a` asks for less than `b` knows. -/
def A.le (a b : A) : Bool := a.pub.all b.get && (!a.zf || b.zf) && (!a.cf || b.cf)

def A.adr (a : A) : Adr → Bool
  | .base r => a.get r
  | .idx r i => a.get r && a.get i
  | .post r _ => a.get r

/-- What is public after an operation; `none` if an address is secret. -/
def Op.ty (a : A) : Op → Option A
  | .ld4 _ _ _ _ m => if a.adr m then some a else none
  | .st4 _ _ _ _ m => if a.adr m then some a else none
  | .ld1 _ m => if a.adr m then some a else none
  | .st1 _ m => if a.adr m then some a else none
  | .addI d s _ => some (a.set (a.get s) d)
  | .addX d x y => some (a.set (a.get x && a.get y) d)
  | .subsW d s _ => some { a.set (a.get s) d with zf := a.get s, cf := a.get s }
  | .addW d s _ => some (a.set (a.get s) d)
  | .eorW d x y => some (a.set (a.get x && a.get y) d)
  | .movI d _ => some (a.set true d)
  | .adr d _ => some (a.set true d)
  | .ror d s _ => some (a.set (a.get s) d)
  | .umov d _ _ => some (a.set false d)
  | .ldrb d m => if a.adr m then some (a.set false d) else none
  | .strb _ m => if a.adr m then some a else none
  | _ => some a

/-- Code which runs at `a`; `G` are the types of the labels. -/
def check {L : Type} (G : L → Option A) : List (Ins L) → A → Bool
  | [], _ => true
  | .op o :: is, a => match o.ty a with
    | some a' => check G is a'
    | none => false
  | .b l :: _, a => match G l with
    | some b => b.le a
    | none => false
  | .bcc l :: is, a => a.cf && (match G l with | some b => b.le a | none => false) && check G is a
  | .bne l :: is, a => a.zf && (match G l with | some b => b.le a | none => false) && check G is a
  | .ret :: _, _ => true

def Typed {L : Type} (P : Prog L) (G : L → Option A) : Prop := ∀ l a, G l = some a → check G (P.code l) a = true

/-! ### Two runs -/

/-- The registers agree on what is public. -/
structure ARel (a : A) (c c' : Cpu) : Prop where
  reg : ∀ r, a.get r = true → c.get r = c'.get r
  zf : a.zf = true → c.zf = c'.zf
  cf : a.cf = true → c.cf = c'.cf

theorem get_set (c : Cpu) (x : Val) (d r : Reg) : (c.set x d).get r = if r = d then x else c.get r := by
  cases d <;> cases r <;> rfl

theorem aget_set (a : A) (t : Bool) (d r : Reg) : (a.set t d).get r = if r = d then t else a.get r := by
  unfold A.set A.get
  by_cases h : r = d <;> cases t <;> simp [h]

theorem ARel.mono {a b : A} {c c' : Cpu} (h : ARel b c c') (hl : a.le b = true) : ARel a c c' := by
  simp only [A.le, Bool.and_eq_true, List.all_eq_true, Bool.or_eq_true, Bool.not_eq_true'] at hl
  refine ⟨fun r hr => h.reg r (hl.1.1 r (by simpa [A.get] using hr)), fun hz => h.zf ?_, fun hz => h.cf ?_⟩
  · rcases hl.1.2 with h | h
    · rw [hz] at h; cases h
    · exact h
  · rcases hl.2 with h | h
    · rw [hz] at h; cases h
    · exact h

theorem ARel.set {a : A} {c c' : Cpu} (h : ARel a c c') {t : Bool} {x y : Val} (hx : t = true → x = y) (d : Reg) :
    ARel (a.set t d) (c.set x d) (c'.set y d) := by
  refine ⟨fun r hr => ?_, fun hz => ?_, fun hz => ?_⟩
  · rw [aget_set] at hr
    rw [get_set, get_set]
    by_cases e : r = d
    · rw [if_pos e] at hr; rw [if_pos e, if_pos e]; exact hx hr
    · rw [if_neg e] at hr; rw [if_neg e, if_neg e]; exact h.reg r hr
  · have e : a.zf = true := by cases t <;> exact hz
    have := h.zf e
    cases d <;> exact this
  · have e : a.cf = true := by cases t <;> exact hz
    have := h.cf e
    cases d <;> exact this

theorem ARel.setV {a : A} {c c' : Cpu} (h : ARel a c c') (x y : V128) (d e : Vec) : ARel a (c.setV x d) (c'.setV y e) :=
  ⟨fun r hr => by have := h.reg r hr; cases r <;> exact this, h.zf, h.cf⟩

theorem ARel.adr {a : A} {c c' : Cpu} (h : ARel a c c') {m : Adr} (hm : a.adr m = true) : c.adr m = c'.adr m := by
  cases m with
  | base r => simp only [Cpu.adr, h.reg r hm]
  | idx r i =>
    simp only [A.adr, Bool.and_eq_true] at hm
    simp only [Cpu.adr, h.reg r hm.1, h.reg i hm.2]
  | post r n => simp only [Cpu.adr, h.reg r hm]

theorem set_same (a : A) (r : Reg) : a.le (a.set (a.get r) r) = true := by
  have hg : ∀ s, (a.set (a.get r) r).get s = a.get s := fun s => by
    rw [aget_set]; by_cases e : s = r
    · rw [if_pos e, e]
    · rw [if_neg e]
  have hz : (a.set (a.get r) r).zf = a.zf ∧ (a.set (a.get r) r).cf = a.cf := by unfold A.set; split <;> exact ⟨rfl, rfl⟩
  simp only [A.le, Bool.and_eq_true, List.all_eq_true, Bool.or_eq_true, Bool.not_eq_true', hz.1, hz.2]
  refine ⟨⟨fun s hs => ?_, by cases a.zf <;> simp⟩, by cases a.cf <;> simp⟩
  rw [hg s]; exact decide_eq_true hs

theorem ARel.bump {a : A} {c c' d d' : Cpu} (h : ARel a c c') {m : Adr} (h1 : c.bump m = some d) (h2 : c'.bump m = some d') :
    ARel a d d' := by
  cases m with
  | base r => cases h1; cases h2; exact h
  | idx r i => cases h1; cases h2; exact h
  | post r n =>
    simp only [Cpu.bump, Option.map_eq_some_iff] at h1 h2
    obtain ⟨x, hx, rfl⟩ := h1
    obtain ⟨y, hy, rfl⟩ := h2
    refine (h.set (t := a.get r) (fun ht => ?_) r).mono (set_same a r)
    rw [h.reg r ht, hy] at hx
    exact (Option.some.inj hx).symm

/-- One operation. -/
theorem op_sound {T : List (BitVec 64)} {o : Op} {a a' : A} {c c' : Cpu} {H H' : Heap} {r r' : Cpu × Heap} (hc : ARel a c c')
    (ht : o.ty a = some a') (h : o.exec T c H = some r) (h' : o.exec T c' H' = some r') :
    ARel a' r.1 r'.1 ∧ o.leak c = o.leak c' := by
  cases o with
  | ld4 p q s u m =>
    simp only [Op.ty, Option.ite_none_right_eq_some, Option.some.injEq] at ht
    obtain ⟨hm, rfl⟩ := ht
    refine ⟨?_, by simp only [Op.leak, hc.adr hm]⟩
    iterate 9 (obtain ⟨_, _, h⟩ := bind_some h)
    iterate 9 (obtain ⟨_, _, h'⟩ := bind_some h')
    exact ((((hc.setV _ _ _ _).setV _ _ _ _).setV _ _ _ _).setV _ _ _ _).bump (lft_some' h) (lft_some' h')
  | st4 p q s u m =>
    simp only [Op.ty, Option.ite_none_right_eq_some, Option.some.injEq] at ht
    obtain ⟨hm, rfl⟩ := ht
    refine ⟨?_, by simp only [Op.leak, hc.adr hm]⟩
    iterate 9 (obtain ⟨_, _, h⟩ := bind_some h)
    iterate 9 (obtain ⟨_, _, h'⟩ := bind_some h')
    exact hc.bump (lft_some' h) (lft_some' h')
  | ld1 v m =>
    simp only [Op.ty, Option.ite_none_right_eq_some, Option.some.injEq] at ht
    obtain ⟨hm, rfl⟩ := ht
    refine ⟨?_, by simp only [Op.leak, hc.adr hm]⟩
    iterate 2 (obtain ⟨_, _, h⟩ := bind_some h)
    iterate 2 (obtain ⟨_, _, h'⟩ := bind_some h')
    exact (hc.setV _ _ _ _).bump (lft_some' h) (lft_some' h')
  | st1 v m =>
    simp only [Op.ty, Option.ite_none_right_eq_some, Option.some.injEq] at ht
    obtain ⟨hm, rfl⟩ := ht
    refine ⟨?_, by simp only [Op.leak, hc.adr hm]⟩
    iterate 2 (obtain ⟨_, _, h⟩ := bind_some h)
    iterate 2 (obtain ⟨_, _, h'⟩ := bind_some h')
    exact hc.bump (lft_some' h) (lft_some' h')
  | movi0 d | insV d _ _ _ | eor d _ _ | eor8 d _ _ | bic d _ _ | ext8 d _ _ | trn1 d _ _ | trn2 d _ _ | shl d _ _ | sri d _ _ =>
    simp only [Op.ty, Option.some.injEq] at ht
    subst ht
    rw [pure_some h, pure_some h']
    exact ⟨hc.setV _ _ _ _, rfl⟩
  | addI d s n =>
    simp only [Op.ty, Option.some.injEq] at ht
    subst ht
    obtain ⟨x, hx, h⟩ := bind_some h
    obtain ⟨y, hy, h'⟩ := bind_some h'
    have hx := lft_some' hx
    have hy := lft_some' hy
    rw [pure_some h, pure_some h']
    refine ⟨hc.set (fun e => ?_) d, rfl⟩
    rw [hc.reg _ e, hy] at hx
    exact (Option.some.inj hx).symm
  | addX d p q =>
    simp only [Op.ty, Option.some.injEq] at ht
    subst ht
    obtain ⟨x, hx, h⟩ := bind_some h
    obtain ⟨y, hy, h'⟩ := bind_some h'
    have hx := lft_some' hx
    have hy := lft_some' hy
    rw [pure_some h, pure_some h']
    refine ⟨hc.set (fun e => ?_) d, rfl⟩
    simp only [Bool.and_eq_true] at e
    rw [hc.reg _ e.1, hc.reg _ e.2, hy] at hx
    exact (Option.some.inj hx).symm
  | subsW d s n =>
    simp only [Op.ty, Option.some.injEq] at ht
    subst ht
    obtain ⟨x, hx, h⟩ := bind_some h
    obtain ⟨y, hy, h'⟩ := bind_some h'
    have hx := lft_some' hx
    have hy := lft_some' hy
    have key : a.get s = true → x.1 = y.1 := fun e => by
      rw [hc.reg _ e, hy] at hx
      exact (Option.some.inj hx).symm
    rw [pure_some h, pure_some h']
    refine ⟨⟨fun r hr => ?_, fun e => ?_, fun e => ?_⟩, rfl⟩
    · have := (hc.set (t := a.get s) (x := .num ((x.1.setWidth 32 - n : BitVec 32).setWidth 64))
        (y := .num ((y.1.setWidth 32 - n : BitVec 32).setWidth 64)) (fun e => by rw [key e]) d).reg r hr
      cases r <;> exact this
    · show some _ = some _
      rw [key e]
    · show some _ = some _
      rw [key e]
  | addW d s n =>
    simp only [Op.ty, Option.some.injEq] at ht
    subst ht
    obtain ⟨x, hx, h⟩ := bind_some h
    obtain ⟨y, hy, h'⟩ := bind_some h'
    have hx := lft_some' hx
    have hy := lft_some' hy
    rw [pure_some h, pure_some h']
    refine ⟨hc.set (fun e => ?_) d, rfl⟩
    rw [hc.reg _ e, hy] at hx
    rw [Option.some.inj hx]
  | eorW d p q =>
    simp only [Op.ty, Option.some.injEq] at ht
    subst ht
    obtain ⟨x, hx, h⟩ := bind_some h
    obtain ⟨y, hy, h'⟩ := bind_some h'
    have hx := lft_some' hx
    have hy := lft_some' hy
    rw [pure_some h, pure_some h']
    refine ⟨hc.set (fun e => ?_) d, rfl⟩
    simp only [Bool.and_eq_true] at e
    rw [hc.reg _ e.1, hc.reg _ e.2, hy] at hx
    exact (Option.some.inj hx).symm
  | movI d x =>
    simp only [Op.ty, Option.some.injEq] at ht
    subst ht
    rw [pure_some h, pure_some h']
    exact ⟨hc.set (fun _ => rfl) d, rfl⟩
  | adr d x =>
    simp only [Op.ty, Option.some.injEq] at ht
    subst ht
    rw [pure_some h, pure_some h']
    exact ⟨hc.set (fun _ => rfl) d, rfl⟩
  | ror d s n =>
    simp only [Op.ty, Option.some.injEq] at ht
    subst ht
    obtain ⟨x, hx, h⟩ := bind_some h
    obtain ⟨y, hy, h'⟩ := bind_some h'
    have hx := lft_some' hx
    have hy := lft_some' hy
    rw [pure_some h, pure_some h']
    refine ⟨hc.set (fun e => ?_) d, rfl⟩
    rw [hc.reg _ e, hy] at hx
    rw [Option.some.inj hx]
  | umov d v k =>
    simp only [Op.ty, Option.some.injEq] at ht
    subst ht
    rw [pure_some h, pure_some h']
    exact ⟨hc.set (fun e => by cases e) d, rfl⟩
  | insX v k s =>
    simp only [Op.ty, Option.some.injEq] at ht
    subst ht
    obtain ⟨x, hx, h⟩ := bind_some h
    obtain ⟨y, hy, h'⟩ := bind_some h'
    rw [pure_some h, pure_some h']
    exact ⟨hc.setV _ _ _ _, rfl⟩
  | ldrb d m =>
    simp only [Op.ty, Option.ite_none_right_eq_some, Option.some.injEq] at ht
    obtain ⟨hm, rfl⟩ := ht
    refine ⟨?_, by simp only [Op.leak, hc.adr hm]⟩
    iterate 2 (obtain ⟨_, _, h⟩ := bind_some h)
    iterate 2 (obtain ⟨_, _, h'⟩ := bind_some h')
    exact (hc.set (t := false) (fun e => by cases e) d).bump (lft_some' h) (lft_some' h')
  | strb s m =>
    simp only [Op.ty, Option.ite_none_right_eq_some, Option.some.injEq] at ht
    obtain ⟨hm, rfl⟩ := ht
    refine ⟨?_, by simp only [Op.leak, hc.adr hm]⟩
    iterate 3 (obtain ⟨_, _, h⟩ := bind_some h)
    iterate 3 (obtain ⟨_, _, h'⟩ := bind_some h')
    exact hc.bump (lft_some' h) (lft_some' h')

section
variable {L : Type} {P : Prog L} {G : L → Option A}

theorem lbl_some {G : L → Option A} {l : L} {a : A} (h : (match G l with | some b => b.le a | none => false) = true) :
    ∃ b, G l = some b ∧ b.le a = true := by
  cases e : G l with
  | none => rw [e] at h; cases h
  | some b => rw [e] at h; exact ⟨b, rfl, h⟩

/-- Runs of well-typed code which agree on what is public have the same trace. -/
theorem trace_sound (hT : Typed P G) (n : Nat) : ∀ (n' : Nat) (is : List (Ins L)) (a : A) (c c' : Cpu) (t : List Ev) (H H' : Heap)
    (r r' : (Cpu × List Ev) × Heap), check G is a = true → ARel a c c' → P.trace n is c t H = some r →
    P.trace n' is c' t H' = some r' → r.1.2 = r'.1.2 := by
  induction n with
  | zero => intro n' is a c c' t H H' r r' _ _ h1 _; simp [Prog.trace, lft] at h1
  | succ n ih =>
    intro n' is a c c' t H H' r r' hk hc h1 h2
    cases n' with
    | zero => simp [Prog.trace, lft] at h2
    | succ n' =>
      cases is with
      | nil => simp [Prog.trace, lft] at h1
      | cons i is =>
        cases i with
        | op o =>
          rw [check] at hk
          cases e : o.ty a with
          | none => rw [e] at hk; cases hk
          | some a' =>
            rw [e] at hk
            rw [Prog.trace] at h1 h2
            obtain ⟨p, hp, h1⟩ := bind_some h1
            obtain ⟨q, hq, h2⟩ := bind_some h2
            obtain ⟨h3, h4⟩ := op_sound hc e hp hq
            rw [h4] at h1
            exact ih n' _ _ _ _ _ _ _ _ _ hk h3 h1 h2
        | b l =>
          rw [check] at hk
          obtain ⟨b, hb, hl⟩ := lbl_some hk
          rw [Prog.trace] at h1 h2
          exact ih n' _ _ _ _ _ _ _ _ _ (hT l b hb) (hc.mono hl) h1 h2
        | bcc l =>
          simp only [check, Bool.and_eq_true] at hk
          obtain ⟨⟨hf, hl⟩, hk⟩ := hk
          obtain ⟨b, hb, hl⟩ := lbl_some hl
          rw [Prog.trace] at h1 h2
          obtain ⟨p, hp, h1⟩ := bind_some h1
          obtain ⟨q, hq, h2⟩ := bind_some h2
          have hp := lft_some' hp
          have hq := lft_some' hq
          rw [hc.cf hf, hq] at hp
          rw [← Option.some.inj hp] at h1
          split at h1 <;> rename_i hs
          · rw [if_pos hs] at h2
            exact ih n' _ _ _ _ _ _ _ _ _ hk hc h1 h2
          · rw [if_neg hs] at h2
            exact ih n' _ _ _ _ _ _ _ _ _ (hT l b hb) (hc.mono hl) h1 h2
        | bne l =>
          simp only [check, Bool.and_eq_true] at hk
          obtain ⟨⟨hf, hl⟩, hk⟩ := hk
          obtain ⟨b, hb, hl⟩ := lbl_some hl
          rw [Prog.trace] at h1 h2
          obtain ⟨p, hp, h1⟩ := bind_some h1
          obtain ⟨q, hq, h2⟩ := bind_some h2
          have hp := lft_some' hp
          have hq := lft_some' hq
          rw [hc.zf hf, hq] at hp
          rw [← Option.some.inj hp] at h1
          split at h1 <;> rename_i hs
          · rw [if_pos hs] at h2
            exact ih n' _ _ _ _ _ _ _ _ _ hk hc h1 h2
          · rw [if_neg hs] at h2
            exact ih n' _ _ _ _ _ _ _ _ _ (hT l b hb) (hc.mono hl) h1 h2
        | ret =>
          rw [Prog.trace] at h1 h2
          rw [pure_some h1, pure_some h2]

/-! ### Runs and traces -/

theorem run_of_trace {n : Nat} {is : List (Ins L)} {c : Cpu} {t : List Ev} {H : Heap}
    {r : (Cpu × List Ev) × Heap} (h : P.trace n is c t H = some r) : P.run is c H = some (r.1.1, r.2) := by
  induction n generalizing is c t H with
  | zero => simp [Prog.trace, lft] at h
  | succ n ih =>
    rw [Prog.trace.eq_def] at h
    rw [Prog.run.eq_def]
    simp only at h
    split at h
    · simp [lft] at h
    · obtain ⟨p, hp, h⟩ := bind_some h
      have := ih h
      simp only [bind, StateT.bind, hp, Option.bind_some]; exact this
    · exact ih h
    · obtain ⟨p, hp, h⟩ := bind_some h
      simp only [bind, StateT.bind, hp, Option.bind_some]
      cases hb : p.1 <;> rw [hb] at h <;> exact ih h
    · obtain ⟨p, hp, h⟩ := bind_some h
      simp only [bind, StateT.bind, hp, Option.bind_some]
      cases hb : p.1 <;> rw [hb] at h <;> exact ih h
    · simp only [pure, StateT.pure, Option.some.injEq] at h
      rw [← h]; rfl

theorem trace_of_run {is : List (Ins L)} {c : Cpu} {H : Heap} {r : Cpu × Heap}
    (h : P.run is c H = some r) : ∀ t, ∃ n t', P.trace n is c t H = some ((r.1, t'), r.2) := by
  revert h
  revert r H c is
  refine @(Prog.run.fixpoint_induct P (fun f => ∀ is c H r, f is c H = some r → ∀ t, ∃ n t',
    P.trace n is c t H = some ((r.1, t'), r.2)) ?_ ?_)
  · refine Lean.Order.admissible_pi_apply (fun is (f : Cpu → Heap → Option (Cpu × Heap)) => ∀ c H r, f c H = some r → ∀ t, ∃ n t',
      P.trace n is c t H = some ((r.1, t'), r.2)) fun is => ?_
    refine Lean.Order.admissible_pi_apply (fun c (f : Heap → Option (Cpu × Heap)) => ∀ H r, f H = some r → ∀ t, ∃ n t',
      P.trace n is c t H = some ((r.1, t'), r.2)) fun c => ?_
    refine Lean.Order.admissible_pi_apply (fun H (f : Option (Cpu × Heap)) => ∀ r, f = some r → ∀ t, ∃ n t',
      P.trace n is c t H = some ((r.1, t'), r.2)) fun H => ?_
    exact Lean.Order.admissible_pi _ fun r => Lean.Order.Option.admissible_eq_some _ r
  · intro f ih is c H r h t
    simp only at h
    split at h
    · simp [lft] at h
    · next o is =>
      obtain ⟨p, hp, h⟩ := bind_some h
      obtain ⟨n, t', hn⟩ := ih _ _ _ _ h (t ++ o.leak c)
      refine ⟨n + 1, t', ?_⟩
      rw [Prog.trace]; simp only [bind, StateT.bind, hp, Option.bind_some]; exact hn
    · obtain ⟨n, t', hn⟩ := ih _ _ _ _ h t
      exact ⟨n + 1, t', by rw [Prog.trace]; exact hn⟩
    · obtain ⟨p, hp, h⟩ := bind_some h
      cases hb : p.1 <;> rw [hb] at h <;> obtain ⟨n, t', hn⟩ := ih _ _ _ _ h (t ++ [.br p.1]) <;>
        refine ⟨n + 1, t', ?_⟩ <;> rw [Prog.trace] <;> simp only [bind, StateT.bind, hp, Option.bind_some, hb] <;>
        rw [hb] at hn <;> exact hn
    · obtain ⟨p, hp, h⟩ := bind_some h
      cases hb : p.1 <;> rw [hb] at h <;> obtain ⟨n, t', hn⟩ := ih _ _ _ _ h (t ++ [.br p.1]) <;>
        refine ⟨n + 1, t', ?_⟩ <;> rw [Prog.trace] <;> simp only [bind, StateT.bind, hp, Option.bind_some, hb] <;>
        rw [hb] at hn <;> exact hn
    · simp only [pure, StateT.pure, Option.some.injEq] at h
      refine ⟨1, t, ?_⟩
      rw [← h]; rfl

/-- The traces are those of the runs. -/
theorem Prog.trace_iff (is : List (Ins L)) (c : Cpu) (H : Heap) (r : Cpu × Heap) :
    P.run is c H = some r ↔ ∃ n t, P.trace n is c [] H = some ((r.1, t), r.2) :=
  ⟨fun h => trace_of_run h [], fun ⟨_, _, h⟩ => run_of_trace h⟩

end

/-! ### The types of the labels of sha3/armv8a-neon/KeccakP-1600-armv8a-neon.s -/

open Faest.GenN

def A.pr (p : List Reg) : A := ⟨p, false, false⟩

def keccakTypes : Lbl → Option A
  | .KeccakP1600_Initialize => some (.pr [.x0])
  | .KeccakP1600_AddByte => some (.pr [.x0, .x2])
  | .KeccakP1600_AddBytes => some (.pr [.x0, .x1, .x2, .x3])
  | .KeccakP1600_AddBytes_8LanesLoop => some (.pr [.x0, .x1, .x3])
  | .KeccakP1600_AddBytes_Lanes => some (.pr [.x0, .x1, .x3])
  | .KeccakP1600_AddBytes_LanesLoop => some (.pr [.x0, .x1, .x3])
  | .KeccakP1600_AddBytes_Bytes => some (.pr [.x0, .x1, .x3])
  | .KeccakP1600_AddBytes_BytesLoop => some (.pr [.x0, .x1, .x3])
  | .KeccakP1600_AddBytes_Exit => some (.pr [])
  | .KeccakP1600_ExtractBytes => some (.pr [.x0, .x1, .x2, .x3])
  | .KeccakP1600_ExtractBytes_8LanesLoop => some (.pr [.x0, .x1, .x3])
  | .KeccakP1600_ExtractBytes_Lanes => some (.pr [.x0, .x1, .x3])
  | .KeccakP1600_ExtractBytes_LanesLoop => some (.pr [.x0, .x1, .x3])
  | .KeccakP1600_ExtractBytes_Bytes => some (.pr [.x0, .x1, .x3])
  | .KeccakP1600_ExtractBytes_BytesLoop => some (.pr [.x0, .x1, .x3])
  | .KeccakP1600_ExtractBytes_Exit => some (.pr [])
  | .KeccakP1600_Permute_24rounds => some (.pr [.x0])
  | .KeccakP1600_Permute => some (.pr [.x0, .x1, .x2])
  | .KeccakP1600_Permute_RoundLoop => some (.pr [.x0, .x1, .x2])
  | .KeccakP1600_Permute_Exit => some (.pr [.x0])

/-- The code of a label has its type. -/
def okAt (l : Lbl) : Bool :=
  match keccakTypes l with
  | some a => check keccakTypes (prog.code l) a
  | none => true

theorem keccak_ok (l : Lbl) : okAt l = true := by
  cases l <;> decide +kernel

theorem keccak_typed : Typed prog keccakTypes := by
  intro l a ha
  have := keccak_ok l
  rw [okAt, ha] at this
  exact this

end Faest.A64
