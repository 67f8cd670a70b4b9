/-
A type system for assembler code: what is public at every label.  Runs of well-typed code which agree on what is public
have the same trace.
-/
import Verif.Model.AsmLeak
import Verif.Proofs.Asm.Perm

namespace Faest.Asm
open Faest.C

/-! ### Types -/

/-- Secret; public (the same in both runs); public and an address in the table of constants. -/
inductive Ty where
  | sec | pub | rod
deriving DecidableEq

def Ty.isPub : Ty → Bool
  | .sec => false
  | _ => true

def Ty.le : Ty → Ty → Bool
  | .sec, _ => true
  | .pub, .sec => false
  | .pub, _ => true
  | .rod, .rod => true
  | .rod, _ => false

def Ty.add : Ty → Ty → Ty
  | .sec, _ => .sec
  | _, .sec => .sec
  | .rod, _ => .rod
  | _, .rod => .rod
  | .pub, .pub => .pub

def Ty.sub : Ty → Ty → Ty
  | .sec, _ => .sec
  | _, .sec => .sec
  | t, _ => t

def Ty.meet : Ty → Ty → Ty
  | .sec, _ => .sec
  | _, .sec => .sec
  | .rod, .rod => .rod
  | _, _ => .pub

def Ty.num : Ty → Ty
  | .sec => .sec
  | _ => .pub

/-- The registers, vectors and flags which are public. -/
structure A where
  pub : List Reg
  rod : List Reg
  vec : List Vec
  zf : Bool
  cf : Bool
deriving DecidableEq

def A.get (a : A) (r : Reg) : Ty := if r ∈ a.rod then .rod else if r ∈ a.pub then .pub else .sec

def A.set (a : A) (t : Ty) (r : Reg) : A :=
  match t with
  | .sec => { a with pub := a.pub.filter (· ≠ r), rod := a.rod.filter (· ≠ r) }
  | .pub => { a with pub := r :: a.pub.filter (· ≠ r), rod := a.rod.filter (· ≠ r) }
  | .rod => { a with pub := a.pub.filter (· ≠ r), rod := r :: a.rod.filter (· ≠ r) }

def A.flags (a : A) (z k : Bool) : A := { a with zf := z, cf := k }
def A.getV (a : A) (v : Vec) : Bool := decide (v ∈ a.vec)
def A.setV (a : A) (b : Bool) (v : Vec) : A :=
  if b then { a with vec := v :: a.vec.filter (· ≠ v) } else { a with vec := a.vec.filter (· ≠ v) }

/-- `a` asks for less than `b` knows. -/
def A.le (a b : A) : Bool :=
  a.pub.all (fun r => Ty.le .pub (b.get r)) && a.rod.all (fun r => Ty.le .rod (b.get r)) && a.vec.all b.getV &&
    (!a.zf || b.zf) && (!a.cf || b.cf)

def A.adr (a : A) : Adr → Ty
  | .base _ r => a.get r
  | .baseIdx _ r i => (a.get r).add (a.get i)
  | .rip _ => .rod

/-- A load: the address has to be public; constants are public. -/
def ldTy : Ty → Option Ty
  | .sec => none
  | .pub => some .sec
  | .rod => some .pub

def A.src (a : A) : Src → Option Ty
  | .reg r => some (a.get r)
  | .imm _ => some .pub
  | .mem m => ldTy (a.adr m)

def A.vsrc (a : A) : VSrc → Option Bool
  | .reg r => some (a.getV r)
  | .mem m => (ldTy (a.adr m)).map Ty.isPub

def A.op (a : A) : Op → Option A
  | .mov s d => (a.src s).map fun t => a.set t d
  | .movSt s d => if (a.src s).isSome && (a.adr d).isPub then some a else none
  | .movLd1 s d => if (a.adr s).isPub then some (a.set .sec d) else none
  | .movSt1 _ d => if (a.adr d).isPub then some a else none
  | .mov32 _ d => some (a.set .pub d)
  | .lea s d => some (a.set (a.adr s) d)
  | .add s d => (a.src s).map fun t => let u := (a.get d).add t; (a.set u d).flags u.isPub u.isPub
  | .sub s d => (a.src s).map fun t => let u := (a.get d).sub t; (a.set u d).flags u.isPub u.isPub
  | .cmp s d => (a.src s).map fun t => let u := (a.get d).sub t; a.flags u.isPub u.isPub
  | .and _ d => let u := (a.get d).num; some ((a.set u d).flags u.isPub true)
  | .and32 _ d => let u := (a.get d).num; some ((a.set u d).flags u.isPub true)
  | .xorSt _ d => if (a.adr d).isPub then some (a.flags false true) else none
  | .xorSt1 _ d => if (a.adr d).isPub then some (a.flags false true) else none
  | .cmovae s d => some (a.set (if a.cf then (a.get s).meet (a.get d) else .sec) d)
  | .inc d => let u := a.get d; some ((a.set u d).flags u.isPub a.cf)
  | .dec d => let u := a.get d; some ((a.set u d).flags u.isPub a.cf)
  | .dec32 d => let u := (a.get d).num; some ((a.set u d).flags u.isPub a.cf)
  | .shr _ d => let u := (a.get d).num; some ((a.set u d).flags true true)
  | .vmovdqu s d => (ldTy (a.adr s)).map fun t => a.setV t.isPub d
  | .vmovdquSt _ d => if (a.adr d).isPub then some a else none
  | .vmovdqa s d => (ldTy (a.adr s)).map fun t => a.setV t.isPub d
  | .vmovdqaX s d => (ldTy (a.adr s)).map fun t => a.setV t.isPub d
  | .vmovqSt _ d => if (a.adr d).isPub then some a else none
  | .vpbroadcastq s d => (ldTy (a.adr s)).map fun t => a.setV t.isPub d
  | .vpxor s b d => (a.vsrc s).map fun t => a.setV (t && a.getV b) d
  | .vpor s b d => some (a.setV (a.getV s && a.getV b) d)
  | .vpandn s b d => some (a.setV (a.getV s && a.getV b) d)
  | .vpaddq s b d => some (a.setV (a.getV s && a.getV b) d)
  | .vpcmpeqd s b d => some (a.setV (decide (s = b) || (a.getV s && a.getV b)) d)
  | .vpsrlq _ b d => some (a.setV (a.getV b) d)
  | .vpsllvq s b d => (ldTy (a.adr s)).map fun t => a.setV (t.isPub && a.getV b) d
  | .vpsrlvq s b d => (ldTy (a.adr s)).map fun t => a.setV (t.isPub && a.getV b) d
  | .vpsrldq8 b d => some (a.setV (a.getV b) d)
  | .vpshufd _ b d => some (a.setV (a.getV b) d)
  | .vpermq _ b d => some (a.setV (a.getV b) d)
  | .vpblendd _ s b d => some (a.setV (a.getV s && a.getV b) d)
  | .vpgatherdq m b i d =>
    if a.getV m && a.getV i && (a.get b).isPub then some ((a.setV false d).setV true m) else none
  | .vzeroupper => some a

/-- What is public at a label, the types of what the function has pushed there, and what is public when it returns. -/
structure LTy where
  inp : A
  stk : List Ty
  out : A

/-- A jump to a label of type `l`. -/
def jmpOk (l : Option LTy) (a : A) (s : List Ty) (out : A) : Bool :=
  match l with
  | some l => l.inp.le a && decide (l.stk = s) && out.le l.out
  | none => false

/-- A call of a label of type `l`; `k` checks what follows. -/
def callOk (l : Option LTy) (a : A) (k : A → Bool) : Bool :=
  match l with
  | some l => l.inp.le a && decide (l.stk = []) && k l.out
  | none => false

/-- Check code in a context: `G` are the types of the labels in the contexts `K`, `g` those in this one. -/
def check {L C : Type} (G : C → L → Option LTy) (K : List C) (g : L → Option LTy) :
    List (Ins L) → A → List Ty → A → Bool
  | [], _, _, _ => false
  | .op o :: is, a, s, out =>
    match a.op o with
    | some a => check G K g is a s out
    | none => false
  | .jmp l :: _, a, s, out => jmpOk (g l) a s out
  | .jz l :: is, a, s, out => a.zf && jmpOk (g l) a s out && check G K g is a s out
  | .jnz l :: is, a, s, out => a.zf && jmpOk (g l) a s out && check G K g is a s out
  | .jc l :: is, a, s, out => a.cf && jmpOk (g l) a s out && check G K g is a s out
  | .jnc l :: is, a, s, out => a.cf && jmpOk (g l) a s out && check G K g is a s out
  | .push r :: is, a, s, out => check G K g is a (a.get r :: s) out
  | .pop r :: is, a, s, out =>
    match s with
    | t :: s => check G K g is (a.set t r) s out
    | [] => false
  | .call l :: is, a, s, out => K.any fun k => callOk (G k l) a fun b => check G K g is b s out
  | .ret :: _, a, s, out => decide (s = []) && out.le a

/-- All labels are well-typed. -/
def Typed {L C : Type} (P : Prog L) (G : C → L → Option LTy) (K : List C) : Prop :=
  ∀ k l t, G k l = some t → check G K (G k) (P.code l) t.inp t.stk t.out = true

/-! ### The relation between two runs -/

/-- Two values of a type. -/
def TRel (t : Ty) (x y : Val) : Prop :=
  match t with
  | .sec => True
  | .pub => x = y
  | .rod => x = y ∧ ∃ o, y = .rod o

structure ARel (a : A) (c c' : Cpu) : Prop where
  reg : ∀ r, TRel (a.get r) (c.get r) (c'.get r)
  vec : ∀ v, a.getV v = true → c.v.get v = c'.v.get v
  zf : a.zf = true → c.zf = c'.zf
  cf : a.cf = true → c.cf = c'.cf

theorem TRel.mono {t u : Ty} {x y : Val} (h : TRel u x y) (hl : Ty.le t u = true) : TRel t x y := by
  cases t <;> cases u <;> first | trivial | exact h | exact h.1

theorem TRel.eq {t : Ty} {x y : Val} (h : TRel t x y) (hp : t.isPub = true) : x = y := by
  cases t <;> simp_all [TRel, Ty.isPub]

theorem Cpu.get_set (c : Cpu) (x : Val) (d r : Reg) : (c.set x d).get r = if r = d then x else c.get r := by
  cases d <;> cases r <;> rfl

theorem VFile.get_set (v : VFile) (x : V256) (d r : Vec) : (v.set x d).get r = if r = d then x else v.get r := by
  cases d <;> cases r <;> rfl

theorem Cpu.set_v (c : Cpu) (x : Val) (d : Reg) : (c.set x d).v = c.v := by cases d <;> rfl
theorem Cpu.set_zf (c : Cpu) (x : Val) (d : Reg) : (c.set x d).zf = c.zf := by cases d <;> rfl
theorem Cpu.set_cf (c : Cpu) (x : Val) (d : Reg) : (c.set x d).cf = c.cf := by cases d <;> rfl
theorem Cpu.get_flags (c : Cpu) (z k : Option Bool) (r : Reg) : (c.flags z k).get r = c.get r := by cases r <;> rfl
theorem Cpu.get_setV (c : Cpu) (x : V256) (d : Vec) (r : Reg) : (c.setV x d).get r = c.get r := by cases r <;> rfl

theorem A.get_set (a : A) (t : Ty) (d r : Reg) : (a.set t d).get r = if r = d then t else a.get r := by
  cases t <;> by_cases h : r = d <;> simp [A.set, A.get, h]

theorem A.set_vec (a : A) (t : Ty) (d : Reg) (v : Vec) : (a.set t d).getV v = a.getV v := by cases t <;> rfl
theorem A.set_zf (a : A) (t : Ty) (d : Reg) : (a.set t d).zf = a.zf := by cases t <;> rfl
theorem A.set_cf (a : A) (t : Ty) (d : Reg) : (a.set t d).cf = a.cf := by cases t <;> rfl
theorem A.setV_get (a : A) (b : Bool) (d : Vec) (r : Reg) : (a.setV b d).get r = a.get r := by cases b <;> rfl
theorem A.setV_zf (a : A) (b : Bool) (d : Vec) : (a.setV b d).zf = a.zf := by cases b <;> rfl
theorem A.setV_cf (a : A) (b : Bool) (d : Vec) : (a.setV b d).cf = a.cf := by cases b <;> rfl

theorem A.getV_setV (a : A) (b : Bool) (d v : Vec) : (a.setV b d).getV v = if v = d then b else a.getV v := by
  cases b <;> by_cases h : v = d <;> simp [A.setV, A.getV, h]

section
variable {a : A} {c c' : Cpu}

theorem ARel.set (h : ARel a c c') {t : Ty} {x y : Val} (hx : TRel t x y) (d : Reg) :
    ARel (a.set t d) (c.set x d) (c'.set y d) where
  reg r := by
    rw [A.get_set, Cpu.get_set, Cpu.get_set]
    by_cases e : r = d
    · simp only [e, if_true]; exact hx
    · simp only [e, if_false]; exact h.reg r
  vec v hv := by
    rw [A.set_vec] at hv
    rw [Cpu.set_v, Cpu.set_v]; exact h.vec v hv
  zf hz := by
    rw [A.set_zf] at hz
    rw [Cpu.set_zf, Cpu.set_zf]; exact h.zf hz
  cf hz := by
    rw [A.set_cf] at hz
    rw [Cpu.set_cf, Cpu.set_cf]; exact h.cf hz

theorem ARel.flags (h : ARel a c c') {b b' : Bool} {z k z' k' : Option Bool} (hz : b = true → z = z')
    (hk : b' = true → k = k') : ARel (a.flags b b') (c.flags z k) (c'.flags z' k') where
  reg r := by
    rw [Cpu.get_flags, Cpu.get_flags]; exact h.reg r
  vec v hv := h.vec v hv
  zf := hz
  cf := hk

theorem ARel.setV (h : ARel a c c') {b : Bool} {x y : V256} (hx : b = true → x = y) (d : Vec) :
    ARel (a.setV b d) (c.setV x d) (c'.setV y d) where
  reg r := by
    rw [A.setV_get, Cpu.get_setV, Cpu.get_setV]; exact h.reg r
  vec v hv := by
    rw [A.getV_setV] at hv
    show (c.v.set x d).get v = (c'.v.set y d).get v
    rw [VFile.get_set, VFile.get_set]
    by_cases e : v = d
    · simp only [e, if_true] at hv ⊢; exact hx hv
    · simp only [e, if_false] at hv ⊢; exact h.vec v hv
  zf hz := h.zf (by rwa [A.setV_zf] at hz)
  cf hz := h.cf (by rwa [A.setV_cf] at hz)

theorem ARel.mono {b : A} (h : ARel b c c') (hl : a.le b = true) : ARel a c c' := by
  simp only [A.le, Bool.and_eq_true, List.all_eq_true, Bool.or_eq_true, Bool.not_eq_true'] at hl
  obtain ⟨⟨⟨⟨h1, h2⟩, h3⟩, h4⟩, h5⟩ := hl
  refine ⟨fun r => ?_, fun v hv => ?_, fun hz => ?_, fun hz => ?_⟩
  · by_cases e1 : r ∈ a.rod
    · rw [A.get, if_pos e1]; exact (h.reg r).mono (h2 r e1)
    · rw [A.get, if_neg e1]
      by_cases e2 : r ∈ a.pub
      · rw [if_pos e2]; exact (h.reg r).mono (h1 r e2)
      · rw [if_neg e2]; trivial
  · exact h.vec v (h3 v (by simpa [A.getV] using hv))
  · exact h.zf (h4.resolve_left (by simp [hz]))
  · exact h.cf (h5.resolve_left (by simp [hz]))

end

/-! ### Operands -/

/-- Two addresses, if they exist. -/
def ORel (t : Ty) (x y : Option Val) : Prop :=
  ∀ v w, x = some v → y = some w → TRel t v w

theorem bind_some {α β : Type} {x : CM α} {f : α → CM β} {H : Heap} {r : β × Heap} (h : (x >>= f) H = some r) :
    ∃ p, x H = some p ∧ f p.1 p.2 = some r := by
  cases hx : x H with
  | none => simp [bind, StateT.bind, hx] at h
  | some p => exact ⟨p, rfl, by simpa [bind, StateT.bind, hx] using h⟩

theorem lft_some' {α : Type} {x : Option α} {H : Heap} {r : α × Heap} (h : lft x H = some r) : x = some r.1 := by
  cases x with
  | none => simp [lft] at h
  | some v => simp only [lft, Option.map_some, Option.some.injEq] at h; rw [← h]

theorem pure_some {α : Type} {x : α} {H : Heap} {r : α × Heap} (h : (pure x : CM α) H = some r) : r.1 = x := by
  simp only [pure, StateT.pure, Option.some.injEq] at h; rw [← h]

theorem off_rel {t : Ty} {x y : Val} (h : TRel t x y) (d : Int) : ORel t (x.off d) (y.off d) := by
  intro v w hv hw
  cases t with
  | sec => trivial
  | pub => cases h; rw [hv] at hw; exact Option.some.inj hw
  | rod =>
    obtain ⟨rfl, o, rfl⟩ := h
    simp only [Val.off, Option.some.injEq] at hv hw
    exact ⟨hv.symm.trans hw, _, hw.symm⟩

theorem off_eq {t : Ty} {x y : Val} (h : TRel t x y) (hp : t.isPub = true) (d : Int) : x.off d = y.off d := by
  rw [h.eq hp]

theorem add_rel {t u : Ty} {x y x' y' : Val} (h : TRel t x x') (h' : TRel u y y') :
    ORel (t.add u) (x.add y) (x'.add y') := by
  intro v w hv hw
  cases t <;> cases u <;> first | trivial | skip
  · cases h; cases h'; rw [hv] at hw; exact Option.some.inj hw
  · cases h; obtain ⟨rfl, o, rfl⟩ := h'
    rw [hv] at hw; cases hw
    cases x <;> simp_all [Val.add, Val.off, TRel, Ty.add] <;> exact ⟨_, hv.symm⟩
  · cases h'; obtain ⟨rfl, o, rfl⟩ := h
    rw [hv] at hw; cases hw
    cases y <;> simp_all [Val.add, Val.off, TRel, Ty.add] <;> exact ⟨_, hv.symm⟩
  · obtain ⟨rfl, o, rfl⟩ := h; obtain ⟨rfl, o', rfl⟩ := h'
    simp [Val.add] at hv

section
variable {a : A} {c c' : Cpu} (h : ARel a c c')
include h

theorem adr_rel (m : Adr) : ORel (a.adr m) (c.adr m) (c'.adr m) := by
  cases m with
  | base d r => exact off_rel (h.reg r) d
  | baseIdx d r i =>
    intro v w hv hw
    obtain ⟨x, hx, hv⟩ := Option.bind_eq_some_iff.1 hv
    obtain ⟨y, hy, hw⟩ := Option.bind_eq_some_iff.1 hw
    exact off_rel (add_rel (h.reg r) (h.reg i) x y hx hy) d v w hv hw
  | rip o =>
    intro v w hv hw
    simp only [Cpu.adr, Option.some.injEq] at hv hw
    exact ⟨hv.symm.trans hw, _, hw.symm⟩

theorem adr_eq (m : Adr) (hp : (a.adr m).isPub = true) : c.adr m = c'.adr m := by
  cases m with
  | base d r => exact off_eq (h.reg r) hp d
  | baseIdx d r i =>
    have h1 : (a.get r).isPub = true ∧ (a.get i).isPub = true := by
      revert hp
      show ((a.get r).add (a.get i)).isPub = true → _
      cases a.get r <;> cases a.get i <;> simp [Ty.add, Ty.isPub]
    show ((c.get r).add (c.get i)).bind _ = ((c'.get r).add (c'.get i)).bind _
    rw [(h.reg r).eq h1.1, (h.reg i).eq h1.2]
  | rip o => rfl

end

theorem ldTy_pub {t u : Ty} (h : ldTy t = some u) : t.isPub = true ∧ (u.isPub = true → t = .rod) := by
  cases t <;> simp_all [ldTy, Ty.isPub] <;> subst h <;> simp

section
variable {T : List (BitVec 64)} {H H' : Heap} {x y : Val}

/-- Loads from the table of constants have the same value. -/
theorem ld8_rod {p p' : BitVec 64 × Heap} (h : TRel .rod x y) (h1 : ld8 T x H = some p) (h2 : ld8 T y H' = some p') :
    p.1 = p'.1 := by
  obtain ⟨rfl, o, rfl⟩ := h
  simp only [ld8] at h1 h2
  split at h1
  · rw [if_pos ‹_›] at h2
    have e1 := lft_some' h1
    have e2 := lft_some' h2
    rw [e1] at e2; exact Option.some.inj e2
  · simp [lft] at h1

theorem ld8o_rod {p p' : BitVec 64 × Heap} (h : TRel .rod x y) {d : Int} (h1 : ld8o T x d H = some p)
    (h2 : ld8o T y d H' = some p') : p.1 = p'.1 := by
  obtain ⟨q, hq, h1⟩ := bind_some h1
  obtain ⟨q', hq', h2⟩ := bind_some h2
  exact ld8_rod (off_rel h d _ _ (lft_some' hq) (lft_some' hq')) h1 h2

theorem ld32_rod {p p' : V256 × Heap} (h : TRel .rod x y) (h1 : ld32 T x H = some p) (h2 : ld32 T y H' = some p') :
    p.1 = p'.1 := by
  obtain ⟨a0, k0, h1⟩ := bind_some h1
  obtain ⟨a1, k1, h1⟩ := bind_some h1
  obtain ⟨a2, k2, h1⟩ := bind_some h1
  obtain ⟨a3, k3, h1⟩ := bind_some h1
  obtain ⟨b0, l0, h2⟩ := bind_some h2
  obtain ⟨b1, l1, h2⟩ := bind_some h2
  obtain ⟨b2, l2, h2⟩ := bind_some h2
  obtain ⟨b3, l3, h2⟩ := bind_some h2
  rw [pure_some h1, pure_some h2, ld8o_rod h k0 l0, ld8o_rod h k1 l1, ld8o_rod h k2 l2, ld8o_rod h k3 l3]

end

section
variable {T : List (BitVec 64)} {a : A} {c c' : Cpu} {H H' : Heap} (h : ARel a c c')
include h

theorem src_rel {s : Src} {t : Ty} (ht : a.src s = some t) {p p' : Val × Heap} (h1 : s.val T c H = some p)
    (h2 : s.val T c' H' = some p') : s.leak c = s.leak c' ∧ TRel t p.1 p'.1 := by
  cases s with
  | reg r =>
    cases ht
    rw [pure_some h1, pure_some h2]
    exact ⟨rfl, h.reg r⟩
  | imm x =>
    cases ht
    rw [pure_some h1, pure_some h2]
    exact ⟨rfl, rfl⟩
  | mem m =>
    obtain ⟨hp, hr⟩ := ldTy_pub ht
    obtain ⟨q, hq, h1⟩ := bind_some h1
    obtain ⟨q', hq', h2⟩ := bind_some h2
    obtain ⟨w, hw, h1⟩ := bind_some h1
    obtain ⟨w', hw', h2⟩ := bind_some h2
    refine ⟨by rw [Src.leak, Src.leak, adr_eq h m hp], ?_⟩
    rw [pure_some h1, pure_some h2]
    have ha := adr_rel h m _ _ (lft_some' hq) (lft_some' hq')
    replace ht : ldTy (a.adr m) = some t := ht
    cases hm : a.adr m with
    | sec => rw [hm] at hp; cases hp
    | pub => rw [hm] at ht; cases ht; trivial
    | rod =>
      rw [hm] at ht ha; cases ht
      exact congrArg Val.num (ld8_rod ha hw hw')

theorem vsrc_rel {s : VSrc} {b : Bool} (ht : a.vsrc s = some b) {p p' : V256 × Heap} (h1 : s.val T c H = some p)
    (h2 : s.val T c' H' = some p') : s.leak c = s.leak c' ∧ (b = true → p.1 = p'.1) := by
  cases s with
  | reg r =>
    cases ht
    rw [pure_some h1, pure_some h2]
    exact ⟨rfl, h.vec r⟩
  | mem m =>
    obtain ⟨t, ht', rfl⟩ := Option.map_eq_some_iff.1 (show (ldTy (a.adr m)).map Ty.isPub = some b from ht)
    obtain ⟨hp, hr⟩ := ldTy_pub ht'
    obtain ⟨q, hq, h1⟩ := bind_some h1
    obtain ⟨q', hq', h2⟩ := bind_some h2
    refine ⟨by rw [VSrc.leak, VSrc.leak, adr_eq h m hp], fun hb => ?_⟩
    have ha := adr_rel h m _ _ (lft_some' hq) (lft_some' hq')
    rw [hr hb] at ha
    exact ld32_rod ha h1 h2

end

/-! ### Arithmetic -/

theorem addV_rel {t u : Ty} {x y x' y' : Val} {r r' : Val × Option Bool × Option Bool} (h : TRel t x x') (h' : TRel u y y')
    (h1 : addV x y = some r) (h2 : addV x' y' = some r') :
    TRel (t.add u) r.1 r'.1 ∧ ((t.add u).isPub = true → r.2 = r'.2) := by
  have e : (t.add u).isPub = true → r = r' := by
    intro hp
    have hh : t.isPub = true ∧ u.isPub = true := by
      revert hp; cases t <;> cases u <;> simp [Ty.add, Ty.isPub]
    rw [h.eq hh.1, h'.eq hh.2, h2] at h1
    exact (Option.some.inj h1).symm
  refine ⟨?_, fun hp => by rw [e hp]⟩
  cases htu : t.add u with
  | sec => trivial
  | pub => rw [htu] at e; rw [e rfl]; rfl
  | rod =>
    rw [htu] at e; rw [e rfl]
    refine ⟨rfl, ?_⟩
    have key : ∀ z w, addV z w = some r' → ((∃ o, z = .rod o) ∨ ∃ o, w = .rod o) → ∃ o, r'.1 = .rod o := by
      intro z w hz hc
      cases z <;> cases w <;> simp_all [addV, Val.add, Val.off] <;> exact ⟨_, by rw [← hz]⟩
    apply key x' y' h2
    cases t <;> cases u <;> simp_all [Ty.add, TRel]

theorem subV_rel {t u : Ty} {x y x' y' : Val} {r r' : Val × Option Bool × Option Bool} (h : TRel t x x') (h' : TRel u y y')
    (h1 : subV x y = some r) (h2 : subV x' y' = some r') :
    TRel (t.sub u) r.1 r'.1 ∧ ((t.sub u).isPub = true → r.2 = r'.2) := by
  have e : (t.sub u).isPub = true → r = r' := by
    intro hp
    have hh : t.isPub = true ∧ u.isPub = true := by
      revert hp; cases t <;> cases u <;> simp [Ty.sub, Ty.isPub]
    rw [h.eq hh.1, h'.eq hh.2, h2] at h1
    exact (Option.some.inj h1).symm
  refine ⟨?_, fun hp => by rw [e hp]⟩
  cases htu : t.sub u with
  | sec => trivial
  | pub => rw [htu] at e; rw [e rfl]; rfl
  | rod =>
    rw [htu] at e; rw [e rfl]
    refine ⟨rfl, ?_⟩
    have key : ∀ z w, subV z w = some r' → (∃ o, z = .rod o) → ∃ o, r'.1 = .rod o := by
      intro z w hz hc
      cases z <;> cases w <;> simp_all [subV, Val.off] <;> exact ⟨_, by rw [← hz]⟩
    apply key x' y' h2
    cases t <;> cases u <;> simp_all [Ty.sub, TRel]

theorem incV_rel {t : Ty} {x x' : Val} {d : Int} {r r' : Val × Option Bool} (h : TRel t x x')
    (h1 : incV x d = some r) (h2 : incV x' d = some r') : TRel t r.1 r'.1 ∧ (t.isPub = true → r.2 = r'.2) := by
  cases t with
  | sec => exact ⟨trivial, fun h => by cases h⟩
  | pub =>
    cases h; rw [h1] at h2; cases h2; exact ⟨rfl, fun _ => rfl⟩
  | rod =>
    obtain ⟨rfl, o, rfl⟩ := h
    rw [h1] at h2; cases h2
    simp only [incV, Val.off, Option.map_some, Option.some.injEq] at h1
    rw [← h1]
    exact ⟨⟨rfl, _, rfl⟩, fun _ => rfl⟩

theorem num_rel {t : Ty} {x x' : Val} {r r' : BitVec 64} (h : TRel t x x') (h1 : x.isNum = some r) (h2 : x'.isNum = some r')
    (hp : t.num.isPub = true) : r = r' := by
  have : t.isPub = true := by cases t <;> simp_all [Ty.num, Ty.isPub]
  rw [h.eq this, h2] at h1
  exact (Option.some.inj h1).symm

theorem numT {t : Ty} {x y : Val} (h : t.num.isPub = true → x = y) : TRel t.num x y := by
  cases t <;> simp_all [Ty.num, Ty.isPub, TRel]

theorem meet_rel {t u : Ty} {x x' y y' : Val} (h : TRel t x x') (h' : TRel u y y') (k : Bool) :
    TRel (t.meet u) (if k then y else x) (if k then y' else x') := by
  cases k <;> cases t <;> cases u <;> simp_all [Ty.meet, TRel]

/-! ### Operations -/

section
variable {T : List (BitVec 64)} {a b : A} {c c' : Cpu} {H H' : Heap}

/-- Loads of 32 bytes into a vector register. -/
theorem ld32_sound (h : ARel a c c') {s : Adr} {t : Ty} (ht : ldTy (a.adr s) = some t) {q q' : Val × Heap}
    (hq : lft (c.adr s) H = some q) (hq' : lft (c'.adr s) H' = some q') {K K' : Heap} {x y : V256 × Heap}
    (hx : ld32 T q.1 K = some x) (hy : ld32 T q'.1 K' = some y) : c.adr s = c'.adr s ∧ (t.isPub = true → x.1 = y.1) := by
  obtain ⟨hp, hr⟩ := ldTy_pub ht
  refine ⟨adr_eq h s hp, fun ht' => ?_⟩
  have := adr_rel h s _ _ (lft_some' hq) (lft_some' hq')
  rw [hr ht'] at this
  exact ld32_rod this hx hy

theorem gather_leak {m m' : BitVec 64} {x y : Val} {i i' : BitVec 32} (hm : m = m') (hx : x = y) (hi : i = i') :
    gatherLeak m x i = gatherLeak m' y i' := by rw [hm, hx, hi]

theorem if_some {p : Bool} {x y : A} (h : (if p then some x else none) = some y) : p = true ∧ x = y := by
  cases p <;> simp_all

/-- Operations of two runs which agree on what is public. -/
theorem op_sound {o : Op} (h : ARel a c c') (ha : a.op o = some b) {r r' : Cpu × Heap}
    (h1 : o.exec T c H = some r) (h2 : o.exec T c' H' = some r') : o.leak c = o.leak c' ∧ ARel b r.1 r'.1 := by
  cases o with
  | mov s d =>
    obtain ⟨t, ht, rfl⟩ := Option.map_eq_some_iff.1 ha
    obtain ⟨p, hp, h1⟩ := bind_some h1
    obtain ⟨p', hp', h2⟩ := bind_some h2
    obtain ⟨hl, hr⟩ := src_rel h ht hp hp'
    rw [pure_some h1, pure_some h2]
    exact ⟨hl, h.set hr d⟩
  | movSt s d =>
    obtain ⟨hc, rfl⟩ := if_some ha
    rw [Bool.and_eq_true] at hc
    obtain ⟨t, ht⟩ := Option.isSome_iff_exists.1 hc.1
    obtain ⟨p, hp, h1⟩ := bind_some h1
    obtain ⟨p', hp', h2⟩ := bind_some h2
    obtain ⟨hl, hr⟩ := src_rel h ht hp hp'
    obtain ⟨_, _, h1⟩ := bind_some h1
    obtain ⟨_, _, h2⟩ := bind_some h2
    obtain ⟨_, _, h1⟩ := bind_some h1
    obtain ⟨_, _, h2⟩ := bind_some h2
    obtain ⟨_, _, h1⟩ := bind_some h1
    obtain ⟨_, _, h2⟩ := bind_some h2
    rw [pure_some h1, pure_some h2]
    exact ⟨by rw [Op.leak, Op.leak, hl, adr_eq h d hc.2], h⟩
  | movLd1 s d =>
    obtain ⟨hc, rfl⟩ := if_some ha
    obtain ⟨_, _, h1⟩ := bind_some h1
    obtain ⟨_, _, h2⟩ := bind_some h2
    obtain ⟨_, _, h1⟩ := bind_some h1
    obtain ⟨_, _, h2⟩ := bind_some h2
    rw [pure_some h1, pure_some h2]
    exact ⟨by rw [Op.leak, Op.leak, adr_eq h s hc], h.set (t := .sec) trivial d⟩
  | movSt1 s d =>
    obtain ⟨hc, rfl⟩ := if_some ha
    obtain ⟨_, _, h1⟩ := bind_some h1
    obtain ⟨_, _, h2⟩ := bind_some h2
    obtain ⟨_, _, h1⟩ := bind_some h1
    obtain ⟨_, _, h2⟩ := bind_some h2
    obtain ⟨_, _, h1⟩ := bind_some h1
    obtain ⟨_, _, h2⟩ := bind_some h2
    rw [pure_some h1, pure_some h2]
    exact ⟨by rw [Op.leak, Op.leak, adr_eq h d hc], h⟩
  | mov32 x d =>
    cases ha
    rw [pure_some h1, pure_some h2]
    exact ⟨rfl, h.set (t := .pub) rfl d⟩
  | lea s d =>
    cases ha
    obtain ⟨p, hp, h1⟩ := bind_some h1
    obtain ⟨p', hp', h2⟩ := bind_some h2
    rw [pure_some h1, pure_some h2]
    exact ⟨rfl, h.set (adr_rel h s _ _ (lft_some' hp) (lft_some' hp')) d⟩
  | add s d =>
    obtain ⟨t, ht, rfl⟩ := Option.map_eq_some_iff.1 ha
    obtain ⟨p, hp, h1⟩ := bind_some h1
    obtain ⟨p', hp', h2⟩ := bind_some h2
    obtain ⟨hl, hr⟩ := src_rel h ht hp hp'
    obtain ⟨q, hq, h1⟩ := bind_some h1
    obtain ⟨q', hq', h2⟩ := bind_some h2
    rw [pure_some h1, pure_some h2]
    obtain ⟨e1, e2⟩ := addV_rel (h.reg d) hr (lft_some' hq) (lft_some' hq')
    exact ⟨hl, (h.set e1 d).flags (fun hu => by rw [e2 hu]) (fun hu => by rw [e2 hu])⟩
  | sub s d =>
    obtain ⟨t, ht, rfl⟩ := Option.map_eq_some_iff.1 ha
    obtain ⟨p, hp, h1⟩ := bind_some h1
    obtain ⟨p', hp', h2⟩ := bind_some h2
    obtain ⟨hl, hr⟩ := src_rel h ht hp hp'
    obtain ⟨q, hq, h1⟩ := bind_some h1
    obtain ⟨q', hq', h2⟩ := bind_some h2
    rw [pure_some h1, pure_some h2]
    obtain ⟨e1, e2⟩ := subV_rel (h.reg d) hr (lft_some' hq) (lft_some' hq')
    exact ⟨hl, (h.set e1 d).flags (fun hu => by rw [e2 hu]) (fun hu => by rw [e2 hu])⟩
  | cmp s d =>
    obtain ⟨t, ht, rfl⟩ := Option.map_eq_some_iff.1 ha
    obtain ⟨p, hp, h1⟩ := bind_some h1
    obtain ⟨p', hp', h2⟩ := bind_some h2
    obtain ⟨hl, hr⟩ := src_rel h ht hp hp'
    obtain ⟨q, hq, h1⟩ := bind_some h1
    obtain ⟨q', hq', h2⟩ := bind_some h2
    rw [pure_some h1, pure_some h2]
    obtain ⟨e1, e2⟩ := subV_rel (h.reg d) hr (lft_some' hq) (lft_some' hq')
    exact ⟨hl, h.flags (fun hu => by rw [e2 hu]) (fun hu => by rw [e2 hu])⟩
  | and x d =>
    cases ha
    obtain ⟨q, hq, h1⟩ := bind_some h1
    obtain ⟨q', hq', h2⟩ := bind_some h2
    rw [pure_some h1, pure_some h2]
    have e := num_rel (h.reg d) (lft_some' hq) (lft_some' hq')
    exact ⟨rfl, (h.set (numT fun hu => by rw [e hu]) d).flags (fun hu => by rw [e hu]) (fun _ => rfl)⟩
  | and32 x d =>
    cases ha
    obtain ⟨q, hq, h1⟩ := bind_some h1
    obtain ⟨q', hq', h2⟩ := bind_some h2
    rw [pure_some h1, pure_some h2]
    have e := num_rel (h.reg d) (lft_some' hq) (lft_some' hq')
    exact ⟨rfl, (h.set (numT fun hu => by rw [e hu]) d).flags (fun hu => by rw [e hu]) (fun _ => rfl)⟩
  | xorSt s d =>
    obtain ⟨hc, rfl⟩ := if_some ha
    obtain ⟨_, _, h1⟩ := bind_some h1
    obtain ⟨_, _, h2⟩ := bind_some h2
    obtain ⟨_, _, h1⟩ := bind_some h1
    obtain ⟨_, _, h2⟩ := bind_some h2
    obtain ⟨_, _, h1⟩ := bind_some h1
    obtain ⟨_, _, h2⟩ := bind_some h2
    obtain ⟨_, _, h1⟩ := bind_some h1
    obtain ⟨_, _, h2⟩ := bind_some h2
    rw [pure_some h1, pure_some h2]
    exact ⟨by rw [Op.leak, Op.leak, adr_eq h d hc], h.flags (fun hu => by cases hu) (fun _ => rfl)⟩
  | xorSt1 s d =>
    obtain ⟨hc, rfl⟩ := if_some ha
    obtain ⟨_, _, h1⟩ := bind_some h1
    obtain ⟨_, _, h2⟩ := bind_some h2
    obtain ⟨_, _, h1⟩ := bind_some h1
    obtain ⟨_, _, h2⟩ := bind_some h2
    obtain ⟨_, _, h1⟩ := bind_some h1
    obtain ⟨_, _, h2⟩ := bind_some h2
    obtain ⟨_, _, h1⟩ := bind_some h1
    obtain ⟨_, _, h2⟩ := bind_some h2
    rw [pure_some h1, pure_some h2]
    exact ⟨by rw [Op.leak, Op.leak, adr_eq h d hc], h.flags (fun hu => by cases hu) (fun _ => rfl)⟩
  | cmovae s d =>
    cases ha
    obtain ⟨q, hq, h1⟩ := bind_some h1
    obtain ⟨q', hq', h2⟩ := bind_some h2
    rw [pure_some h1, pure_some h2]
    refine ⟨rfl, ?_⟩
    have key : ∀ (c : Cpu) (k : Bool), (if k = true then c else c.set (c.get s) d) =
        c.set (if k then c.get d else c.get s) d := by
      intro c k
      cases k
      · rfl
      · cases d <;> rfl
    rw [key, key]
    refine h.set ?_ d
    cases hcf : a.cf with
    | false => trivial
    | true =>
      have : q.1 = q'.1 := by
        have e := lft_some' hq
        rw [h.cf hcf, lft_some' hq'] at e
        exact (Option.some.inj e).symm
      rw [this]
      exact meet_rel (h.reg s) (h.reg d) _
  | inc d =>
    cases ha
    obtain ⟨q, hq, h1⟩ := bind_some h1
    obtain ⟨q', hq', h2⟩ := bind_some h2
    rw [pure_some h1, pure_some h2]
    obtain ⟨e1, e2⟩ := incV_rel (h.reg d) (lft_some' hq) (lft_some' hq')
    exact ⟨rfl, (h.set e1 d).flags e2 h.cf⟩
  | dec d =>
    cases ha
    obtain ⟨q, hq, h1⟩ := bind_some h1
    obtain ⟨q', hq', h2⟩ := bind_some h2
    rw [pure_some h1, pure_some h2]
    obtain ⟨e1, e2⟩ := incV_rel (h.reg d) (lft_some' hq) (lft_some' hq')
    exact ⟨rfl, (h.set e1 d).flags e2 h.cf⟩
  | dec32 d =>
    cases ha
    obtain ⟨q, hq, h1⟩ := bind_some h1
    obtain ⟨q', hq', h2⟩ := bind_some h2
    rw [pure_some h1, pure_some h2]
    have e := num_rel (h.reg d) (lft_some' hq) (lft_some' hq')
    exact ⟨rfl, (h.set (numT fun hu => by rw [e hu]) d).flags (fun hu => by rw [e hu]) h.cf⟩
  | shr n d =>
    cases ha
    obtain ⟨q, hq, h1⟩ := bind_some h1
    obtain ⟨q', hq', h2⟩ := bind_some h2
    rw [pure_some h1, pure_some h2]
    have e := num_rel (h.reg d) (lft_some' hq) (lft_some' hq')
    exact ⟨rfl, (h.set (numT fun hu => by rw [e hu]) d).flags (fun _ => rfl) (fun _ => rfl)⟩
  | vmovdqu s d =>
    obtain ⟨t, ht, rfl⟩ := Option.map_eq_some_iff.1 ha
    obtain ⟨p, hp, h1⟩ := bind_some h1
    obtain ⟨p', hp', h2⟩ := bind_some h2
    obtain ⟨q, hq, h1⟩ := bind_some h1
    obtain ⟨q', hq', h2⟩ := bind_some h2
    rw [pure_some h1, pure_some h2]
    obtain ⟨e1, e2⟩ := ld32_sound h ht hp hp' hq hq'
    exact ⟨by rw [Op.leak, Op.leak, e1], h.setV e2 d⟩
  | vmovdquSt s d =>
    obtain ⟨hc, rfl⟩ := if_some ha
    obtain ⟨_, _, h1⟩ := bind_some h1
    obtain ⟨_, _, h2⟩ := bind_some h2
    obtain ⟨_, _, h1⟩ := bind_some h1
    obtain ⟨_, _, h2⟩ := bind_some h2
    rw [pure_some h1, pure_some h2]
    exact ⟨by rw [Op.leak, Op.leak, adr_eq h d hc], h⟩
  | vmovdqa s d =>
    obtain ⟨t, ht, rfl⟩ := Option.map_eq_some_iff.1 ha
    obtain ⟨p, hp, h1⟩ := bind_some h1
    obtain ⟨p', hp', h2⟩ := bind_some h2
    obtain ⟨_, _, h1⟩ := bind_some h1
    obtain ⟨_, _, h2⟩ := bind_some h2
    obtain ⟨q, hq, h1⟩ := bind_some h1
    obtain ⟨q', hq', h2⟩ := bind_some h2
    rw [pure_some h1, pure_some h2]
    obtain ⟨e1, e2⟩ := ld32_sound h ht hp hp' hq hq'
    exact ⟨by rw [Op.leak, Op.leak, e1], h.setV e2 d⟩
  | vmovdqaX s d =>
    obtain ⟨t, ht, rfl⟩ := Option.map_eq_some_iff.1 ha
    obtain ⟨hp0, hr⟩ := ldTy_pub ht
    obtain ⟨p, hp, h1⟩ := bind_some h1
    obtain ⟨p', hp', h2⟩ := bind_some h2
    obtain ⟨_, _, h1⟩ := bind_some h1
    obtain ⟨_, _, h2⟩ := bind_some h2
    obtain ⟨q, hq, h1⟩ := bind_some h1
    obtain ⟨q', hq', h2⟩ := bind_some h2
    obtain ⟨w, hw, h1⟩ := bind_some h1
    obtain ⟨w', hw', h2⟩ := bind_some h2
    rw [pure_some h1, pure_some h2]
    refine ⟨by rw [Op.leak, Op.leak, adr_eq h s hp0], h.setV (fun hu => ?_) d⟩
    have := adr_rel h s _ _ (lft_some' hp) (lft_some' hp')
    rw [hr hu] at this
    rw [ld8o_rod this hq hq', ld8o_rod this hw hw']
  | vmovqSt s d =>
    obtain ⟨hc, rfl⟩ := if_some ha
    obtain ⟨_, _, h1⟩ := bind_some h1
    obtain ⟨_, _, h2⟩ := bind_some h2
    obtain ⟨_, _, h1⟩ := bind_some h1
    obtain ⟨_, _, h2⟩ := bind_some h2
    rw [pure_some h1, pure_some h2]
    exact ⟨by rw [Op.leak, Op.leak, adr_eq h d hc], h⟩
  | vpbroadcastq s d =>
    obtain ⟨t, ht, rfl⟩ := Option.map_eq_some_iff.1 ha
    obtain ⟨hp0, hr⟩ := ldTy_pub ht
    obtain ⟨p, hp, h1⟩ := bind_some h1
    obtain ⟨p', hp', h2⟩ := bind_some h2
    obtain ⟨q, hq, h1⟩ := bind_some h1
    obtain ⟨q', hq', h2⟩ := bind_some h2
    rw [pure_some h1, pure_some h2]
    refine ⟨by rw [Op.leak, Op.leak, adr_eq h s hp0], h.setV (fun hu => ?_) d⟩
    have := adr_rel h s _ _ (lft_some' hp) (lft_some' hp')
    rw [hr hu] at this
    rw [ld8_rod this hq hq']
  | vpxor s x d =>
    obtain ⟨t, ht, rfl⟩ := Option.map_eq_some_iff.1 ha
    obtain ⟨p, hp, h1⟩ := bind_some h1
    obtain ⟨p', hp', h2⟩ := bind_some h2
    obtain ⟨hl, hr⟩ := vsrc_rel h ht hp hp'
    rw [pure_some h1, pure_some h2]
    refine ⟨hl, h.setV (fun hu => ?_) d⟩
    rw [Bool.and_eq_true] at hu
    rw [hr hu.1, h.vec x hu.2]
  | vpor s x d =>
    cases ha
    rw [pure_some h1, pure_some h2]
    refine ⟨rfl, h.setV (fun hu => ?_) d⟩
    rw [Bool.and_eq_true] at hu
    rw [h.vec s hu.1, h.vec x hu.2]
  | vpandn s x d =>
    cases ha
    rw [pure_some h1, pure_some h2]
    refine ⟨rfl, h.setV (fun hu => ?_) d⟩
    rw [Bool.and_eq_true] at hu
    rw [h.vec s hu.1, h.vec x hu.2]
  | vpaddq s x d =>
    cases ha
    rw [pure_some h1, pure_some h2]
    refine ⟨rfl, h.setV (fun hu => ?_) d⟩
    rw [Bool.and_eq_true] at hu
    rw [h.vec s hu.1, h.vec x hu.2]
  | vpcmpeqd s x d =>
    cases ha
    rw [pure_some h1, pure_some h2]
    refine ⟨rfl, h.setV (fun hu => ?_) d⟩
    rw [Bool.or_eq_true, decide_eq_true_eq, Bool.and_eq_true] at hu
    rcases hu with rfl | hu
    · simp [V256.map2, cmpW]
    · rw [h.vec s hu.1, h.vec x hu.2]
  | vpsrlq n x d =>
    cases ha
    rw [pure_some h1, pure_some h2]
    exact ⟨rfl, h.setV (fun hu => by rw [h.vec x hu]) d⟩
  | vpsllvq s x d =>
    obtain ⟨t, ht, rfl⟩ := Option.map_eq_some_iff.1 ha
    obtain ⟨p, hp, h1⟩ := bind_some h1
    obtain ⟨p', hp', h2⟩ := bind_some h2
    obtain ⟨q, hq, h1⟩ := bind_some h1
    obtain ⟨q', hq', h2⟩ := bind_some h2
    rw [pure_some h1, pure_some h2]
    obtain ⟨e1, e2⟩ := ld32_sound h ht hp hp' hq hq'
    refine ⟨by rw [Op.leak, Op.leak, e1], h.setV (fun hu => ?_) d⟩
    rw [Bool.and_eq_true] at hu
    rw [e2 hu.1, h.vec x hu.2]
  | vpsrlvq s x d =>
    obtain ⟨t, ht, rfl⟩ := Option.map_eq_some_iff.1 ha
    obtain ⟨p, hp, h1⟩ := bind_some h1
    obtain ⟨p', hp', h2⟩ := bind_some h2
    obtain ⟨q, hq, h1⟩ := bind_some h1
    obtain ⟨q', hq', h2⟩ := bind_some h2
    rw [pure_some h1, pure_some h2]
    obtain ⟨e1, e2⟩ := ld32_sound h ht hp hp' hq hq'
    refine ⟨by rw [Op.leak, Op.leak, e1], h.setV (fun hu => ?_) d⟩
    rw [Bool.and_eq_true] at hu
    rw [e2 hu.1, h.vec x hu.2]
  | vpsrldq8 x d =>
    cases ha
    rw [pure_some h1, pure_some h2]
    exact ⟨rfl, h.setV (fun hu => by rw [h.vec x hu]) d⟩
  | vpshufd k x d =>
    cases ha
    rw [pure_some h1, pure_some h2]
    exact ⟨rfl, h.setV (fun hu => by rw [h.vec x hu]) d⟩
  | vpermq k x d =>
    cases ha
    rw [pure_some h1, pure_some h2]
    exact ⟨rfl, h.setV (fun hu => by rw [h.vec x hu]) d⟩
  | vpblendd k s x d =>
    cases ha
    rw [pure_some h1, pure_some h2]
    refine ⟨rfl, h.setV (fun hu => ?_) d⟩
    rw [Bool.and_eq_true] at hu
    rw [h.vec s hu.1, h.vec x hu.2]
  | vpgatherdq m x i d =>
    obtain ⟨hc, rfl⟩ := if_some ha
    rw [Bool.and_eq_true, Bool.and_eq_true] at hc
    obtain ⟨_, _, h1⟩ := bind_some h1
    obtain ⟨_, _, h2⟩ := bind_some h2
    obtain ⟨_, _, h1⟩ := bind_some h1
    obtain ⟨_, _, h2⟩ := bind_some h2
    obtain ⟨_, _, h1⟩ := bind_some h1
    obtain ⟨_, _, h2⟩ := bind_some h2
    obtain ⟨_, _, h1⟩ := bind_some h1
    obtain ⟨_, _, h2⟩ := bind_some h2
    rw [pure_some h1, pure_some h2]
    refine ⟨?_, (h.setV (fun hu => by cases hu) d).setV (fun _ => rfl) m⟩
    rw [Op.leak, Op.leak, h.vec m hc.1.1, h.vec i hc.1.2, (h.reg x).eq hc.2]
  | vzeroupper =>
    cases ha
    rw [pure_some h1, pure_some h2]
    refine ⟨rfl, ⟨fun q => ?_, fun v hv => ?_, h.zf, h.cf⟩⟩
    · have := h.reg q
      cases q <;> exact this
    · have := h.vec v hv
      cases v <;> exact congrArg V256.lowHalf this

end

/-! ### Programs -/

section
variable {L C : Type} {P : Prog L} {G : C → L → Option LTy} {K : List C} {bot : A}

/-- Two stacks below a function which returns with `out`; the function called from C returns with `bot`. -/
inductive SRel (G : C → L → Option LTy) (K : List C) (bot : A) : List Ty → A → List (Slot L) → List (Slot L) → Prop
  | nil {out : A} (h : ∀ c c', ARel out c c' → ARel bot c c') : SRel G K bot [] out [] []
  | val {t : Ty} {s : List Ty} {out : A} {x y : Val} {st st' : List (Slot L)} (h : TRel t x y)
    (hs : SRel G K bot s out st st') : SRel G K bot (t :: s) out (.val x :: st) (.val y :: st')
  | ret {k : C} {is : List (Ins L)} {b out out' : A} {s : List Ty} {st st' : List (Slot L)}
    (h : ∀ c c', ARel out c c' → ARel b c c') (hc : check G K (G k) is b s out' = true)
    (hs : SRel G K bot s out' st st') : SRel G K bot [] out (.ret is :: st) (.ret is :: st')

theorem SRel.mono {s : List Ty} {out out' : A} {st st' : List (Slot L)} (h : SRel G K bot s out st st')
    (hl : ∀ c c', ARel out' c c' → ARel out c c') : SRel G K bot s out' st st' := by
  induction h with
  | nil h => exact .nil fun c c' hc => h c c' (hl c c' hc)
  | val h _ ih => exact .val h (ih hl)
  | ret h hc hs => exact .ret (fun c c' hk => h c c' (hl c c' hk)) hc hs

theorem jmpOk_iff {l : Option LTy} {a out : A} {s : List Ty} (h : jmpOk l a s out = true) :
    ∃ t, l = some t ∧ t.inp.le a = true ∧ t.stk = s ∧ out.le t.out = true := by
  cases l with
  | none => cases h
  | some t =>
    simp only [jmpOk, Bool.and_eq_true, decide_eq_true_eq] at h
    exact ⟨t, rfl, h.1.1, h.1.2, h.2⟩

/-- What holds of two runs from the same code. -/
def Sound (P : Prog L) (G : C → L → Option LTy) (K : List C) (bot : A) (n : Nat) : Prop :=
  ∀ n' k is a s out st st' c c' t H H' r r', check G K (G k) is a s out = true → ARel a c c' → SRel G K bot s out st st' →
    P.trace n is st c t H = some r → P.trace n' is st' c' t H' = some r' → r.1.2 = r'.1.2 ∧ ARel bot r.1.1 r'.1.1

theorem jmp_sound (hT : Typed P G K) {n : Nat} (ih : Sound P G K bot n) {n' : Nat} {k : C} {l : L} {a out : A} {s : List Ty}
    {st st' : List (Slot L)} {c c' : Cpu} {t : List Ev} {H H' : Heap} {r r' : (Cpu × List Ev) × Heap}
    (hj : jmpOk (G k l) a s out = true) (hc : ARel a c c') (hs : SRel G K bot s out st st')
    (h1 : P.trace n (P.code l) st c t H = some r) (h2 : P.trace n' (P.code l) st' c' t H' = some r') :
    r.1.2 = r'.1.2 ∧ ARel bot r.1.1 r'.1.1 := by
  obtain ⟨u, hu, h3, rfl, h4⟩ := jmpOk_iff hj
  exact ih n' k _ _ _ _ _ _ _ _ _ _ _ _ _ (hT k l u hu) (hc.mono h3) (hs.mono fun c c' h => h.mono h4) h1 h2

theorem trace_sound (hT : Typed P G K) (n : Nat) : Sound P G K bot n := by
  induction n with
  | zero =>
    intro n' k is a s out st st' c c' t H H' r r' _ _ _ h1 _
    simp [Prog.trace, lft] at h1
  | succ n ih =>
    intro n' k is a s out st st' c c' t H H' r r' hk hc hs h1 h2
    cases n' with
    | zero => simp [Prog.trace, lft] at h2
    | succ n' =>
      cases is with
      | nil => cases hk
      | cons i is =>
        cases i with
        | op o =>
          rw [check] at hk
          split at hk
          · next b hb =>
            rw [Prog.trace] at h1 h2
            obtain ⟨p, hp, h1⟩ := bind_some h1
            obtain ⟨p', hp', h2⟩ := bind_some h2
            obtain ⟨e1, e2⟩ := op_sound hc hb hp hp'
            rw [e1] at h1
            exact ih n' k _ _ _ _ _ _ _ _ _ _ _ _ _ hk e2 hs h1 h2
          · cases hk
        | jmp l =>
          rw [Prog.trace] at h1 h2
          exact jmp_sound hT ih hk hc hs h1 h2
        | jz l =>
          rw [check, Bool.and_eq_true, Bool.and_eq_true] at hk
          rw [Prog.trace] at h1 h2
          obtain ⟨p, hp, h1⟩ := bind_some h1
          obtain ⟨p', hp', h2⟩ := bind_some h2
          have e : p.1 = p'.1 := by
            have e := lft_some' hp
            rw [hc.zf hk.1.1, lft_some' hp'] at e
            exact (Option.some.inj e).symm
          rw [← e] at h2
          cases hb : p.1 <;> rw [hb] at h1 h2
          · exact ih n' k _ _ _ _ _ _ _ _ _ _ _ _ _ hk.2 hc hs h1 h2
          · exact jmp_sound hT ih hk.1.2 hc hs h1 h2
        | jnz l =>
          rw [check, Bool.and_eq_true, Bool.and_eq_true] at hk
          rw [Prog.trace] at h1 h2
          obtain ⟨p, hp, h1⟩ := bind_some h1
          obtain ⟨p', hp', h2⟩ := bind_some h2
          have e : p.1 = p'.1 := by
            have e := lft_some' hp
            rw [hc.zf hk.1.1, lft_some' hp'] at e
            exact (Option.some.inj e).symm
          rw [← e] at h2
          cases hb : p.1 <;> rw [hb] at h1 h2
          · exact jmp_sound hT ih hk.1.2 hc hs h1 h2
          · exact ih n' k _ _ _ _ _ _ _ _ _ _ _ _ _ hk.2 hc hs h1 h2
        | jc l =>
          rw [check, Bool.and_eq_true, Bool.and_eq_true] at hk
          rw [Prog.trace] at h1 h2
          obtain ⟨p, hp, h1⟩ := bind_some h1
          obtain ⟨p', hp', h2⟩ := bind_some h2
          have e : p.1 = p'.1 := by
            have e := lft_some' hp
            rw [hc.cf hk.1.1, lft_some' hp'] at e
            exact (Option.some.inj e).symm
          rw [← e] at h2
          cases hb : p.1 <;> rw [hb] at h1 h2
          · exact ih n' k _ _ _ _ _ _ _ _ _ _ _ _ _ hk.2 hc hs h1 h2
          · exact jmp_sound hT ih hk.1.2 hc hs h1 h2
        | jnc l =>
          rw [check, Bool.and_eq_true, Bool.and_eq_true] at hk
          rw [Prog.trace] at h1 h2
          obtain ⟨p, hp, h1⟩ := bind_some h1
          obtain ⟨p', hp', h2⟩ := bind_some h2
          have e : p.1 = p'.1 := by
            have e := lft_some' hp
            rw [hc.cf hk.1.1, lft_some' hp'] at e
            exact (Option.some.inj e).symm
          rw [← e] at h2
          cases hb : p.1 <;> rw [hb] at h1 h2
          · exact jmp_sound hT ih hk.1.2 hc hs h1 h2
          · exact ih n' k _ _ _ _ _ _ _ _ _ _ _ _ _ hk.2 hc hs h1 h2
        | push q =>
          rw [Prog.trace] at h1 h2
          exact ih n' k is a (a.get q :: s) out _ _ _ _ _ _ _ _ _ hk hc (.val (hc.reg q) hs) h1 h2
        | pop q =>
          cases hs with
          | nil h => cases hk
          | @val u s _ x y _ _ h hs =>
            rw [Prog.trace] at h1 h2
            exact ih n' k is (a.set u q) s out _ _ _ _ _ _ _ _ _ hk (hc.set h q) hs h1 h2
          | ret h hr hs => cases hk
        | call l =>
          rw [check, List.any_eq_true] at hk
          obtain ⟨k', _, hk⟩ := hk
          rw [Prog.trace] at h1 h2
          cases hg : G k' l with
          | none => rw [hg] at hk; cases hk
          | some u =>
            rw [hg] at hk
            simp only [callOk, Bool.and_eq_true, decide_eq_true_eq] at hk
            refine ih n' k' _ _ _ _ _ _ _ _ _ _ _ _ _ (hT k' l u hg) (hc.mono hk.1.1) ?_ h1 h2
            rw [hk.1.2]
            exact .ret (fun _ _ h => h) hk.2 hs
        | ret =>
          rw [check, Bool.and_eq_true, decide_eq_true_eq] at hk
          obtain ⟨rfl, hk⟩ := hk
          cases hs with
          | nil h =>
            rw [Prog.trace] at h1 h2
            rw [pure_some h1, pure_some h2]
            exact ⟨rfl, h _ _ (hc.mono hk)⟩
          | ret h hr hs =>
            rw [Prog.trace] at h1 h2
            exact ih n' _ _ _ _ _ _ _ _ _ _ _ _ _ _ hr (h _ _ (hc.mono hk)) hs h1 h2

/-! ### Runs and traces -/

theorem run_of_trace {n : Nat} {is : List (Ins L)} {st : List (Slot L)} {c : Cpu} {t : List Ev} {H : Heap}
    {r : (Cpu × List Ev) × Heap} (h : P.trace n is st c t H = some r) : P.run is st c H = some (r.1.1, r.2) := by
  induction n generalizing is st c t H with
  | zero => simp [Prog.trace, lft] at h
  | succ n ih =>
    rw [Prog.trace.eq_def] at h
    rw [Prog.run.eq_def]
    simp only at h
    split at h
    · simp [lft] at h
    · obtain ⟨p, hp, h⟩ := bind_some h
      have := ih h
      simp only [bind, StateT.bind, hp, Option.bind_some]; exact this
    · exact ih h
    · obtain ⟨p, hp, h⟩ := bind_some h
      simp only [bind, StateT.bind, hp, Option.bind_some]
      cases hb : p.1 <;> rw [hb] at h <;> exact ih h
    · obtain ⟨p, hp, h⟩ := bind_some h
      simp only [bind, StateT.bind, hp, Option.bind_some]
      cases hb : p.1 <;> rw [hb] at h <;> exact ih h
    · obtain ⟨p, hp, h⟩ := bind_some h
      simp only [bind, StateT.bind, hp, Option.bind_some]
      cases hb : p.1 <;> rw [hb] at h <;> exact ih h
    · obtain ⟨p, hp, h⟩ := bind_some h
      simp only [bind, StateT.bind, hp, Option.bind_some]
      cases hb : p.1 <;> rw [hb] at h <;> exact ih h
    · exact ih h
    · split at h
      · exact ih h
      · simp [lft] at h
    · exact ih h
    · split at h
      · simp only [pure, StateT.pure, Option.some.injEq] at h
        rw [← h]; rfl
      · exact ih h
      · simp [lft] at h

theorem trace_of_run {is : List (Ins L)} {st : List (Slot L)} {c : Cpu} {H : Heap} {r : Cpu × Heap}
    (h : P.run is st c H = some r) : ∀ t, ∃ n t', P.trace n is st c t H = some ((r.1, t'), r.2) := by
  revert h
  revert r H c st is
  refine @(Prog.run.fixpoint_induct P (fun f => ∀ is st c H r, f is st c H = some r → ∀ t, ∃ n t',
    P.trace n is st c t H = some ((r.1, t'), r.2)) ?_ ?_)
  · refine Lean.Order.admissible_pi_apply (fun is (f : List (Slot L) → Cpu → Heap → Option (Cpu × Heap)) => ∀ st c H r, f st c H = some r → ∀ t, ∃ n t',
      P.trace n is st c t H = some ((r.1, t'), r.2)) fun is => ?_
    refine Lean.Order.admissible_pi_apply (fun st (f : Cpu → Heap → Option (Cpu × Heap)) => ∀ c H r, f c H = some r → ∀ t, ∃ n t',
      P.trace n is st c t H = some ((r.1, t'), r.2)) fun st => ?_
    refine Lean.Order.admissible_pi_apply (fun c (f : Heap → Option (Cpu × Heap)) => ∀ H r, f H = some r → ∀ t, ∃ n t',
      P.trace n is st c t H = some ((r.1, t'), r.2)) fun c => ?_
    refine Lean.Order.admissible_pi_apply (fun H (f : Option (Cpu × Heap)) => ∀ r, f = some r → ∀ t, ∃ n t',
      P.trace n is st c t H = some ((r.1, t'), r.2)) fun H => ?_
    exact Lean.Order.admissible_pi _ fun r => Lean.Order.Option.admissible_eq_some _ r
  · intro f ih is st c H r h t
    simp only at h
    split at h
    · simp [lft] at h
    · next o is =>
      obtain ⟨p, hp, h⟩ := bind_some h
      obtain ⟨n, t', hn⟩ := ih _ _ _ _ _ h (t ++ o.leak c)
      refine ⟨n + 1, t', ?_⟩
      rw [Prog.trace]; simp only [bind, StateT.bind, hp, Option.bind_some]; exact hn
    · obtain ⟨n, t', hn⟩ := ih _ _ _ _ _ h t
      exact ⟨n + 1, t', by rw [Prog.trace]; exact hn⟩
    · obtain ⟨p, hp, h⟩ := bind_some h
      cases hb : p.1 <;> rw [hb] at h <;> obtain ⟨n, t', hn⟩ := ih _ _ _ _ _ h (t ++ [.br p.1]) <;>
        refine ⟨n + 1, t', ?_⟩ <;> rw [Prog.trace] <;> simp only [bind, StateT.bind, hp, Option.bind_some, hb] <;>
        rw [hb] at hn <;> exact hn
    · obtain ⟨p, hp, h⟩ := bind_some h
      cases hb : p.1 <;> rw [hb] at h <;> obtain ⟨n, t', hn⟩ := ih _ _ _ _ _ h (t ++ [.br p.1]) <;>
        refine ⟨n + 1, t', ?_⟩ <;> rw [Prog.trace] <;> simp only [bind, StateT.bind, hp, Option.bind_some, hb] <;>
        rw [hb] at hn <;> exact hn
    · obtain ⟨p, hp, h⟩ := bind_some h
      cases hb : p.1 <;> rw [hb] at h <;> obtain ⟨n, t', hn⟩ := ih _ _ _ _ _ h (t ++ [.br p.1]) <;>
        refine ⟨n + 1, t', ?_⟩ <;> rw [Prog.trace] <;> simp only [bind, StateT.bind, hp, Option.bind_some, hb] <;>
        rw [hb] at hn <;> exact hn
    · obtain ⟨p, hp, h⟩ := bind_some h
      cases hb : p.1 <;> rw [hb] at h <;> obtain ⟨n, t', hn⟩ := ih _ _ _ _ _ h (t ++ [.br p.1]) <;>
        refine ⟨n + 1, t', ?_⟩ <;> rw [Prog.trace] <;> simp only [bind, StateT.bind, hp, Option.bind_some, hb] <;>
        rw [hb] at hn <;> exact hn
    · obtain ⟨n, t', hn⟩ := ih _ _ _ _ _ h t
      exact ⟨n + 1, t', by rw [Prog.trace]; exact hn⟩
    · split at h
      · obtain ⟨n, t', hn⟩ := ih _ _ _ _ _ h t
        exact ⟨n + 1, t', by rw [Prog.trace]; exact hn⟩
      · simp [lft] at h
    · obtain ⟨n, t', hn⟩ := ih _ _ _ _ _ h t
      exact ⟨n + 1, t', by rw [Prog.trace]; exact hn⟩
    · split at h
      · simp only [pure, StateT.pure, Option.some.injEq] at h
        refine ⟨1, t, ?_⟩
        rw [← h]; rfl
      · obtain ⟨n, t', hn⟩ := ih _ _ _ _ _ h t
        exact ⟨n + 1, t', by rw [Prog.trace]; exact hn⟩
      · simp [lft] at h

/-- The traces are those of the runs. -/
theorem Prog.trace_iff (is : List (Ins L)) (st : List (Slot L)) (c : Cpu) (H : Heap) (r : Cpu × Heap) :
    P.run is st c H = some r ↔ ∃ n t, P.trace n is st c [] H = some ((r.1, t), r.2) :=
  ⟨fun h => trace_of_run h [], fun ⟨_, _, h⟩ => run_of_trace h⟩

end

end Faest.Asm
