/-
Two calls of a certified function with equal public arguments.
-/
import Verif.Model.Leak.Entry
import Verif.Proofs.Leak.Sound

namespace Faest.Leak

variable {C : Cert} {P : List Fn} {I : Interp}

/-- record types of the parameters -/
def Arg.ty (rh rl rs : Nat) : Arg → Ty
  | .num => .lo
  | .secret => .ptr rh
  | .common => .ptr rl
  | .sig => .ptr rs

def Arg.blk (rh rl rs : Nat) : Arg → Option Nat
  | .num => none
  | .secret => some rh
  | .common => some rl
  | .sig => some rs

/-- record types of the blocks at the start -/
def startTy (C : Cert) (rh rl ro rs : Nat) (as : List Arg) : HT := fun b =>
  if b < 32 then C.globs[b]?
  else if b < 60 then
    match as[b - 32]? with
    | some .secret => some rh
    | some .common => some rl
    | some .sig => some rs
    | _ => none
  else if b = 60 then some rh
  else if b = 61 ∨ b = 62 then some ro
  else none

/-- the record types of the certificate which the interface uses -/
structure Iface (C : Cert) (rh rl ro rs : Nat) : Prop where
  hi : C.row rh = [.hi]
  lo : C.row rl = [.lo]
  out : C.row ro = [.out]
  sig : C.row rs = [.ptr rh, .ptr ro, .ptr ro]
  globs : C.globs.length ≤ 32
  glob : ∀ g r, C.globs[g]? = some r → r = (if g = Prog.Glob.rand_tape then rh else if g = Prog.Glob.released then ro else rl)

theorem sig_ty {a b c : Ty} (o : Int) : cty [a, b, c] o = a ∨ cty [a, b, c] o = b ∨ cty [a, b, c] o = c := by
  have h1 := Int.emod_nonneg o (b := 3) (by decide)
  have h2 := Int.emod_lt_of_pos o (b := 3) (by decide)
  have h : (o % 3).toNat < 3 := by omega
  unfold cty
  show [a, b, c].getD (o % 3).toNat .hi = a ∨ _
  generalize (o % 3).toNat = k at h
  match k with
  | 0 => exact .inl rfl
  | 1 => exact .inr (.inl rfl)
  | 2 => exact .inr (.inr rfl)

theorem start_sim {rh rl ro rs : Nat} (h : Iface C rh rl ro rs) {as : List Arg} {S : Sig} (hlen : as.length ≤ 28)
    (hv : ∀ x k, as[x]? = some k → S.var x = k.ty rh rl rs) (n : Nat → Int) (null : Nat → Bool)
    (common s1 s2 : Nat → Int → Val) :
    Sim C published (startTy C rh rl ro rs as) S (start as n null common s1) (start as n null common s2) where
  mem := by
    intro b r hb o
    have same : ∀ t : Ty, (t = .lo ∨ t = .out) → ∀ v : Val, rel C (startTy C rh rl ro rs as) t v v := by
      rintro t (rfl | rfl) v <;> rfl
    simp only [start, place]
    unfold startTy at hb
    split at hb
    · next hlt =>
      rw [if_pos hlt]
      have := h.glob _ _ hb
      split
      · exact same _ (by
          subst this
          next hc =>
            split at hc
            · simp at hc
            · next hne =>
              rw [if_neg hne]
              split
              · rw [h.out, cty_single]; exact .inr rfl
              · rw [h.lo, cty_single]; exact .inl rfl) _
      · next hc =>
        split at hc
        · next he =>
          subst this
          rw [if_pos he, h.hi, cty_single]; trivial
        · simp at hc
      · next hc => split at hc <;> simp at hc
    · next hlt =>
      rw [if_neg hlt]
      split at hb
      · next hlt2 =>
        rw [if_pos hlt2]
        cases ha : as[b - 32]? with
        | none => rw [ha] at hb; simp at hb
        | some k =>
          rw [ha] at hb
          cases k with
          | num => simp at hb
          | secret => simp at hb; subst hb; simp only; rw [h.hi, cty_single]; trivial
          | common => simp at hb; subst hb; simp only; rw [h.lo, cty_single]; exact same _ (.inl rfl) _
          | sig =>
            simp at hb; subst hb
            simp only
            rw [h.sig]
            unfold sigCell
            have e60 : startTy C rh rl ro rs as 60 = some rh := by simp [startTy]
            have e61 : startTy C rh rl ro rs as 61 = some ro := by simp [startTy]
            have e62 : startTy C rh rl ro rs as 62 = some ro := by simp [startTy]
            split
            · next e =>
              subst e
              show _ ∧ _
              refine ⟨rfl, fun b o e => ?_⟩
              simp only [Val.ptr.injEq] at e
              rw [← e.1, ← e.2]
              exact ⟨e60, dvd_zero _⟩
            · split
              · next e =>
                subst e
                show _ ∧ _
                refine ⟨rfl, fun b o e => ?_⟩
                simp only [Val.ptr.injEq] at e
                rw [← e.1, ← e.2]
                exact ⟨e61, dvd_zero _⟩
              · split
                · next e =>
                  subst e
                  show _ ∧ _
                  refine ⟨rfl, fun b o e => ?_⟩
                  simp only [Val.ptr.injEq] at e
                  rw [← e.1, ← e.2]
                  exact ⟨e62, dvd_zero _⟩
                · exact rel_int _ _
      · next hlt2 =>
        rw [if_neg hlt2]
        split at hb
        · next e =>
          simp at hb; subst hb
          rw [if_pos e, h.hi, cty_single]; trivial
        · next e =>
          rw [if_neg e]
          split at hb
          · simp at hb; subst hb; simp only; rw [h.out, cty_single]; exact same _ (.inr rfl) _
          · simp at hb
  next := rfl
  fresh := by
    intro b hb
    have hb : 63 ≤ b := hb
    unfold startTy
    rw [if_neg (by omega), if_neg (by omega), if_neg (by omega), if_neg (by omega)]
  out := by
    intro b r hb ho
    unfold published
    unfold startTy at hb
    split at hb
    · have := h.glob _ _ hb
      subst this
      split at ho
      · rw [h.hi] at ho; simp at ho
      · split at ho
        · next e => simp [e]
        · rw [h.lo] at ho; simp at ho
    · split at hb
      · split at hb
        · simp at hb; subst hb; rw [h.hi] at ho; simp at ho
        · simp at hb; subst hb; rw [h.lo] at ho; simp at ho
        · simp at hb; subst hb; rw [h.sig] at ho; simp at ho
        · simp at hb
      · split at hb
        · simp at hb; subst hb; rw [h.hi] at ho; simp at ho
        · split at hb
          · next e => rcases e with rfl | rfl <;> simp
          · simp at hb
  tr := rfl
  glob := by
    intro g r hg
    have hlt : g < C.globs.length := (List.getElem?_eq_some_iff.1 hg).1
    have := h.globs
    unfold startTy
    rw [if_pos (by omega)]
    exact hg
  env := by
    intro x
    simp only [start]
    cases hx : as[x]? with
    | none => exact rel_int _ _
    | some k =>
      rw [hv x k hx]
      have hxl : x < as.length := (List.getElem?_eq_some_iff.1 hx).1
      have hb : startTy C rh rl ro rs as (32 + x) = k.blk rh rl rs := by
        unfold startTy
        rw [if_neg (by omega), if_pos (by omega), show 32 + x - 32 = x by omega, hx]
        cases k <;> rfl
      have ptr : ∀ r, startTy C rh rl ro rs as (32 + x) = some r →
          rel C (startTy C rh rl ro rs as) (.ptr r) (if null x then .int 0 else .ptr (32 + x) 0)
            (if null x then .int 0 else .ptr (32 + x) 0) := by
        intro r hr
        split
        · exact rel_int _ _
        · refine ⟨rfl, fun b o e => ?_⟩
          simp only [Val.ptr.injEq] at e
          rw [← e.1, ← e.2]
          exact ⟨hr, dvd_zero _⟩
      cases k with
      | num => rfl
      | secret => exact ptr _ hb
      | common => exact ptr _ hb
      | sig => exact ptr _ hb

/-- Two calls which differ in the secrets only, and publish the same, have the same trace and the same result. -/
theorem entry {rh rl ro rs : Nat} (h : Iface C rh rl ro rs) (hC : C.ok P = true) {as : List Arg} {S : Sig}
    (hS : S ∈ C.sigs) (hlen : as.length ≤ 28) (hv : ∀ x k, as[x]? = some k → S.var x = k.ty rh rl rs) (hr : S.ret = .lo)
    {g : Fn} (hg : P[S.f]? = some g) (fuel : Nat) (n : Nat → Int) (null : Nat → Bool) (common s1 s2 : Nat → Int → Val)
    (he : released (run P I published fuel g.body (start as n null common s1)).2.tr =
      released (run P I published fuel g.body (start as n null common s2)).2.tr) :
    (run P I published fuel g.body (start as n null common s1)).2.tr =
      (run P I published fuel g.body (start as n null common s2)).2.tr ∧
    (run P I published fuel g.body (start as n null common s1)).1 =
      (run P I published fuel g.body (start as n null common s2)).1 := by
  have hc : check C P S g.body = true := by
    have := List.all_eq_true.1 hC S hS
    rw [hg] at this
    simp only [Bool.and_eq_true] at this
    exact this.2
  rcases run_sound (I := I) (pub := published) hC fuel S hS g.body hc _ _ _ (start_sim h hlen hv n null common s1 s2) with hd | ⟨H', _, hs, ho⟩
  · exact absurd he hd.released
  · refine ⟨hs.tr, ?_⟩
    rw [hr] at ho
    revert ho
    generalize (run P I published fuel g.body (start as n null common s1)).1 = a
    generalize (run P I published fuel g.body (start as n null common s2)).1 = b
    intro ho
    cases a <;> cases b <;> simp_all [OutRel, rel]

end Faest.Leak
