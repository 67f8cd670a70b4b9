/-
The functions of the interface have typings.
-/
import Verif.Model.Leak.Spec
import Verif.Proofs.Leak.CertOk
import Verif.Proofs.Leak.Cert32Ok
import Verif.Proofs.Leak.CertBeOk
import Verif.Proofs.Leak.Cert32BeOk
import Verif.Proofs.Leak.CertAvxOk
import Verif.Proofs.Leak.CertVecOk
import Verif.Proofs.Leak.Entry

namespace Faest.Leak

/-- the records of the global objects -/
def globsOk (C : Cert) (rh rl ro : Nat) : Bool :=
  decide (C.globs.length ≤ 32) && decide (∀ g < 32, C.globs[g]? = none ∨ C.globs[g]? = some (if g = Prog.Glob.rand_tape then rh else
    if g = Prog.Glob.released then ro else rl))

theorem globsOk.glob {C : Cert} {rh rl ro : Nat} (h : globsOk C rh rl ro = true) (g r : Nat) (hg : C.globs[g]? = some r) :
    r = (if g = Prog.Glob.rand_tape then rh else if g = Prog.Glob.released then ro else rl) := by
  unfold globsOk at h
  rw [Bool.and_eq_true, decide_eq_true_eq, decide_eq_true_eq] at h
  have hlt : g < 32 := Nat.lt_of_lt_of_le (List.getElem?_eq_some_iff.1 hg).1 h.1
  rcases h.2 g hlt with h | h
  · rw [h] at hg; simp at hg
  · rw [h] at hg; simpa using hg.symm

theorem iface : Iface cert Cert0.rHi Cert0.rLo Cert0.rOut Cert0.rSig where
  hi := by decide +kernel
  lo := by decide +kernel
  out := by decide +kernel
  sig := by decide +kernel
  globs := by decide +kernel
  glob := globsOk.glob (by decide +kernel)

theorem iface32 : Iface cert32 Cert32.rHi Cert32.rLo Cert32.rOut Cert32.rSig where
  hi := by decide +kernel
  lo := by decide +kernel
  out := by decide +kernel
  sig := by decide +kernel
  globs := by decide +kernel
  glob := globsOk.glob (by decide +kernel)

theorem ifaceBe : Iface certBe CertBe.rHi CertBe.rLo CertBe.rOut CertBe.rSig where
  hi := by decide +kernel
  lo := by decide +kernel
  out := by decide +kernel
  sig := by decide +kernel
  globs := by decide +kernel
  glob := globsOk.glob (by decide +kernel)

theorem iface32Be : Iface cert32Be Cert32Be.rHi Cert32Be.rLo Cert32Be.rOut Cert32Be.rSig where
  hi := by decide +kernel
  lo := by decide +kernel
  out := by decide +kernel
  sig := by decide +kernel
  globs := by decide +kernel
  glob := globsOk.glob (by decide +kernel)

theorem ifaceAvx : Iface certAvx CertAvx.rHi CertAvx.rLo CertAvx.rOut CertAvx.rSig where
  hi := by decide +kernel
  lo := by decide +kernel
  out := by decide +kernel
  sig := by decide +kernel
  globs := by decide +kernel
  glob := globsOk.glob (by decide +kernel)

theorem ifaceVec : Iface certVec CertVec.rHi CertVec.rLo CertVec.rOut CertVec.rSig where
  hi := by decide +kernel
  lo := by decide +kernel
  out := by decide +kernel
  sig := by decide +kernel
  globs := by decide +kernel
  glob := globsOk.glob (by decide +kernel)

/-- there is a typing of `f` with these parameters -/
def typedIn (P : List Fn) (C : Cert) (rh rl rs : Nat) (f : Nat) (as : List Arg) : Bool :=
  (match P[f]? with | some g => g.arity == as.length | none => false) && decide (as.length ≤ 28) &&
  C.sigs.any fun S => S.f == f && S.ret == .lo && decide (S.vars.take as.length = as.map (Arg.ty rh rl rs))

theorem secretFree_of_typedIn {P : List Fn} {C : Cert} {rh rl ro rs : Nat} (hi : Iface C rh rl ro rs) (hc : C.ok P = true)
    {f : Nat} {as : List Arg} (h : typedIn P C rh rl rs f as = true) : SecretFree P f as := by
  unfold typedIn at h
  simp only [Bool.and_eq_true, List.any_eq_true, beq_iff_eq, decide_eq_true_eq] at h
  obtain ⟨⟨h1, h2⟩, S, hS, ⟨hf, hr⟩, hv⟩ := h
  cases hg : P[f]? with
  | none => rw [hg] at h1; simp at h1
  | some g =>
    rw [hg] at h1
    refine ⟨g, hg, by simpa using h1, fun I fuel n null common s1 s2 he => ?_⟩
    refine entry hi hc hS h2 (fun x k hx => ?_) hr (by rw [hf]; exact hg) fuel n null common s1 s2 he
    have hx' : (S.vars.take as.length)[x]? = some (k.ty rh rl rs) := by
      rw [hv, List.getElem?_map, hx]; rfl
    have hxl : x < as.length := (List.getElem?_eq_some_iff.1 hx).1
    rw [List.getElem?_take_of_lt hxl] at hx'
    unfold Sig.var
    rw [List.getD_eq_getElem?_getD, hx']; rfl

/-- `f` has a typing with these parameters in every build -/
def typed (f : Nat) (as : List Arg) : Bool :=
  typedIn prog cert Cert0.rHi Cert0.rLo Cert0.rSig f as &&
  typedIn prog32 cert32 Cert32.rHi Cert32.rLo Cert32.rSig f as &&
  typedIn progBe certBe CertBe.rHi CertBe.rLo CertBe.rSig f as &&
  typedIn prog32Be cert32Be Cert32Be.rHi Cert32Be.rLo Cert32Be.rSig f as &&
  typedIn progAvx certAvx CertAvx.rHi CertAvx.rLo CertAvx.rSig f as &&
  typedIn progVec certVec CertVec.rHi CertVec.rLo CertVec.rSig f as

theorem secretFree_of_typed {f : Nat} {as : List Arg} (h : typed f as = true) : ∀ P ∈ builds, SecretFree P f as := by
  unfold typed at h
  simp only [Bool.and_eq_true] at h
  obtain ⟨⟨⟨⟨⟨h1, h2⟩, h3⟩, h4⟩, h5⟩, h6⟩ := h
  intro P hP
  simp only [builds, List.mem_cons, List.not_mem_nil, or_false] at hP
  rcases hP with rfl | rfl | rfl | rfl | rfl | rfl
  · exact secretFree_of_typedIn iface cert_ok h1
  · exact secretFree_of_typedIn iface32 cert32_ok h2
  · exact secretFree_of_typedIn ifaceBe certBe_ok h3
  · exact secretFree_of_typedIn iface32Be cert32Be_ok h4
  · exact secretFree_of_typedIn ifaceAvx certAvx_ok h5
  · exact secretFree_of_typedIn ifaceVec certVec_ok h6

end Faest.Leak
