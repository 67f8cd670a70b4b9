/-
C58: branches, addresses, operands of divisions and sizes of allocations do not depend on secrets.
-/
import Verif.Proofs.Leak.Top
import Verif.Model.Leak.CInterp

namespace Faest.Props
open Faest.Leak

/-- The functions of the twelve parameter sets (faest_param.c.in). -/
def keygens : List Nat := [Prog.Id.faest_128s_keygen, Prog.Id.faest_128f_keygen, Prog.Id.faest_192s_keygen,
  Prog.Id.faest_192f_keygen, Prog.Id.faest_256s_keygen, Prog.Id.faest_256f_keygen, Prog.Id.faest_em_128s_keygen,
  Prog.Id.faest_em_128f_keygen, Prog.Id.faest_em_192s_keygen, Prog.Id.faest_em_192f_keygen,
  Prog.Id.faest_em_256s_keygen, Prog.Id.faest_em_256f_keygen]

def validates : List Nat := [Prog.Id.faest_128s_validate_keypair, Prog.Id.faest_128f_validate_keypair,
  Prog.Id.faest_192s_validate_keypair, Prog.Id.faest_192f_validate_keypair, Prog.Id.faest_256s_validate_keypair,
  Prog.Id.faest_256f_validate_keypair, Prog.Id.faest_em_128s_validate_keypair, Prog.Id.faest_em_128f_validate_keypair,
  Prog.Id.faest_em_192s_validate_keypair, Prog.Id.faest_em_192f_validate_keypair,
  Prog.Id.faest_em_256s_validate_keypair, Prog.Id.faest_em_256f_validate_keypair]

def signRands : List Nat := [Prog.Id.faest_128s_sign_with_randomness, Prog.Id.faest_128f_sign_with_randomness,
  Prog.Id.faest_192s_sign_with_randomness, Prog.Id.faest_192f_sign_with_randomness,
  Prog.Id.faest_256s_sign_with_randomness, Prog.Id.faest_256f_sign_with_randomness,
  Prog.Id.faest_em_128s_sign_with_randomness, Prog.Id.faest_em_128f_sign_with_randomness,
  Prog.Id.faest_em_192s_sign_with_randomness, Prog.Id.faest_em_192f_sign_with_randomness,
  Prog.Id.faest_em_256s_sign_with_randomness, Prog.Id.faest_em_256f_sign_with_randomness]

def apiSigns : List Nat := [Prog.Id.faest_128s_sign, Prog.Id.faest_128f_sign, Prog.Id.faest_192s_sign,
  Prog.Id.faest_192f_sign, Prog.Id.faest_256s_sign, Prog.Id.faest_256f_sign, Prog.Id.faest_em_128s_sign,
  Prog.Id.faest_em_128f_sign, Prog.Id.faest_em_192s_sign, Prog.Id.faest_em_192f_sign, Prog.Id.faest_em_256s_sign,
  Prog.Id.faest_em_256f_sign]

/-- **C58, faest_sign.** -/
theorem C58_faest_sign : ∀ P ∈ builds, SecretFree P Prog.Id.faest_sign signArgs := secretFree_of_typed (by decide +kernel)

/-- **C58, key generation.** -/
theorem C58_keygen : ∀ P ∈ builds, ∀ f ∈ keygens, SecretFree P f keyArgs := by
  have h : ∀ f ∈ keygens, typed f keyArgs = true := by decide +kernel
  exact fun P hP f hf => secretFree_of_typed (h f hf) P hP

/-- **C58, validation of a key pair.** -/
theorem C58_validate : ∀ P ∈ builds, ∀ f ∈ validates, SecretFree P f keyArgs := by
  have h : ∀ f ∈ validates, typed f keyArgs = true := by decide +kernel
  exact fun P hP f hf => secretFree_of_typed (h f hf) P hP

/-- **C58, signing with given randomness.** -/
theorem C58_sign_with_randomness : ∀ P ∈ builds, ∀ f ∈ signRands, SecretFree P f signRandArgs := by
  have h : ∀ f ∈ signRands, typed f signRandArgs = true := by decide +kernel
  exact fun P hP f hf => secretFree_of_typed (h f hf) P hP

/-- **C58, signing.** -/
theorem C58_sign : ∀ P ∈ builds, ∀ f ∈ apiSigns, SecretFree P f apiSignArgs := by
  have h : ∀ f ∈ apiSigns, typed f apiSignArgs = true := by decide +kernel
  exact fun P hP f hf => secretFree_of_typed (h f hf) P hP

section Examples

/-- two secrets of three bytes, equal in the first -/
def exSecret (x : Int) : Nat → Int → Val := fun _ o => .int (if o = 0 then 7 else x)

def exStart (n : Int) (x : Int) : St :=
  { start [.secret, .secret, .num] (fun _ => n) (fun _ => false) (fun _ _ => .int 0) (fun b o =>
      if b = 32 then exSecret 1 b o else exSecret x b o) with tr := [] }

def exTrace (c : Stmt) (x : Int) : List Ev := (run prog cInterp (fun _ => false) 10 c (exStart 3 x)).2.tr
def exOut (c : Stmt) (x : Int) : Out := (run prog cInterp (fun _ => false) 10 c (exStart 3 x)).1

/-- memcmp with its early exit: parameters 0, 1, 2 and counter 3 -/
def exMemcmp : Stmt := block [
  .asg 3 (.lit 0),
  .loop (.bin .lt (.var 3) (.var 2))
    (.ite (.bin .ne (.ld 1 (.padd (.var 0) (.var 3) 1)) (.ld 1 (.padd (.var 1) (.var 3) 1))) (.ret (.lit 1)) .skip)
    (.asg 3 (.bin (.add .u64) (.var 3) (.lit 1))),
  .ret (.lit 0)]

/-- a table lookup at a secret index -/
def exLookup : Stmt := .ret (.ld 1 (.padd (.glob Prog.Glob.Rcon) (.ld 1 (.padd (.var 1) (.lit 1) 1)) 1))

/-- a secret byte -/
def exByte : Expr := .ld 1 (.padd (.var 1) (.lit 1) 1)

-- with the arithmetic of C the comparison of the code looks at all bytes and has one trace
example : exTrace Prog.faest_timingsafe_bcmp.body 1 = exTrace Prog.faest_timingsafe_bcmp.body 2 := by decide +kernel
example : (exTrace Prog.faest_timingsafe_bcmp.body 1).length = 10 := by decide +kernel
example : exOut Prog.faest_timingsafe_bcmp.body 1 = .ret (.int 0) := by decide +kernel
example : exOut Prog.faest_timingsafe_bcmp.body 2 = .ret (.int 3) := by decide +kernel
-- an early exit and a secret index are visible in the trace
example : exTrace exMemcmp 1 ≠ exTrace exMemcmp 2 := by decide +kernel
example : exTrace exLookup 1 ≠ exTrace exLookup 2 := by decide +kernel
-- so are the operands of a division, the size of an allocation, the address of a store and what is freed
example : exTrace (.ret (.div (.mod .u32) exByte (.lit 7))) 1 ≠ exTrace (.ret (.div (.mod .u32) exByte (.lit 7))) 2 := by decide +kernel
example : exTrace (.ret (.div (.div .u32) (.lit 7) exByte)) 1 ≠ exTrace (.ret (.div (.div .u32) (.lit 7) exByte)) 2 := by decide +kernel
example : exTrace (.new 9 exByte) 1 ≠ exTrace (.new 9 exByte) 2 := by decide +kernel
example : exTrace (.st 1 (.padd (.var 0) exByte 1) (.lit 0)) 1 ≠ exTrace (.st 1 (.padd (.var 0) exByte 1) (.lit 0)) 2 := by decide +kernel
example : exTrace (.free (.padd (.var 0) exByte 1)) 1 ≠ exTrace (.free (.padd (.var 0) exByte 1)) 2 := by decide +kernel
example : exTrace (.loop exByte .brk .skip) 0 ≠ exTrace (.loop exByte .brk .skip) 1 := by decide +kernel
-- but not the value of a store
example : exTrace (.st 1 (.var 0) exByte) 1 = exTrace (.st 1 (.var 0) exByte) 2 := by decide +kernel

/-- operators which make every loop stop and every check of a key succeed -/
def exInterp : Interp where
  un _ v := .int (if v.truth then 0 else 1)
  bin _ _ _ := .int 0
  div _ _ _ := .int 0
  ld _ := .int 1
  st _ v _ := v

-- complete runs of key generation: they publish one value, the same for two secrets, and return 0
example : (run prog exInterp published 50 Prog.faest_128s_keygen.body (start keyArgs (fun _ => 0) (fun _ => false)
    (fun _ _ => .int 0) (exSecret 1))).1 = .ret (.int 0) := by decide +kernel
example : released (run prog exInterp published 50 Prog.faest_128s_keygen.body (start keyArgs (fun _ => 0) (fun _ => false)
    (fun _ _ => .int 0) (exSecret 1))).2.tr = released (run prog exInterp published 50 Prog.faest_128s_keygen.body
    (start keyArgs (fun _ => 0) (fun _ => false) (fun _ _ => .int 0) (exSecret 2))).2.tr := by decide +kernel

-- the same with 32-bit words on a big-endian host, whose program has its own functions at the numbers of the hash
example : (run prog32Be exInterp published 50 Prog.faest_128s_keygen.body (start keyArgs (fun _ => 0) (fun _ => false)
    (fun _ _ => .int 0) (exSecret 1))).1 = .ret (.int 0) := by decide +kernel
example : prog32[Prog.Id.KeccakP1600_AddLanes]? = some Prog32.KeccakP1600_AddLanes ∧
    prog32[Prog.Id.faest_sign]? = some Prog.faest_sign ∧
    progBe[Prog.Id.KeccakF1600_FastLoop_Absorb]? = some ProgBe.KeccakF1600_FastLoop_Absorb ∧
    progBe[Prog.Id.bf128_load]? = some ProgBe.bf128_load ∧
    prog32Be[Prog.Id.KeccakP1600_Permute_24rounds]? = some Prog32Be.KeccakP1600_Permute_24rounds ∧
    prog32Be[Prog.Id.faest_256f_sign]? = some Prog.faest_256f_sign ∧
    progAvx[Prog.Id.KeccakP1600times4_PermuteAll_24rounds]? = some ProgAvx.KeccakP1600times4_PermuteAll_24rounds ∧
    progVec[Prog.Id.bf192_mul]? = some ProgVec.bf192_mul :=
  ⟨rfl, rfl, rfl, rfl, rfl, rfl, rfl, rfl⟩

end Examples

end Faest.Props
