/-
The types of the labels of sha3/avx2/KeccakP-1600-AVX2.s.
-/
import Verif.Proofs.Asm.Leak

namespace Faest.Asm
open Faest.C Faest.GenX

/-- Who calls the rounds: `KeccakP1600_Permute_24rounds` for C, the fast loops, or `KeccakP1600_Permute_24rounds` for the
loop over other numbers of lanes. -/
inductive Ctx where
  | main | fast | slow
deriving DecidableEq

def A.none : A := ⟨[], [], [], false, false⟩
/-- These registers are public, and these addresses of constants. -/
def A.pr (p r : List Reg) : A := ⟨p, r, [], false, false⟩

def keccakTypes : Ctx → Lbl → Option LTy
  | .main, .KeccakP1600_Initialize => some ⟨.pr [.rdi] [], [], .none⟩
  | .main, .KeccakP1600_AddByte => some ⟨.pr [.rdi, .rdx] [], [], .none⟩
  | .main, .KeccakP1600_AddBytes => some ⟨.pr [.rdi, .rsi, .rdx, .rcx] [], [], .none⟩
  | .main, .KeccakP1600_AddBytes_NotAlignedLoop => some ⟨.pr [.rdi, .rsi, .rcx, .rax, .r9] [.rdx], [], .none⟩
  | .main, .KeccakP1600_AddBytes_LaneAlignedLoop => some ⟨.pr [.rdi, .rsi, .rcx] [.rdx], [], .none⟩
  | .main, .KeccakP1600_AddBytes_LaneAlignedCheck => some ⟨.pr [.rdi, .rsi, .rcx] [.rdx], [], .none⟩
  | .main, .KeccakP1600_AddBytes_LastIncompleteLane => some ⟨.pr [.rdi, .rsi, .rcx] [.rdx], [], .none⟩
  | .main, .KeccakP1600_AddBytes_LastIncompleteLaneLoop => some ⟨.pr [.rsi, .rcx, .rax] [], [], .none⟩
  | .main, .KeccakP1600_AddBytes_Exit => some ⟨.none, [], .none⟩
  | .main, .KeccakP1600_ExtractBytes => some ⟨.pr [.rdi, .rsi, .rdx, .rcx] [], [], .none⟩
  | .main, .KeccakP1600_ExtractBytes_NotAlignedLoop => some ⟨.pr [.rdi, .rsi, .rcx, .rbx, .r9] [.rdx], [.sec], .none⟩
  | .main, .KeccakP1600_ExtractBytes_LaneAlignedLoop => some ⟨.pr [.rdi, .rsi, .rcx] [.rdx], [.sec], .none⟩
  | .main, .KeccakP1600_ExtractBytes_LaneAlignedCheck => some ⟨.pr [.rdi, .rsi, .rcx] [.rdx], [.sec], .none⟩
  | .main, .KeccakP1600_ExtractBytes_LastIncompleteLane => some ⟨.pr [.rdi, .rsi, .rcx] [.rdx], [.sec], .none⟩
  | .main, .KeccakP1600_ExtractBytes_LastIncompleteLaneLoop => some ⟨.pr [.rsi, .rcx] [], [.sec], .none⟩
  | .main, .KeccakP1600_ExtractBytes_Exit => some ⟨.none, [.sec], .none⟩
  | .main, .KeccakF1600 => some ⟨.pr [.rdi, .rax] [.r8, .r9, .r10], [], .pr [.rdi] []⟩
  | .main, .Loop_avx2 => some ⟨.pr [.rdi, .rax] [.r8, .r9, .r10], [], .pr [.rdi] []⟩
  | .main, .KeccakP1600_Permute_24rounds => some ⟨.pr [.rdi] [], [], .none⟩
  | .fast, .KeccakF1600 => some ⟨.pr [.rdi, .rax, .rbx, .rcx, .rdx] [.r8, .r9, .r10], [],
      .pr [.rdi, .rbx, .rcx, .rdx] [.r8, .r9]⟩
  | .fast, .Loop_avx2 => some ⟨.pr [.rdi, .rax, .rbx, .rcx, .rdx] [.r8, .r9, .r10], [],
      .pr [.rdi, .rbx, .rcx, .rdx] [.r8, .r9]⟩
  | .slow, .KeccakF1600 => some ⟨.pr [.rdi, .rax, .rbx] [.r8, .r9, .r10], [], .pr [.rdi, .rbx] []⟩
  | .slow, .Loop_avx2 => some ⟨.pr [.rdi, .rax, .rbx] [.r8, .r9, .r10], [], .pr [.rdi, .rbx] []⟩
  | .slow, .KeccakP1600_Permute_24rounds => some ⟨.pr [.rdi, .rbx] [], [], .pr [.rbx] []⟩
  | .main, .KeccakF1600_FastLoop_Absorb => some ⟨.pr [.rdi, .rsi, .rdx, .rcx] [], [], .pr [.rax] []⟩
  | .main, .KeccakF1600_FastLoop_Absorb_Loop21Lanes =>
    some ⟨.pr [.rdi, .rbx, .rcx, .rdx] [.r8, .r9], [.sec, .sec], .pr [.rax] []⟩
  | .main, .KeccakF1600_FastLoop_Absorb_SaveAndExit => some ⟨.pr [.rdi, .rbx, .rdx] [], [.sec, .sec], .pr [.rax] []⟩
  | .main, .KeccakF1600_FastLoop_Absorb_Exit => some ⟨.pr [.rbx, .rdx] [], [.sec, .sec], .pr [.rax] []⟩
  | .main, .KeccakF1600_FastLoop_Absorb_Not21Lanes =>
    some ⟨.pr [.rdi, .rbx, .rcx, .rdx, .rsi] [], [.sec, .sec], .pr [.rax] []⟩
  | .main, .KeccakF1600_FastLoop_Absorb_Loop17Lanes =>
    some ⟨.pr [.rdi, .rbx, .rcx, .rdx] [.r8, .r9], [.sec, .sec], .pr [.rax] []⟩
  | .main, .KeccakF1600_FastLoop_Absorb_Not17Lanes =>
    some ⟨.pr [.rdi, .rbx, .rcx, .rdx, .rsi] [], [.sec, .sec], .pr [.rax] []⟩
  | .main, .KeccakF1600_FastLoop_Absorb_LanesAddLoop =>
    some ⟨.pr [.rdi, .rbx, .rcx, .rdx, .rsi, .rax] [.r9], [.sec, .sec], .pr [.rax] []⟩
  | _, _ => Option.none

def ctxs : List Ctx := [.main, .fast, .slow]

/-- The code of a label has its type. -/
def okAt (k : Ctx) (l : Lbl) : Bool :=
  match keccakTypes k l with
  | some t => check keccakTypes ctxs (keccakTypes k) (prog.code l) t.inp t.stk t.out
  | Option.none => true

theorem keccak_ok (k : Ctx) (l : Lbl) : okAt k l = true := by
  cases k <;> cases l <;> decide +kernel

theorem keccak_typed : Typed prog keccakTypes ctxs := by
  intro k l t ht
  have := keccak_ok k l
  rw [okAt, ht] at this
  exact this

end Faest.Asm
