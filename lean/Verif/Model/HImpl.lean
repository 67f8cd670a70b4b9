/-
The functions of random_oracle.h, as used by the translated vc.c, vole.c and faest.c.

The translated code is generic over this interface.  It is used with two implementations: `absImpl X`, where a context
is the string taken in so far and the output is given by the extendable output function `X` (any function), and
`GenH.shakeImpl` (Verif/Model/ShakeImpl.lean), the translated text of random_oracle.c, hash_shake.h and sha3.
-/
import Verif.Model.CSem

namespace Faest.C

/-- random_oracle.h:15-53; `new` is the definition of a local variable of type `H0_context_t` to `H3_context_t` (they
are all `hash_context`, hash_shake.h:206), `drop` the end of its life; `new4`, `drop4` for `H0_context_x4_t`.  A
function which takes the address of a context gives back the context after the call. -/
structure HImpl where
  Ctx : Type
  Ctx4 : Type
  new : CM Ctx
  drop : Ctx → CM Unit
  new4 : CM Ctx4
  drop4 : Ctx4 → CM Unit
  H0_init : Ctx → Nat → CM Ctx
  H1_init : Ctx → Nat → CM Ctx
  H2_init : Ctx → Nat → CM Ctx
  H3_init : Ctx → Nat → CM Ctx
  H0_update : Ctx → CPtr → Nat → CM Ctx
  H1_update : Ctx → CPtr → Nat → CM Ctx
  H2_update : Ctx → CPtr → Nat → CM Ctx
  H3_update : Ctx → CPtr → Nat → CM Ctx
  H0_final : Ctx → CPtr → Nat → CPtr → Nat → CM Ctx
  H1_final : Ctx → CPtr → Nat → CM Ctx
  H2_final : Ctx → CPtr → Nat → CM Ctx
  H3_final : Ctx → CPtr → Nat → CPtr → CM Ctx
  H0_x4_init : Ctx4 → Nat → CM Ctx4
  H0_x4_update : Ctx4 → CPtr → CPtr → CPtr → CPtr → Nat → CM Ctx4
  H0_x4_final : Ctx4 → CPtr → CPtr → CPtr → CPtr → Nat → CPtr → CPtr → CPtr → CPtr → Nat → CM Ctx4

/-- The oracles over the extendable output function `X`. -/
def absImpl (X : XOF) : HImpl where
  Ctx := HCtx
  Ctx4 := HCtx4
  new := pure {}
  drop _ := pure ()
  new4 := pure {}
  drop4 _ := pure ()
  H0_init := C.H0_init
  H1_init := C.H1_init
  H2_init := C.H2_init
  H3_init := C.H3_init
  H0_update := C.H0_update
  H1_update := C.H1_update
  H2_update := C.H2_update
  H3_update := C.H3_update
  H0_final := C.H0_final X
  H1_final := C.H1_final X
  H2_final := C.H2_final X
  H3_final := C.H3_final X
  H0_x4_init := C.H0_x4_init
  H0_x4_update := C.H0_x4_update
  H0_x4_final := C.H0_x4_final X

end Faest.C
