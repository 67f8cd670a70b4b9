/-
Parameter sets: meson.build:107-398, instances.h:23-60, instances.c:45-155.
-/
namespace Faest

/-- instances.h:23-38 `faest_paramid_t`, without the invalid values. -/
inductive ParamId where
  | p128S
  | p128F
  | p192S
  | p192F
  | p256S
  | p256F
  | pEM128S
  | pEM128F
  | pEM192S
  | pEM192F
  | pEM256S
  | pEM256F
deriving DecidableEq, Repr

/-- instances.h:40-56 `faest_param_t`, together with the template constants `BETA`, `C`
and `SK_SIZE` of meson.build and the id. -/
structure Params where
  /-- `faest_paramid`; `none` is `PARAMETER_SET_INVALID` -/
  id : Option ParamId
  lambda : Nat
  Nwd : Nat
  Ske : Nat
  R : Nat
  Senc : Nat
  beta : Nat
  l : Nat
  Lke : Nat
  Lenc : Nat
  C : Nat
  tau : Nat
  k0 : Nat
  k1 : Nat
  t0 : Nat
  t1 : Nat
  sigSize : Nat
  pkSize : Nat
  skSize : Nat
deriving DecidableEq, Repr

/-- The parameter table, meson.build:112-398 through `faest_get_paramset` (instances.c:126-155). -/
def params : ParamId → Params
  -- meson.build:113-133
  | .p128S =>
    { id := some .p128S, lambda := 128, Nwd := 4, Ske := 40, R := 10, Senc := 160, beta := 1,
      l := 1600, Lke := 448, Lenc := 1152, C := 200, tau := 11, k0 := 12, k1 := 11, t0 := 7, t1 := 4,
      sigSize := 5006, pkSize := 32, skSize := 32 }
  -- meson.build:137-157
  | .p128F =>
    { id := some .p128F, lambda := 128, Nwd := 4, Ske := 40, R := 10, Senc := 160, beta := 1,
      l := 1600, Lke := 448, Lenc := 1152, C := 200, tau := 16, k0 := 8, k1 := 8, t0 := 0, t1 := 16,
      sigSize := 6336, pkSize := 32, skSize := 32 }
  -- meson.build:209-229
  | .p192S =>
    { id := some .p192S, lambda := 192, Nwd := 6, Ske := 32, R := 12, Senc := 192, beta := 2,
      l := 3264, Lke := 448, Lenc := 1408, C := 416, tau := 16, k0 := 12, k1 := 12, t0 := 0, t1 := 16,
      sigSize := 12744, pkSize := 64, skSize := 56 }
  -- meson.build:233-253
  | .p192F =>
    { id := some .p192F, lambda := 192, Nwd := 6, Ske := 32, R := 12, Senc := 192, beta := 2,
      l := 3264, Lke := 448, Lenc := 1408, C := 416, tau := 24, k0 := 8, k1 := 8, t0 := 0, t1 := 24,
      sigSize := 16792, pkSize := 64, skSize := 56 }
  -- meson.build:305-325
  | .p256S =>
    { id := some .p256S, lambda := 256, Nwd := 8, Ske := 52, R := 14, Senc := 224, beta := 2,
      l := 4000, Lke := 672, Lenc := 1664, C := 500, tau := 22, k0 := 12, k1 := 11, t0 := 14, t1 := 8,
      sigSize := 22100, pkSize := 64, skSize := 64 }
  -- meson.build:329-349
  | .p256F =>
    { id := some .p256F, lambda := 256, Nwd := 8, Ske := 52, R := 14, Senc := 224, beta := 2,
      l := 4000, Lke := 672, Lenc := 1664, C := 500, tau := 32, k0 := 8, k1 := 8, t0 := 0, t1 := 32,
      sigSize := 28400, pkSize := 64, skSize := 64 }
  -- meson.build:161-181
  | .pEM128S =>
    { id := some .pEM128S, lambda := 128, Nwd := 4, Ske := 0, R := 10, Senc := 160, beta := 1,
      l := 1280, Lke := 0, Lenc := 1280, C := 200, tau := 11, k0 := 12, k1 := 11, t0 := 7, t1 := 4,
      sigSize := 4566, pkSize := 32, skSize := 32 }
  -- meson.build:185-205
  | .pEM128F =>
    { id := some .pEM128F, lambda := 128, Nwd := 4, Ske := 0, R := 10, Senc := 160, beta := 1,
      l := 1280, Lke := 0, Lenc := 1280, C := 200, tau := 16, k0 := 8, k1 := 8, t0 := 0, t1 := 16,
      sigSize := 5696, pkSize := 32, skSize := 32 }
  -- meson.build:257-277
  | .pEM192S =>
    { id := some .pEM192S, lambda := 192, Nwd := 6, Ske := 0, R := 12, Senc := 288, beta := 1,
      l := 2304, Lke := 0, Lenc := 2304, C := 416, tau := 16, k0 := 12, k1 := 12, t0 := 0, t1 := 16,
      sigSize := 10824, pkSize := 48, skSize := 48 }
  -- meson.build:281-301
  | .pEM192F =>
    { id := some .pEM192F, lambda := 192, Nwd := 6, Ske := 0, R := 12, Senc := 288, beta := 1,
      l := 2304, Lke := 0, Lenc := 2304, C := 416, tau := 24, k0 := 8, k1 := 8, t0 := 0, t1 := 24,
      sigSize := 13912, pkSize := 48, skSize := 48 }
  -- meson.build:353-373
  | .pEM256S =>
    { id := some .pEM256S, lambda := 256, Nwd := 8, Ske := 0, R := 14, Senc := 448, beta := 1,
      l := 3584, Lke := 0, Lenc := 3584, C := 500, tau := 22, k0 := 12, k1 := 11, t0 := 14, t1 := 8,
      sigSize := 20956, pkSize := 64, skSize := 64 }
  -- meson.build:377-397
  | .pEM256F =>
    { id := some .pEM256F, lambda := 256, Nwd := 8, Ske := 0, R := 14, Senc := 448, beta := 1,
      l := 3584, Lke := 0, Lenc := 3584, C := 500, tau := 32, k0 := 8, k1 := 8, t0 := 0, t1 := 32,
      sigSize := 26736, pkSize := 64, skSize := 64 }

/-- instances.c:123-124 `FAEST_INVALID_PARAMS`. -/
def invalidParams : Params :=
  { id := none, lambda := 0, Nwd := 0, Ske := 0, R := 0, Senc := 0, beta := 0, l := 0, Lke := 0,
    Lenc := 0, C := 0, tau := 0, k0 := 0, k1 := 0, t0 := 0, t1 := 0, sigSize := 0, pkSize := 0,
    skSize := 0 }

/-- instances.h:23-38: numbering of the ids. -/
def paramIdOfNat : Nat → Option ParamId
  | 1 => some .p128S
  | 2 => some .p128F
  | 3 => some .p192S
  | 4 => some .p192F
  | 5 => some .p256S
  | 6 => some .p256F
  | 7 => some .pEM128S
  | 8 => some .pEM128F
  | 9 => some .pEM192S
  | 10 => some .pEM192F
  | 11 => some .pEM256S
  | 12 => some .pEM256F
  | _ => none

/-- instances.c:126-155 `faest_get_paramset`. -/
def getParamset (n : Nat) : Params :=
  match paramIdOfNat n with
  | some i => params i
  | none => invalidParams

/-! instances.h:13-19. -/
def MAX_LAMBDA : Nat := 256
def MAX_LAMBDA_BYTES : Nat := MAX_LAMBDA / 8
def MAX_DEPTH : Nat := 12
def MAX_TAU : Nat := 32
def UNIVERSAL_HASH_B : Nat := 2
def UNIVERSAL_HASH_B_BITS : Nat := 16
def IV_SIZE : Nat := 16

namespace Params
/-- `lambda / 8`. -/
def lambdaBytes (P : Params) : Nat := P.lambda / 8
/-- faest.c:260 `ell_hat = l + lambda * 2 + UNIVERSAL_HASH_B_BITS`. -/
def ellHat (P : Params) : Nat := P.l + P.lambda * 2 + UNIVERSAL_HASH_B_BITS
/-- faest.c:261 `ell_hat_bytes`. -/
def ellHatBytes (P : Params) : Nat := P.ellHat / 8
/-- depth of tree `i`: `i < t0 ? k0 : k1`. -/
def depth (P : Params) (i : Nat) : Nat := if i < P.t0 then P.k0 else P.k1
end Params

end Faest
