/-
Generated by tools/c2lean.py from instances.c and meson.build. Do not edit.
-/
import Verif.Model.Params

namespace Faest.Gen

/-- instances.c:126-155 `faest_get_paramset`. -/
def faest_get_paramset : Option ParamId → Params
  | some ParamId.p128S =>
    { id := some ParamId.p128S, lambda := 128, Nwd := 4, Ske := 40, R := 10, Senc := 160, l := 1600, Lke := 448, Lenc := 1152, tau := 11, k0 := 12, k1 := 11, t0 := 7, t1 := 4, sigSize := 5006, pkSize := 32, beta := 1, C := 200, skSize := 32 }
  | some ParamId.p128F =>
    { id := some ParamId.p128F, lambda := 128, Nwd := 4, Ske := 40, R := 10, Senc := 160, l := 1600, Lke := 448, Lenc := 1152, tau := 16, k0 := 8, k1 := 8, t0 := 0, t1 := 16, sigSize := 6336, pkSize := 32, beta := 1, C := 200, skSize := 32 }
  | some ParamId.pEM128S =>
    { id := some ParamId.pEM128S, lambda := 128, Nwd := 4, Ske := 0, R := 10, Senc := 160, l := 1280, Lke := 0, Lenc := 1280, tau := 11, k0 := 12, k1 := 11, t0 := 7, t1 := 4, sigSize := 4566, pkSize := 32, beta := 1, C := 200, skSize := 32 }
  | some ParamId.pEM128F =>
    { id := some ParamId.pEM128F, lambda := 128, Nwd := 4, Ske := 0, R := 10, Senc := 160, l := 1280, Lke := 0, Lenc := 1280, tau := 16, k0 := 8, k1 := 8, t0 := 0, t1 := 16, sigSize := 5696, pkSize := 32, beta := 1, C := 200, skSize := 32 }
  | some ParamId.p192S =>
    { id := some ParamId.p192S, lambda := 192, Nwd := 6, Ske := 32, R := 12, Senc := 192, l := 3264, Lke := 448, Lenc := 1408, tau := 16, k0 := 12, k1 := 12, t0 := 0, t1 := 16, sigSize := 12744, pkSize := 64, beta := 2, C := 416, skSize := 56 }
  | some ParamId.p192F =>
    { id := some ParamId.p192F, lambda := 192, Nwd := 6, Ske := 32, R := 12, Senc := 192, l := 3264, Lke := 448, Lenc := 1408, tau := 24, k0 := 8, k1 := 8, t0 := 0, t1 := 24, sigSize := 16792, pkSize := 64, beta := 2, C := 416, skSize := 56 }
  | some ParamId.pEM192S =>
    { id := some ParamId.pEM192S, lambda := 192, Nwd := 6, Ske := 0, R := 12, Senc := 288, l := 2304, Lke := 0, Lenc := 2304, tau := 16, k0 := 12, k1 := 12, t0 := 0, t1 := 16, sigSize := 10824, pkSize := 48, beta := 1, C := 416, skSize := 48 }
  | some ParamId.pEM192F =>
    { id := some ParamId.pEM192F, lambda := 192, Nwd := 6, Ske := 0, R := 12, Senc := 288, l := 2304, Lke := 0, Lenc := 2304, tau := 24, k0 := 8, k1 := 8, t0 := 0, t1 := 24, sigSize := 13912, pkSize := 48, beta := 1, C := 416, skSize := 48 }
  | some ParamId.p256S =>
    { id := some ParamId.p256S, lambda := 256, Nwd := 8, Ske := 52, R := 14, Senc := 224, l := 4000, Lke := 672, Lenc := 1664, tau := 22, k0 := 12, k1 := 11, t0 := 14, t1 := 8, sigSize := 22100, pkSize := 64, beta := 2, C := 500, skSize := 64 }
  | some ParamId.p256F =>
    { id := some ParamId.p256F, lambda := 256, Nwd := 8, Ske := 52, R := 14, Senc := 224, l := 4000, Lke := 672, Lenc := 1664, tau := 32, k0 := 8, k1 := 8, t0 := 0, t1 := 32, sigSize := 28400, pkSize := 64, beta := 2, C := 500, skSize := 64 }
  | some ParamId.pEM256S =>
    { id := some ParamId.pEM256S, lambda := 256, Nwd := 8, Ske := 0, R := 14, Senc := 448, l := 3584, Lke := 0, Lenc := 3584, tau := 22, k0 := 12, k1 := 11, t0 := 14, t1 := 8, sigSize := 20956, pkSize := 64, beta := 1, C := 500, skSize := 64 }
  | some ParamId.pEM256F =>
    { id := some ParamId.pEM256F, lambda := 256, Nwd := 8, Ske := 0, R := 14, Senc := 448, l := 3584, Lke := 0, Lenc := 3584, tau := 32, k0 := 8, k1 := 8, t0 := 0, t1 := 32, sigSize := 26736, pkSize := 64, beta := 1, C := 500, skSize := 64 }
  | none =>
    { id := none, lambda := 0, Nwd := 0, Ske := 0, R := 0, Senc := 0, l := 0, Lke := 0, Lenc := 0, tau := 0, k0 := 0, k1 := 0, t0 := 0, t1 := 0, sigSize := 0, pkSize := 0, beta := 0, C := 0, skSize := 0 }

end Faest.Gen
