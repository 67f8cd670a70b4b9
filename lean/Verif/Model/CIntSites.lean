/-
The sizes, offsets, node counts and indices computed by signing and verification, as C expressions.

One entry per expression of the code.  Expressions which occur several times with the same operands (the three
copies of a function for the three field sizes, the helpers of signing and of verification) are listed once, with
all places.  Uses of a bare loop counter as an index are not listed; the counter's range is that of the loop.
The expressions `c - r + 4` and `c - r + Nwd` and `icol - 1 + Nwd` of faest_aes.c wrap on purpose; they are
`shiftCol…` at the end.
-/
import Verif.Model.CInt

namespace Faest.CInt

/-! ### Abbreviations for local variables -/

/-- `unsigned int` / `uint32_t` local `k` -/
abbrev u (k : Nat) : CE := .var k .u32
/-- `size_t` local `k` -/
abbrev z (k : Nat) : CE := .var k .size
/-- `uint64_t` local `k` -/
abbrev q (k : Nat) : CE := .var k .u64
/-- `uint8_t` local `k` -/
abbrev b8 (k : Nat) : CE := .var k .u8
/-- the result of `!x` -/
abbrev notE (k : Nat) : CE := .var k .i32
abbrev uint (e : CE) : CE := .cast .u32 e
abbrev sz (e : CE) : CE := .cast .size e
abbrev maxE (a b : CE) : CE := .bin .max a b

/-- `unsigned int lambda = params->faest_param.lambda` -/
def lambdaU : CE := uint (.par (·.lambda))
/-- `lambda / 8` as `unsigned int` (vc.c:33, 52, 112, 189, vole.c:84, 135, faest.c:212, 227, 243, 258) -/
def lambdaBytesU : CE := uint (lambdaU / 8)
/-- `const size_t lambda_bytes = params->faest_param.lambda / 8` (faest.c:24 and the other helpers) -/
def lambdaBytesZ : CE := sz (.par (·.lambda) / 8)
def tauU : CE := uint (.par (·.tau))
def t0U : CE := uint (.par (·.t0))
def t1U : CE := uint (.par (·.t1))
def k0U : CE := uint (.par (·.k0))
def k1U : CE := uint (.par (·.k1))
def lU : CE := uint (.par (·.l))
/-- `ell_hat` of faest.c:261, 376 -/
def ellHatU : CE := uint (lU + lambdaU * 2 + 16)
/-- `ellhat_bytes` of vole.c:85, 136 -/
def ellHatBytesU : CE := uint ((ellHatU + 7) / 8)
/-- `ell_hat_bytes` of faest.c:26 and the other helpers -/
def ellHatBytesZ : CE := sz (sz (.par (·.l) / 8) + 2 * lambdaBytesZ + 2)

/-! ### Ranges -/

def point (n : Nat) : Int × Int := (n, n)
/-- `0 ≤ x < n` -/
def below (n : Nat) : Int × Int := (0, (n : Int) - 1)
/-- the depths of the trees -/
def depths (P : Params) : List Nat := if P.t0 = 0 then [P.k1] else [P.k0, P.k1]
def isEm (P : Params) : Bool := P.Lke == 0

/-- no local variables -/
def once (_ : Params) : List Box := [[]]
/-- one local variable, the depth of a tree -/
def perDepth (P : Params) : List Box := (depths P).map fun d => [point d]
/-- depth and an index below `f depth` -/
def perDepthBelow (f : Nat → Nat) (P : Params) : List Box := (depths P).map fun d => [point d, below (f d)]
/-- depth, level `i < depth` and position `a < 2 ^ i` on it, and a bit -/
def perLevel (P : Params) : List Box :=
  (depths P).flatMap fun d => (List.range d).map fun i => [point d, point i, below (2 ^ i), (0, 1)]

/-! ### vc.c -/

/-- vc.c:79-81 `getBinaryTreeNodeCount`, the variable 0 is `depth` -/
def nodeCountE (depth : CE) : CE := .cast .u64 ((1 <<ᶜ (depth + 1)) - 1)

/-- vc.c:84-89 `getNodeIndex` for `depth ≠ 0` -/
def nodeIndexE (depth levelIndex : CE) : CE :=
  .cast .u64 (((2 <<ᶜ (.cast .u64 depth - 1)) - 2) + (.cast .u64 levelIndex + 1))

def vcSites : List Site := [
  ⟨"vc.c:79 getBinaryTreeNodeCount", nodeCountE (u 0), perDepth⟩,
  ⟨"vc.c:35 numNodes", sz (nodeCountE (u 0)), perDepth⟩,
  ⟨"vc.c:36 numLeaves", sz 1 <<ᶜ u 0, perDepth⟩,
  ⟨"vc.c:37 calloc (bytes)", sz (nodeCountE (u 0)) * lambdaBytesU, perDepth⟩,
  ⟨"vc.c:46 get_parent, left child", (z 0 - 1) / 2,
    fun P => (depths P).map fun d => [(1, 2 ^ (d + 1) - 2)]⟩,
  ⟨"vc.c:48 get_parent, right child", (z 0 - 2) / 2,
    fun P => (depths P).map fun d => [(2, 2 ^ (d + 1) - 2)]⟩,
  ⟨"vc.c:56 get_parent(numNodes - 1)", sz (nodeCountE (u 0)) - 1, perDepth⟩,
  ⟨"vc.c:58 assertion", 2 * z 0 + 2, fun P => (depths P).map fun d => [below (2 ^ d - 1)]⟩,
  ⟨"vc.c:62 NODE(i)", z 0 * lambdaBytesU, fun P => (depths P).map fun d => [below (2 ^ d - 1)]⟩,
  ⟨"vc.c:62 NODE(2 * i + 1)", (2 * z 0 + 1) * lambdaBytesU,
    fun P => (depths P).map fun d => [below (2 ^ d - 1)]⟩,
  ⟨"vc.c:63 outlen", sz (lambdaBytesU * 2), once⟩,
  ⟨"vc.c:94 1u << depth", uint 1 <<ᶜ u 0, perDepth⟩,
  ⟨"vc.c:106 (unsigned int)bi[i] << i", uint (b8 1) <<ᶜ u 0,
    fun P => (depths P).map fun d => [below d, (0, 1)]⟩,
  ⟨"vc.c:106 out += …", u 2 + (uint (b8 1) <<ᶜ u 0),
    fun P => (depths P).flatMap fun d => (List.range d).map fun i => [point i, (0, 1), below (2 ^ i)]⟩,
  ⟨"vc.c:113, 190 numVoleInstances", uint (1 <<ᶜ u 0), perDepth⟩,
  ⟨"vc.c:119 malloc(lambdaBytes * 2)", sz (lambdaBytesU * 2), once⟩,
  ⟨"vc.c:120 malloc", sz (uint (1 <<ᶜ u 0) * lambdaBytesU * 2), perDepth⟩,
  ⟨"vc.c:121 malloc", sz (uint (1 <<ᶜ u 0) * lambdaBytesU), perDepth⟩,
  ⟨"vc.c:127 base_index", sz (nodeCountE (u 0)) - (sz 1 <<ᶜ u 0), perDepth⟩,
  ⟨"vc.c:130 numVoleInstances / 4 * 4", uint (1 <<ᶜ u 0) / 4 * 4, perDepth⟩,
  ⟨"vc.c:133-136 NODE(base_index + i + 3)",
    ((sz (nodeCountE (u 0)) - (sz 1 <<ᶜ u 0)) + u 1 + 3) * lambdaBytesU, perDepthBelow (2 ^ ·)⟩,
  ⟨"vc.c:138-139 sd + (i + 3) * lambdaBytes", (u 1 + 3) * lambdaBytesU, perDepthBelow (2 ^ ·)⟩,
  ⟨"vc.c:140-141 com + (i + 3) * lambdaBytes * 2", (u 1 + 3) * lambdaBytesU * 2, perDepthBelow (2 ^ ·)⟩,
  ⟨"vc.c:151-152, 162 com + i * (lambdaBytes * 2)", u 1 * (lambdaBytesU * 2), perDepthBelow (2 ^ ·)⟩,
  ⟨"vc.c:175 cop + lambdaBytes * i", lambdaBytesU * u 1, fun P => perDepthBelow id P⟩,
  ⟨"vc.c:176, 178 depth - 1 - i", u 0 - 1 - u 1, fun P => perDepthBelow id P⟩,
  ⟨"vc.c:176 (2 * a) + !b", (2 * u 2) + notE 3, perLevel⟩,
  ⟨"vc.c:176 getNodeIndex(i + 1, (2 * a) + !b) * lambdaBytes",
    lambdaBytesU * nodeIndexE (u 1 + 1) ((2 * u 2) + notE 3), perLevel⟩,
  ⟨"vc.c:178, 220 a = (2 * a) + b", uint ((2 * u 2) + b8 3), perLevel⟩,
  ⟨"vc.c:182 leafIndex * lambdaBytes * 2", q 1 * lambdaBytesU * 2, perDepthBelow (2 ^ ·)⟩,
  -- vector_reconstruction: `i` of the code is the level variable 1 plus one
  ⟨"vc.c:197, 199, 220 depth - i", u 0 - (u 1 + 1), perLevel⟩,
  ⟨"vc.c:197 getNodeIndex(i, 2 * a + !b) * lambdaBytes",
    lambdaBytesU * nodeIndexE (u 1 + 1) (2 * u 2 + notE 3), perLevel⟩,
  ⟨"vc.c:198 cop + lambdaBytes * (i - 1)", lambdaBytesU * ((u 1 + 1) - 1), perLevel⟩,
  ⟨"vc.c:199 getNodeIndex(i, 2 * a + b) * lambdaBytes",
    lambdaBytesU * nodeIndexE (u 1 + 1) (2 * u 2 + b8 3), perLevel⟩,
  ⟨"vc.c:201 current_depth", uint (1 <<ᶜ ((u 1 + 1) - 1)), perLevel⟩,
  ⟨"vc.c:208 getNodeIndex(i - 1, j) * lambdaBytes, i > 1", lambdaBytesU * nodeIndexE ((u 1 + 1) - 1) (u 2),
    fun P => (depths P).flatMap fun d => (List.range (d - 1)).map fun i => [point d, point (i + 1), below (2 ^ (i + 1))]⟩,
  ⟨"vc.c:209 getNodeIndex(i, 2 * j) * lambdaBytes", lambdaBytesU * nodeIndexE (u 1 + 1) (2 * u 2), perLevel⟩,
  ⟨"vc.c:210 getNodeIndex(i, (2 * j) + 1) * lambdaBytes",
    lambdaBytesU * nodeIndexE (u 1 + 1) ((2 * u 2) + 1), perLevel⟩,
  ⟨"vc.c:220 a * 2 + b", uint (u 2 * 2 + b8 3), perLevel⟩,
  ⟨"vc.c:226 leafIndex / 4 * 4", q 1 / 4 * 4, perDepthBelow (2 ^ ·)⟩,
  ⟨"vc.c:229-232, 267-270 getNodeIndex(depth, j + 3) * lambdaBytes",
    nodeIndexE (u 0) (u 1 + 3) * lambdaBytesU, perDepthBelow (2 ^ ·)⟩,
  ⟨"vc.c:234-235, 272-273 s + (j + 3) * lambdaBytes", (u 1 + 3) * lambdaBytesU, perDepthBelow (2 ^ ·)⟩,
  ⟨"vc.c:236-239, 274-277 com + (j + 3) * lambdaBytes * 2", (u 1 + 3) * lambdaBytesU * 2,
    perDepthBelow (2 ^ ·)⟩,
  ⟨"vc.c:245, 257, 283 getNodeIndex(depth, j) * lambdaBytes", nodeIndexE (u 0) (u 1) * lambdaBytesU,
    perDepthBelow (2 ^ ·)⟩,
  ⟨"vc.c:247-248, 259-260, 285-286 com + j * lambdaBytes * 2", u 1 * lambdaBytesU * 2, perDepthBelow (2 ^ ·)⟩,
  ⟨"vc.c:251 ++j", u 1 + 1, perDepthBelow (2 ^ ·)⟩,
  ⟨"vc.c:264 numVoleInstances / 4 * 4", uint (1 <<ᶜ u 0) / 4 * 4, perDepth⟩,
  ⟨"vc.c:290 lambdaBytes * 2 * leafIndex", lambdaBytesU * 2 * q 1, perDepthBelow (2 ^ ·)⟩,
  ⟨"vc.c:293 lambdaBytes * 2 * numVoleInstances", sz (lambdaBytesU * 2 * uint (1 <<ᶜ u 0)), perDepth⟩]

/-! ### vole.c -/

/-- `((row % 2) * num_instances + column) * outLenBytes` (vole.c:28 macro `R`) -/
def rE (row column : CE) : CE := ((row % 2) * uint (1 <<ᶜ u 0) + column) * ellHatBytesU

def voleSites : List Site := [
  ⟨"vole.c:22 num_instances", uint (1 <<ᶜ u 0), perDepth⟩,
  ⟨"vole.c:26 calloc(2 * num_instances, outLenBytes) (bytes)", sz (2 * uint (1 <<ᶜ u 0)) * ellHatBytesU, perDepth⟩,
  ⟨"vole.c:33 R(0, 0)", rE 0 0, perDepth⟩,
  ⟨"vole.c:38 sd + lambda_bytes * i", lambdaBytesU * u 1, perDepthBelow (2 ^ ·)⟩,
  ⟨"vole.c:38 R(0, i)", rE 0 (u 1), perDepthBelow (2 ^ ·)⟩,
  ⟨"vole.c:42 depth * outLenBytes", sz (u 0 * ellHatBytesU), perDepth⟩,
  ⟨"vole.c:44 num_instances >> (j + 1)", uint (uint (1 <<ᶜ u 0) >>ᶜ (u 1 + 1)), fun P => perDepthBelow id P⟩,
  ⟨"vole.c:46 V(j)", u 1 * ellHatBytesU, fun P => perDepthBelow id P⟩,
  -- depth, j < depth, i < 2 ^ (depth - j - 1)
  ⟨"vole.c:46-47 R(j, 2 * i + 1)", rE (u 1) (2 * u 2 + 1),
    fun P => (depths P).flatMap fun d => (List.range d).map fun j => [point d, point j, below (2 ^ (d - j - 1))]⟩,
  ⟨"vole.c:47 R(j, 2 * i)", rE (u 1) (2 * u 2),
    fun P => (depths P).flatMap fun d => (List.range d).map fun j => [point d, point j, below (2 ^ (d - j - 1))]⟩,
  ⟨"vole.c:47 R(j + 1, i)", rE (u 1 + 1) (u 2),
    fun P => (depths P).flatMap fun d => (List.range d).map fun j => [point d, point j, below (2 ^ (d - j - 1))]⟩,
  ⟨"vole.c:52 R(depth, 0)", rE (u 0) 0, perDepth⟩,
  ⟨"vole.c:59 t0 + t1", t0U + t1U, once⟩,
  ⟨"vole.c:66 lo = i * k0", uint (u 0 * k0U), fun P => [[below P.t0]]⟩,
  ⟨"vole.c:67 hi = (i + 1) * k0", uint ((u 0 + 1) * k0U), fun P => [[below P.t0]]⟩,
  ⟨"vole.c:69 t = i - t0", uint (u 0 - t0U), fun P => [[((P.t0 : Int), (P.t0 + P.t1 : Nat) - 1)]]⟩,
  ⟨"vole.c:70 lo = (t0 * k0) + (t * k1)", uint ((t0U * k0U) + (u 0 * k1U)), fun P => [[below P.t1]]⟩,
  ⟨"vole.c:71 hi = (t0 * k0) + ((t + 1) * k1)", uint ((t0U * k0U) + ((u 0 + 1) * k1U)), fun P => [[below P.t1]]⟩,
  ⟨"vole.c:74 hi - lo, i < t0", ((u 0 + 1) * k0U) - (u 0 * k0U),
    fun P => (List.range P.t0).map fun i => [point i]⟩,
  ⟨"vole.c:74 hi - lo, i ≥ t0", ((t0U * k0U) + ((u 0 + 1) * k1U)) - ((t0U * k0U) + (u 0 * k1U)),
    fun P => (List.range P.t1).map fun i => [point i]⟩,
  ⟨"vole.c:77 j - lo, i < t0", u 1 - (u 0 * k0U),
    fun P => (List.range P.t0).map fun i => [point i, (((i * P.k0 : Nat) : Int), ((i + 1) * P.k0 : Nat) - 1)]⟩,
  ⟨"vole.c:77 j - lo, i ≥ t0", u 1 - ((t0U * k0U) + (u 0 * k1U)),
    fun P => (List.range P.t1).map fun i =>
      [point i, (((P.t0 * P.k0 + i * P.k1 : Nat) : Int), (P.t0 * P.k0 + (i + 1) * P.k1 : Nat) - 1)]⟩,
  ⟨"vole.c:85, 136 ellhat_bytes", ellHatBytesU, once⟩,
  ⟨"vole.c:91 malloc(tau * ellhat_bytes)", sz (tauU * ellHatBytesU), once⟩,
  ⟨"vole.c:94 malloc(tau * lambda_bytes)", sz (tauU * lambdaBytesU), once⟩,
  ⟨"vole.c:95 outlen", sz (lambdaBytesU * tauU), once⟩,
  ⟨"vole.c:107 expanded_keys + i * lambda_bytes", u 0 * lambdaBytesU, fun P => [[below P.tau]]⟩,
  ⟨"vole.c:109, 121 ui + i * ellhat_bytes", u 0 * ellHatBytesU, fun P => [[below P.tau]]⟩,
  ⟨"vole.c:112, 179 v_idx += depth", u 1 + u 0,
    fun P => (depths P).map fun d => [point d, (0, (P.lambda : Int) - d)]⟩,
  ⟨"vole.c:121 c + (i - 1) * ellhat_bytes", (u 0 - 1) * ellHatBytesU, fun P => [[(1, (P.tau : Int) - 1)]]⟩,
  ⟨"vole.c:143, 154 (1 << MAX(k0, k1)) * lambda_bytes", sz ((1 <<ᶜ maxE k0U k1U) * lambdaBytesU), once⟩,
  ⟨"vole.c:152 getBinaryTreeNodeCount(MAX(k0, k1)) (bytes)",
    sz (nodeCountE (maxE k0U k1U)) * lambdaBytesU, once⟩,
  ⟨"vole.c:153 (1 << MAX(k0, k1)) * lambda_bytes * 2", sz ((1 <<ᶜ maxE k0U k1U) * lambdaBytesU * 2), once⟩,
  ⟨"vole.c:161 N", uint (1 <<ᶜ u 0), perDepth⟩,
  ⟨"vole.c:174 sd + j * lambda_bytes", u 1 * lambdaBytesU, perDepthBelow (2 ^ ·)⟩,
  ⟨"vole.c:174 s + lambda_bytes * (j ^ idx)", lambdaBytesU * (u 1 ^^^ u 2),
    fun P => (depths P).map fun d => [point d, below (2 ^ d), below (2 ^ d)]⟩]

/-! ### faest.c -/

/-- faest.c:29, 117 -/
def sigC : CE := u 0 * ellHatBytesZ
/-- faest.c:38, 126 -/
def sigUTilde : CE := (.par (·.tau) - 1) * ellHatBytesZ
/-- faest.c:48, 136 -/
def sigD : CE := (.par (·.tau) - 1) * ellHatBytesZ + sz (lambdaBytesZ + 2)
/-- faest.c:58, 147 -/
def sigATilde : CE := (.par (·.tau) - 1) * ellHatBytesZ + sz (lambdaBytesZ + 2) + sz (.par (·.l) / 8)
/-- faest.c:69-70, 158-159 -/
def sigBase : CE :=
  (.par (·.tau) - 1) * ellHatBytesZ + sz (lambdaBytesZ + 2) + sz (.par (·.l) / 8) + lambdaBytesZ
/-- faest.c:72, 161 -/
def sigPdec0 : CE := sigBase + u 0 * (.par (·.k0) + 2) * lambdaBytesZ
/-- faest.c:74-76, 163-165 -/
def sigPdec1 : CE :=
  sigBase + ((u 0 - t0U) * (.par (·.k1) + 2) + t0U * (.par (·.k0) + 2)) * lambdaBytesZ
/-- faest.c:90-91, 179-180 -/
def sigCom0 : CE := sigBase + (u 0 * (.par (·.k0) + 2) + .par (·.k0)) * lambdaBytesZ
/-- faest.c:93-95, 182-184 -/
def sigCom1 : CE :=
  sigBase + ((u 0 - t0U) * (.par (·.k1) + 2) + .par (·.k1) + t0U * (.par (·.k0) + 2)) * lambdaBytesZ
/-- faest.c:102, 191 -/
def sigChall3 : CE := .par (·.sigSize) - 16 - lambdaBytesZ
/-- faest.c:106, 196 -/
def sigIv : CE := .par (·.sigSize) - 16

/-- indices of the first `t0` trees and of the others -/
def first (P : Params) : List Box := [[below P.t0]]
def second (P : Params) : List Box := [[((P.t0 : Int), (P.tau : Int) - 1)]]

def faestSites : List Site := [
  ⟨"faest.c:29, 117 signature_c", sigC, fun P => [[below (P.tau - 1)]]⟩,
  ⟨"faest.c:38, 126 signature_u_tilde", sigUTilde, once⟩,
  ⟨"faest.c:48, 136 signature_d", sigD, once⟩,
  ⟨"faest.c:58, 147 signature_a_tilde", sigATilde, once⟩,
  ⟨"faest.c:72, 161 signature_pdec", sigPdec0, first⟩,
  ⟨"faest.c:74-76, 163-165 signature_pdec", sigPdec1, second⟩,
  ⟨"faest.c:90-91, 179-180 signature_com", sigCom0, first⟩,
  ⟨"faest.c:93-95, 182-184 signature_com", sigCom1, second⟩,
  ⟨"faest.c:102, 191 signature_chall_3", sigChall3, once⟩,
  ⟨"faest.c:106, 196 signature_iv", sigIv, once⟩,
  ⟨"faest.c:205 2 * lambda / 8", sz (2 * lambdaU / 8), once⟩,
  ⟨"faest.c:212 ell_hat_bytes", uint (lU / 8 + lambdaBytesU * 2 + 2), once⟩,
  ⟨"faest.c:218 ell_hat_bytes * (tau - 1)", sz (uint (lU / 8 + lambdaBytesU * 2 + 2) * (tauU - 1)), once⟩,
  ⟨"faest.c:220, 232 5 * lambda_bytes + 8", sz (5 * lambdaBytesU + 8), once⟩,
  ⟨"faest.c:228 u_tilde_bytes", uint (lambdaBytesU + 2), once⟩,
  ⟨"faest.c:236, 245 3 * lambda_bytes + 8", sz (3 * lambdaBytesU + 8), once⟩,
  ⟨"faest.c:260, 375 ell_hat", ellHatU, once⟩,
  ⟨"faest.c:261, 376 ell_hat_bytes", uint (ellHatU / 8), once⟩,
  ⟨"faest.c:265, 383 pkSize / 2", sz (.par (·.pkSize) / 2), once⟩,
  ⟨"faest.c:282 calloc(tau, sizeof(vec_com_t)) (bytes)", sz tauU * .sizeof 32, once⟩,
  ⟨"faest.c:285, 387, 410, 416 malloc(lambda * sizeof(uint8_t*))", lambdaU * .sizeof 8, once⟩,
  ⟨"faest.c:286, 388, 411 calloc(lambda, ell_hat_bytes) (bytes)", sz lambdaU * uint (ellHatU / 8), once⟩,
  ⟨"faest.c:288, 390, 413 i * ell_hat_bytes", u 0 * uint (ellHatU / 8), fun P => [[below P.lambda]]⟩,
  ⟨"faest.c:310, 314 lambdaBytes + UNIVERSAL_HASH_B", lambdaBytesU + 2, once⟩,
  ⟨"faest.c:417 calloc(lambda, lambdaBytes + 2) (bytes)", sz lambdaU * (lambdaBytesU + 2), once⟩,
  ⟨"faest.c:419 i * (lambdaBytes + UNIVERSAL_HASH_B)", u 0 * (lambdaBytesU + 2), fun P => [[below P.lambda]]⟩,
  ⟨"faest.c:441 ell_hat_bytes * depth", sz (uint (ellHatU / 8) * u 0), perDepth⟩,
  ⟨"faest.c:442, 445 q_idx += depth", u 1 + u 0,
    fun P => (depths P).map fun d => [point d, (0, (P.lambda : Int) - d)]⟩,
  ⟨"faest.c:446 i - 1", u 0 - 1, fun P => [[(1, (P.tau : Int) - 1)]]⟩]

/-! ### universal_hashing.c -/

/-- `length_lambda` of compute_h1, universal_hashing.c:20 -/
def lengthLambda1 : CE := uint ((lU + lambdaU + lambdaU - 1) / lambdaU)
/-- `length_lambda` of vole_hash_128/192/256, universal_hashing.c:49, 86, 123; `NB` is an `int` constant -/
def lengthLambda (NB : CE) : CE := uint ((lU + 2 * NB * 8 - 1) / (NB * 8))
def NB : CE := .mac fun P => P.lambda / 8

/-- number of field elements hashed -/
def elems (P : Params) : Nat := (P.l + 2 * P.lambda - 1) / P.lambda

def uhashSites : List Site := [
  ⟨"universal_hashing.c:20 length_lambda", lengthLambda1, once⟩,
  ⟨"universal_hashing.c:23 (length_lambda - 1) * lambda_bytes", (lengthLambda1 - 1) * lambdaBytesU, once⟩,
  ⟨"universal_hashing.c:24 ((ell + lambda) % lambda) / 8", sz (((lU + lambdaU) % lambdaU) / 8), once⟩,
  ⟨"universal_hashing.c:30 lambda_bytes - i - 8", lambdaBytesU - 8 * u 0 - 8, fun P => [[below (P.lambda / 64)]]⟩,
  ⟨"universal_hashing.c:32 length_lambda * lambda_bytes", lengthLambda1 * lambdaBytesU, once⟩,
  ⟨"universal_hashing.c:33 length_lambda * lambda_bytes - i - 8", lengthLambda1 * lambdaBytesU - 8 * u 0 - 8,
    fun P => [[below (elems P * (P.lambda / 64))]]⟩,
  ⟨"universal_hashing.c:32 i += 8", 8 * u 0 + 8, fun P => [[below (elems P * (P.lambda / 64))]]⟩,
  ⟨"universal_hashing.c:41-45, 78-82, 115-119 sd + 5 * NB", 5 * NB, once⟩,
  ⟨"universal_hashing.c:47, 84, 121 (ell + NB * 8) / 8", (lU + NB * 8) / 8, once⟩,
  ⟨"universal_hashing.c:49, 86, 123 length_lambda", lengthLambda NB, once⟩,
  ⟨"universal_hashing.c:52, 89, 126 (length_lambda - 1) * NB", (lengthLambda NB - 1) * NB, once⟩,
  ⟨"universal_hashing.c:53-55, 90-92, 127-129 ((ell + NB * 8) % (NB * 8)) / 8",
    sz (((lU + NB * 8) % (NB * 8)) / 8), once⟩,
  ⟨"universal_hashing.c:62, 99, 136 (length_lambda - 1 - i) * NB", (lengthLambda NB - 1 - u 0) * NB,
    fun P => [[(1, (elems P : Int) - 1)]]⟩,
  ⟨"universal_hashing.c:172-173 … zk_hash_init, 3 * NB", 3 * NB, once⟩]

/-! ### faest_aes.c, key schedule (not run by the EM sets) -/

def lambdaM : CE := .mac (·.lambda)
def R_M : CE := .mac (·.R)
def NwdM : CE := .mac (·.Nwd)
def SkeM : CE := .mac (·.Ske)
def R_U : CE := uint (.par (·.R))
def NwdU : CE := uint (.par (·.Nwd))

def ifAes (f : Params → List Box) (P : Params) : List Box := if isEm P then [] else f P
def ifEm (f : Params → List Box) (P : Params) : List Box := if isEm P then f P else []
/-- words of the expanded key after the key -/
def keyWords (P : Params) : Int × Int := ((P.Nwd : Int), 4 * (P.R + 1) - 1)

def ksSites : List Site := [
  ⟨"faest_aes.c:138 out_len", uint ((R_U + 1) * 128 / 8), ifAes once⟩,
  ⟨"faest_aes.c:141 out_len - lambdaBytes", sz (uint ((R_U + 1) * 128 / 8) - lambdaBytesU), ifAes once⟩,
  ⟨"faest_aes.c:146 4 * (R + 1)", 4 * (R_U + 1), ifAes once⟩,
  ⟨"faest_aes.c:216, 696, 1175 4 * (R + 1)", 4 * (R_M + 1), ifAes once⟩,
  ⟨"faest_aes.c:148 32 * j / 8", 32 * u 0 / 8, ifAes fun P => [[keyWords P]]⟩,
  ⟨"faest_aes.c:148 i_wd / 8", u 0 / 8, ifAes fun P => [[((P.lambda : Int), P.Lke)]]⟩,
  ⟨"faest_aes.c:149, 220, 699, 1178 i_wd += 32", u 0 + 32, ifAes fun P => [[((P.lambda : Int), (P.Lke : Int) - 32)]]⟩,
  ⟨"faest_aes.c:153 (32 * j + i) / 8", (32 * u 0 + u 1) / 8, ifAes fun P => [[keyWords P, (0, 24)]]⟩,
  ⟨"faest_aes.c:153 (32 * (j - Nwd) + i) / 8", (32 * (u 0 - NwdU) + u 1) / 8,
    ifAes fun P => [[keyWords P, (0, 24)]]⟩,
  ⟨"faest_aes.c:153 (32 * (j - 1) + i) / 8", (32 * (u 0 - 1) + u 1) / 8, ifAes fun P => [[keyWords P, (0, 24)]]⟩,
  ⟨"faest_aes.c:174 iwd + c", u 0 + u 1, ifAes fun P => [[(0, (16 * (P.R + 1) : Nat) - 4), (0, 3)]]⟩,
  ⟨"faest_aes.c:195-197 iwd += …", u 0 + 192 / 8, ifAes fun P => [[below (16 * (P.R + 1))]]⟩,
  ⟨"faest_aes.c:211, 691, 1170 lambda * sizeof", lambdaM * .sizeof 32, ifAes once⟩,
  ⟨"faest_aes.c:219, 698, 1177 j * 32", u 0 * 32, ifAes fun P => [[keyWords P]]⟩,
  ⟨"faest_aes.c:219, 698, 1177 sizeof * 32", .sizeof 32 * 32, ifAes once⟩,
  ⟨"faest_aes.c:223, 702, 1181 (32 * j) + i", (32 * u 0) + u 1, ifAes fun P => [[keyWords P, (0, 31)]]⟩,
  ⟨"faest_aes.c:224, 703, 1182 32 * (j - Nwd) + i", 32 * (u 0 - NwdM) + u 1, ifAes fun P => [[keyWords P, (0, 31)]]⟩,
  ⟨"faest_aes.c:224, 703, 1182 32 * (j - 1) + i", 32 * (u 0 - 1) + u 1, ifAes fun P => [[keyWords P, (0, 31)]]⟩,
  ⟨"faest_aes.c:250, 728, 1208 8 * j + i", 8 * u 0 + u 1, ifAes fun P => [[below P.Ske, (0, 7)]]⟩,
  ⟨"faest_aes.c:250, 728, 1208 iwd + 8 * c + i", u 0 + 8 * u 1 + u 2,
    ifAes fun P => [[(0, (128 * (P.R + 1) : Nat) - 32), (0, 3), (0, 7)]]⟩,
  ⟨"faest_aes.c:268, 746, 1226 (i + 7) % 8", (u 0 + 7) % 8, ifAes fun _ => [[(0, 7)]]⟩,
  ⟨"faest_aes.c:268, 746, 1226 i + 8 * j", u 1 + 8 * u 0, ifAes fun P => [[below P.Ske, (0, 7)]]⟩,
  ⟨"faest_aes.c:273, 751, 1231 2 + 8 * j", 2 + 8 * u 0, ifAes fun P => [[below P.Ske]]⟩,
  ⟨"faest_aes.c:302, 338, 780, 816, 1261, 1305 Ske * 8", SkeM * 8, ifAes once⟩,
  ⟨"faest_aes.c:306, 345, 784, 823, 1266, 1313 32 * (Nwd - 1)", uint (32 * (NwdM - 1)), ifAes once⟩,
  ⟨"faest_aes.c:314, 351 … (r + 3) % 4", (u 0 + 3) % 4, ifAes fun _ => [[(0, 3)]]⟩,
  ⟨"faest_aes.c:314, 792, 1275 (iwd + 8 * r) / 8", (u 0 + 8 * u 1) / 8,
    ifAes fun P => [[(0, (128 * (P.R + 1) : Nat) - 32), (0, 3)]]⟩,
  ⟨"faest_aes.c:315, 351, 793, 829, 1276, 1320 iwd + 8 * r", u 0 + 8 * u 1,
    ifAes fun P => [[(0, (128 * (P.R + 1) : Nat) - 32), (0, 3)]]⟩,
  ⟨"faest_aes.c:316, 317, 352 … 32 * j + 8 * r", 32 * u 0 + 8 * u 1, ifAes fun P => [[below (P.Ske / 4), (0, 3)]]⟩,
  ⟨"faest_aes.c:316, 794, 1277 (32 * j + 8 * r) / 8", (32 * u 0 + 8 * u 1) / 8,
    ifAes fun P => [[below (P.Ske / 4), (0, 3)]]⟩,
  ⟨"faest_aes.c:330, 361 … iwd + 192 (or + 128)", u 0 + 192,
    ifAes fun P => [[(0, (128 * (P.R + 1) : Nat))]]⟩]

/-! ### faest_aes.c, AES encryption constraints -/

/-- `ird` of faest_aes.c:490, 526, 964, 1001, 1458, 1494; the variable 1 is `(c - r + 4) % 4`, see `shiftCol4` -/
def irdAes : CE := uint ((128 * u 0) + (32 * u 1) + (8 * u 2))
def encBox (P : Params) : List Box := [[below P.R, (0, 3), (0, 3), (0, 7)]]
def lastRound (P : Params) : List Box := [[point (P.R - 1), (0, 3), (0, 3), (0, 7)]]
def rounds (P : Params) : List Box := [[(1, (P.R : Int) - 1), (0, 3), (0, 3)]]

def encSites : List Site := [
  ⟨"faest_aes.c:382, 441, 857, 917, 1352, 1411 ix", uint (128 * (u 0 - 1) + 32 * u 1), ifAes rounds⟩,
  ⟨"faest_aes.c:383, 442, 858, 918, 1353, 1412 ik", uint (128 * u 0 + 32 * u 1), ifAes rounds⟩,
  ⟨"faest_aes.c:384, 443, 859, 919, 1354, 1413 iy", uint (16 * u 0 + 4 * u 1), ifAes rounds⟩,
  ⟨"faest_aes.c:390, 865, 1360 (ix + 8 * r) / 8", (uint (128 * (u 0 - 1) + 32 * u 1) + 8 * u 2) / 8, ifAes rounds⟩,
  ⟨"faest_aes.c:391, 866, 1361 (ik + 8 * r) / 8", (uint (128 * u 0 + 32 * u 1) + 8 * u 2) / 8, ifAes rounds⟩,
  ⟨"faest_aes.c:395-416 … iy + 3", uint (16 * u 0 + 4 * u 1) + 3, ifAes rounds⟩,
  ⟨"faest_aes.c:433 … 8 * i", 8 * u 0, ifAes fun _ => [[(0, 15), (0, 7)]]⟩,
  ⟨"faest_aes.c:490, 526, 964, 1001, 1458, 1494 ird", irdAes, ifAes encBox⟩,
  ⟨"faest_aes.c:493, 967, 1461 ird / 8", irdAes / 8, ifAes encBox⟩,
  ⟨"faest_aes.c:497, 536, 970, 1011, 1464, 1504 (ird - 128 * (R - 1)) / 8", (irdAes - 128 * (R_M - 1)) / 8,
    ifAes lastRound⟩,
  ⟨"faest_aes.c:498, 971, 1465 (128 + ird) / 8", (128 + irdAes) / 8, ifAes lastRound⟩,
  ⟨"faest_aes.c:538, 1013, 1506 128 + ird + i", 128 + irdAes + u 3, ifAes lastRound⟩,
  ⟨"faest_aes.c:506, 551, 980, 1026, 1474, 1519 16 * j + 4 * c + r", 16 * u 0 + 4 * u 1 + u 2, ifAes encBox⟩,
  ⟨"faest_aes.c:544, 1019, 1512 (i + 7) % 8", (u 3 + 7) % 8, ifAes encBox⟩,
  ⟨"faest_aes.c:609, 1083, 1574 malloc((R + 1) * 128 / 8)", sz ((R_M + 1) * 128 / 8), ifAes once⟩,
  ⟨"faest_aes.c:610, 664, 1084, 1140, 1575, 1631 sizeof * ((R + 1) * 128)", .sizeof 32 * ((R_M + 1) * 128), ifAes once⟩,
  ⟨"faest_aes.c:622, 1096, 1587 Lke / 8", .mac (·.Lke) / 8, ifAes once⟩,
  ⟨"faest_aes.c:629, 1105, 1596 L / 8", .mac (·.l) / 8, ifAes once⟩,
  ⟨"faest_aes.c:1099, 1590 (Lke + Lenc) / 8", (.mac (·.Lke) + .mac (·.Lenc)) / 8, ifAes once⟩,
  ⟨"faest_aes.c:655, 1131, 1622 (L + 7) / 8", (.mac (·.l) + 7) / 8, ifAes once⟩,
  ⟨"faest_aes.c:653, 1129, 1620 ++col", u 0 + 1, fun P => [[below P.lambda]]⟩,
  ⟨"faest_aes.c:83, 99, 115 (ell + lambda) * sizeof", (lU + lambdaM) * .sizeof 32, once⟩,
  ⟨"faest_aes.c:84, 100, 116 ell + lambda", lU + lambdaM, once⟩]

/-! ### faest_aes.c, EM constraints -/

/-- `ird` of faest_aes.c:1761, 1794, 2071, 2103, 2383, 2418; the variable 1 is `icol`, see `shiftCol…` -/
def irdEm : CE := uint (lambdaM + 32 * NwdM * u 0 + 32 * u 1 + 8 * u 2)
def emBox (P : Params) : List Box := [[below P.R, below P.Nwd, (0, 3), (0, 7)]]
def emLast (P : Params) : List Box := [[point (P.R - 1), below P.Nwd, (0, 3), (0, 7)]]
def emRounds (P : Params) : List Box := [[(1, (P.R : Int) - 1), below P.Nwd, (0, 3)]]

def emSites : List Site := [
  ⟨"faest_aes.c:1658, 1703 … 4 * Nwd", 4 * NwdM, ifEm once⟩,
  ⟨"faest_aes.c:1667, 1715, 1977 … i", uint (32 * NwdM * u 0 + 32 * u 1), ifEm emRounds⟩,
  ⟨"faest_aes.c:1668, 1716, 1978 … iy", uint (4 * NwdM * u 0 + 4 * u 1), ifEm emRounds⟩,
  ⟨"faest_aes.c:1674, 1984 … (i + 8 * r) / 8", (uint (32 * NwdM * u 0 + 32 * u 1) + 8 * u 2) / 8, ifEm emRounds⟩,
  ⟨"faest_aes.c:1722, … i + 8 * r", uint (32 * NwdM * u 0 + 32 * u 1) + 8 * u 2, ifEm emRounds⟩,
  ⟨"faest_aes.c:1678-1696 … iy + 3", uint (4 * NwdM * u 0 + 4 * u 1) + 3, ifEm emRounds⟩,
  ⟨"faest_aes.c:1704 … 8 * j", 8 * u 0, ifEm fun P => [[below (4 * P.Nwd)]]⟩,
  ⟨"faest_aes.c:1761, 1794, 2071, 2103, 2383, 2418 ird", irdEm, ifEm emBox⟩,
  ⟨"faest_aes.c:1765, … ird / 8", irdEm / 8, ifEm emBox⟩,
  ⟨"faest_aes.c:1767, … (ird - 32 * Nwd * (j + 1)) / 8", (irdEm - 32 * NwdM * (u 0 + 1)) / 8, ifEm emLast⟩,
  ⟨"faest_aes.c:1802, … ird - 32 * Nwd * (j + 1) + i", irdEm - 32 * NwdM * (u 0 + 1) + u 3, ifEm emLast⟩,
  ⟨"faest_aes.c:1804, … ird + i", irdEm + u 3, ifEm emBox⟩,
  ⟨"faest_aes.c:1776, 1818, … 4 * Nwd * j + 4 * c + r", 4 * NwdM * u 0 + 4 * u 1 + u 2, ifEm emBox⟩,
  ⟨"faest_aes.c:1828, 1954, … lambda / 8", lambdaM / 8, ifEm once⟩,
  ⟨"faest_aes.c:1856, … sizeof * lambda * (R + 1)", .sizeof 32 * lambdaM * (R_M + 1), ifEm once⟩,
  ⟨"faest_aes.c:1857, … lambda * (R + 1)", lambdaM * (R_M + 1), ifEm once⟩,
  ⟨"faest_aes.c:1862, … sizeof * lambda", .sizeof 32 * lambdaM, ifEm once⟩,
  ⟨"faest_aes.c:1885, … lambda * (R + 1)", lambdaM * (R_M + 1), ifEm once⟩,
  ⟨"faest_aes.c:1937, … lambda * (R + 1) / 8", lambdaM * (R_M + 1) / 8, ifEm once⟩,
  ⟨"faest_aes.c:1906, … Lenc / 8", .mac (·.Lenc) / 8, ifEm once⟩,
  ⟨"faest_aes.c:1929, … (Lenc + 7) / 8", (.mac (·.Lenc) + 7) / 8, ifEm once⟩]

/-! ### aes.c -/

/-- `block_words` of the key expansion: 4 for AES, `Nwd` for Rijndael (aes.c:198-216, 433-451) -/
def blockWords (P : Params) : Nat := if isEm P then P.Nwd else 4
def expandBox (P : Params) : List Box :=
  [[((P.Nwd : Int), (blockWords P * (P.R + 1) : Nat) - 1), point (blockWords P), point P.Nwd]]

def aesSites : List Site := [
  ⟨"aes.c:63-68 i - 1", u 0 - 1, fun _ => [[(1, 16)]]⟩,
  ⟨"aes.c:102-104, 110-112 (i + 4) % block_words", (u 0 + 4) % u 1, fun P => [[below (blockWords P), point (blockWords P)]]⟩,
  ⟨"aes.c:160-163 (4 * k) + 3", (4 * u 0) + 3, fun P => [[below P.Nwd]]⟩,
  ⟨"aes.c:166 block_words * (num_rounds + 1)", u 0 * (u 1 + 1), fun P => [[point (blockWords P), point P.R]]⟩,
  ⟨"aes.c:160, 183 k / block_words", u 0 / u 1, expandBox⟩,
  ⟨"aes.c:160, 183 k % block_words", u 0 % u 1, expandBox⟩,
  ⟨"aes.c:168 (k - 1) / block_words", (u 0 - 1) / u 1, expandBox⟩,
  ⟨"aes.c:168 (k - 1) % block_words", (u 0 - 1) % u 1, expandBox⟩,
  ⟨"aes.c:170 k % key_words", u 0 % u 2, expandBox⟩,
  ⟨"aes.c:174 (k / key_words) - 1", (u 0 / u 2) - 1, expandBox⟩,
  ⟨"aes.c:182 k - key_words", uint (u 0 - u 2), expandBox⟩,
  ⟨"aes.c:219, 225 block_words * 4", u 0 * 4, fun P => [[point (blockWords P)]]⟩,
  ⟨"aes.c:307, 325, 343 outlen -= 16", z 0 - 16, fun P => [[(16, (P.l / 8 + P.lambda : Nat))]]⟩,
  ⟨"aes.c:400 malloc((l + 7) / 8)", sz ((lU + 7) / 8), once⟩,
  ⟨"aes.c:461 S_ke / 4", uint (.par (·.Ske)) / 4, once⟩,
  ⟨"aes.c:463 ik += 6", u 0 + 6, fun P => [[((P.Nwd : Int), 4 * (P.R + 1))]]⟩,
  ⟨"aes.c:473, 488 sizeof(aes_word_t) * block_words", .sizeof 4 * u 0, fun P => [[point (blockWords P)]]⟩]

/-- faest_param.c.in, crypto_sign.c.in, for a message which fits the address space with its signature -/
def apiSites : List Site := [
  ⟨"faest_param.c.in:22, 26, 41 PK_SIZE / 2", .mac (·.pkSize) / 2, once⟩,
  ⟨"crypto_sign.c.in:25 mlen + SIGNATURE_SIZE", q 0 + .mac (·.sigSize), fun _ => [[(0, 2 ^ 63)]]⟩,
  ⟨"crypto_sign.c.in:38 smlen - SIGNATURE_SIZE", q 0 - .mac (·.sigSize),
    fun P => [[((P.sigSize : Int), 2 ^ 64 - 1)]]⟩,
  ⟨"crypto_sign.c.in:39 m_length as size_t", sz (q 0 - .mac (·.sigSize)), fun P => [[((P.sigSize : Int), 2 ^ 31)]]⟩]

/-- All expressions. -/
def sites : List Site :=
  vcSites ++ voleSites ++ faestSites ++ uhashSites ++ ksSites ++ encSites ++ emSites ++ aesSites ++ apiSites

/-! ### The indices which wrap

`c - r` is an `unsigned int`, so it wraps when `r > c`; the sum wraps back.  These are evaluated modulo `2 ^ 32`. -/

/-- `(c - r + 4) % 4` (faest_aes.c:490, 526, 964, 1001, 1458, 1494) with `c`, `r` of type `unsigned int` -/
def shiftCol4 (c r : BitVec 32) : BitVec 32 := (c - r + 4) % 4
/-- `(c - r + Nwd) % Nwd` (faest_aes.c:1760, 1793, 2070, 2102) -/
def shiftColEm (Nwd c r : BitVec 32) : BitVec 32 := (c - r + Nwd) % Nwd
/-- faest_aes.c:2379-2382, 2414-2417: `icol` for `Nwd = 8` -/
def shiftColEm8 (c r : BitVec 32) : BitVec 32 :=
  let icol := (c - r + 8) % 8
  if r.ule 1 then icol else (icol - 1 + 8) % 8

end Faest.CInt
