/-
Specification of the deterministic random bit generator CTR_DRBG of NIST SP 800-90A Rev. 1, section 10.2.1, with
AES-256 and without derivation function: 256 bits of key, blocks of 128 bits, 384 bits of seed, a counter of 128 bits.
The value `V` is a number.
-/

namespace Faest.Spec.Drbg

abbrev Bytes := List (BitVec 8)

/-- The number of a big-endian byte string. -/
def ofBytes (l : Bytes) : Nat := l.foldl (fun a b => a * 256 + b.toNat) 0

/-- A number below `2^128` as 16 bytes, most significant first. -/
def toBytes (v : Nat) : Bytes := (List.range 16).map fun j => BitVec.ofNat 8 (v / 2 ^ (8 * (15 - j)))

/-- The working state: `Key`, `V`, `reseed_counter`. -/
structure State where
  key : Bytes
  v : Nat
  reseed : Nat

/-- `Block_Encrypt(Key, V + i)`, the sum modulo `2^128`. -/
def block (E : Bytes → Bytes → Bytes) (key : Bytes) (v i : Nat) : Bytes := E key (toBytes ((v + i) % 2 ^ 128))

/-- The first `q` blocks for the counter values after `v`. -/
def blocks (E : Bytes → Bytes → Bytes) (key : Bytes) (v q : Nat) : Bytes :=
  (List.range q).flatMap fun i => block E key v (i + 1)

/-- 10.2.1.2 `CTR_DRBG_Update(provided_data, Key, V)` with 48 bytes of provided data. -/
def update (E : Bytes → Bytes → Bytes) (provided : Bytes) (key : Bytes) (v : Nat) : Bytes × Nat :=
  let temp := List.zipWith (· ^^^ ·) (blocks E key v 3) provided
  (temp.take 32, ofBytes (temp.drop 32))

/-- 48 zero bytes. -/
def zeros : Bytes := List.replicate 48 0

/-- 10.2.1.3.1 `CTR_DRBG_Instantiate_algorithm`: entropy and personalization string of 48 bytes each. -/
def instantiate (E : Bytes → Bytes → Bytes) (entropy personalization : Bytes) : State :=
  let r := update E (List.zipWith (· ^^^ ·) entropy personalization) (List.replicate 32 0) 0
  ⟨r.1, r.2, 1⟩

/-- 10.2.1.5.1 `CTR_DRBG_Generate_algorithm` for `n` bytes, without additional input: the leftmost bytes of the
blocks, and the state updated with zeros. -/
def generate (E : Bytes → Bytes → Bytes) (s : State) (n : Nat) : Bytes × State :=
  let q := (n + 15) / 16
  let r := update E zeros s.key ((s.v + q) % 2 ^ 128)
  ((blocks E s.key s.v q).take n, ⟨r.1, r.2, s.reseed + 1⟩)

/-- A sequence of requests. -/
def requests (E : Bytes → Bytes → Bytes) : State → List Nat → List Bytes × State
  | s, [] => ([], s)
  | s, n :: ns =>
    let r := generate E s n
    let rest := requests E r.2 ns
    (r.1 :: rest.1, rest.2)

end Faest.Spec.Drbg
