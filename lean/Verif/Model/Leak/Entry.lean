/-
Start of a run of a function of the API: its arguments and what is in memory.
-/
import Verif.Model.Leak.IR
import Verif.Model.Leak.Prog.Ids

namespace Faest.Leak

/-- A parameter: a number, a pointer to secret bytes, a pointer to public bytes, a pointer to the signature buffer. -/
inductive Arg | num | secret | common | sig
deriving DecidableEq, Repr

/-- Where the contents of a block come from. -/
inductive Place | common | secret | sig
deriving DecidableEq, Repr

/-- The blocks of the global objects are below 32 (the tape of random bytes is secret), parameter `i` points to block
`32 + i`, and the signature buffer has three views 60 (all but the following), 61 (iv) and 62 (third challenge). -/
def place (as : List Arg) (b : Nat) : Place :=
  if b < 32 then (if b = Prog.Glob.rand_tape then .secret else .common)
  else if b < 60 then
    match as[b - 32]? with
    | some .secret => .secret
    | some .sig => .sig
    | _ => .common
  else if b = 60 then .secret else .common

/-- the three views of the signature buffer -/
def sigCell (o : Int) : Val :=
  if o = 0 then .ptr 60 0 else if o = 1 then .ptr 61 0 else if o = 2 then .ptr 62 0 else .int 0

/-- arguments: the number `n i`, or a pointer which is null where `null i` says so -/
def argVal (n : Nat → Int) (null : Nat → Bool) (i : Nat) : Arg → Val
  | .num => .int (n i)
  | _ => if null i then .int 0 else .ptr (32 + i) 0

/-- Start of a call. -/
def start (as : List Arg) (n : Nat → Int) (null : Nat → Bool) (common secret : Nat → Int → Val) : St where
  env := fun x => match as[x]? with
    | some k => argVal n null x k
    | none => .int 0
  mem := fun b o => match place as b with
    | .common => common b o
    | .secret => secret b o
    | .sig => sigCell o
  next := 63
  tr := []

/-- The blocks whose contents are published: two parts of the signature, and the outcome of the checks of the key. -/
def published (b : Nat) : Bool := b == Prog.Glob.released || b == 61 || b == 62

/-- The parameters of the functions. `faest_sign(sig, msg, msg_len, owf_key, owf_input, owf_output, rho, rholen,
params)`, faest.c:251 -/
def signArgs : List Arg := [.sig, .secret, .num, .secret, .secret, .secret, .secret, .num, .common]

/-- `faest_X_keygen(pk, sk)`, faest_param.c.in:28; `faest_X_validate_keypair(pk, sk)`, faest_param.c.in:48 -/
def keyArgs : List Arg := [.secret, .secret]

/-- `faest_X_sign_with_randomness(sk, message, message_len, rho, rho_len, signature, signature_len)`,
faest_param.c.in:63 -/
def signRandArgs : List Arg := [.secret, .secret, .num, .secret, .num, .sig, .common]

/-- `faest_X_sign(sk, message, message_len, signature, signature_len)`, faest_param.c.in:83 -/
def apiSignArgs : List Arg := [.secret, .secret, .num, .sig, .common]

end Faest.Leak
