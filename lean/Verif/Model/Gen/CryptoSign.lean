/-
Generated by tools/c2lean.py from crypto_sign.c.in. Do not edit.
-/
import Verif.Model.Gen.Api

set_option linter.unusedVariables false

namespace Faest.Gen
open Faest.C

/-- crypto_sign.c.in:19-21 `crypto_sign_keypair_128s`. -/
def crypto_sign_keypair_128s (R : CPtr) (pk : CPtr) (sk : CPtr) : CM Nat := do
  let e1 ← faest_128s_keygen R pk sk
  pure e1

/-- crypto_sign.c.in:23-30 `crypto_sign_128s`. -/
def crypto_sign_128s (I : HImpl) (R : CPtr) (sm : CPtr) (smlen : CPtr) (m : CPtr) (mlen : Nat) (sk : CPtr) : CM Nat := do
  st smlen 0 ((mlen + 5006) % U64)
  memmove sm m mlen
  let signature_len ← alloc .stack (malloc 1 : Mem Nat)
  st signature_len 0 5006
  let e1 ← faest_128s_sign I R sk sm mlen (padd sm mlen) signature_len
  cfree .stack signature_len
  pure e1

/-- crypto_sign.c.in:32-46 `crypto_sign_open_128s`. -/
def crypto_sign_open_128s (I : HImpl) (m : CPtr) (mlen : CPtr) (sm : CPtr) (smlen : Nat) (pk : CPtr) : CM Nat := do
  if smlen < 5006 then (do
    pure 4294967295)
  else (do
    let m_length : Nat := (smlen + U64 - 5006) % U64
    let e1 ← faest_128s_verify I pk sm m_length (padd sm m_length) 5006
    if e1 ≠ 0 then (do
      pure 4294967295)
    else (do
      st mlen 0 m_length
      memmove m sm m_length
      pure 0))

/-- crypto_sign.c.in:19-21 `crypto_sign_keypair_128f`. -/
def crypto_sign_keypair_128f (R : CPtr) (pk : CPtr) (sk : CPtr) : CM Nat := do
  let e1 ← faest_128f_keygen R pk sk
  pure e1

/-- crypto_sign.c.in:23-30 `crypto_sign_128f`. -/
def crypto_sign_128f (I : HImpl) (R : CPtr) (sm : CPtr) (smlen : CPtr) (m : CPtr) (mlen : Nat) (sk : CPtr) : CM Nat := do
  st smlen 0 ((mlen + 6336) % U64)
  memmove sm m mlen
  let signature_len ← alloc .stack (malloc 1 : Mem Nat)
  st signature_len 0 6336
  let e1 ← faest_128f_sign I R sk sm mlen (padd sm mlen) signature_len
  cfree .stack signature_len
  pure e1

/-- crypto_sign.c.in:32-46 `crypto_sign_open_128f`. -/
def crypto_sign_open_128f (I : HImpl) (m : CPtr) (mlen : CPtr) (sm : CPtr) (smlen : Nat) (pk : CPtr) : CM Nat := do
  if smlen < 6336 then (do
    pure 4294967295)
  else (do
    let m_length : Nat := (smlen + U64 - 6336) % U64
    let e1 ← faest_128f_verify I pk sm m_length (padd sm m_length) 6336
    if e1 ≠ 0 then (do
      pure 4294967295)
    else (do
      st mlen 0 m_length
      memmove m sm m_length
      pure 0))

/-- crypto_sign.c.in:19-21 `crypto_sign_keypair_em_128s`. -/
def crypto_sign_keypair_em_128s (R : CPtr) (pk : CPtr) (sk : CPtr) : CM Nat := do
  let e1 ← faest_em_128s_keygen R pk sk
  pure e1

/-- crypto_sign.c.in:23-30 `crypto_sign_em_128s`. -/
def crypto_sign_em_128s (I : HImpl) (R : CPtr) (sm : CPtr) (smlen : CPtr) (m : CPtr) (mlen : Nat) (sk : CPtr) : CM Nat := do
  st smlen 0 ((mlen + 4566) % U64)
  memmove sm m mlen
  let signature_len ← alloc .stack (malloc 1 : Mem Nat)
  st signature_len 0 4566
  let e1 ← faest_em_128s_sign I R sk sm mlen (padd sm mlen) signature_len
  cfree .stack signature_len
  pure e1

/-- crypto_sign.c.in:32-46 `crypto_sign_open_em_128s`. -/
def crypto_sign_open_em_128s (I : HImpl) (m : CPtr) (mlen : CPtr) (sm : CPtr) (smlen : Nat) (pk : CPtr) : CM Nat := do
  if smlen < 4566 then (do
    pure 4294967295)
  else (do
    let m_length : Nat := (smlen + U64 - 4566) % U64
    let e1 ← faest_em_128s_verify I pk sm m_length (padd sm m_length) 4566
    if e1 ≠ 0 then (do
      pure 4294967295)
    else (do
      st mlen 0 m_length
      memmove m sm m_length
      pure 0))

/-- crypto_sign.c.in:19-21 `crypto_sign_keypair_em_128f`. -/
def crypto_sign_keypair_em_128f (R : CPtr) (pk : CPtr) (sk : CPtr) : CM Nat := do
  let e1 ← faest_em_128f_keygen R pk sk
  pure e1

/-- crypto_sign.c.in:23-30 `crypto_sign_em_128f`. -/
def crypto_sign_em_128f (I : HImpl) (R : CPtr) (sm : CPtr) (smlen : CPtr) (m : CPtr) (mlen : Nat) (sk : CPtr) : CM Nat := do
  st smlen 0 ((mlen + 5696) % U64)
  memmove sm m mlen
  let signature_len ← alloc .stack (malloc 1 : Mem Nat)
  st signature_len 0 5696
  let e1 ← faest_em_128f_sign I R sk sm mlen (padd sm mlen) signature_len
  cfree .stack signature_len
  pure e1

/-- crypto_sign.c.in:32-46 `crypto_sign_open_em_128f`. -/
def crypto_sign_open_em_128f (I : HImpl) (m : CPtr) (mlen : CPtr) (sm : CPtr) (smlen : Nat) (pk : CPtr) : CM Nat := do
  if smlen < 5696 then (do
    pure 4294967295)
  else (do
    let m_length : Nat := (smlen + U64 - 5696) % U64
    let e1 ← faest_em_128f_verify I pk sm m_length (padd sm m_length) 5696
    if e1 ≠ 0 then (do
      pure 4294967295)
    else (do
      st mlen 0 m_length
      memmove m sm m_length
      pure 0))

/-- crypto_sign.c.in:19-21 `crypto_sign_keypair_192s`. -/
def crypto_sign_keypair_192s (R : CPtr) (pk : CPtr) (sk : CPtr) : CM Nat := do
  let e1 ← faest_192s_keygen R pk sk
  pure e1

/-- crypto_sign.c.in:23-30 `crypto_sign_192s`. -/
def crypto_sign_192s (I : HImpl) (R : CPtr) (sm : CPtr) (smlen : CPtr) (m : CPtr) (mlen : Nat) (sk : CPtr) : CM Nat := do
  st smlen 0 ((mlen + 12744) % U64)
  memmove sm m mlen
  let signature_len ← alloc .stack (malloc 1 : Mem Nat)
  st signature_len 0 12744
  let e1 ← faest_192s_sign I R sk sm mlen (padd sm mlen) signature_len
  cfree .stack signature_len
  pure e1

/-- crypto_sign.c.in:32-46 `crypto_sign_open_192s`. -/
def crypto_sign_open_192s (I : HImpl) (m : CPtr) (mlen : CPtr) (sm : CPtr) (smlen : Nat) (pk : CPtr) : CM Nat := do
  if smlen < 12744 then (do
    pure 4294967295)
  else (do
    let m_length : Nat := (smlen + U64 - 12744) % U64
    let e1 ← faest_192s_verify I pk sm m_length (padd sm m_length) 12744
    if e1 ≠ 0 then (do
      pure 4294967295)
    else (do
      st mlen 0 m_length
      memmove m sm m_length
      pure 0))

/-- crypto_sign.c.in:19-21 `crypto_sign_keypair_192f`. -/
def crypto_sign_keypair_192f (R : CPtr) (pk : CPtr) (sk : CPtr) : CM Nat := do
  let e1 ← faest_192f_keygen R pk sk
  pure e1

/-- crypto_sign.c.in:23-30 `crypto_sign_192f`. -/
def crypto_sign_192f (I : HImpl) (R : CPtr) (sm : CPtr) (smlen : CPtr) (m : CPtr) (mlen : Nat) (sk : CPtr) : CM Nat := do
  st smlen 0 ((mlen + 16792) % U64)
  memmove sm m mlen
  let signature_len ← alloc .stack (malloc 1 : Mem Nat)
  st signature_len 0 16792
  let e1 ← faest_192f_sign I R sk sm mlen (padd sm mlen) signature_len
  cfree .stack signature_len
  pure e1

/-- crypto_sign.c.in:32-46 `crypto_sign_open_192f`. -/
def crypto_sign_open_192f (I : HImpl) (m : CPtr) (mlen : CPtr) (sm : CPtr) (smlen : Nat) (pk : CPtr) : CM Nat := do
  if smlen < 16792 then (do
    pure 4294967295)
  else (do
    let m_length : Nat := (smlen + U64 - 16792) % U64
    let e1 ← faest_192f_verify I pk sm m_length (padd sm m_length) 16792
    if e1 ≠ 0 then (do
      pure 4294967295)
    else (do
      st mlen 0 m_length
      memmove m sm m_length
      pure 0))

/-- crypto_sign.c.in:19-21 `crypto_sign_keypair_em_192s`. -/
def crypto_sign_keypair_em_192s (R : CPtr) (pk : CPtr) (sk : CPtr) : CM Nat := do
  let e1 ← faest_em_192s_keygen R pk sk
  pure e1

/-- crypto_sign.c.in:23-30 `crypto_sign_em_192s`. -/
def crypto_sign_em_192s (I : HImpl) (R : CPtr) (sm : CPtr) (smlen : CPtr) (m : CPtr) (mlen : Nat) (sk : CPtr) : CM Nat := do
  st smlen 0 ((mlen + 10824) % U64)
  memmove sm m mlen
  let signature_len ← alloc .stack (malloc 1 : Mem Nat)
  st signature_len 0 10824
  let e1 ← faest_em_192s_sign I R sk sm mlen (padd sm mlen) signature_len
  cfree .stack signature_len
  pure e1

/-- crypto_sign.c.in:32-46 `crypto_sign_open_em_192s`. -/
def crypto_sign_open_em_192s (I : HImpl) (m : CPtr) (mlen : CPtr) (sm : CPtr) (smlen : Nat) (pk : CPtr) : CM Nat := do
  if smlen < 10824 then (do
    pure 4294967295)
  else (do
    let m_length : Nat := (smlen + U64 - 10824) % U64
    let e1 ← faest_em_192s_verify I pk sm m_length (padd sm m_length) 10824
    if e1 ≠ 0 then (do
      pure 4294967295)
    else (do
      st mlen 0 m_length
      memmove m sm m_length
      pure 0))

/-- crypto_sign.c.in:19-21 `crypto_sign_keypair_em_192f`. -/
def crypto_sign_keypair_em_192f (R : CPtr) (pk : CPtr) (sk : CPtr) : CM Nat := do
  let e1 ← faest_em_192f_keygen R pk sk
  pure e1

/-- crypto_sign.c.in:23-30 `crypto_sign_em_192f`. -/
def crypto_sign_em_192f (I : HImpl) (R : CPtr) (sm : CPtr) (smlen : CPtr) (m : CPtr) (mlen : Nat) (sk : CPtr) : CM Nat := do
  st smlen 0 ((mlen + 13912) % U64)
  memmove sm m mlen
  let signature_len ← alloc .stack (malloc 1 : Mem Nat)
  st signature_len 0 13912
  let e1 ← faest_em_192f_sign I R sk sm mlen (padd sm mlen) signature_len
  cfree .stack signature_len
  pure e1

/-- crypto_sign.c.in:32-46 `crypto_sign_open_em_192f`. -/
def crypto_sign_open_em_192f (I : HImpl) (m : CPtr) (mlen : CPtr) (sm : CPtr) (smlen : Nat) (pk : CPtr) : CM Nat := do
  if smlen < 13912 then (do
    pure 4294967295)
  else (do
    let m_length : Nat := (smlen + U64 - 13912) % U64
    let e1 ← faest_em_192f_verify I pk sm m_length (padd sm m_length) 13912
    if e1 ≠ 0 then (do
      pure 4294967295)
    else (do
      st mlen 0 m_length
      memmove m sm m_length
      pure 0))

/-- crypto_sign.c.in:19-21 `crypto_sign_keypair_256s`. -/
def crypto_sign_keypair_256s (R : CPtr) (pk : CPtr) (sk : CPtr) : CM Nat := do
  let e1 ← faest_256s_keygen R pk sk
  pure e1

/-- crypto_sign.c.in:23-30 `crypto_sign_256s`. -/
def crypto_sign_256s (I : HImpl) (R : CPtr) (sm : CPtr) (smlen : CPtr) (m : CPtr) (mlen : Nat) (sk : CPtr) : CM Nat := do
  st smlen 0 ((mlen + 22100) % U64)
  memmove sm m mlen
  let signature_len ← alloc .stack (malloc 1 : Mem Nat)
  st signature_len 0 22100
  let e1 ← faest_256s_sign I R sk sm mlen (padd sm mlen) signature_len
  cfree .stack signature_len
  pure e1

/-- crypto_sign.c.in:32-46 `crypto_sign_open_256s`. -/
def crypto_sign_open_256s (I : HImpl) (m : CPtr) (mlen : CPtr) (sm : CPtr) (smlen : Nat) (pk : CPtr) : CM Nat := do
  if smlen < 22100 then (do
    pure 4294967295)
  else (do
    let m_length : Nat := (smlen + U64 - 22100) % U64
    let e1 ← faest_256s_verify I pk sm m_length (padd sm m_length) 22100
    if e1 ≠ 0 then (do
      pure 4294967295)
    else (do
      st mlen 0 m_length
      memmove m sm m_length
      pure 0))

/-- crypto_sign.c.in:19-21 `crypto_sign_keypair_256f`. -/
def crypto_sign_keypair_256f (R : CPtr) (pk : CPtr) (sk : CPtr) : CM Nat := do
  let e1 ← faest_256f_keygen R pk sk
  pure e1

/-- crypto_sign.c.in:23-30 `crypto_sign_256f`. -/
def crypto_sign_256f (I : HImpl) (R : CPtr) (sm : CPtr) (smlen : CPtr) (m : CPtr) (mlen : Nat) (sk : CPtr) : CM Nat := do
  st smlen 0 ((mlen + 28400) % U64)
  memmove sm m mlen
  let signature_len ← alloc .stack (malloc 1 : Mem Nat)
  st signature_len 0 28400
  let e1 ← faest_256f_sign I R sk sm mlen (padd sm mlen) signature_len
  cfree .stack signature_len
  pure e1

/-- crypto_sign.c.in:32-46 `crypto_sign_open_256f`. -/
def crypto_sign_open_256f (I : HImpl) (m : CPtr) (mlen : CPtr) (sm : CPtr) (smlen : Nat) (pk : CPtr) : CM Nat := do
  if smlen < 28400 then (do
    pure 4294967295)
  else (do
    let m_length : Nat := (smlen + U64 - 28400) % U64
    let e1 ← faest_256f_verify I pk sm m_length (padd sm m_length) 28400
    if e1 ≠ 0 then (do
      pure 4294967295)
    else (do
      st mlen 0 m_length
      memmove m sm m_length
      pure 0))

/-- crypto_sign.c.in:19-21 `crypto_sign_keypair_em_256s`. -/
def crypto_sign_keypair_em_256s (R : CPtr) (pk : CPtr) (sk : CPtr) : CM Nat := do
  let e1 ← faest_em_256s_keygen R pk sk
  pure e1

/-- crypto_sign.c.in:23-30 `crypto_sign_em_256s`. -/
def crypto_sign_em_256s (I : HImpl) (R : CPtr) (sm : CPtr) (smlen : CPtr) (m : CPtr) (mlen : Nat) (sk : CPtr) : CM Nat := do
  st smlen 0 ((mlen + 20956) % U64)
  memmove sm m mlen
  let signature_len ← alloc .stack (malloc 1 : Mem Nat)
  st signature_len 0 20956
  let e1 ← faest_em_256s_sign I R sk sm mlen (padd sm mlen) signature_len
  cfree .stack signature_len
  pure e1

/-- crypto_sign.c.in:32-46 `crypto_sign_open_em_256s`. -/
def crypto_sign_open_em_256s (I : HImpl) (m : CPtr) (mlen : CPtr) (sm : CPtr) (smlen : Nat) (pk : CPtr) : CM Nat := do
  if smlen < 20956 then (do
    pure 4294967295)
  else (do
    let m_length : Nat := (smlen + U64 - 20956) % U64
    let e1 ← faest_em_256s_verify I pk sm m_length (padd sm m_length) 20956
    if e1 ≠ 0 then (do
      pure 4294967295)
    else (do
      st mlen 0 m_length
      memmove m sm m_length
      pure 0))

/-- crypto_sign.c.in:19-21 `crypto_sign_keypair_em_256f`. -/
def crypto_sign_keypair_em_256f (R : CPtr) (pk : CPtr) (sk : CPtr) : CM Nat := do
  let e1 ← faest_em_256f_keygen R pk sk
  pure e1

/-- crypto_sign.c.in:23-30 `crypto_sign_em_256f`. -/
def crypto_sign_em_256f (I : HImpl) (R : CPtr) (sm : CPtr) (smlen : CPtr) (m : CPtr) (mlen : Nat) (sk : CPtr) : CM Nat := do
  st smlen 0 ((mlen + 26736) % U64)
  memmove sm m mlen
  let signature_len ← alloc .stack (malloc 1 : Mem Nat)
  st signature_len 0 26736
  let e1 ← faest_em_256f_sign I R sk sm mlen (padd sm mlen) signature_len
  cfree .stack signature_len
  pure e1

/-- crypto_sign.c.in:32-46 `crypto_sign_open_em_256f`. -/
def crypto_sign_open_em_256f (I : HImpl) (m : CPtr) (mlen : CPtr) (sm : CPtr) (smlen : Nat) (pk : CPtr) : CM Nat := do
  if smlen < 26736 then (do
    pure 4294967295)
  else (do
    let m_length : Nat := (smlen + U64 - 26736) % U64
    let e1 ← faest_em_256f_verify I pk sm m_length (padd sm m_length) 26736
    if e1 ≠ 0 then (do
      pure 4294967295)
    else (do
      st mlen 0 m_length
      memmove m sm m_length
      pure 0))

end Faest.Gen
