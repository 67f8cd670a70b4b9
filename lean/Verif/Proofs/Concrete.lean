/-
A concrete key pair accepted by the one-way function (the first known-answer key of
FAEST-128f), evaluated in the kernel.  Used by the `example`s only.
-/
import Verif.Model.Owf

namespace Faest.Concrete

/-- OWF input. -/
def inp : List Byte := [0xc0, 0xcd, 0x0b, 0xed, 0xbe, 0x6a, 0x4c, 0x04, 0xb3, 0x75, 0x89, 0x7d, 0x36, 0x9b,
  0x7e, 0x62]
/-- OWF output. -/
def out : List Byte := [0x48, 0xf3, 0x63, 0x29, 0x08, 0x45, 0xaa, 0xdf, 0x51, 0x7f, 0x82, 0x4c, 0x91, 0xfb,
  0x57, 0xf5]
/-- OWF key. -/
def key : List Byte := [0xaa, 0x6a, 0x6f, 0x17, 0x13, 0xd2, 0x7a, 0x71, 0xfe, 0x98, 0x9e, 0x93, 0xdc, 0x79,
  0xd2, 0x7d]

theorem owf_kat : owf128 (ofList key) (ofList inp) = some (out, true) := by decide +kernel

end Faest.Concrete
