import Verif.Model.FromFile
/-
C84: UTF-8 (The Unicode Standard, table 3-6).
-/
namespace Verif

/-- the bytes of a character -/
def utf8Char (c : Char) : List UInt8 :=
  let n := c.toNat
  if n < 0x80 then [.ofNat n]
  else if n < 0x800 then [.ofNat (0xC0 + n / 64), .ofNat (0x80 + n % 64)]
  else if n < 0x10000 then [.ofNat (0xE0 + n / 4096), .ofNat (0x80 + n / 64 % 64), .ofNat (0x80 + n % 64)]
  else [.ofNat (0xF0 + n / 262144), .ofNat (0x80 + n / 4096 % 64), .ofNat (0x80 + n / 64 % 64), .ofNat (0x80 + n % 64)]

/-- the bytes of a text -/
def utf8 (s : Str) : List UInt8 := s.flatMap utf8Char

/-- the bytes of a text in the encoding Latin-1, which has the first 256 characters only -/
def latin1 (s : Str) : List UInt8 := s.map fun c => .ofNat c.toNat

end Verif
