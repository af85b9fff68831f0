import Verif.Model.Text

/-!
# `str::from_utf8`

Standard library code, modelled by its documented behaviour: it accepts exactly the UTF-8 encodings of
strings (`Verif.fromUtf8_iff` in `Verif/Proof/Utf8.lean`).
-/

namespace Verif

/-- The code point announced by the first bytes. -/
def utf8Code : Bytes → Nat
  | [] => 0
  | [b0] => b0.toNat
  | [b0, b1] => if b0.toNat < 128 then b0.toNat else b0.toNat % 32 * 64 + b1.toNat % 64
  | [b0, b1, b2] =>
    if b0.toNat < 128 then b0.toNat
    else if b0.toNat < 224 then b0.toNat % 32 * 64 + b1.toNat % 64
    else b0.toNat % 16 * 4096 + b1.toNat % 64 * 64 + b2.toNat % 64
  | b0 :: b1 :: b2 :: b3 :: _ =>
    if b0.toNat < 128 then b0.toNat
    else if b0.toNat < 224 then b0.toNat % 32 * 64 + b1.toNat % 64
    else if b0.toNat < 240 then b0.toNat % 16 * 4096 + b1.toNat % 64 * 64 + b2.toNat % 64
    else b0.toNat % 8 * 262144 + b1.toNat % 64 * 4096 + b2.toNat % 64 * 64 + b3.toNat % 64

/-- Decode one character after the other; a character whose encoding is not what is there is an error
(this covers overlong forms, surrogates, stray continuation bytes and truncation). -/
def fromUtf8Aux : Nat → Bytes → Option Str
  | _, [] => some []
  | 0, _ => none
  | n + 1, bs =>
    if (String.utf8EncodeChar (Char.ofNat (utf8Code bs))).isPrefixOf bs then
      (fromUtf8Aux n (bs.drop (String.utf8EncodeChar (Char.ofNat (utf8Code bs))).length)).map
        (Char.ofNat (utf8Code bs) :: ·)
    else none

/-- `str::from_utf8`; `none` is `Err`. -/
def fromUtf8 (bs : Bytes) : Option Str := fromUtf8Aux bs.length bs

end Verif
