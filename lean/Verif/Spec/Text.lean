/-
  Specification side of text: Unicode scalar values (Lean's `Char`), their UTF-16 form, well-formed UTF-16.
-/
namespace KC.Spec

/-- UTF-16 code units of one scalar value. -/
def utf16Char (c : Char) : List UInt16 :=
  if c.toNat < 0x10000 then [UInt16.ofNat c.toNat]
  else [UInt16.ofNat (0xD800 + (c.toNat - 0x10000) / 0x400), UInt16.ofNat (0xDC00 + (c.toNat - 0x10000) % 0x400)]

/-- UTF-16 form of a text. -/
def utf16 (cs : List Char) : List UInt16 := cs.flatMap utf16Char

/-- A UTF-16 string is well formed when it is the UTF-16 form of some sequence of scalar values (no lone surrogates). -/
def WellFormed (s : List UInt16) : Prop := ∃ cs, s = utf16 cs

/-- UTF-8 form of a text, as defined by Lean's own library. -/
def utf8 (cs : List Char) : List UInt8 := cs.flatMap String.utf8EncodeChar

end KC.Spec
