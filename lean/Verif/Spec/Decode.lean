import Verif.Model.Text
/-! # Vocabulary for C86-C88: the encodings of texts -/
namespace Verif.Decode

/-- The UTF-8 encoding of a text, by Lean's own definition for characters. -/
def utf8 (t : Str) : List UInt8 := t.flatMap String.utf8EncodeChar

/-- The byte order mark in UTF-8. -/
def bom : List UInt8 := [0xEF, 0xBB, 0xBF]

/-- The character that is used as byte order mark. -/
def bomChar : Char := '\uFEFF'

end Verif.Decode
