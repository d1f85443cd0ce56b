import Verif.Model.ReadStar
/-! # From the bytes of a file to a collection

Models the first part of `ReadStar` (`/repo/src/StarFile.nw` 998-1097), where the file is fetched and decoded, `ReadCif`
(`/repo/src/CifFile_module.nw` 318-349) and the constructors of `StarFile` and `CifFile` (StarFile.nw 944-956, CifFile_module.nw
158-160) as far as they read a file. A source is given by its content: opening a URL, file names and the URI that is remembered are
not modelled, nor is the warning that is printed in permissive mode. -/
namespace Verif

/-- The content of a file. -/
abbrev Bytes := List UInt8

namespace Decode

/-- A byte that continues a character: `10xxxxxx`. Python's decoder (called in StarFile.nw 1072, 1085). -/
def isCont (b : UInt8) : Bool := decide (0x80 ≤ b.toNat) && decide (b.toNat ≤ 0xBF)

/-- The first character of an UTF-8 text and the rest, as in Python's strict decoder (called in StarFile.nw 1072, 1085): a character is
not to be written with more bytes than necessary, surrogates and numbers above 10FFFF are not allowed. -/
def decodeOne : Bytes → Option (Char × Bytes)
  | [] => none
  | b0 :: r0 =>
    let n0 := b0.toNat
    if n0 ≤ 0x7F then some (Char.ofNat n0, r0)
    else if n0 < 0xC2 then none
    else if n0 ≤ 0xDF then
      match r0 with
      | b1 :: r1 => if isCont b1 then some (Char.ofNat ((n0 - 0xC0) * 64 + (b1.toNat - 0x80)), r1) else none
      | [] => none
    else if n0 ≤ 0xEF then
      match r0 with
      | b1 :: b2 :: r2 =>
        let v := (n0 - 0xE0) * 4096 + (b1.toNat - 0x80) * 64 + (b2.toNat - 0x80)
        if isCont b1 && isCont b2 && decide (0x800 ≤ v) && !(decide (0xD800 ≤ v) && decide (v ≤ 0xDFFF)) then some (Char.ofNat v, r2)
        else none
      | _ => none
    else if n0 ≤ 0xF4 then
      match r0 with
      | b1 :: b2 :: b3 :: r3 =>
        let v := (n0 - 0xF0) * 262144 + (b1.toNat - 0x80) * 4096 + (b2.toNat - 0x80) * 64 + (b3.toNat - 0x80)
        if isCont b1 && isCont b2 && isCont b3 && decide (0x10000 ≤ v) && decide (v ≤ 0x10FFFF) then some (Char.ofNat v, r3)
        else none
      | _ => none
    else none

/-- `decode('utf-8')`, `none` for a `UnicodeDecodeError`. The number bounds the number of characters. -/
def decodeN : Nat → Bytes → Option Str
  | _, [] => some []
  | 0, _ :: _ => none
  | n + 1, b :: r =>
    match decodeOne (b :: r) with
    | none => none
    | some (c, rest) => (decodeN n rest).map (c :: ·)

/-- `decode('utf-8-sig')` (StarFile.nw 1072, 1085): a byte order mark at the start is left out. -/
def utf8sig : Bytes → Option Str
  | 0xEF :: 0xBB :: 0xBF :: r => decodeN r.length r
  | bs => decodeN bs.length bs

/-- `decode('latin1')` (StarFile.nw 1075, 1088). -/
def latin1 (bs : Bytes) : Str := bs.map fun b => Char.ofNat b.toNat

/-- `read()` of a stream: everything up to the end, and the stream afterwards. -/
def readAll (stream : Bytes) : Bytes × Bytes := (stream, [])

/-- What the argument `filename` may be (StarFile.nw 1053, 1080): the name of a file or its URL, with the content found there, or a
stream of bytes or of text. -/
inductive Source where
  | url (content : Bytes)
  | bytes (content : Bytes)
  | text (content : Str)

/-- The text of a stream of bytes (StarFile.nw 1070-1078 and 1081-1090 alike). In permissive mode the stream is read a second time. -/
def fetchBytes (permissive : Bool) (stream : Bytes) : Except ReadErr Str :=
  let (data, stream') := readAll stream
  match utf8sig data with
  | some text => .ok text
  | none => if permissive then .ok (latin1 (readAll stream').1) else .error (.py .star)

/-- The text of a source (StarFile.nw 1053-1091). -/
def fetch (permissive : Bool) : Source → Except ReadErr Str
  | .url content => fetchBytes permissive content
  | .bytes content => fetchBytes permissive content
  | .text content => .ok content

/-- `ReadStar` (StarFile.nw 998-1153) with a collection to read into: the collection afterwards and what is returned, `none` for
Python's `None`, otherwise the grammar that has been recognised, the collection itself being returned. -/
def readSource [CaseFold] (blocktype : Block) (prepared : Coll) (src : Source) (req : Option Str) (maxlength : Int := -1)
    (cbf : Bool := false) (permissive : Bool := false) : Coll × Except ReadErr (Option GName) :=
  match ReadStar.tryList req with
  | .error e => (prepared, .error e)
  | .ok _ =>
    match fetch permissive src with
    | .error e => (prepared, .error e)
    | .ok text => ReadStar.readStar (ReadStar.parsers blocktype) prepared text req maxlength cbf

/-- `ReadStar` with `prepared` given or left at its default `None` (StarFile.nw 998, 1033, 1039): the attribute `scoping` of the
argument is taken before it is replaced by a new collection. -/
def readStarCall [CaseFold] (blocktype : Block) (prepared : Option Coll) (src : Source) (req : Option Str) (maxlength : Int := -1)
    (cbf : Bool := false) (permissive : Bool := false) : Option Coll × Except ReadErr (Option GName) :=
  match prepared with
  | none => (none, .error (.py .attribute))
  | some c =>
    let (c', r) := readSource blocktype c src req maxlength cbf permissive
    (some c', r)

/-- `ReadCif` (CifFile_module.nw 318-349); `empty` is the collection `CifFile(scoping=scoping,standard=standard)`. What is returned:
`none` for `None`. -/
def readCif [CaseFold] (blocktype : Block) (empty : Coll) (src : Source) (req : Option Str := some "auto".toList)
    (permissive : Bool := false) : Except ReadErr (Option (Coll × GName)) :=
  match readSource blocktype empty src req (-1) false permissive with
  | (_, .error e) => .error e
  | (_, .ok none) => .ok none
  | (c, .ok (some g)) => .ok (some (c, g))

/-- `CifFile(datasource)` and `StarFile(datasource)` (StarFile.nw 944-956): the new collection, `empty` before the file is read. What
`ReadStar` returns is not used. -/
def openFile [CaseFold] (blocktype : Block) (empty : Coll) (src : Source) (req : Option Str := some "1.1".toList) (maxinlength : Int := -1)
    (permissive : Bool := false) : Except ReadErr Coll :=
  match readSource blocktype empty src req maxinlength false permissive with
  | (_, .error e) => .error e
  | (c, .ok _) => .ok c

end Decode
end Verif
