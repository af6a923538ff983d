import Verif.Model.Parser
/-
Model of the primitive attribute readers/writers: references, strings, global ids, timestamps, booleans.
-/
namespace Verif

/-! ### References (`id/plain.rs`, `id/typed.rs`) -/

/-- id/plain.rs:16-23, id/typed.rs:66-73: `#` followed by `dec_uint` into `usize` (64 bit assumed) -/
def pId : P Nat := P.preceded (lit (cs! "#")) (decUint usizeMax)
/-- id/plain.rs:25-29, id/typed.rs:75-79 -/
def showId (n : Nat) : Str := '#' :: natStr n

/-! ### Integers (`parser/integer.rs`) -/
/-- parser/integer.rs:11-18 -/
def pInt : P Int := decInt i64Min i64Max
/-- parser/integer.rs:20-24 -/
def showInt (i : Int) : Str := intStr i

/-! ### Booleans (`parser/bool.rs`) -/
/-- parser/bool.rs:9-13 -/
inductive Tri where
  | tt | ff | unknown
  deriving DecidableEq, Repr

/-- parser/bool.rs:16-18 with the meaning given by 30-42 -/
def boolTable : List (Str × Tri) :=
  [(cs! ".TRUE.", .tt), (cs! ".FALSE.", .ff), (cs! ".UNKNOWN.", .unknown),
   (cs! ".T.", .tt), (cs! ".F.", .ff), (cs! ".U.", .unknown)]

/-- ordered choice over literal names (the `alt(variants.map(..))` idiom of every enumeration) -/
def pTable {α : Type} (t : List (Str × α)) : P α :=
  P.altL (t.map fun kv => (lit kv.1).map fun _ => kv.2)

/-- parser/bool.rs:58-71 -/
def pBool : P Tri := sp (pTable boolTable)
/-- parser/bool.rs:44-56 -/
def showBool : Tri → Str
  | .tt => cs! ".TRUE."
  | .ff => cs! ".FALSE."
  | .unknown => cs! ".UNKNOWN."

/-! ### Strings (`parser/string.rs`) -/

/-- Rust `str::replace` for a non-empty pattern: leftmost, non-overlapping.
The first argument counts characters of a match still to be dropped. -/
def replaceGo (pat rep : Str) : Nat → Str → Str
  | _, [] => []
  | k + 1, _ :: s => replaceGo pat rep k s
  | 0, c :: s =>
    match stripPrefix pat (c :: s) with
    | some _ => rep ++ replaceGo pat rep (pat.length - 1) s
    | none => c :: replaceGo pat rep 0 s

def replaceAll (pat rep : Str) (s : Str) : Str := replaceGo pat rep 0 s

/-- parser/string.rs:11-19 `UMLAUTE_MAP` -/
def umlautMap : List (Char × Str) :=
  [('Ä', cs! "\\X2\\00C4\\X0\\"),
   ('ä', cs! "\\X2\\00E4\\X0\\"),
   ('Ö', cs! "\\X2\\00D6\\X0\\"),
   ('ö', cs! "\\X2\\00F6\\X0\\"),
   ('Ü', cs! "\\X2\\00DC\\X0\\"),
   ('ü', cs! "\\X2\\00FC\\X0\\"),
   ('ß', cs! "\\X2\\00DF\\X0\\")]

/-- parser/string.rs:21-27 -/
def translateEncode (s : Str) : Str :=
  umlautMap.foldl (fun v ce => replaceAll [ce.1] ce.2 v) s
/-- parser/string.rs:29-35 -/
def translateDecode (s : Str) : Str :=
  umlautMap.foldl (fun v ce => replaceAll ce.2 [ce.1] v) s

/-- parser/string.rs:44-48 `StringPrimitive::from` -/
def strFrom (s : Str) : Str := translateDecode s
/-- parser/string.rs:50-57 -/
def pString : P Str := pQuoteWord.map strFrom
/-- parser/string.rs:59-63 -/
def showString (s : Str) : Str := '\'' :: (translateEncode s ++ cs! "'")

/-! ### Global ids (`id/ifc_uuid.rs`) -/

/-- id/ifc_uuid.rs:5 -/
def alphabet : Str := cs! "0123456789ABCDEFGHIJKLMNOPQRSTUVWXYZabcdefghijklmnopqrstuvwxyz_$"

/-- id/ifc_uuid.rs:28 : a `uuid::Uuid` is 16 bytes -/
structure Guid where
  bytes : List (BitVec 8)
  len : bytes.length = 16
  deriving DecidableEq

/-- id/ifc_uuid.rs:125-127 -/
def getBase16Byte (combined : BitVec 32) (n : Nat) : BitVec 8 :=
  ((combined >>> (n * 8)).setWidth 8) &&& 0xFF#8
/-- id/ifc_uuid.rs:129-132; the shift is on `u8`, the upper bits are lost -/
def combineFirst (a b : BitVec 8) : BitVec 8 :=
  ((a &&& 0x3F#8) <<< 6) ||| (b &&& 0x3F#8)
/-- id/ifc_uuid.rs:134-138 -/
def combineBase64 (bs : List (BitVec 8)) : BitVec 32 :=
  bs.foldl (fun acc b => (acc <<< 6) ||| b.setWidth 32) 0#32
/-- id/ifc_uuid.rs:108-117: chunks of four -/
def decodeChunks : List (BitVec 8) → List (BitVec 8)
  | a :: b :: c :: d :: r =>
    let w := combineBase64 [a, b, c, d]
    getBase16Byte w 2 :: getBase16Byte w 1 :: getBase16Byte w 0 :: decodeChunks r
  | _ => []
/-- id/ifc_uuid.rs:100-123 -/
def decodeGuid : List (BitVec 8) → List (BitVec 8)
  | a :: b :: r => combineFirst a b :: decodeChunks r
  | _ => []

/-- id/ifc_uuid.rs:165-167 -/
def getBase64Bit (combined : BitVec 32) (n : Nat) : BitVec 8 :=
  ((combined >>> (n * 6)).setWidth 8) &&& 0x3F#8
/-- id/ifc_uuid.rs:170-174 -/
def combineBase16 (bs : List (BitVec 8)) : BitVec 32 :=
  bs.foldl (fun acc b => (acc <<< 8) ||| b.setWidth 32) 0#32
/-- id/ifc_uuid.rs:148-157: chunks of three -/
def encodeChunks : List (BitVec 8) → List (BitVec 8)
  | a :: b :: c :: r =>
    let w := combineBase16 [a, b, c]
    getBase64Bit w 3 :: getBase64Bit w 2 :: getBase64Bit w 1 :: getBase64Bit w 0 :: encodeChunks r
  | _ => []
/-- id/ifc_uuid.rs:140-163 -/
def encodeGuid : List (BitVec 8) → List (BitVec 8)
  | a :: r => getBase64Bit (a.setWidth 32) 1 :: getBase64Bit (a.setWidth 32) 0 :: encodeChunks r
  | [] => []

/-- id/ifc_uuid.rs:66-72; the index is always below 64 so `unwrap` cannot fail (see `Props/Guid`);
the out-of-range default is never used -/
def guidString (g : Guid) : Str := (encodeGuid g.bytes).map fun i => alphabet.getD i.toNat '?'

/-- `ALPHABET.find(c)` as `u8` (id/ifc_uuid.rs:85-86) -/
def alphabetPos (c : Char) : Option (BitVec 8) :=
  (alphabet.findIdx? (· == c)).map fun i => BitVec.ofNat 8 i

/-- id/ifc_uuid.rs:75-92; the `expect` of 43-51 is the panic case -/
def pGuid : P Guid :=
  P.delimited (lit (cs! "'"))
    ((takeExactP 22 fun c => alphabet.contains c).bind fun w s =>
      let bs := decodeGuid (w.filterMap alphabetPos)
      if h : bs.length = 16 then .ok ⟨bs, h⟩ s else .panic)
    (lit (cs! "'"))
/-- id/ifc_uuid.rs:94-98 -/
def showGuid (g : Guid) : Str := '\'' :: (guidString g ++ cs! "'")

/-! ### Timestamps (`parser/timestamp.rs`) -/

/-- Range of seconds accepted by `chrono::DateTime::from_timestamp(_, 0)`:
years -262143-01-01 … 262142-12-31 (chrono 0.4, external constant). -/
def tsMin : Int := -8334601228800
def tsMax : Int := 8210266876799

/-- instant, in whole seconds since 1970 (sub-second parts are not written; parser/timestamp.rs:31-35) -/
structure Stamp where
  secs : Int
  lo : tsMin ≤ secs
  hi : secs ≤ tsMax
  deriving DecidableEq

/-- parser/timestamp.rs:22-29; `.unwrap()` panics out of range -/
def pStamp : P Stamp := fun s =>
  (pInt s).bind fun i r =>
    if h : tsMin ≤ i ∧ i ≤ tsMax then .ok ⟨i, h.1, h.2⟩ r else .panic
/-- parser/timestamp.rs:31-35 -/
def showStamp (t : Stamp) : Str := intStr t.secs

end Verif
