import Verif.Model.Power
import Verif.Model.Mac
import Verif.Model.Utf8

/-!
# `controller/src/bin/xcvradm.rs`: arguments and input of the command line tool

Strings are lists of characters, or lists of bytes where the code slices or truncates by bytes.
-/

namespace Xcvr.Cli

/-! ## Numbers and text -/

/-- `char::to_digit(radix)` for a radix up to 16. -/
def digitVal (radix : Nat) (c : Char) : Option Nat := (hexVal c).filter (· < radix)

/-- The digit loop of `u8::from_str_radix`: overflow is an error. -/
def radixLoop (radix acc : Nat) : List Char → Option Nat
  | [] => some acc
  | c :: cs =>
    match digitVal radix c with
    | none => none
    | some d => if acc * radix + d < 256 then radixLoop radix (acc * radix + d) cs else none

/-- `u8::from_str_radix(s, radix).ok()`, for radix 10 also `s.parse::<u8>().ok()`: an optional plus sign, then at least
one digit. -/
def u8FromRadix (radix : Nat) (s : List Char) : Option U8 :=
  match s with
  | [] => none
  | '+' :: cs => if cs.isEmpty then none else (radixLoop radix 0 cs).map (BitVec.ofNat 8)
  | cs => (radixLoop radix 0 cs).map (BitVec.ofNat 8)

/-- `str::trim`. -/
def trim (s : List Char) : List Char := trimEnd (s.dropWhile isWhitespace)

/-- `str::split(c)`. -/
def splitChar (c : Char) : List Char → List (List Char)
  | [] => [[]]
  | x :: xs =>
    if x = c then [] :: splitChar c xs
    else
      match splitChar c xs with
      | [] => [[x]]
      | p :: ps => (x :: p) :: ps

/-- `str::split_whitespace`. -/
def splitWhitespace (s : List Char) : List (List Char) :=
  go [] s
where
  /-- `word` is the current word, in reverse. -/
  go (word : List Char) : List Char → List (List Char)
    | [] => if word.isEmpty then [] else [word.reverse]
    | c :: cs =>
      if isWhitespace c then
        if word.isEmpty then go [] cs else word.reverse :: go [] cs
      else go (c :: word) cs

/-- `str::trim_start_matches` with a pattern of two characters: removes it as often as it occurs. -/
def trimStartMatches (a b : Char) : List Char → List Char
  | x :: y :: r => if x = a ∧ y = b then trimStartMatches a b r else x :: y :: r
  | s => s

/-- `xcvradm.rs` 321-327 `read_u8`. -/
def readU8 (s : List Char) : Option U8 :=
  match stripPrefix s chars!"0x" with
  | some hex => u8FromRadix 16 hex
  | none => u8FromRadix 10 s

/-! ## Transceiver lists -/

/-- `xcvradm.rs` 68-81 `Transceivers`. -/
inductive Transceivers where
  | all
  | present
  | powerState (s : PowerState)
  | kind (k : ManagementInterface)
  | index (m : ModuleId)
  deriving DecidableEq, Repr

/-- The messages of `parse_transceivers`. -/
inductive ListError where
  | missingBound
  | notIncreasing
  | notInteger
  | malformed
  | ports (e : InvalidPort)
  deriving DecidableEq, Repr

/-- `x..=y`. -/
def rangeInclusive (x y : U8) : List U8 := (List.range' x.toNat (y.toNat + 1 - x.toNat)).map (BitVec.ofNat 8)

/-- The body of the loop of `xcvradm.rs` 98-129, for one part already trimmed. -/
def parsePart (part : List Char) : Except ListError (List U8) :=
  match u8FromRadix 10 part with
  | some ix => .ok [ix]
  | none =>
    match splitFirst '-' part with
    | (_, none) => .error .malformed
    | (start, some stop) =>
      if start.isEmpty || stop.isEmpty then .error .missingBound
      else
        match u8FromRadix 10 (trim start), u8FromRadix 10 (trim stop) with
        | some x, some y => if x ≥ y then .error .notIncreasing else .ok (rangeInclusive x y)
        | _, _ => .error .notInteger

/-- The loop of `xcvradm.rs` 96-129: the indices of all parts, or the first error. -/
def parseParts : List (List Char) → Except ListError (List U8)
  | [] => .ok []
  | p :: ps =>
    match parsePart (trim p) with
    | .error e => .error e
    | .ok is =>
      match parseParts ps with
      | .error e => .error e
      | .ok js => .ok (is ++ js)

/-- `xcvradm.rs` 83-134 `parse_transceivers`. `lower` is `str::to_lowercase`, which the standard library takes from the
Unicode tables. -/
def parseTransceivers (lower : List Char → List Char) (s : List Char) : Except ListError Transceivers :=
  let s := lower s
  if s = chars!"all" then .ok .all
  else if s = chars!"present" then .ok .present
  else if s = chars!"off" then .ok (.powerState .off)
  else if s = chars!"low-power" ∨ s = chars!"lp" then .ok (.powerState .low)
  else if s = chars!"hi-power" ∨ s = chars!"high-power" ∨ s = chars!"hp" then .ok (.powerState .high)
  else if s = chars!"sff" then .ok (.kind .sff8636)
  else if s = chars!"cmis" then .ok (.kind .cmis)
  else
    match parseParts (splitChar ',' s) with
    | .error e => .error e
    | .ok indices =>
      match ModuleId.fromIndices indices with
      | .error e => .error (.ports e)
      | .ok m => .ok (.index m)

/-! ## Data to write -/

/-- `xcvradm.rs` `InputKind`. -/
inductive InputKind where
  | binary
  | hex
  | decimal
  | binaryString
  deriving DecidableEq, Repr

/-- Why input is refused. -/
inductive InputError where
  | notUtf8
  | badNumber
  | tooLarge
  | empty
  deriving DecidableEq, Repr

/-- `xcvradm.rs` 719 `MAX_BYTES`. -/
def maxBytes : Nat := 128

/-- The conversions of `xcvradm.rs` 731-740. -/
def conv : InputKind → List Char → Option U8
  | .hex, x => u8FromRadix 16 (trimStartMatches '0' 'x' x)
  | .binaryString, x => u8FromRadix 2 (trimStartMatches '0' 'b' x)
  | _, x => u8FromRadix 10 x

/-- `xcvradm.rs` 746-751: numbers separated by white space. -/
def parseNumbers (kind : InputKind) (text : List Char) : Except InputError Bytes :=
  match (splitWhitespace text).mapM (conv kind) with
  | none => .error .badNumber
  | some data => if data.length ≤ maxBytes then .ok data else .error .tooLarge

/-- `xcvradm.rs` 722-754 `load_known_write_data`, on input with the given content. `nread` is how many bytes the single
call of `read` returns for binary input: at most the size of the buffer and the size of the content. The capacity of the
text buffer is the requested 512 bytes (`with_capacity` may allocate more, but does not for bytes). Read errors of the
operating system are not modelled. -/
def loadKnownWriteData (kind : InputKind) (content : Bytes) (nread : Nat) : Except InputError Bytes :=
  match kind with
  | .binary => .ok (content.take (min nread maxBytes))
  | kind =>
    match fromUtf8 (content.take (maxBytes * 4)) with
    | .error _ => .error .notUtf8
    | .ok text => parseNumbers kind text

/-- `str::is_char_boundary`. -/
def isCharBoundary (s : Bytes) (i : Nat) : Bool :=
  i == 0 || i == s.length || match s[i]? with
    | some b => !isCont b
    | none => false

/-- `xcvradm.rs` 863-872 `load_write_data_autodetect_kind`; `buf` is valid UTF-8. Slicing `&buf[..2]` panics if there
are fewer than two bytes or a character crosses the boundary. -/
def loadWriteDataAutodetect (buf : Bytes) : Exec InputError Bytes :=
  if buf.isEmpty then .err .empty
  else if !isCharBoundary buf 2 then .panic
  else
    let kind : InputKind :=
      if buf.take 2 = [0x30, 0x62] then .binaryString else if buf.take 2 = [0x30, 0x78] then .hex else .decimal
    match loadKnownWriteData kind buf 0 with
    | .ok d => .ok d
    | .error e => .err e

/-- `xcvradm.rs` 874-892 `load_write_data`, once the file is open or standard input chosen; a file needs a kind. -/
def loadWriteData (kind : Option InputKind) (content : Bytes) (nread : Nat) : Exec InputError Bytes :=
  match kind with
  | some kind =>
    match loadKnownWriteData kind content nread with
    | .ok d => .ok d
    | .error e => .err e
  | none =>
    match fromUtf8 content with
    | .error _ => .err .notUtf8
    | .ok _ => loadWriteDataAutodetect content

end Xcvr.Cli
