import Verif.Py.Seq
/-!
# FXP container: checksum, header, directory, extraction

Source: `/repo/vfp2py/fxp_read.py`.  Bytes are natural numbers; a file is the
list of its bytes.  Printing (lines 1537-1539, 1558-1559) and the creation of the
output directory (1541-1546) are left out.
-/
namespace Model.Fxp
open Py

/-- The four local variables `chunka..chunkd` of `checksum_calc`. fxp_read.py:22-43 -/
structure Ck where
  a : Nat
  b : Nat
  c : Nat
  d : Nat
  deriving DecidableEq, Repr

/-- One iteration of the loop, fxp_read.py:30-41. -/
def ckStep (s : Ck) (chunk : Nat) : Ck :=
  let a := s.a ^^^ ((chunk &&& 0xF0) >>> 4)
  let b := s.b ^^^ ((chunk &&& 0x0F) >>> 0)
  let chunk := (a <<< 9) + ((a ^^^ b) <<< 5)
  { a := a ^^^ b ^^^ s.c ^^^ ((chunk &&& 0xF000) >>> 12),
    b := s.d ^^^ ((chunk &&& 0x0F00) >>> 8),
    c := a ^^^ ((chunk &&& 0x00F0) >>> 4),
    d := a ^^^ b ^^^ ((chunk &&& 0x000F) >>> 0) }

/-- fxp_read.py:43. -/
def ckPack (s : Ck) : Nat := (s.a <<< 12) + (s.b <<< 8) + (s.c <<< 4) + (s.d <<< 0)

/-- `checksum_calc`, fxp_read.py:22-43; `none` is the IndexError on fewer than
two bytes. -/
def checksumCalc (string : List Nat) : Option Nat :=
  match string with
  | x :: y :: _ =>
    let s0 : Ck :=
      { a := (x &&& 0xF0) >>> 4, b := (x &&& 0x0F) >>> 0,
        c := (y &&& 0xF0) >>> 4, d := (y &&& 0x0F) >>> 0 }
    some (ckPack (string.foldl ckStep s0))
  | _ => none

/-- Errors of the reader. `hang` is an endless loop. Raised in fxp_read.py:1468-1622 -/
inductive RErr where
  | headerTooShort | encrypted | badHeader | badChecksum
  | structError | indexError | valueError | hang
  deriving DecidableEq, Repr

/-- Little-endian unsigned integer (`struct` codes `<B`, `<H`, `<I`). fxp_read.py:1332-1342, 1516-1622 -/
def leDecode : List Nat → Nat
  | [] => 0
  | x :: xs => x + 256 * leDecode xs

/-- `struct.pack` of an unsigned integer into `k` little-endian bytes (in range). fxp_read.py:1516-1622 -/
def leEncode : Nat → Nat → List Nat
  | 0, _ => []
  | k + 1, n => (n % 256) :: leEncode k (n / 256)

/-- `fid.seek(pos); fid.read(n)`: a short (or empty) result at the end of the file. fxp_read.py:45-64 -/
def readAt (f : List Nat) (pos n : Nat) : List Nat := (f.drop pos).take n

/-- fxp_read.py:17 -/
def headerSize : Nat := 0x29
/-- fxp_read.py:20 -/
def identifier : List Nat := [0xfe, 0xf2, 0xff]
/-- fxp_read.py:19 -/
def encryptedIdentifier : List Nat := [0xfe, 0xf2, 0xee]

/-- The fields of the header that the reader uses. fxp_read.py:1516-1546 -/
structure Header where
  numFiles : Nat
  mainFile : Nat
  footerPos : Nat
  namePos : Nat
  nameLen : Nat
  deriving DecidableEq, Repr

/-- Header check, fxp_read.py:1518-1535; format `<3s2sHHIII18sH` (fields at
offsets 0, 3, 5, 7, 9, 13, 17, 21, 39). -/
def readHeader (f : List Nat) : Except RErr Header :=
  let h := readAt f 0 headerSize
  if h.length < headerSize then .error .headerTooShort
  else if readAt h 0 3 = encryptedIdentifier then .error .encrypted
  else if readAt h 0 3 ≠ identifier then .error .badHeader
  else
    match checksumCalc (h.take (headerSize - 4)) with
    | none => .error .indexError
    | some ck =>
      if leDecode (readAt h 39 2) ≠ ck then .error .badChecksum
      else .ok { numFiles := leDecode (readAt h 5 2), mainFile := leDecode (readAt h 7 2),
                 footerPos := leDecode (readAt h 9 4), namePos := leDecode (readAt h 13 4),
                 nameLen := leDecode (readAt h 17 4) }

/-- One directory entry, format `<BIIII8s`, fxp_read.py:1549. -/
structure Footer where
  fileType : Nat
  start : Nat
  stop : Nat
  dirnameStart : Nat
  filenameStart : Nat
  deriving DecidableEq, Repr

/-- fxp_read.py:18 -/
def footerEntrySize : Nat := 0x19

/-- fxp_read.py:1549 -/
def unpackFooter (b : List Nat) : Except RErr Footer :=
  if b.length < footerEntrySize then .error .structError
  else .ok { fileType := leDecode (readAt b 0 1), start := leDecode (readAt b 1 4),
             stop := leDecode (readAt b 5 4), dirnameStart := leDecode (readAt b 9 4),
             filenameStart := leDecode (readAt b 13 4) }

/-- The list comprehension of fxp_read.py:1549, reading entries one after the other. -/
def readFooters (f : List Nat) (pos : Nat) : Nat → Except RErr (List Footer)
  | 0 => .ok []
  | n + 1 =>
    match unpackFooter (readAt f pos footerEntrySize) with
    | .error e => .error e
    | .ok x =>
      match readFooters f (pos + footerEntrySize) n with
      | .error e => .error e
      | .ok xs => .ok (x :: xs)

/-- The loop of `read_until_null` (fxp_read.py:1470-1471) on the rest of the file,
after a first byte has been read: at the end of the file `fid.read(1)` is empty
and `string[-1]` never changes. -/
def untilNull : List Nat → Except RErr (List Nat)
  | [] => .error .hang
  | x :: xs =>
    if x = 0 then .ok []
    else
      match untilNull xs with
      | .ok s => .ok (x :: s)
      | .error e => .error e

/-- `read_until_null`, fxp_read.py:1468-1474, at position `pos`.  Decoding from
ISO-8859-1 maps each byte to the character of the same number, so names are kept
as byte lists. -/
def readUntilNull (f : List Nat) (pos : Nat) : Except RErr (List Nat) :=
  match f.drop pos with
  | [] => .error .indexError
  | rest => untilNull rest

/-- What the reader knows about one entry: names, `file_stop - file_start`, and the
bytes that `fid.seek(file_start); fid.read(file_stop - file_start)` returns. fxp_read.py:1552-1562 -/
structure Entry where
  fileType : Nat
  dirname : List Nat
  filename : List Nat
  size : Int
  block : List Nat
  deriving DecidableEq, Repr

/-- `fid.seek(start); fid.read(size)`, fxp_read.py:1567,1575,1588-1589: `-1` reads
everything, a smaller number is a ValueError, and the end of the file cuts short. -/
def readBlock (f : List Nat) (start : Nat) (size : Int) : Except RErr (List Nat) :=
  if size < -1 then .error .valueError
  else if size = -1 then .ok (f.drop start)
  else .ok (readAt f start size.toNat)

/-- One turn of the loop fxp_read.py:1552-1589 (names and block contents, with an
output directory). -/
def readEntry (f : List Nat) (namePos : Nat) (e : Footer) : Except RErr Entry :=
  match readUntilNull f (namePos + e.dirnameStart) with
  | .error x => .error x
  | .ok dirname =>
    match readUntilNull f (namePos + e.filenameStart) with
    | .error x => .error x
    | .ok filename =>
      match readBlock f e.start ((e.stop : Int) - e.start) with
      | .error x => .error x
      | .ok block =>
        .ok { fileType := e.fileType, dirname := dirname, filename := filename,
              size := (e.stop : Int) - e.start, block := block }

/-- fxp_read.py:1552-1562 -/
def readEntries (f : List Nat) (namePos : Nat) : List Footer → Except RErr (List Entry)
  | [] => .ok []
  | e :: es =>
    match readEntry f namePos e with
    | .error x => .error x
    | .ok r =>
      match readEntries f namePos es with
      | .error x => .error x
      | .ok rs => .ok (r :: rs)

/-- The directory part of `fxp_read`, fxp_read.py:1516-1585. -/
def readContainer (f : List Nat) : Except RErr (List Entry) :=
  match readHeader f with
  | .error e => .error e
  | .ok h =>
    match readFooters f h.footerPos h.numFiles with
    | .error e => .error e
    | .ok fs => readEntries f h.namePos fs

/-- `struct.pack('<I', n)`; `none` is struct.error. fxp_read.py:1573, 1584 -/
def packUInt (n : Int) : Option (List Nat) :=
  match n with
  | .ofNat k => if k < 4294967296 then some (leEncode 4 k) else none
  | .negSucc _ => none

/-- The bytes of the header written for an extracted program, up to the checksum
(fxp_read.py:1568-1573): `struct.pack('<5sHHIII', IDENTIFIER, 1, 0, ...)` and 16
zero bytes; two more zero bytes and the checksum follow. -/
def emitHeaderData (e : Entry) : Option (List Nat) :=
  match packUInt (headerSize + e.size + (e.dirname.length + e.filename.length + 3)),
    packUInt (headerSize + e.size), packUInt (e.dirname.length + e.filename.length + 3) with
  | some a, some b, some c =>
    some (identifier ++ [0, 0] ++ leEncode 2 1 ++ leEncode 2 0 ++ a ++ b ++ c ++ List.replicate 16 0)
  | _, _, _ => none

/-- The directory entry written, fxp_read.py:1582-1583; `start` and `stop` are positions
in the file being written. -/
def emitFooter (e : Entry) (start stop : Nat) : Option (List Nat) :=
  match packUInt start, packUInt stop, packUInt 1, packUInt (1 + e.dirname.length + 1) with
  | some a, some b, some c, some d =>
    some (leEncode 1 e.fileType ++ a ++ b ++ c ++ d ++ List.replicate 8 0)
  | _, _, _, _ => none

/-- What follows once the header `head` has been written, fxp_read.py:1576-1583. -/
def emitBody (e : Entry) (head : List Nat) : Option (List Nat) :=
  match emitFooter e head.length (head.length + e.block.length) with
  | none => none
  | some ft => some (head ++ e.block ++ [0] ++ (e.dirname ++ [0]) ++ (e.filename ++ [0]) ++ ft)

/-- The file written for an extracted program, fxp_read.py:1565-1583; `none` is an exception. -/
def emitProgram (e : Entry) : Option (List Nat) :=
  match emitHeaderData e with
  | none => none
  | some hd =>
    match checksumCalc hd with
    | none => none
    | some ck => emitBody e (hd ++ [0, 0] ++ leEncode 2 ck)

/-- The bytes written for one entry, fxp_read.py:1560-1589: programs get a container of
their own, everything else is copied. -/
def writeEntry (e : Entry) : Option (List Nat) :=
  if e.fileType = 0 then emitProgram e else some e.block

/-- `convert_date`, fxp_read.py:1436-1443, before `datetime(...)` validates. -/
structure DateFields where
  year : Nat
  month : Nat
  day : Nat
  hour : Nat
  minute : Nat
  second : Nat
  deriving DecidableEq, Repr

/-- fxp_read.py:1436-1443 -/
def convertDate (bits : Nat) : DateFields :=
  { year := ((bits &&& 0xfe000000) >>> 25) + 1980,
    month := (bits &&& 0x1e00000) >>> 21,
    day := (bits &&& 0x1f0000) >>> 16,
    hour := (bits &&& 0xf800) >>> 11,
    minute := (bits &&& 0x7e0) >>> 5,
    second := (bits &&& 0x1f) <<< 1 }

/-- `os.path.join(dir, name)` on POSIX (47 is the slash), used for every file written:
fxp_read.py:1564,1586. -/
def pathJoin (dir name : List Nat) : List Nat :=
  match name with
  | 47 :: _ => name
  | _ => if dir = [] ∨ dir.getLast? = some 47 then dir ++ name else dir ++ 47 :: name

/-- The files written into the output directory, in order: path and bytes
(fxp_read.py:1552-1589). Files written before an error are not recorded. -/
def extract (f outputDir : List Nat) : Except RErr (List (List Nat × List Nat)) :=
  match readContainer f with
  | .error e => .error e
  | .ok es =>
    match es.mapM (fun e => (writeEntry e).map (fun b => (pathJoin outputDir e.filename, b))) with
    | none => .error .structError
    | some ws => .ok ws

end Model.Fxp
