/-!
# The code pages of programs

How the characters of a program get from the input file to the output file: `preprocess_file` and `convert_file`,
vfp2py.py:199-202, 500-538, and `main`, __main__.py:9-28.

A code page is a table from bytes to characters (the encodings with one byte for a character that FoxPro has);
Python's `decode` and `encode` raise an exception for what is not in the table.  The preprocessor and the
translation (modelled elsewhere: Preproc, Program and others) are functions here that may raise an exception.
Simplifications: the names of the files and the writing of files are in Files; the include files that the
preprocessor reads are part of it.
-/
namespace Model.Encodings

/-- A Python `str`, vfp2py.py:532-538 -/
abbrev Str := List Char
/-- A Python `bytes`, vfp2py.py:201, 536, 538 -/
abbrev Bytes := List Nat

/-- An encoding with one byte for each character. The argument `--encoding`, __main__.py:13 -/
abbrev CodePage := Nat → Option Char

/-- The bytes 128 to 159 of Python's `cp1252`; 0 stands for no character. vfp2py.py:536, __main__.py:13 -/
def cp1252High : List Nat :=
  [0x20AC, 0, 0x201A, 0x0192, 0x201E, 0x2026, 0x2020, 0x2021, 0x02C6, 0x2030, 0x0160, 0x2039, 0x0152, 0, 0x017D, 0,
   0, 0x2018, 0x2019, 0x201C, 0x201D, 0x2022, 0x2013, 0x2014, 0x02DC, 0x2122, 0x0161, 0x203A, 0x0153, 0, 0x017E, 0x0178]

/-- Python's `cp1252`. vfp2py.py:536, __main__.py:13 -/
def cp1252 : CodePage := fun b =>
  if b < 128 ∨ (160 ≤ b ∧ b < 256) then some (Char.ofNat b)
  else match cp1252High[b - 128]? with
    | some 0 | none => none
    | some n => some (Char.ofNat n)

/-- `bytes.decode(encoding)`; `none` is `UnicodeDecodeError`. vfp2py.py:201 -/
def decode (cp : CodePage) : Bytes → Option Str
  | [] => some []
  | b :: bs => match cp b, decode cp bs with
    | some c, some cs => some (c :: cs)
    | _, _ => none

/-- The byte of a character. vfp2py.py:536 -/
def byteOf (cp : CodePage) (c : Char) : Option Nat := (List.range 256).find? fun b => cp b == some c

/-- `str.encode(encoding)`; `none` is `UnicodeEncodeError`. vfp2py.py:536 -/
def encode (cp : CodePage) : Str → Option Bytes
  | [] => some []
  | c :: cs => match byteOf cp c, encode cp cs with
    | some b, some bs => some (b :: bs)
    | _, _ => none

/-- `encode('utf-8')` of a character, vfp2py.py:538 -/
def utf8Char (c : Char) : Bytes :=
  let n := c.toNat
  if n < 0x80 then [n]
  else if n < 0x800 then [0xC0 + n / 64, 0x80 + n % 64]
  else if n < 0x10000 then [0xE0 + n / 4096, 0x80 + n / 64 % 64, 0x80 + n % 64]
  else [0xF0 + n / 262144, 0x80 + n / 4096 % 64, 0x80 + n / 64 % 64, 0x80 + n % 64]

/-- `encode('utf-8')`, vfp2py.py:538 -/
def utf8 : Str → Bytes
  | [] => []
  | c :: cs => utf8Char c ++ utf8 cs

/-- The preprocessor (with the encoding for the include files) and the translation. vfp2py.py:189-197, 474-493 -/
structure Translator where
  preprocess : CodePage → Str → Option Str
  translate : Str → Option Str

/-- `convert_file` from the text of the program on: the text is encoded for a file that nobody reads, then it is
translated. vfp2py.py:532-538 -/
def convertText (t : Translator) (cp : CodePage) (text : Str) : Option Bytes :=
  match t.preprocess cp text with
  | none => none
  | some tokens =>
    let data := "procedure _program_main\n".toList ++ tokens.filter (· ≠ '\r')
    match encode cp1252 data with
    | none => none
    | some _ => (t.translate data).map fun output => utf8 ("# coding=utf-8\n".toList ++ output)

/-- `convert_file` for a program: the bytes of the output file. vfp2py.py:199-202, 519-538 -/
def convertFile (t : Translator) (cp : CodePage) (file : Bytes) : Option Bytes :=
  (decode cp file).bind (convertText t cp)

/-- The command line. __main__.py:9-17 -/
structure Args where
  profile : Bool
  encoding : CodePage
  infile : Bytes

/-- `main`: with `--profile` the call lacks an argument, which is a `TypeError`. __main__.py:19-28 -/
def main (t : Translator) (a : Args) : Option Bytes :=
  if a.profile then none else convertFile t a.encoding a.infile

end Model.Encodings
