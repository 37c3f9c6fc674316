/-!
# Low-level file functions

FCREATE, FOPEN, FCLOSE, FPUTS, FWRITE, FGETS, FREAD and FSEEK, vfp2py_convert_visitor.py 910-942,
become `open` and the methods of Python's text files.

Simplifications: characters are bytes (an encoding with one byte per character); a file is followed
through one handle; writing behind a read on the same handle is taken to happen at the place read to
(Python may have read further ahead, so nothing is claimed about such programs).
-/
namespace Model.LowFiles

/-- Text as a list of characters; a Python `str` at vfp2py_convert_visitor.py:910-942. -/
abbrev Str := List Char

/-- The second argument of FOPEN and FCREATE: absent, a number, or another expression. vfp2py_convert_visitor.py:910-920 -/
inductive ModeArg where
  | absent
  | num (n : Nat)
  | code
  deriving DecidableEq, Repr

/-- What the conversion makes of FOPEN or FCREATE: a call of `open` with a mode, a call that `open`
rejects with TypeError, or nothing, because the conversion raises. vfp2py_convert_visitor.py:910-920 -/
inductive OpenCode where
  | mode (m : Str)
  | badCall
  | none
  deriving DecidableEq, Repr

/-- vfp2py_convert_visitor.py:911. -/
def opentypes (create : Bool) : List Str :=
  if create then ["w".toList, "r".toList] else ["r".toList, "w".toList, "r+".toList]

/-- vfp2py_convert_visitor.py:910-920.  Line 912 compares a `CodeStr` with a number (TypeError), line
915 may be outside of the tuple (IndexError), and line 919 appends a third argument that `open` takes
for the size of the buffer. -/
def openCode (create : Bool) : ModeArg → OpenCode
  | .absent => match (opentypes create)[0]? with
    | some m => .mode m
    | Option.none => .none
  | .num n =>
    if n ≤ (opentypes create).length then
      match (opentypes create)[n]? with
      | some m => .mode m
      | Option.none => .none
    else .badCall
  | .code => .none

/-- An open text file of Python: what is before and behind the position, and the modes.
Made by the code of vfp2py_convert_visitor.py:910-920 -/
structure File where
  before : Str
  after : Str
  readable : Bool
  writable : Bool
  deriving DecidableEq, Repr

/-- Exceptions of the code of vfp2py_convert_visitor.py:910-942 -/
inductive Err where
  | fileNotFound
  | typeError
  | unsupported
  deriving DecidableEq, Repr

/-- Python's `open(name, mode)`; `content` is that of the file, if there is one.
Called by the code of vfp2py_convert_visitor.py:910-920 -/
def pyOpen (mode : Str) (content : Option Str) : Except Err File :=
  if mode = "w".toList then .ok { before := [], after := [], readable := false, writable := true }
  else match content with
    | Option.none => .error .fileNotFound
    | some c => .ok { before := [], after := c, readable := true, writable := mode = "r+".toList }

/-- The content of the file when it is closed. After the code of vfp2py_convert_visitor.py:921-942 -/
def File.content (f : File) : Str := f.before ++ f.after

/-- Running the generated call; `Option.none`: there is none. vfp2py_convert_visitor.py:910-920 -/
def openFile (create : Bool) (arg : ModeArg) (content : Option Str) : Option (Except Err File) :=
  match openCode create arg with
  | .mode m => some (pyOpen m content)
  | .badCall => some (.error .typeError)
  | .none => Option.none

/-- Python writes `os.linesep` for a line feed. Part of `write`, called by the code of vfp2py_convert_visitor.py:921-942 -/
def translate (linesep : Str) (s : Str) : Str := s.flatMap fun c => if c = '\n' then linesep else [c]

/-- `f.write(s)`: the result and the file afterwards. Called by the code of vfp2py_convert_visitor.py:921-942 -/
def File.write (linesep : Str) (f : File) (s : Str) : Except Err (Nat × File) :=
  if f.writable then
    .ok (s.length, { f with before := f.before ++ translate linesep s
                            after := f.after.drop (translate linesep s).length })
  else .error .unsupported

/-- The first character of a text in Python's universal newline mode, with what is behind it.
Part of `read`, called by the code of vfp2py_convert_visitor.py:921-942 -/
def nextChar : Str → Option (Char × Str × Str)
  | [] => Option.none
  | '\r' :: '\n' :: s => some ('\n', ['\r', '\n'], s)
  | '\r' :: s => some ('\n', ['\r'], s)
  | c :: s => some (c, [c], s)

/-- `f.read(n)`: the characters, the bytes read and those left. Called by the code of vfp2py_convert_visitor.py:921-942 -/
def readChars : Nat → Str → Str × Str × Str
  | 0, s => ([], [], s)
  | n + 1, s =>
    match nextChar s with
    | Option.none => ([], [], s)
    | some (c, used, rest) =>
      let r := readChars n rest
      (c :: r.1, used ++ r.2.1, r.2.2)

/-- `f.readline(n)`: up to a line feed, which is part of the result. Called by the code of vfp2py_convert_visitor.py:921-942 -/
def readLine : Nat → Str → Str × Str × Str
  | 0, s => ([], [], s)
  | n + 1, s =>
    match nextChar s with
    | Option.none => ([], [], s)
    | some (c, used, rest) =>
      if c = '\n' then ([c], used, rest)
      else
        let r := readLine n rest
        (c :: r.1, used ++ r.2.1, r.2.2)

/-- A method of Python's text files for reading, called by the code of vfp2py_convert_visitor.py:921-942 -/
def File.reading (read : Str → Str × Str × Str) (f : File) : Except Err (Str × File) :=
  if f.readable then
    .ok ((read f.after).1, { f with before := f.before ++ (read f.after).2.1, after := (read f.after).2.2 })
  else .error .unsupported

/-- `.strip('\r\n')`. vfp2py_convert_visitor.py:921-942 -/
def isEnd (c : Char) : Bool := c = '\r' || c = '\n'
/-- vfp2py_convert_visitor.py:921-942 -/
def stripEnds (s : Str) : Str := ((s.dropWhile isEnd).reverse.dropWhile isEnd).reverse

/-- FPUTS and FWRITE, vfp2py_convert_visitor.py:923-929; `limit` is the third argument. -/
def fwrite (linesep : Str) (f : File) (s : Str) (limit : Option Nat) : Except Err (Nat × File) :=
  f.write linesep (match limit with | some n => s.take n | Option.none => s)

/-- vfp2py_convert_visitor.py:921-942 -/
def fputs (linesep : Str) (f : File) (s : Str) (limit : Option Nat) : Except Err (Nat × File) :=
  f.write linesep ((match limit with | some n => s.take n | Option.none => s) ++ "\r\n".toList)

/-- FGETS and FREAD, vfp2py_convert_visitor.py:930-939.  Without a limit Python reads everything. -/
def fgets (f : File) (limit : Option Nat) : Except Err (Str × File) :=
  (f.reading (readLine (limit.getD f.after.length))).map fun r => (stripEnds r.1, r.2)

/-- vfp2py_convert_visitor.py:921-942 -/
def fread (f : File) (limit : Option Nat) : Except Err (Str × File) :=
  f.reading (readChars (limit.getD f.after.length))

/-- FSEEK, vfp2py_convert_visitor.py:940-942: `f.seek(n, whence)` of a text file, which moves
relative to the position or the end only by 0.  Places behind the end are not modelled. -/
def fseek (f : File) (n : Int) (whence : Nat) : Except Err (Int × File) :=
  if whence = 0 then
    if 0 ≤ n then .ok (n, { f with before := f.content.take n.toNat, after := f.content.drop n.toNat })
    else .error .unsupported
  else if n = 0 then
    if whence = 1 then .ok (f.before.length, f)
    else if whence = 2 then .ok (f.content.length, { f with before := f.content, after := [] })
    else .error .unsupported
  else .error .unsupported

/-- Writing texts with FPUTS, one after the other. Repeated code of vfp2py_convert_visitor.py:921-942 -/
def fputsAll (linesep : Str) (f : File) : List Str → Except Err File
  | [] => .ok f
  | s :: ss => match fputs linesep f s Option.none with
    | .ok r => fputsAll linesep r.2 ss
    | .error e => .error e

/-- Calling FGETS `n` times. Repeated code of vfp2py_convert_visitor.py:921-942 -/
def fgetsAll (f : File) : Nat → Except Err (List Str × File)
  | 0 => .ok ([], f)
  | n + 1 => match fgets f Option.none with
    | .ok r => match fgetsAll r.2 n with
      | .ok q => .ok (r.1 :: q.1, q.2)
      | .error e => .error e
    | .error e => .error e

end Model.LowFiles
