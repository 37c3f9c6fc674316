import Verif.Model.Abbrev
import Verif.Py.NameLit
/-!
# What a function call becomes

`func_call` (vfp2py_convert_visitor.py 631-970) as far as the choice of the function is concerned:
which function of the generated program or of the run-time library a name means.
-/
namespace Model.Calls
open Model.Abbrev (Str expand)

/-- What is called. vfp2py_convert_visitor.py:631-970 -/
inductive Target where
  /-- `super(type(self), self).<method>(...)`. -/
  | super
  /-- A function of the same file. -/
  | own (f : Str)
  /-- Code written in place of the call. -/
  | inline (f : Str)
  /-- `vfpfunc.f(...)`. -/
  | vfp (f : Str)
  /-- `DB.f(...)`. -/
  | db (f : Str)
  /-- `F.f(...)` or `F['f'](...)`: looked up among the procedure files when the program runs. -/
  | viaF (f : Str)
  deriving DecidableEq, Repr

/-- The dictionary of vfp2py_convert_visitor.py 637-651. -/
def aliases : List (Str × Str) := List.zip
  names["at_c", "atcc", "atcline", "chrtranc", "leftc", "lenc", "likec", "ratc", "rightc", "select", "stuffc",
    "substrc", "sys"]
  names["at", "atc", "atline", "chrtran", "left", "len", "like", "rat", "right", "select_function", "stuff", "substr",
    "vfp_sys"]

/-- The name after the replacements at the start of `func_call`, vfp2py_convert_visitor.py:631-655 -/
def alias (name : Str) : Str := (aliases.lookup name).getD name

/-- The names for which code is written whatever the arguments are, vfp2py_convert_visitor.py 656-960
(`if funcname == ...: return ...`), in the order of the code. -/
def inlineNames : List Str :=
  names["asc", "len", "alen", "ains", "acopy", "empty", "occurs", "atc", "at", "rat", "date", "datetime", "time", "dtot", "year",
   "month", "day", "hour", "minute", "sec", "dow", "cdow", "cmonth", "dmy", "between", "nvl", "evl", "sign", "alltrim", "ltrim",
   "rtrim", "lower", "upper", "padr", "padl", "padc", "proper", "right", "substr", "getenv", "getwordcount", "rand", "ceiling",
   "exp", "log", "log10", "sin", "cos", "tan", "asin", "acos", "atan", "atan2", "pi", "sqrt", "dtor", "rtod", "bitand",
   "bitclear", "bitlshift", "bitnot", "bitor", "bitrshift", "bitset", "bittest", "bitxor", "abs", "round", "max", "min", "mod",
   "int", "isnull", "isalpha", "islower", "isdigit", "isupper", "inlist", "parameters", "createobject", "fcreate", "fopen",
   "fclose", "fputs", "fwrite", "fgets", "fread", "fseek", "file", "directory", "justdrive", "justpath", "justfname", "juststem",
   "justext", "forceext", "addbs", "curdir"]

/-- The names for which code is written for some numbers of arguments: vfp2py_convert_visitor.py 656
(`chr`), 658 (`val`), 660 (`space`), 676-682 (`ascan`), 719 (`replicate`), 768 (`iif`), 815 (`left`), 881
(`pythonfunctioncall`). -/
def inlineCounts : List (Str × List Nat) := List.zip
  names["chr", "val", "space", "ascan", "replicate", "iif", "left", "pythonfunctioncall"]
  [[1], [1], [1], [2, 3, 4], [2], [3], [2], [3]]

/-- The names for which code is written depending on the values of constant arguments:
vfp2py_convert_visitor.py 752-767 (`dtoc`, `dtos`), 790-807 (`strtran`), 808-813 (`strconv`). -/
def inlineSpecial : List Str := names["dtoc", "dtos", "strtran", "strconv"]

/-- The names defined by vfpfunc.py that are in lower case and begin with a letter (`dir(vfpfunc)`): its
imports, functions and variables. -/
def vfpNames : List Str :=
  names["absolute_import", "division", "print_function", "dt", "os", "sys", "types", "ctypes", "traceback", "re", "inspect", "glob",
   "importlib", "functools", "pyodbc", "dateutil", "win32com", "qt_app", "atline", "capslock", "cdx", "chrtran", "ctod",
   "ddeinitiate", "ddesetoption", "ddeterminate", "ddesetservice", "ddesettopic", "dow_fix", "dtos", "dtoc", "error", "fdate",
   "ftime", "filetostr", "getdir", "getfile", "getwordcount", "getwordnum", "gomonth", "home", "inkey", "isblank", "like",
   "lineno", "locfile", "message", "messagebox", "pcount", "program", "quarter", "quit", "ratline", "rgb", "seconds", "str",
   "strextract", "strtofile", "strtran", "stuff", "sqlcommit", "sqlconnect", "sqlstringconnect", "sqlexec", "sqlrollback",
   "sqltables", "sqldisconnect", "vfp_sys", "vartype", "version", "wait", "gather", "scatter", "set", "text", "create_object",
   "clearall", "clear", "module", "error_func", "parameters", "lparameters", "vfpclass"]

/-- The methods and attributes of the `DatabaseContext` that begin with a letter (`dir(DB)`). vfpdatabase.py:37-377 -/
def dbNames : List Str :=
  names["get_workarea", "select_function", "create_table", "alter_table", "select", "use", "alias", "dbf", "used", "append",
   "append_from", "replace", "insert", "skip", "goto", "scanner", "count", "copy_structure", "delete_record", "sum", "pack",
   "reindex", "index_on", "close_tables", "recno", "reccount", "recsize", "bof", "eof", "deleted", "locate", "continue_locate",
   "seek", "found", "browse", "zap", "field", "afields", "fcount", "cpdbf", "current_table", "open_tables"]

/-- The call in the source: how many arguments, and whether the constant arguments are ones for which
the functions of `inlineSpecial` are written in place. The arguments of `func_call`, vfp2py_convert_visitor.py:631 -/
structure Site where
  count : Nat
  special : Bool

/-- vfp2py_convert_visitor.py:656-960 -/
def isInline (name : Str) (site : Site) : Bool :=
  inlineNames.contains name ||
  inlineCounts.any (fun p => p.1 == name && p.2.contains site.count) ||
  (inlineSpecial.contains name && site.special)

/-- The rest of `func_call` for a name that is not a function of the file, vfp2py_convert_visitor.py
656-970. -/
def library (name : Str) (site : Site) : Target :=
  if isInline name site then .inline name
  else if vfpNames.contains name then .vfp name
  else if dbNames.contains name then .db name
  else .viaF name

/-- `func_call`; `functions` is `self.function_list`. The names are in lower case and begin with a letter.
vfp2py_convert_visitor.py:631-970 -/
def resolve (functions : List Str) (written : Str) (site : Site) : Target :=
  let name := alias (expand written)
  if name = "dodefault".toList then .super
  else if functions.contains name then .own name
  else library name site

end Model.Calls
