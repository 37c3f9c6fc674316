import Verif.Py.Dict
/-!
# Abbreviated function names

`expander` of function_abbreviations.py.
-/
namespace Model.Abbrev

/-- Text as a list of characters; a Python `str` at function_abbreviations.py:1-326. -/
abbrev Str := List Char

/-- The entries of `function_abbreviations` (function_abbreviations.py 1-313), in order. -/
def table : List String := [
  "ACLA|SS", "ADBO|BJECTS", "ADAT|ABASES", "ADOC|KSTATE", "AERR|OR", "AEVE|NTS", "AFIE|LDS", "AFON|T", "AGETC|LASS",
  "AGETF|ILEVERSION", "AINST|ANCE", "ALAN|GUAGE", "ALIN|ES", "AMEM|BERS", "AMOU|SEOBJ", "ANET|RESOURCES",
  "APRI|NTERS", "APRO|CINFO", "ASQL|HANDLES", "ASEL|OBJ", "ASTA|CKINFO", "ATAG|INFO", "AUSE|D", "AVCX|CLASSES",
  "ACOP|Y", "ADDP|ROPERTY", "ADDB|S", "ADLL|S", "AELE|MENT", "ALIA|S", "ALLT|RIM", "ASCA|N", "ASES|SIONS", "ASOR|T",
  "ASUB|SCRIPT", "ATCL|INE", "ATLI|NE", "BETW|EEN", "BINT|OC", "BIND|EVENT", "BITA|ND", "BITC|LEAR", "BITL|SHIFT",
  "BITN|OT", "BITO|R", "BITR|SHIFT", "BITS|ET", "BITT|EST", "BITX|OR", "CTOB|IN", "CAND|IDATE", "CAPS|LOCK",
  "CEIL|ING", "CHRS|AW", "CHRT|RAN", "CLEARR|ESULTSET", "CMON|TH", "CNTB|AR", "CNTP|AD", "COMA|RRAY",
  "COMC|LASSINFO", "COMR|ETURNERROR", "COMP|OBJ", "CPCO|NVERT", "CPCU|RRENT", "CPDB|F", "CREATEB|INARY",
  "CREATE|OBJECT", "CREATEOF|FLINE", "CURD|IR", "CURSORG|ETPROP", "CURSORS|ETPROP", "CURSORTOX|ML", "CURV|AL",
  "DBAL|IAS", "DBGE|TPROP", "DBSE|TPROP", "DBUS|ED", "DDEAB|ORTTRANS", "DDEAD|VISE", "DDEEN|ABLED", "DDEEX|ECUTE",
  "DDEI|NITIATE", "DDEL|ASTERROR", "DDEP|OKE", "DDER|EQUEST", "DDES|ETOPTION", "DDESETS|ERVICE", "DDESETT|OPIC",
  "DDET|ERMINATE", "DATET|IME", "DEFA|ULTEXT", "DELE|TED", "DESC|ENDING", "DIFF|ERENCE", "DIRE|CTORY", "DISK|SPACE",
  "DISP|LAYPATH", "DODE|FAULT", "DRIV|ETYPE", "DROP|OFFLINE", "EDIT|SOURCE", "EMPT|Y", "ERRO|R", "EVAL|UATE",
  "EVENT|HANDLER", "EXEC|SCRIPT", "FCHS|IZE", "FCLO|SE", "FCOU|NT", "FCRE|ATE", "FDAT|E", "FERR|OR", "FFLU|SH",
  "FGET|S", "FIEL|D", "FILET|OSTR", "FILT|ER", "FKLA|BEL", "FKMA|X", "FLOC|K", "FLOO|R", "FONT|METRIC", "FOPE|N",
  "FORC|EEXT", "FORCEP|ATH", "FOUN|D", "FPUT|S", "FREA|D", "FSEE|K", "FSIZ|E", "FTIM|E", "FULL|PATH", "FWRI|TE",
  "GETA|UTOINCVALUE", "GETC|OLOR", "GETCU|RSORADAPTER", "GETD|IR", "GETE|NV", "GETF|ILE", "GETFL|DSTATE", "GETFO|NT",
  "GETH|OST", "GETI|NTERFACE", "GETN|EXTMODIFIED", "GETO|BJECT", "GETP|EM", "GETPI|CT", "GETPR|INTER",
  "GETR|ESULTSET", "GETWORDC|OUNT", "GETWORDN|UM", "GETB|AR", "GETPA|D", "GOMO|NTH", "HEAD|ER", "ICAS|E",
  "IMES|TATUS", "IDXC|OLLATE", "INLI|ST", "INDB|C", "INDE|XSEEK", "INKE|Y", "INPU|TBOX", "INSM|ODE", "ISAL|PHA",
  "ISBL|ANK", "ISCO|LOR", "ISDI|GIT", "ISEX|CLUSIVE", "ISFL|OCKED", "ISHO|STED", "ISLE|ADBYTE", "ISLO|WER",
  "ISME|MOFETCHED", "ISMO|USE", "ISNU|LL", "ISPE|N", "ISRL|OCKED", "ISRE|ADONLY", "ISTR|ANSACTABLE", "ISUP|PER",
  "JUSTD|RIVE", "JUSTE|XT", "JUSTF|NAME", "JUSTP|ATH", "JUSTS|TEM", "KEYM|ATCH", "LAST|KEY", "LINE|NO",
  "LOAD|PICTURE", "LOCF|ILE", "LOG1|0", "LOOK|UP", "LOWE|R", "LTRI|M", "LUPD|ATE", "MAKE|TRANSACTABLE", "MDOW|N",
  "MEML|INES", "MEMO|RY", "MESS|AGE", "MESSAGEB|OX", "MINU|TE", "MLIN|E", "MONT|H", "MRKB|AR", "MRKP|AD", "MWIN|DOW",
  "NEW|OBJECT", "NORM|ALIZE", "NUML|OCK", "OBJT|OCLIENT", "OCCU|RS", "OLDV|AL", "ORDE|R", "PARA|METERS", "PAYM|ENT",
  "PCOU|NT", "PEMS|TATUS", "POPU|P", "PRIM|ARY", "PRIN|TSTATUS", "PRMB|AR", "PRMP|AD", "PROG|RAM", "PROM|PT",
  "PROP|ER", "PRTI|NFO", "PUTF|ILE", "QUAR|TER", "RAIS|EEVENT", "RATL|INE", "RECC|OUNT", "RECN|O", "RECS|IZE",
  "REFR|ESH", "RELA|TION", "REMO|VEPROPERTY", "REPL|ICATE", "REQU|ERY", "RGBS|CHEME", "RIGH|T", "RLOC|K", "ROUN|D",
  "RTRI|M", "SQLCA|NCEL", "SQLCOL|UMNS", "SQLCOM|MIT", "SQLCON|NECT", "SQLD|ISCONNECT", "SQLE|XEC", "SQLG|ETPROP",
  "SQLI|DLEDISCONNECT", "SQLM|ORERESULTS", "SQLP|REPARE", "SQLR|OLLBACK", "SQLSE|TPROP", "SQLST|RINGCONNECT",
  "SQLT|ABLES", "SAVE|PICTURE", "SCHE|ME", "SCOL|S", "SECO|NDS", "SELE|CT", "SETF|LDSTATE", "SETR|ESULTSET",
  "SKPB|AR", "SKPP|AD", "SOUN|DEX", "SPAC|E", "SROW|S", "STRE|XTRACT", "STRTO|FILE", "STRC|ONV", "STRTR|AN",
  "STUF|F", "SUBS|TR", "SYSM|ETRIC", "TABLER|EVERT", "TABLEU|PDATE", "TAGC|OUNT", "TAGN|O", "TARG|ET", "TEXT|MERGE",
  "TRAN|SFORM", "TXNL|EVEL", "TXTW|IDTH", "UNBI|NDEVENTS", "UPPE|R", "VART|YPE", "VERS|ION", "WDOC|KABLE",
  "WBOR|DER", "WCHI|LD", "WCOL|S", "WEXI|ST", "WFON|T", "WLAS|T", "WLCO|L", "WLRO|W", "WMAX|IMUM", "WMIN|IMUM",
  "WONT|OP", "WOUT|PUT", "WPAR|ENT", "WROW|S", "WTIT|LE", "WVIS|IBLE", "XMLT|OCURSOR", "XMLU|PDATEGRAM"]

/-- `abbr.find('|')`, or the length if there is no bar (every entry has one). Function_abbreviations.py:322 -/
def cutOf (abbr : Str) : Nat := (abbr.takeWhile (· ≠ '|')).length

/-- `(abbr[:cut] + abbr[cut+1:]).lower()` (function_abbreviations.py 323). -/
def keywordOf (abbr : Str) : Str := (abbr.take (cutOf abbr) ++ abbr.drop (cutOf abbr + 1)).map Char.toLower

/-- The keys written for one entry (function_abbreviations.py 324-325):
`for cut in range(cut, len(keyword)+1): expander[keyword[:cut]] = keyword`. -/
def prefixes (cut : Nat) (keyword : Str) : List (Str × Str) :=
  (List.range' cut (keyword.length + 1 - cut)).map fun i => (keyword.take i, keyword)

/-- The dictionary before the loop (function_abbreviations.py 315-319). -/
def initial : Py.Dict Str Str := [("msgb".toList, "messagebox".toList), ("trim".toList, "rtrim".toList)]

/-- The loop (function_abbreviations.py 321-325). -/
def build (entries : List Str) : Py.Dict Str Str :=
  entries.foldl (fun d abbr => (prefixes (cutOf abbr) (keywordOf abbr)).foldl (fun d p => d.set p.1 p.2) d) initial

/-- The dictionary `expander`, function_abbreviations.py:314-326 -/
def expander : Py.Dict Str Str := build (table.map String.toList)

/-- `function_expander.get(funcname, funcname)` (vfp2py_convert_visitor.py 633). -/
def expand (name : Str) : Str := (expander.get name).getD name

end Model.Abbrev
