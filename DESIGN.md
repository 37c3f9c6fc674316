# Formal model of vfp2py: design

The code under study is the Python project in `/repo` (mwisslead/vfp2py): a FoxPro-to-Python
converter (`vfp2py.py`, `vfp2py_convert_visitor.py`), the run-time library used by converted
programs (`vfpfunc.py`, `vfpdatabase.py`), the table of abbreviations
(`function_abbreviations.py`) and a reader of compiled programs (`fxp_read.py`). It was read as
text; nothing was run.

## Layout

* `properties.jsonl`  the properties (C01, ...), in terms of what a user of the project sees.
* `MANIFEST.json`     for each property its status and the exact names of its theorems.
* `seeded/LOG.jsonl`  the wrong programs tried against the theorems, one per line.
* `lean/Verif/Py/*`      Python primitives used by the code (slices, `find`, `split`, `range`, dictionaries).
* `lean/Verif/Model/*`   the code, function by function; every definition cites file and lines
  and states its simplifications.
* `lean/Verif/Spec/*`    what FoxPro users expect, written without the model's helpers (small specs
  are in the `...Spec` namespaces of `Props` files).
* `lean/Verif/Lemmas/*`  auxiliary lemmas (also in the `...Aux` namespaces of `Props` files).
* `lean/Verif/Props/*`   the property theorems. `Props.C12_...` belongs to property C12. Beside the
  theorems are `example`s with concrete cases that meet their hypotheses.

Naming: no suffix means the statement (or the named part of it) without reservations; `_partial`
means the property under hypotheses that exclude inputs the property speaks about (what is missing
is said in the comment and in the manifest note); `_fails` is the proof that the code does not have
the property, universally over all inputs of a kind where that is possible and otherwise on a
concrete witness. Suffixes such as `_exact`, `_lost` name theorems that say what the code does
instead.

A property with a `_fails` theorem is "partial" in the manifest even when the `_partial` theorem
covers everything else: the property as users expect it is false for this code.

## Shape of the proofs

| ids | modelled | proof |
|---|---|---|
| C01-C08, C85, C86 | `_Memvar`, and the wrapper made by `_parameters`, as a big-step interpreter of a small statement language (assign, declare, release, call, raise, try) | induction over executions; list of levels as invariant |
| C09-C11, C58 | class `Array`, ASCAN | arithmetic; read/write laws |
| C12-C18, C62 | string functions of `vfpfunc.py`; regular expressions of `like`/`strextract` as the matcher the generated patterns denote | induction over strings |
| C19, C82 | day and quarter arithmetic; `dtos`, `dtoc`, `ctod` | modular arithmetic; order of fixed-width decimals |
| C20, C63 | `set`, `SET_PROPS`, SET statements | case analysis; invariant over histories |
| C21-C28, C64, C65, C83, C84 | `vfpdatabase.py` over abstract records with the navigation of the `dbf` library; the statements that call it | refinement; induction over records and histories |
| C29-C34, C59-C61 | checksum, container, code areas, expression decoding of `fxp_read.py` | injectivity of the CRC step; byte-level round trips; induction over expression trees |
| C35-C37, C66-C68 | `PreprocessVisitor` on the tree of preprocessor lines | induction over the tree; refinement to a textual specification |
| C38-C40, C45, C48, C49, C53, C71 | `TreeCleanVisitor` and the expression part of the convert visitor as a function from trees to Python tokens | an independent Python grammar and evaluator; induction over trees |
| C41, C47, C57 | literals | induction over texts; reading back |
| C42-C44, C52, C55, C69, C70 | statement conversion, `add_indents`, comments | reading the indentation back; semantics of both languages and induction over executions |
| C46, C94, C95 | the whole abbreviation table; the choice of the called function in `func_call` | complete evaluation of the table, lifted to all names |
| C50, C81 | procedure files, DO | invariant over histories |
| C51, C56, C72 | `convert_file`, `find_full_path`, projects | induction over the file lists |
| C73-C76 | class definitions | induction over the members |
| C96-C98 | operators on texts and dates (`visitComparison`, `operationExpr`), over the values of `Model/PyVal.lean` | values of arbitrary operand expressions by C71 |
| C99 | `gomonth` with the algorithm of `relativedelta` | integer arithmetic |
| C100-C102 | `strtofile`, `filetostr`, SYS(2000), `program` | encodings read back; induction over calls |
| C103-C105 | `scopeId`, `visitIdentifier`, names of `visitPrg`, `visitPrintStmt` | induction over names, procedures, statements |
| C106, C109, C110 | `scatter`, `gather`, `_update_from`, `seek`, `index_on`, methods with a table argument | refinement to tables; induction over histories of SEEK |
| C107, C108 | TEXT blocks; CREATEOBJECT, `create_object`, `_Class` | induction over lines; search lists |
| C111, C112 | `convert_scx_to_vfp_code`, `convert_vcx_to_vfp_code` | induction over trees of objects stored as records |
| C113, C114 | FCREATE, FOPEN, FPUTS, FWRITE, FGETS, FREAD, FSEEK; JUSTFNAME and the like, FORCEEXT, ADDBS, with `open`, `ntpath` and `posixpath` of Python | a file as text before and after the position; induction over lines |
| C115, C116 | whole programs: the models of expressions, statements, names and scopes put together, with the FoxPro meaning of programs (Spec.Program) | simulation: a relation of states kept by every statement, induction over statements, iterations and depth of calls |
| C117, C118 | errors: exceptions with tracebacks, `from_pyexception`, ON ERROR | simulation of FoxPro's errors by exceptions over the tree of calls and TRYs; exact place and message of every object; a program is right until FoxPro runs the command |
| C119 | COPY FILE, RENAME, ERASE, MKDIR, RMDIR, CHDIR on a disk | refinement: a dictionary of paths to what is at every path |
| C120 | the library calls of the remaining commands | case analysis over commands and clauses |
| C121 | the Python properties of forms and controls over Qt widgets | execution of class bodies; exact condition for every class and property; parts read and written |
| C122, C54 | references to members, `createIdAttr`, `visitAtomExpr`, targets of assignments, WITH | induction over the parts of a reference and over nested blocks; exact conditions |
| C123 | binding of parameters of methods, `_parameters` | exact condition on the variables of the body |
| C124 | DODEFAULT, `super(type(self), self)` | simulation over runs given by an inductive relation; unbounded recursion by induction on fuel |
| C125 | arguments, imports and refused calls of the functions converted in place | case analysis with an exact condition over all argument lists |
| C126 | SET DELETED, PACK and commands with scope ALL over `_get_records` | refinement by induction over sequences of commands; exact condition for SET DELETED ON |
| C127 | creation of objects: properties, members, INIT, THISFORM | refinement by mutual induction over classes and their bodies; exact conditions |
| C128 | reading of FXP programs and their listings | round trip for every layout of the file; exact condition for complete listings |
| C129 | CREATE TABLE and ALTER TABLE | round trip through the description of fields; exact conditions by counting columns |
| C130 | MESSAGEBOX | decision logic for all types; exact conditions on the digits of the type |
| C131 | CAST | exact condition over a relation of conversions; induction over digits |
| C132 | SQLEXEC | induction over the rows inserted; composition with CREATE TABLE and the work areas |
| C133 | DECLARE ... IN library, CLEAR DLLS | invariant over histories of commands, refinement to a table of declarations |
| C134 | transactions of data sources | induction over histories of commands |
| C135 | names written in commands | induction over expressions |
| C136 | lines with & | induction over lines and programs |
| C137 | where a comment begins | induction over the pieces of a line |
| C138 | RUN | induction over arguments and characters |
| C139 | dates of compiled programs | calendar arithmetic, induction over days |
| C140 | CHR, ASC, SPACE, REPLICATE | C71 and induction |
| C141 | values of INSERT | induction over lists of names |
| C142 | grouping of operators from tokens to Python values | precedence climbing against an inductive grammar; induction over fuel and derivations |
| C143 | the directory of a container | induction over the directory, layouts described by positions |
| C144 | SET statements from the parse tree to SET() | case analysis over the grammar, length invariant over histories |
| C145 | INT, CEILING, MAX, MIN and INLIST | division with remainder, invariant of the selection loop, exact condition for INLIST |
| C146 | @ SAY is one statement of Python | lines and comments of Python as a scanner, exact condition |
| C147 | Statements are converted independently | invariant of the flag over all visits, exact condition for the leak |
| C148 | VARTYPE | case analysis over the types of values |
| C149 | FOR with fractions | ranges of integers compared with sequences of rational numbers; induction over the iterations is replaced by the arithmetic of the n-th value |
| C150 | numbers in listings | arithmetic of rounding; values of texts of digits |
| C151 | REPLACE with several fields | parser of the rule on all token lists; refinement to assignments on records |
| C152 | combo boxes, list boxes, grids | refinement of all histories to items, text and events; the table of cells by induction on rows and columns |
| C153 | code pages | decoding and encoding by induction on the file; UTF-8 as a relation with unique reading |
| C154 | INDEX ON | induction over records; exact condition for the order; failures for all tables and keys |
| C155 | FILE, DIRECTORY, LOCFILE | paths taken apart by induction over their folders; exact conditions for all disks |
| C156 | FOR EACH | induction over the elements left, against a relation over the subscripts row by row |
| C157 | superclasses | induction over the chain of superclasses; the search through the files against a relation |
| C158 | lines of compiled programs | induction over the items of a line on top of C34 |
| C159 | where `#INCLUDE` looks | induction over the folders on top of the path lemmas of C155 |
| C160 | memo files of forms, class libraries and projects | induction over the entries of a folder on top of C56 |
| C161 | ASSERT | induction over the program against a big-step semantics of FoxPro |
| C162 | what `?` shows of a value | case analysis; the characters of dates |
| C163 | parts of dates and times, `fdate`, `ftime`, `seconds` | the ordinal of the next day; induction over the calendar |
| C164 | `append_from`, `visitAppendFrom` | induction over the records of the source |
| C165 | comparison of logical values (`visitComparison`), over the values of `Model/PyVal.lean` | values of arbitrary operand expressions by C71 |
| C87-C93 | functions that become Python methods and operators (`strip`, `ljust`, `title`, `float`, `round`, conditional expressions) | induction over texts; integer arithmetic |
| C77-C80 | names, array elements and declarations in generated code | reduction to the variable, array and database models |

## Trusted base

* Lean's kernel and the axioms listed at the end: at most `propext`, `Classical.choice` and
  `Quot.sound`. No axiom is added, and there is no `sorry`, `native_decide` or `bv_decide`.
* The correspondence between the Lean definitions and the Python text, which is by reading only.
* The semantics of Python used in the models: `Verif/Py`, `Verif/Spec/PyExpr.lean` (expression
  grammar with precedences, comparison chains, conditional expressions, `and`/`or` that stop early,
  exceptions in operands), `Verif/Spec/Blocks.lean`
  (indentation, `if`/`for`/`while`/`try`), `Verif/Model/PyVal.lean` (values). Python 3 is assumed
  throughout.
* The description of FoxPro in `Verif/Spec` and in the `Spec` namespaces.
* The `dbf` library is not part of the repository. Its navigation is assumed to be: the index
  starts at -1; `goto(n)` sets the index to `n` (or `n + len` for negative `n`) and raises
  `IndexError` when that record does not exist; `top()`/`bottom()` set -1/len; `skip(n)` moves and
  clamps to -1/len raising `Bof`/`Eof`; `current_record` is a true value exactly on `0..len-1`;
  `eof`/`bof` mean that there is no record after/before the current one; `append` adds at the end.
* `strftime`, `strptime` and `repr` of Python's standard library, as stated where they are used.
* The ANTLR lexer and parser are not modelled, except the rule `expr` for operators (Precedence):
  the other models start from parse trees as the grammar `VisualFoxpro9.g4` defines them.

## What is modelled

By file of `/repo/vfp2py`, with the Lean module in parentheses.

**vfpfunc.py**: `SET_PROPS`, `set` (Settings); `Array` except `ains`/`acopy`-like helpers that do
not exist (Array); `_Memvar`, `_parameters`, `parameters`, `lparameters` (Memvar); `_Variable`
(Names); `_Function`, `_Class` without DLL calls and object creation (Procs, Names); `atline`,
`ratline`, `chrtran`, `getwords`, `getwordnum`, `getwordcount`, `like`, `rat`, `str`, `strextract`,
`strtran`, `stuff` (Strings); `dow_fix`, `quarter` (Settings); `ctod`, `dtos`, `dtoc` (Dates);
`module` (Do); `isblank` (TextFns); `gomonth` (Months); `strtofile`, `filetostr`, SYS(2000),
`program` (TextFiles); `scatter`, `gather` (Scatter); `text` (TextBlock); `create_object` (Objects); `Exception`, `message` (Errors); `error_func` (OnError); the properties of the
classes of controls with PySide, without colours, sources of rows and events (Controls), contents of combo boxes, list boxes and grids (Lists), `locfile` (FindFile).
The creation of objects is in Creation. Not modelled: the other parts of the GUI classes (48-848),
the rest of `sys`, `locfile`, the arguments of DLL calls. DECLARE of library functions is in Dll, SQLEXEC is in SqlExec, connections and transactions are in SqlConn (what the package `pyodbc` does is part of the trusted base), message boxes are in MessageBox (what Qt does with the flags is part of the trusted base).

**vfpdatabase.py**: the whole of `DatabaseContext` that navigates, selects, changes and scans
records (Database, Moves), indexes (Seek, IndexOn), tables named by functions (TableArgs) and the signatures
of all methods (DbCalls), CREATE TABLE and ALTER TABLE (CreateTable; the format of field descriptions of the package `dbf` is part of the trusted base). Not modelled: reading and writing files of other types, the contents of DBF files.

**fxp_read.py**: the container, checksum, directory and extraction (FxpHeader), all token tables
(FxpTables), lines, blocks and expressions of code areas (FxpCode), headers, procedures, classes and listings of programs (FxpListing), dates and times (FxpDates), numbers (FxpNumbers; in FxpCode the text of a number with decimals is a parameter). Not modelled: the parsing of command line options.

**vfp2py.py**: `PreprocessVisitor` (Preproc), code pages of `preprocess_file`, `convert_file` and `__main__.py` (Encodings), `add_indents` (Blocks), `TreeCleanVisitor` (Expr; names in commands: NameArgs),
where `#INCLUDE` looks (Includes), `memo_filename` and `copy_obscured_dbf` (MemoFile), `find_file_ignore_case`, property values, `find_full_path`, `read_vfp_project`, `convert_project`,
`convert_file` (Files), `convert_scx_to_vfp_code` (Forms), `convert_vcx_to_vfp_code` (ClassLib). Not
modelled: `run_parser`, `prg2py_after_preproc`.

**vfp2py_convert_visitor.py**: lines and blocks (Blocks), comments (Comments), lines with `&` (MacroLines, LineTokens), RUN (Run), FILE and DIRECTORY (FindFile), REPLACE with several fields (ReplaceFields), FOR over rational numbers (ForRange), FOR EACH (ForEach), ASSERT (Assert), the values behind `?` (Shown), VARTYPE (VarType), the flag `scope` of the converter (ScopeFlag), `@ SAY` (AtSay), INT, CEILING, MAX, MIN and INLIST (Extremes), SET statements with ON and OFF, BELL, CENTURY, COMPATIBLE, NOTIFY and REFRESH (SetStmt), values of INSERT (Insert), dates and times of compiled programs (FxpDates), class definitions
(Classes), declarations, assignments and names (Names), references to members and WITH (Paths), expressions and the functions
converted in place (Expr, TextFns, Numbers, Operators), functions for files and paths (LowFiles, PathFns), whole programs (Program), names in the generated module and `?` (ModuleNames), the choice of the called function (Calls), literals (Literals), DO (Do), SET and RELEASE PROCEDURE (Procs,
Settings), database statements (Database, DbCalls), file commands (FileCommands), ERROR, THROW and ON ERROR (Errors, OnError),
the calls of the remaining commands (Commands), DODEFAULT and methods (Methods), the arguments of the functions converted in place (InlineCalls), CAST (Cast). Not modelled: the arguments of the remaining commands (menus,
windows, REPORT, SQL), the order of imports.

**function_abbreviations.py**: completely (Abbrev).

**VisualFoxpro9Parser.py**: the rule `expr` with operators, parentheses, names, constants and
calls, as precedence climbing with the numbers of the generated code (Precedence); the choice of
alternatives by `adaptivePredict` is the choice by the next token.

Not modelled at all: the rest of `VisualFoxpro9.g4` and of the generated lexer/parser, `conversion.py`-style
command line wrappers, `autopep8` and `isort` formatting, the file system beyond a map from names
to contents.

## Simplifications that run through the models

* Case conversion acts on ASCII letters.
* Numbers are integers, except where exact decimals are said to be used; rounding of floating
  point numbers is not modelled.
* Exceptions are values; where a caught exception leaves changes behind, the state is returned with it.
* Values that code only stores are a type parameter or a small closed type.

## Disagreements between the code and the properties

Each has a `_fails` theorem. In the words of a user:

* C06 a caught error leaves one level of variables per abandoned procedure.
* C10, C58 a column subscript that is too large reaches the next row; `arr[n]` with several columns is an error or another element.
* C12 CHRTRAN with a shorter replacement list raises an exception. C13 STRTRAN starts one occurrence too late.
* C15 GETWORDNUM of index 0; several delimiter characters are taken as one text, an empty text of delimiters raises an exception. C16 STR of long negative numbers. C17 STREXTRACT does not cross lines. C18 LIKE needs only a prefix.
* C20, C63 SET COMPATIBLE, NOTIFY, CENTURY, BELL and thirteen unknown words.
* C21, C22 USE with an alias in use, USE without IN, SELECT with a number, closing by alias.
* C23, C24 NEXT past the end and RECORD beyond the table raise. C25 SCAN bodies that change the work area.
* C27 REPLACE with FOR or with values that depend on the record. C28 APPEND FROM ARRAY with one row.
* C31, C59-C61 containers with wrong lengths, unterminated names, names with slashes, negative currency.
* C37, C66-C68 headers that use names of the including file; constants within constants and within literals; comments that end in `;` or contain `&name`.
* C38-C40, C45 signs before parentheses and powers, `%` beside `*`, comparisons of comparisons, `x = x - 1 + 2`.
* C42, C43, C55, C70 FOR counting down, DO CASE with OTHERWISE only, FINALLY without CATCH, the variable after FOR.
* C47-C49, C53, C71 the hour 12, `1E+`, RIGHT(s,0), SUBSTR(s,n,1) past the end, AT with three arguments, bit 31, operands that need parentheses.
* C50, C81 RELEASE PROCEDURE, several procedure files, DO of a separate program, DO IN a menu, DO of a program whose name begins with a digit (`import 2024`) or of a function named like a reserved word of Python (`lib.import()`): the generated module is a syntax error; DO IN VFPFUNC calls the run-time library.
* C34 SET SEPARATOR is listed as SET SEPERATOR.
* C121 a height below 0 or above 16777215 reads back as that limit.
* C51, C56, C57, C72 unknown kinds of files, repeated path components, awkward property values, equal names in a project.
* C54 references behind a nested WITH; all references in a WITH for THIS or THISFORM, which become `S.self.name` and `S[self.parentform].name`; assignments to elements of arrays that are members.
* C62 ATLINE of a text that does not occur. C64 default scopes. C65 statements that call methods that do not exist.
* C73-C76 class properties with member accesses and arrays, properties of member objects set in the class body, LPARAMETERS in classes with ADD OBJECT, methods of inherited objects.
* C77-C80 (names that C103 is about are left out) elements of LOCAL arrays, arrays named like a function, `m.name`, names equal to an alias, DIMENSION, the variables CLASS, DB and MEMVAR.
* C82 dates before the year 1000, CTOD of an empty text or a year of two digits.
* C83, C84 SKIP 0, SKIP back beyond the first record, GO with a number below 1, empty tables; EOF() on the last and BOF() on the first record, so that DO WHILE NOT EOF() loops leave out the last record.
* C87-C93 PADR of long texts, ALLTRIM of tabulators and line ends, PROPER behind hyphens and digits, EMPTY of blank texts, EVL of .NULL., VAL of texts that are not numerals, ROUND of halves.
* C96-C98 `=` and `<>` of texts ignore SET EXACT, `-` of texts is an error, days cannot be added to dates, differences of dates are no numbers.
* C100-C102 STRTOFILE without Unicode flags writes nothing and empties the file, FILETOSTR always fails, PROGRAM(n) and PROGRAM(-1) count every procedure twice, the main program is called MAIN.
* C103-C105 variables and procedures named like Python keywords; variables whose names have no letter (`_1`), which become variables of Python; procedures named like imports or built-in functions (`print`, `len`, `os`, `vfpfunc`); `??` behind `?`.
* C106 FIELDS clauses, BLANK, MEMVAR, SCATTER TO and ADDITIVE; GATHER FROM an array into a table with a field named like an attribute of arrays.
* C107 line ends and the blanks at the ends of lines are lost; ADDITIVE, TEXTMERGE, FLAGS and PRETEXT have no effect.
* C108 classes named by an expression when the program itself defines them, 19 base classes, classes named `c`, `f`, `m`, `s`.
* C109 every SEEK after the first continues the first search whatever key it is given; SEEK in another order; partial keys. Records are also not visited in the order of an index.
* C110 RECNO(alias), RECCOUNT(alias), FCOUNT(alias), ZAP IN; FIELD(n) for an n without a field.
* C111 objects within objects of a form are lost; forms of a class of one's own; empty values and values with ` = `; colours of the form itself; texts with `PROCEDURE `.
* C112 the objects within a class of a library become classes of their own.
* C113 FOPEN(f,1) empties the file, FOPEN of a missing file raises, FCREATE gives a file that cannot be read, FSEEK relative to other places than the beginning raises, FPUTS on Windows writes CR CR LF, FREAD loses carriage returns.
* C114 literal paths lose their capital letters, FORCEEXT with an empty extension leaves a dot, names that begin with a dot, ADDBS of a drive; nothing works with backslashes on other systems than Windows.
* C13 STRTRAN with an empty search text inserts the replacement between all characters. C95 ATCLINE distinguishes capital and small letters.
* C139 the empty date and time, which is shown as the empty date.
* C117 The object of CATCH TO has errorno 0 for every error, the message of THROW is the value thrown, and
  procedure and line are those of the TRY, not of the error; MESSAGE() raises an AttributeError.
* C118 The command of ON ERROR is stored and never run; the first error ends the program.  STORE to several
  variables as the command would assign the first one only, `ON ERROR x = x + 1` ends the conversion.
* C119 RENAME to an existing name replaces that file; literal names are in lower case, which is another file
  where case matters; `ERASE *.bak` raises an error.
* C120 Menus, popups, DO FORM, READ EVENTS, REPORT FORM, ON KEY and lines with macros become calls of functions
  that the library does not have.
* C121 WIDTH of forms, buttons, labels, combo boxes and shapes reads the height (`@height.setter` above `def width`);
  FONTUNDERLINE cannot be read; ALLOWCELLSELECTION reads inverted; LEFT, TOP and in many classes WIDTH, HEIGHT, ENABLED,
  VISIBLE and VALUE are attributes that the widget never sees.
* C122 `oList.GetItem(1)` becomes `S.olist[1]`, `oList.SetItem(1, x)` an assignment; `f(x).name` calls a variable; members named like Python
  keywords cannot be read.
* C123 `_parameters` compares `co_varnames` with `('self',)`: a method with parameters whose body has SCAN (`_`), CATCH TO (`err`)
  or DIMENSION is called without its object and raises a TypeError on every call.
* C124 DODEFAULT becomes `super(type(self), self).name()`: a method inherited by the class of the object calls itself for ever; without a
  method above, and in methods of member objects, it raises an error.
* C125 the occurrence in AT, RAT and ATC, the third argument of BITAND, BITOR and BITXOR and the arguments of RAND and CURDIR disappear; GETENV uses `os`
  without an import and loses an argument that is not a literal; AINS, ACOPY and AFIELDS call methods that do not exist or take nothing; a second argument of
  ALLTRIM, LTRIM, RTRIM, FILE and DIRECTORY, FOPEN modes from 3 and FCREATE attributes from 2 raise errors or leave the line unconverted.
* C126 SET DELETED ON only stores a word: COUNT, SUM, REPLACE and the others still see deleted records; PACK MEMO removes records; PACK does
  not go to the first record.
* C127 the INIT of a member does not see properties of its container that are set behind its ADD OBJECT, and THISFORM is an error two levels below a form;
  an INIT that returns .F. does not prevent the object; without PySide objects have no properties, members or INIT.
* C128 the listing of a program with classes stops with an exception at the first line that is no method (so do all listings behind it), and lacks ENDDEFINE
  otherwise; a line that cannot be decoded is joined with the next one; a program with an invalid date is skipped silently.
* C129 CREATE TABLE without FREE does nothing, CREATE DBF and CREATE CURSOR raise AttributeError; fields of types without a width get `(1)`, which the package refuses
  (except L); the new table is not selected; a table in use is emptied before the error; ALTER TABLE drops one column at most, and ALTER COLUMN drops the column.
* C130 MESSAGEBOX takes its time limit in seconds; Escape closes boxes that FoxPro keeps open; messages that are no texts are errors.
* C131 CAST does not keep NULL; AS D and AS T always raise, as does a text AS W; types with a width are not converted.
* C132 SQLEXEC returns 1 and leaves an old cursor when the result is empty or has a column of a type other than int, str, bool and float; names of columns are cut after ten characters.
* C133 DECLARE puts the name of the function into lower case, so that functions with capitals (all of Windows) raise AttributeError; the functions of a loaded library hide procedures and functions of libraries loaded later; CLEAR DLLS name has no effect unless name is an alias; the types are dropped.
* C134 connections are opened without automatic commit, so that what SQLEXEC changes is lost unless the program calls SQLCOMMIT; the handle is an object that cannot be compared with 0; a failed connection raises instead of giving a negative number.
* C135 an unquoted name such as `data-2` or `x[1]` in a command is computed as an expression.
* C136 a line whose first `&` is followed by a letter becomes a call of `vfpfunc.macro_eval`, which does not exist; that includes comment lines (`* R&D`) and texts (`AT&T`).
* C137 a string constant with `&&` is cut there: the rest of the line is taken for a comment.
* C138 the command of RUN is split at every blank and quotes stay in the arguments, so that a file name with blanks cannot be given.
* C140 ASC of an empty text is an error instead of 0; REPLICATE(a + b, n) repeats b only.
* C141 INSERT FROM MEMVAR always ends in a NameError.
* C142 `NOT a + b = c` becomes `os.path.join(not a, b) == c`; `NOT (a + b) * c = d` becomes `not a + b * c == d`; `NOT a ^ b ^ c = d` becomes `(not a ** b) ** c == d`; `a = b = c` becomes a Python chain `a == b == c`.
* C143 Files of the same name in different directories overwrite each other when a container is extracted.
* C144 A SET statement with an abbreviated word (`SET EXAC ON`, `SET DELETE ON`) is accepted by the parser but becomes a `#FIX ME` comment; SET EXCLUSIVE and SET TABLEPROMPT raise KeyError; NOPROMPT of SET COMPATIBLE never has an effect.
* C145 MAX and MIN with a .NULL. argument raise an exception; INLIST(.NULL., ..) is .F. or .T. instead of .NULL., and INLIST of texts compares exactly whatever SET EXACT says.
* C146 The text of `@ .. SAY` is put behind the generated `print` as a comment; if the statement is continued with `;`, its further lines stand in the Python file as code.
* C147 An exception inside `visit_with_disabled_scope` (for instance in the bounds of DIMENSION) leaves the flag `scope` off: the following statements use Python names instead of FoxPro variables.
* C148 VARTYPE of a name that is not defined raises an exception instead of returning U; currency is N, binary values and arrays are O, the empty date is X.
* C149 FOR with a start or a step with a fraction runs other iterations, a step between -1 and 1 is an error, a negative bound with a fraction is rounded up.
* C150 A fixed point number (code E7) that is no multiple of 1/16 is listed with another value.
* C151 REPLACE with several fields changes only the first of them; the rest is dropped without a message (the comma is taken for part of the name of the next field).
* C152 A second ROWSOURCE is appended to the items of the first; a list box or grid created WITH a source forgets its name, and the grid shows the current work area at its next refresh; logical values are shown as True and False, empty dates as None; assigning VALUE a text that is not among the items shows nothing.
* C153 A program with a character outside of Windows-1252 cannot be converted, whatever --encoding says, since its text is also written in cp1252 to a file that nobody reads; the bytes 129, 141, 143, 144 and 157 cannot be read; with --profile every conversion fails.
* C154 INDEX ON changes only where SEEK looks: GO TOP and SKIP visit the records in the order of the file; DESCENDING and UNIQUE have no effect; a key such as UPPER(name) is computed once and its value taken for the name of a field, and last+first is taken for the name of a field as a whole, which raises an exception in a table with records.
* C155 FILE and LOCFILE do not look into the folders of SET PATH; FILE(name, flag) and DIRECTORY(name, flag) raise TypeError; on systems other than Windows FILE("README") looks for readme, and a path with backslashes is never found.
* C157 `DEFINE CLASS x AS y OF file` ignores the file (`visitClassDefStart` takes element 0 of the type). If the program or an earlier procedure file has another class `y`, that one is extended; `DEFINE CLASS x AS x OF file` makes a class that is its own superclass, so CREATEOBJECT recurses until Python stops it. Classes that extend one of nineteen base classes of FoxPro (Collection, Empty, Session, Cursor, ...) raise KeyError when an object is made.
* C158 The keywords =, WITH, STEP, OF, TAG, UNIQUE, TIMEOUT, SHARED, HAVING and VALUES are listed as all words that their code can stand for, so every assignment `x = 1` of a compiled program is listed as `x = or ERROR 1`, and `DO p WITH a` as `DO p WITH or INTEGER or CONNECTION a`.
* C159 The name behind `#INCLUDE` is taken in small letters, so on Linux a header `FoxPro.h` is never found; `convert_project` adds the files of the project, not their folders, to the search list, so a header that is part of the project is not found unless it is in the current folder or a folder of the command line.
* C160 In a folder with `Main.scx`, `Main.sct`, `main.scx` and `main.sct` both forms are read with the memo file that is listed first.
* C161 SET ASSERTS is dropped and ASSERT always counts: a program with an assertion that does not hold runs to its end in FoxPro, where ASSERTS is OFF unless set, and is stopped by AssertionError in Python.
* C162 ? gives the values to print, which writes True, False, None, dates as 2020-01-31 and numbers without filling.
* C163 HOUR, MINUTE and SEC of a date raise an AttributeError, SECONDS gives whole seconds, FTIME gives an object instead of a text, and DTOC and DTOS of a date with a time have the time behind the date.
* C164 APPEND FROM with FOR or TYPE is an error, because the library has no such arguments; records that are deleted are appended also after SET DELETED ON.
* C165 a logical value can be compared with a number; `.T. = 1` is true.
* C116 `DO p WITH x` passes the value of x; what p assigns to its parameter is lost.
* C94, C95 calls of the program's procedures named COUNT, SUM, REPLACE, MODULE, ... reach the run-time library; functions of the program hide FoxPro's; 236 FoxPro functions are unknown.
* C85 a function without RETURN has the value .NULL. instead of .T.

## Mutation testing

`seeded/LOG.jsonl` has one line per wrong program: the definition edited, the edit, the claim it
breaks, the theorems that failed and those that were tightened because they survived. Edits that
repair the code are included: they make the `_fails` theorems fail.

## Axioms

Theorems of the manifest by the axioms they depend on (output of `collectAxioms`):

<!-- axioms -->
* no axioms (5): C100_refused, C101_restart, C118_command_partial, C139_empty_date, C139_empty_datetime_fails.
* `propext` (50): C100_plain_fails, C101_enumerates, C105_continue_fails, C109_no_order, C110_functions_partial, C110_recno_fails, C113_fwrite, C114_drive_fails, C118_on_error_fails, C120_events_fails, C121_silent_fails, C121_underline_fails, C121_cells_fails, C124_inherited_fails, C124_member_fails, C125_occurrence_fails, C125_getenv_fails, C127_plain_fails, C130_result, C134_handle_fails, C136_second_fails, C138_blank_fails, C141_memvar_fails, C145_control_fails, C145_null_fails, C148_undefined_fails, C148_second_fails, C154_expression_fails, C154_expression_code, C155_flag_fails, C161_on_partial, C161_end_partial, C163_ftime_fails, C21_select_number_fails, C21_select_zero_fails, C24_restored_partial, C31_other_entries_copied, C35_other_directive_fails, C37_outer_undefine_fails, C39_constant_fails, C40_parentheses, C47_time_partial, C47_noon_fails, C52_recognised, C59_unterminated_name_fails, C65_executable_partial, C65_fails, C79_dimension_fails, C85_return_stops, C95_unknown_fails.
* `Quot.sound`, `propext` (176): C03_read, C03_assign, C03_assign_in_place, C03_assign_new, C04_binding, C04_no_parameters, C08_release_all, C08_visible_after, C09_alen, C09_alen_1d, C10_out_of_range_partial, C100_read_fails, C105_lines_iff, C107_clauses_fail, C109_seek_partial, C109_index_partial, C109_again_fails, C109_tag_fails, C109_prefix_fails, C11_ascan_start_count, C11_ascan_start, C11_ascan, C110_fcount_iff, C110_zap_iff, C110_values, C110_field_fails, C110_unused_fails, C113_fseek_iff, C113_fgets_partial, C113_long_line_fails, C113_fread_iff, C114_name_partial, C114_slash, C114_path_partial, C114_posix_fails, C114_literal_iff, C118_store_fails, C118_command_fails, C120_executable_iff, C121_own_property, C121_others_partial, C121_width_fails, C121_limits_fails, C121_group_fails, C124_target_iff, C124_missing_fails, C126_memo_fails, C126_pack_pointer_fails, C127_objects_partial, C127_parent_iff, C127_refused_iff, C13_empty_fails, C134_committed_partial, C134_lost_fails, C134_rollback_fails, C134_values, C137_cut_fails, C138_arguments_iff, C14_stuff, C141_values, C145_inlist_iff, C145_inlist_partial, C145_beginning_fails, C147_program_partial, C147_alone, C147_next_iff, C147_names_fails, C147_member, C15_delimiters_fails, C15_no_delimiter_fails, C151_dropped_fails, C152_combo_partial, C152_program_events, C152_new_text_fails, C154_order_iff, C155_file_partial, C155_directory_partial, C155_case_iff, C155_folder_fails, C155_locfile_partial, C155_locfile_fails, C156_array_partial, C156_all, C159_case_iff, C159_project_fails, C16_width, C16_scientific, C16_fits, C16_never_raises_partial, C160_case_fails, C161_off_fails, C161_set_fails, C163_fdate, C163_text_fails, C18_prefix_partial, C18_star_partial, C18_whole_fails, C19_dow_first, C19_dow_next, C19_quarter_range, C19_quarter_counts, C21_unique, C22_alias_fails, C22_alone_fails, C25_select_fails, C25_condition_fails, C25_empty_fails, C25_eof_fails, C29_truncated_header, C30_checksum_is_crc, C30_first_two_bytes_ignored, C35_substitution, C35_undefine_unknown_fails, C36_conditional, C37_cache_invisible, C37_cache_complete, C37_textual_partial, C37_outer_definition_fails, C38_modulo_fails, C38_power_iff, C39_comparison_iff, C42_for_partial, C42_down_fails, C43_first_case, C43_otherwise_partial, C43_otherwise_only_fails, C44_blocks, C45_compound_fails, C47_number_partial, C47_blob, C47_logical, C48_right_fails, C48_substr_fails, C52_neighbours_partial, C53_constants, C53_paths_text, C55_finally_partial, C55_catch, C55_no_catch_fails, C56_found, C56_not_found_partial, C56_complete, C56_not_found_exact, C58_single_subscript_fails, C58_single_subscript_partial, C59_unterminated_name_iff, C59_terminated_name_partial, C60_place, C60_extraction_confined_fails, C60_extraction_confined_partial, C62_absent_fails, C66_nested_constant_fails, C69_structured_partial, C69_exact, C70_left_value_fails, C71_unique, C71_receiver_iff, C71_mod_iff, C72_project_partial, C72_only, C75_methods_partial, C75_no_others, C75_parameters_lost_fails, C77_local_fails, C82_dtos_fails, C83_recno, C83_out_of_range, C83_skip_zero_fails, C83_skip_back_fails, C83_empty_fails, C84_closed_fails, C84_last_fails, C84_first_fails, C86_release, C86_gone, C93_half_fails.
* `Classical.choice`, `Quot.sound`, `propext` (500): C01_call_depth, C01_call_balanced, C01_call_balanced_try, C01_call_fails_iff, C02_callee_cannot_see_caller_locals, C02_callee_cannot_change_caller_locals, C02_callee_cannot_change_caller_locals_err, C04_call, C05_pcount, C05_parameters, C06_handler_state_fails, C06_error_leaves_levels_partial, C07_private_restored, C07_private_value_restored, C09_store, C09_read_in_range, C09_history, C10_column_overflow_fails, C10_stops, C10_one_dimensional, C100_unicode, C102_current_partial, C102_main_fails, C102_level_fails, C102_nth_fails, C103_variable_partial, C103_distinct_partial, C103_keyword_fails, C103_letter_fails, C103_class_fails, C104_defined, C104_call, C104_helper_iff, C104_helper_fails, C104_header_iff, C106_scatter_iff, C106_gather_iff, C106_round_trip, C106_gather_array_partial, C106_array_attribute_fails, C106_fields_fail, C106_like_fails, C106_memvar_fails, C107_text_iff, C107_control_fails, C107_characters_partial, C107_line_ends_fail, C108_own, C108_base_partial, C108_library_fails, C108_dynamic_fails, C108_base_iff, C108_reserved_iff, C108_base_fails, C108_letter_fails, C109_stuck_fails, C111_form_partial, C111_nested_fails, C111_class_fails, C111_value_fails, C111_color_fails, C111_procedure_fails, C112_members_fails, C112_class_partial, C113_open_iff, C113_open_write_fails, C113_missing_fails, C113_create_fails, C113_create_read_fails, C113_attribute_fails, C113_fputs_iff, C113_round_trip_partial, C113_windows_fails, C114_ext_iff, C114_stem_iff, C114_forceext_iff, C115_program_partial, C115_module, C115_output_partial, C116_reference_partial, C116_reference_fails, C117_control_partial, C117_message_iff, C117_number_fails, C117_place_iff, C117_message_function_fails, C118_on_error_partial, C119_command_partial, C119_rename_fails, C119_literal_fails, C119_pattern_fails, C12_chrtran_partial, C12_same_length_partial, C12_delete_fails, C121_readback_iff, C122_reference_iff, C122_command, C122_element, C122_item_fails, C122_function_fails, C123_call_iff, C123_call_fails, C124_run_partial, C125_call_iff, C126_history_partial, C126_seen_iff, C127_thisform_iff, C128_block, C128_date_fails, C128_listing_partial, C128_complete_iff, C128_methods_partial, C128_class_fails, C128_others_fails, C128_dump_fails, C129_columns_iff, C129_create_partial, C129_free_fails, C129_selected_fails, C129_in_use_fails, C129_alter_iff, C129_drop_missing, C129_alter_closed_fails, C13_pieces_exist, C13_from_first_partial, C13_start_off_by_one, C13_start_iff, C130_box, C130_types_iff, C130_escape_iff, C130_timeout_fails, C130_message_fails, C131_types_iff, C131_cast_iff, C131_null_fails, C131_dates_fails, C131_width_fails, C131_text_partial, C131_text_fails, C132_rows_partial, C132_empty_fails, C132_types_fails, C132_names_fails, C133_declared_partial, C133_capitals_fails, C133_order_fails, C133_alias_fails, C133_undeclared_fails, C133_clear_iff, C133_types_fails, C135_bare_iff, C135_names_partial, C136_runs_iff, C136_comment_fails, C136_text_fails, C137_statement_iff, C139_datetime, C139_date, C139_distinct, C139_not_empty, C140_chr, C140_asc_partial, C140_asc_fails, C140_asc_chr, C140_space, C140_replicate, C140_replicate_fails, C141_named, C141_refused, C141_object, C142_grammar_iff, C142_unique, C142_arithmetic_partial, C142_condition_partial, C142_sum_fails, C142_product_fails, C142_power_fails, C142_chain_fails, C143_directory, C143_extracted, C143_same_name_fails, C144_in_effect_partial, C144_abbreviated_fails, C144_dropped_fails, C144_noprompt_fails, C144_unknown_fails, C145_int, C145_ceiling, C145_max, C145_min, C146_statement_iff, C146_one_line_partial, C146_continued_fails, C146_converted_iff, C148_vartype_iff, C148_letter_fails, C149_up_iff, C149_for_partial, C149_plain_partial, C149_negative_fails, C149_down_iff, C149_down_fails, C149_start_fails, C149_step_fails, C149_fraction_fails, C15_words_exist, C15_words_partial, C15_index_zero_fails, C150_double, C150_constant, C150_whole, C150_fixed_iff, C151_iff, C151_single_partial, C151_fields_fails, C151_clauses_fails, C151_table, C152_list_partial, C152_list_again_fails, C152_list_created_fails, C152_grid_partial, C152_refresh, C152_click, C152_grid_created_fails, C152_values_fails, C153_iff, C153_output, C153_western_partial, C153_other_fails, C153_bytes_fails, C153_profile_fails, C153_main, C154_field_partial, C154_direction_fails, C154_unique_fails, C154_joined_fails, C155_path_iff, C157_chain_partial, C157_of_iff, C157_self_fails, C157_missing_fails, C158_line_partial, C158_ambiguous_fails, C158_assignment_fails, C159_folders_partial, C16_negative_iff, C160_memo_partial, C162_value_iff, C162_line_partial, C162_value_fails, C163_parts_partial, C163_day_unique, C163_date_fails, C163_dtot, C163_time, C163_seconds_iff, C164_records_partial, C164_deleted_iff, C164_clause_fails, C165_compare, C165_number_fails, C17_pieces_exist, C17_strextract_partial, C17_lines_fails, C17_missing_end_iff, C17_no_end_fails, C19_calendar, C19_dow_range, C20_switch_read_back, C20_switch_rejects, C20_others_unchanged, C20_always_on_or_off, C20_bell, C20_century, C20_fails, C21_history_partial, C21_select_partial, C21_open_undisturbed, C21_opened, C21_plain_use_fails, C21_alias_conflict_fails, C21_free, C22_number_partial, C23_processed, C23_count, C23_sum, C23_delete, C23_pointer, C23_error_iff, C23_next_overrun_fails, C24_fails, C25_scan_partial, C25_scan_named_partial, C25_scope_fails, C26_locate, C27_replace_partial, C27_default_partial, C27_for_fails, C27_value_fails, C28_append, C28_insert, C28_insert_array, C28_array_1d_fails, C29_single_byte_detected, C29_two_neighbours_detected, C29_uncovered_bytes, C31_extracted_program_readable_partial, C31_extraction_idempotent_partial, C31_truncated_program_fails, C32_date_round_trip, C33_always_terminates, C33_one_entry_per_line, C33_block, C33_invalid_length_fails, C34_decode_expression, C34_command_line, C34_set_line, C34_separator_fails, C34_iif_marker_fails, C38_arithmetic_partial, C38_minus_iff, C39_conditions_partial, C39_operand, C40_signs_partial, C40_signs_fails, C41_repr, C41_literal, C42_down_run_fails, C45_stores_partial, C45_compound, C46_expand, C46_unambiguous, C46_full, C47_exponent_fails, C48_left_partial, C48_right_partial, C48_substr_partial, C48_substr_length_partial, C48_at_partial, C48_at_none, C48_rat_partial, C48_rat_none, C48_occurs_partial, C48_left_fails, C48_at_fails, C49_logical, C49_bitset, C49_bitclear, C49_bittest, C49_shift_partial, C49_bitnot, C49_shift_fails, C49_sign_fails, C50_order, C50_call, C50_class, C50_release_several, C50_release_fails, C50_several_fails, C51_kept_partial, C51_written, C51_unsupported, C51_distinct, C51_case, C51_copy_fails, C51_collision_fails, C52_fix_me, C52_comment_partial, C52_stars_fails, C53_paths_partial, C53_sum_fails, C54_with_partial, C54_command_partial, C54_with_fails, C54_this_iff, C54_this_fails, C54_element_fails, C57_quoted_partial, C57_kept, C57_empty, C57_delimiters_fails, C57_prefix_fails, C61_currency_exact, C61_currency_partial, C62_atline_partial, C62_ratline_partial, C63_set_word_fails, C63_known_words_partial, C64_count_sum_partial, C64_delete_one_partial, C64_delete_for_fails, C64_locate_fails, C64_scan_fails, C66_full_replacement_partial, C67_literals_partial, C67_literal_changed_fails, C68_comment_separate_partial, C68_semicolon_fails, C68_macro_fails, C71_expression_partial, C71_result_iff, C72_project_iff, C73_properties_exact, C73_properties_partial, C73_properties_iff, C74_object_exact, C74_with_partial, C74_object_fails, C76_member_method_partial, C76_parameters_lost_fails, C76_inherited_fails, C77_element_partial, C77_function_fails, C77_hidden_fails, C78_field_partial, C78_variable_partial, C78_alias_fails, C78_memvar_fails, C78_m_table_fails, C79_scoped, C80_reads_back_partial, C80_others_partial, C80_class_fails, C80_db_fails, C80_internal_fails, C80_memvar_fails, C81_program, C81_in_file, C81_function, C81_program_fails, C81_in_menu_fails, C81_names_fails, C82_dtos_dates_partial, C82_dtos_times_partial, C82_ctod_dtoc_partial, C82_ctod_valid, C82_ctod_fails, C82_ctod_iff, C83_history_partial, C83_error_stops, C83_go_negative_fails, C83_closed, C84_eof_partial, C84_loop_fails, C85_value_partial, C85_no_return_fails, C87_pad_partial, C87_long_fails, C88_ltrim_iff, C88_rtrim_iff, C88_alltrim_iff, C88_fails, C89_proper_iff, C89_proper_fails, C89_case, C89_tests, C90_empty_partial, C90_blank_fails, C90_evl_partial, C90_evl_null_fails, C90_null, C90_iif_between, C90_isblank_partial, C91_mod, C91_sign, C92_val_partial, C92_exponent, C92_underscore_fails, C92_no_number_fails, C92_rest_fails, C92_str_val, C93_nearest, C93_round_iff, C94_user_partial, C94_captured_fails, C94_msgb_fails, C94_shadow_fails, C95_long_partial, C95_short_partial, C95_double_byte, C95_os_fails, C95_atcline_fails, C96_exact, C96_equal_iff, C96_differs_iff, C96_equal_fails, C96_order_partial, C97_plus, C97_minus_fails, C97_within, C98_compare, C98_days_fail, C98_difference_fails, C98_shift_partial, C99_gomonth, C99_valid, C99_compose, C99_back, C99_back_iff, C99_order.
