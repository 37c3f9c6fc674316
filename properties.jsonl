{"id": "C01", "title": "Procedure calls leave the variable stack balanced", "statement": "After any call of a converted procedure returns normally, the memory-variable stack (private and local levels) and the PCOUNT stack have exactly the depth they had before the call, whatever the body did, including nested and recursive calls, declarations, assignments and RELEASE, provided no error was raised and caught on the way (what happens then is C06).", "quantifier": "every procedure body (any finite tree of assignments, declarations, releases, nested calls to any procedures) and every starting variable store", "why_tests_cant": "A test runs one call tree; balance has to hold for every nesting depth, recursion pattern and mixture of declarations.", "anchors": ["vfp2py/vfpfunc.py:_parameters", "vfp2py/vfpfunc.py:_Memvar.pushscope", "vfp2py/vfpfunc.py:_Memvar.popscope"]}
{"id": "C02", "title": "LOCAL variables are invisible to callees and to callers", "statement": "A variable declared LOCAL (or received through LPARAMETERS) in a procedure can neither be read nor changed by any procedure it calls, and disappears when the procedure returns: the caller's own locals have the same values after the call as before it.", "quantifier": "every caller store, every callee body (arbitrary nesting) that returns normally, every variable name", "why_tests_cant": "The interference would come from some deep callee assigning a same-named variable; tests only try a few names and depths.", "anchors": ["vfp2py/vfpfunc.py:_Memvar._get_scope", "vfp2py/vfpfunc.py:_Memvar.__setitem__", "vfp2py/vfpfunc.py:_parameters"]}
{"id": "C03", "title": "Name resolution: local, then innermost private, then public", "statement": "Reading a memory variable returns the current procedure's local of that name if there is one, otherwise the value from the most recently entered procedure level holding a private of that name, with the public level last; a name found nowhere is an error. After an assignment to a name the name reads back the assigned value and every other name reads as before.", "quantifier": "every variable store (any number of levels, any contents), every name and value", "why_tests_cant": "Shadowing has unboundedly many configurations of levels and names.", "anchors": ["vfp2py/vfpfunc.py:_Memvar._get_scope", "vfp2py/vfpfunc.py:_Memvar.__getitem__", "vfp2py/vfpfunc.py:_Memvar.__setitem__"]}
{"id": "C04", "title": "Parameter binding: missing parameters are .F., extra arguments are dropped", "statement": "When a procedure declared with parameter names p1..pn is called with m arguments, inside the body p_i reads the i-th argument for i<=m and .F. for i>m, for both PARAMETERS and LPARAMETERS; arguments beyond the n-th bind nothing; PCOUNT() in the body equals m.", "quantifier": "every list of distinct parameter names, every argument list, every calling store", "why_tests_cant": "All combinations of argument and parameter counts and of pre-existing variables of the same names.", "anchors": ["vfp2py/vfpfunc.py:_parameters", "vfp2py/vfpfunc.py:parameters", "vfp2py/vfpfunc.py:lparameters", "vfp2py/vfpfunc.py:pcount"]}
{"id": "C05", "title": "PCOUNT() refers to the running procedure after any nested call", "statement": "At any point of a procedure body, after any number of completed nested calls, PCOUNT() is the number of arguments this procedure was called with; PARAMETERS() instead is the argument count of the most recently started call.", "quantifier": "every body made of nested calls of any depth, every argument count", "why_tests_cant": "Depends on the whole call history before the query.", "anchors": ["vfp2py/vfpfunc.py:pcount", "vfp2py/vfpfunc.py:_parameters"]}
{"id": "C06", "title": "An error escaping a procedure leaves the variable stack consistent", "statement": "If a procedure body raises an error that is handled by a caller, the variable and PCOUNT levels of the abandoned procedures are discarded so that the handler runs with its own variables.", "quantifier": "every body that raises at any point and any depth of nesting, every store", "why_tests_cant": "The crash point ranges over all positions of all call trees.", "anchors": ["vfp2py/vfpfunc.py:_parameters"]}
{"id": "C07", "title": "PRIVATE hides and restores", "statement": "A variable that is declared PRIVATE (or received through PARAMETERS) in a procedure hides a same-named variable of the callers for the procedure and everything it calls: however it is assigned meanwhile, the hidden variable has its old value when the procedure has returned.", "quantifier": "every store, every name not LOCAL in the caller, every body that starts by declaring the name PRIVATE and returns normally", "why_tests_cant": "Quantifies over all behaviours of all callees between declaration and return.", "anchors": ["vfp2py/vfpfunc.py:_Memvar.add_private", "vfp2py/vfpfunc.py:_Memvar.__setitem__", "vfp2py/vfpfunc.py:_parameters"]}
{"id": "C08", "title": "RELEASE ALL clears exactly the current level", "statement": "RELEASE ALL removes every variable local to or private to the running procedure and no other: all variables of callers and all publics that were hidden by a same-named private become visible again unchanged.", "quantifier": "every store and every name", "why_tests_cant": "All combinations of names shared between levels.", "anchors": ["vfp2py/vfpfunc.py:_Memvar.release", "vfp2py/vfpfunc.py:_Memvar.__delitem__"]}
{"id": "C09", "title": "Two-dimensional array addressing", "statement": "For an array created with r rows and c columns, storing at [i,j] with 1<=i<=r, 1<=j<=c is always allowed, is read back at [i,j], is stored as element number (i-1)*c+j in storage order, and changes no other in-range element; ALEN gives r*c, r and c.", "quantifier": "all r, c >= 1, all in-range subscript pairs, all write histories", "why_tests_cant": "All sizes, positions and write sequences.", "anchors": ["vfp2py/vfpfunc.py:Array.__init__", "vfp2py/vfpfunc.py:Array._get_index", "vfp2py/vfpfunc.py:Array.__getitem__", "vfp2py/vfpfunc.py:Array.__setitem__", "vfp2py/vfpfunc.py:Array.alen"]}
{"id": "C10", "title": "Out-of-range array subscripts are rejected", "statement": "Reading or storing with a subscript outside 1..rows or 1..columns raises an error and leaves the array unchanged.", "quantifier": "all sizes and all integer subscript pairs", "why_tests_cant": "Infinitely many out-of-range pairs.", "anchors": ["vfp2py/vfpfunc.py:Array._get_index", "vfp2py/vfpfunc.py:Array.__getitem__"]}
{"id": "C11", "title": "ASCAN returns the position in the original array", "statement": "ASCAN(arr, v, start, count) returns the 1-based position in the whole array of the first element equal to v among elements start..start+count-1, and 0 when there is none.", "quantifier": "all arrays, values, start and count within the array", "why_tests_cant": "All contents and windows.", "anchors": ["vfp2py/vfp2py_convert_visitor.py:func_call (ascan)", "vfp2py/vfpfunc.py:Array._subarray", "vfp2py/vfpfunc.py:Array.index"]}
{"id": "C12", "title": "CHRTRAN replaces characters position for position and deletes the unmatched", "statement": "CHRTRAN(s, from, to) maps every character of s that occurs in from at first position k to the k-th character of to, deletes it when to is shorter than k, and keeps all other characters in order.", "quantifier": "all strings s, from, to", "why_tests_cant": "All triples of strings including length mismatches and repeated characters.", "anchors": ["vfp2py/vfpfunc.py:chrtran"]}
{"id": "C13", "title": "STRTRAN replaces occurrences start..start+count-1", "statement": "STRTRAN(s, old, new, start, count) replaces exactly the non-overlapping occurrences of old number start to start+count-1, counted from the left, and leaves every other character unchanged.", "quantifier": "all strings, every start and count, with old non-empty", "why_tests_cant": "Unbounded strings, overlapping candidates and occurrence numbers.", "anchors": ["vfp2py/vfpfunc.py:strtran", "vfp2py/vfp2py_convert_visitor.py:func_call (strtran)"]}
{"id": "C14", "title": "STUFF replaces exactly the addressed characters", "statement": "STUFF(s, start, n, r) equals the first start-1 characters of s, then r, then s from position start+n on.", "quantifier": "all strings, all start >= 1 and n >= 0", "why_tests_cant": "All positions including those past the end.", "anchors": ["vfp2py/vfpfunc.py:stuff"]}
{"id": "C15", "title": "Word functions agree with the list of non-empty words", "statement": "GETWORDCOUNT(s, d) is the number of maximal non-empty pieces of s between delimiters and GETWORDNUM(s, i, d) is the i-th of them for 1<=i<=count, and the empty string for any other i.", "quantifier": "all strings, delimiters and indices", "why_tests_cant": "All delimiter placements and indices.", "anchors": ["vfp2py/vfpfunc.py:_getwords", "vfp2py/vfpfunc.py:getwordcount", "vfp2py/vfpfunc.py:getwordnum", "vfp2py/vfp2py_convert_visitor.py:func_call (getwordcount)"]}
{"id": "C16", "title": "STR() always returns exactly the requested width", "statement": "STR(n, len, dec) returns a string of exactly len characters for every number, or asterisks when it does not fit, and never raises.", "quantifier": "all numbers, lengths >= 0, decimals >= 0", "why_tests_cant": "All magnitudes, signs and widths.", "anchors": ["vfp2py/vfpfunc.py:str"]}
{"id": "C17", "title": "STREXTRACT returns the text between the delimiters", "statement": "STREXTRACT(s, begin, end, n) returns the shortest text that follows the n-th begin delimiter (scanning left to right and resuming after each end delimiter) up to the next end delimiter, and the empty string when there are fewer than n such pieces.", "quantifier": "all strings (including ones with line breaks and regular-expression characters), delimiters and occurrence numbers >= 1", "why_tests_cant": "Delimiters and text are arbitrary strings.", "anchors": ["vfp2py/vfpfunc.py:strextract"]}
{"id": "C18", "title": "LIKE decides wildcard matching", "statement": "LIKE(pattern, s) is true exactly when the whole of s matches pattern with * standing for any run of characters and ? for exactly one.", "quantifier": "all patterns and strings", "why_tests_cant": "Unbounded patterns with arbitrary wildcards.", "anchors": ["vfp2py/vfpfunc.py:like"]}
{"id": "C19", "title": "DOW and QUARTER arithmetic", "statement": "DOW(d, first) is always in 1..7, is 1 exactly on the chosen first weekday, and grows by one (cyclically) from day to day; QUARTER(d, m) is in 1..4, is 1 for the three months starting at m and advances every three months.", "quantifier": "all weekdays, first-day settings, months and start months", "why_tests_cant": "Full cross product of settings; must hold for every date.", "anchors": ["vfp2py/vfpfunc.py:dow_fix", "vfp2py/vfpfunc.py:quarter"]}
{"id": "C20", "title": "SET values read back", "statement": "After SET <word> with a legal value, SET(<word>) returns that value in upper case, other settings are unchanged, and an illegal value raises without changing any setting.", "quantifier": "every setting word, every value, every history of SET commands", "why_tests_cant": "Histories of settings are unbounded.", "anchors": ["vfp2py/vfpfunc.py:set", "vfp2py/vfpfunc.py:SET_PROPS"]}
{"id": "C21", "title": "Work areas: an alias selects the one table opened under it", "statement": "After opening tables in free work areas, SELECT <alias or file name> makes that table current, SELECT(<alias>) returns its 1-based work-area number, opening a table never disturbs another work area, and a table already open is refused.", "quantifier": "every history of USE/SELECT/close commands over any number of tables", "why_tests_cant": "All interleavings of opens, closes and selects.", "anchors": ["vfp2py/vfpdatabase.py:DatabaseContext.get_workarea", "vfp2py/vfpdatabase.py:DatabaseContext.select_function", "vfp2py/vfpdatabase.py:DatabaseContext.use", "vfp2py/vfpdatabase.py:DatabaseContext.used"]}
{"id": "C22", "title": "USE IN closes only the addressed work area", "statement": "USE IN <work area or alias> closes the table in that work area and no other; USE alone closes the current one.", "quantifier": "every set of open tables, every current area, every alias or number", "why_tests_cant": "All configurations of work areas.", "anchors": ["vfp2py/vfpdatabase.py:DatabaseContext.use"]}
{"id": "C23", "title": "Scoped commands process exactly the records in scope", "statement": "COUNT/SUM/DELETE/RECALL with a scope (ALL, REST, NEXT n, RECORD n), FOR and WHILE process, in record order and once each, exactly the records from the scope's first record up to its last one or the first record failing WHILE, restricted to those satisfying FOR.", "quantifier": "every table size, record pointer position, scope, FOR and WHILE predicate", "why_tests_cant": "Predicates are arbitrary and tables unbounded.", "anchors": ["vfp2py/vfpdatabase.py:DatabaseContext._get_records", "vfp2py/vfpdatabase.py:DatabaseContext.count", "vfp2py/vfpdatabase.py:DatabaseContext.sum", "vfp2py/vfpdatabase.py:DatabaseContext.delete_record"]}
{"id": "C24", "title": "Scoped commands restore the selected work area", "statement": "After any scoped command on any table the selected work area is the one selected before, whether or not the scope is empty.", "quantifier": "every workspace state, table and scope", "why_tests_cant": "Early exits happen only for particular states.", "anchors": ["vfp2py/vfpdatabase.py:DatabaseContext._get_records"]}
{"id": "C25", "title": "SCAN visits each remaining matching record once", "statement": "SCAN ... FOR runs its body once for every record from the current one to the last that satisfies the condition, in order, even when the body selects another work area.", "quantifier": "every table, starting record, condition and loop body that keeps the table's records and pointer", "why_tests_cant": "The body is an arbitrary program.", "anchors": ["vfp2py/vfpdatabase.py:DatabaseContext.scanner"]}
{"id": "C26", "title": "LOCATE/CONTINUE enumerate matches", "statement": "LOCATE positions on the first record from the current one satisfying the condition and CONTINUE on each following one in turn; FOUND() is true exactly while positioned on a match and after the last match the table is at end of file.", "quantifier": "every table, pointer and condition, any number of CONTINUEs", "why_tests_cant": "Unbounded sequences of CONTINUE.", "anchors": ["vfp2py/vfpdatabase.py:DatabaseContext.locate", "vfp2py/vfpdatabase.py:DatabaseContext.continue_locate", "vfp2py/vfpdatabase.py:DatabaseContext.found"]}
{"id": "C27", "title": "REPLACE changes only the addressed field of the records in scope", "statement": "REPLACE field WITH value changes that field in exactly the records in scope and nothing else; with FOR only in the records satisfying it.", "quantifier": "every table, scope, field and condition", "why_tests_cant": "Arbitrary tables and conditions.", "anchors": ["vfp2py/vfpdatabase.py:DatabaseContext.replace", "vfp2py/vfp2py_convert_visitor.py:visitReplace"]}
{"id": "C28", "title": "APPEND and INSERT add one record at the end and select it", "statement": "APPEND BLANK and INSERT INTO add exactly one record (INSERT FROM ARRAY one per row) after the existing ones, leave those unchanged and make the last new record current.", "quantifier": "every table and record, all arrays", "why_tests_cant": "All tables and row counts.", "anchors": ["vfp2py/vfpdatabase.py:DatabaseContext.append", "vfp2py/vfpdatabase.py:DatabaseContext.insert", "vfp2py/vfpdatabase.py:DatabaseContext.goto"]}
{"id": "C29", "title": "FXP header checksum detects every single-byte corruption of the covered area", "statement": "If a valid FXP header is changed in exactly one byte of its first 37 bytes or of its stored checksum, reading the file fails with an error instead of producing output.", "quantifier": "every valid header, every position and every wrong byte value", "why_tests_cant": "37*255 changes for each of 2^280 headers.", "anchors": ["vfp2py/fxp_read.py:checksum_calc", "vfp2py/fxp_read.py:fxp_read"]}
{"id": "C30", "title": "The FXP checksum is CRC-16 (polynomial 0x1021, zero start) of the bytes after the second", "statement": "The header checksum is always a 16-bit value and equals the standard bitwise CRC-16 with polynomial 0x1021 and initial value 0 over the bytes from the third on.", "quantifier": "all byte strings of length at least 2", "why_tests_cant": "Infinitely many inputs; the code works on nibbles, not bits.", "anchors": ["vfp2py/fxp_read.py:checksum_calc"]}
{"id": "C31", "title": "A program extracted from an FXP container is itself a valid container", "statement": "Every compiled program that the reader writes to its output directory is accepted again by the reader: header accepted, one entry, same directory name and file name, same program bytes.", "quantifier": "every program block, directory name and file name without NUL characters, within the 32-bit format limits", "why_tests_cant": "Unbounded contents.", "anchors": ["vfp2py/fxp_read.py:fxp_read", "vfp2py/fxp_read.py:read_until_null", "vfp2py/fxp_read.py:checksum_calc"]}
{"id": "C32", "title": "DOS timestamps decode to the fields that were encoded", "statement": "Decoding a packed 32-bit timestamp returns the year, month, day, hour, minute and second (rounded down to even) that were packed, for every calendar value from 1980 to 2107.", "quantifier": "all packed timestamps", "why_tests_cant": "2^32 values.", "anchors": ["vfp2py/fxp_read.py:convert_date"]}
{"id": "C33", "title": "Decoding a code area always terminates, stays in step and yields one entry per line", "statement": "Reading a code area whose lines have valid lengths returns after finitely many steps with the position at the end of the area, yielding one output entry for each stored line even when individual lines cannot be decoded.", "quantifier": "every sequence of line records with arbitrary (also undecodable) contents", "why_tests_cant": "Contents arbitrary; errors in any line.", "anchors": ["vfp2py/fxp_read.py:read_code_line_area", "vfp2py/fxp_read.py:parse_line", "vfp2py/fxp_read.py:parse_subline"]}
{"id": "C34", "title": "Postfix expressions decode to the fully parenthesised source", "statement": "Decoding the compiled postfix form of an expression built from constants, names, unary and binary operators and function calls yields the fully parenthesised text of that expression, so that no grouping is lost.", "quantifier": "every expression tree", "why_tests_cant": "Unbounded trees.", "anchors": ["vfp2py/fxp_read.py:read_expr", "vfp2py/fxp_read.py:read_next_code"]}
{"id": "C35", "title": "#DEFINE substitution", "statement": "A line after preprocessing is the line with every token whose lower-cased text is a currently defined name replaced by its replacement tokens, once and without rescanning, comments moved to the front as comment lines, all other tokens unchanged in order.", "quantifier": "every line, every history of #DEFINE/#UNDEFINE", "why_tests_cant": "Arbitrary macro tables and lines.", "anchors": ["vfp2py/vfp2py.py:PreprocessVisitor.replace_define_tokens", "vfp2py/vfp2py.py:PreprocessVisitor.visitPreprocessorDefine", "vfp2py/vfp2py.py:PreprocessVisitor.visitPreprocessorUndefine"]}
{"id": "C36", "title": "Conditional compilation keeps exactly the selected branch", "statement": "For #IF/#IFDEF blocks nested to any depth only the lines of the selected branches are kept, in order, and only #DEFINEs in selected branches take effect on later lines.", "quantifier": "every nesting of conditional blocks", "why_tests_cant": "Unbounded nesting.", "anchors": ["vfp2py/vfp2py.py:PreprocessVisitor.visitPreprocessorIf", "vfp2py/vfp2py.py:PreprocessVisitor.visitPreprocessorLines"]}
{"id": "C37", "title": "#INCLUDE behaves like textual inclusion", "statement": "Including a header contributes its lines and makes its definitions available to the rest of the including file, and including it again has the same effect as the first time.", "quantifier": "every header and including file", "why_tests_cant": "Headers may depend on macros of the including file; caching across files.", "anchors": ["vfp2py/vfp2py.py:PreprocessVisitor.visitPreprocessorInclude", "vfp2py/vfp2py.py:INCLUDE"]}
{"id": "C38", "title": "Arithmetic expressions keep their grouping in the generated Python", "statement": "The Python text generated for an arithmetic expression, read with Python's operator precedence, denotes the same operation tree as the FoxPro expression.", "quantifier": "every arithmetic expression tree", "why_tests_cant": "Unbounded trees; every pair of operators nested either way.", "anchors": ["vfp2py/vfp2py_convert_visitor.py:operationExpr", "vfp2py/vfp2py_convert_visitor.py:visitUnaryNegation", "vfp2py/vfp2py.py:TreeCleanVisitor.visitPower", "vfp2py/vfp2py.py:TreeCleanVisitor.visitSubExpr"]}
{"id": "C39", "title": "Boolean expressions keep their grouping in the generated Python", "statement": "The Python text generated for AND/OR/NOT over atomic conditions, read with Python's precedence, has the same truth table as the FoxPro expression.", "quantifier": "every boolean expression tree", "why_tests_cant": "Unbounded trees.", "anchors": ["vfp2py/vfp2py_convert_visitor.py:OperatorExpr.__repr__", "vfp2py/vfp2py_convert_visitor.py:OperatorExpr.wrap_arg", "vfp2py/vfp2py_convert_visitor.py:visitBooleanOr", "vfp2py/vfp2py_convert_visitor.py:visitBooleanAnd", "vfp2py/vfp2py_convert_visitor.py:visitBooleanNegation"]}
{"id": "C40", "title": "Removing redundant signs preserves the value", "statement": "Simplifying chains of unary signs and doubled parentheses does not change the value of an expression.", "quantifier": "every expression", "why_tests_cant": "Chains of any length.", "anchors": ["vfp2py/vfp2py.py:TreeCleanVisitor.visitUnaryNegation", "vfp2py/vfp2py.py:TreeCleanVisitor.visitSubExpr"]}
{"id": "C41", "title": "String constants survive conversion", "statement": "A string literal in the source appears in the generated Python as a literal that evaluates to the same characters and ends exactly where it should, so no string content can turn into code.", "quantifier": "every string content", "why_tests_cant": "All characters including quotes, backslashes, control and non-ASCII characters.", "anchors": ["vfp2py/vfp2py_convert_visitor.py:visitString", "vfp2py/vfp2py_convert_visitor.py:create_string", "vfp2py/vfp2py_convert_visitor.py:add_args_to_code"]}
{"id": "C42", "title": "FOR loops run the FoxPro iterations", "statement": "FOR v = a TO b STEP s runs its body for the values a, a+s, ... that do not pass b (not below b for negative s), in order.", "quantifier": "all integers a, b and non-zero s", "why_tests_cant": "All bounds and steps.", "anchors": ["vfp2py/vfp2py_convert_visitor.py:visitForStart"]}
{"id": "C43", "title": "DO CASE executes the first matching case", "statement": "The generated if/elif/else chain executes the lines of exactly the first CASE whose condition holds, the OTHERWISE lines when none does, and nothing when there is no OTHERWISE.", "quantifier": "any number of cases, any conditions and bodies, empty bodies included", "why_tests_cant": "Unbounded numbers of cases.", "anchors": ["vfp2py/vfp2py_convert_visitor.py:visitCaseStmt", "vfp2py/vfp2py_convert_visitor.py:visitSingleCase", "vfp2py/vfp2py_convert_visitor.py:visitOtherwise"]}
{"id": "C44", "title": "Generated blocks are well-formed and keep their nesting", "statement": "Every block of generated code contains at least one statement line and the indentation of the output text determines the statement tree that was generated (reading the indentation back gives the same nesting).", "quantifier": "every statement tree", "why_tests_cant": "Unbounded nesting and comment placement.", "anchors": ["vfp2py/vfp2py.py:add_indents", "vfp2py/vfp2py_convert_visitor.py:visitLines", "vfp2py/vfp2py_convert_visitor.py:modify_func_body"]}
{"id": "C45", "title": "Compound assignment shorthand preserves the stored value", "statement": "Where v = v op e is emitted as v op= e the stored value is the one of the original assignment.", "quantifier": "every expression e and operator", "why_tests_cant": "All expressions.", "anchors": ["vfp2py/vfp2py_convert_visitor.py:visitAssign"]}
{"id": "C46", "title": "Function-name abbreviations resolve consistently", "statement": "Every accepted abbreviation of a built-in function (and every longer prefix of its name) resolves to a function name that it abbreviates; full names resolve to themselves and anything else is left alone.", "quantifier": "the whole table and every possible prefix length", "why_tests_cant": "Overlapping entries overwrite each other silently; several thousand derived prefixes.", "anchors": ["vfp2py/function_abbreviations.py:expander", "vfp2py/vfp2py_convert_visitor.py:func_call"]}
{"id": "C47", "title": "Numeric, binary, date and logical literals convert to the same value", "statement": "Blob literals convert to the bytes they spell, integer and hexadecimal literals to the same number, date/time literals to the same moment including 12 AM/PM, logical letters to the right truth value.", "quantifier": "every literal accepted by the grammar", "why_tests_cant": "Unboundedly many literals.", "anchors": ["vfp2py/vfp2py_convert_visitor.py:visitBlob", "vfp2py/vfp2py_convert_visitor.py:convert_number", "vfp2py/vfp2py_convert_visitor.py:visitDate", "vfp2py/vfp2py_convert_visitor.py:visitBoolOrNull"]}
{"id": "C48", "title": "Substring functions compute FoxPro's result inline", "statement": "The inline Python for SUBSTR, LEFT, RIGHT, AT, RAT and OCCURS evaluates to the FoxPro result for the same arguments.", "quantifier": "all strings and all numeric arguments in the FoxPro domain", "why_tests_cant": "All lengths and positions.", "anchors": ["vfp2py/vfp2py_convert_visitor.py:func_call"]}
{"id": "C49", "title": "Bit functions compute on 32-bit integers", "statement": "BITSET, BITCLEAR, BITTEST, BITAND, BITOR, BITXOR, BITNOT and shifts inline code changes or tests exactly the addressed bit.", "quantifier": "all non-negative integers and bit numbers 0..31", "why_tests_cant": "2^32 * 32 inputs.", "anchors": ["vfp2py/vfp2py_convert_visitor.py:func_call"]}
{"id": "C50", "title": "Procedure lookup follows SET PROCEDURE order", "statement": "After any history of SET PROCEDURE (ADDITIVE) and RELEASE PROCEDURE the search list holds every active module once, most recently set first, and a call runs the function of the first module defining it.", "quantifier": "every history of SET/RELEASE PROCEDURE", "why_tests_cant": "Unbounded histories.", "anchors": ["vfp2py/vfpfunc.py:_Function.set_procedure", "vfp2py/vfpfunc.py:_Function.release_procedure", "vfp2py/vfpfunc.py:_Function.__getitem__", "vfp2py/vfpfunc.py:_Class.set_procedure"]}
{"id": "C51", "title": "Directory conversion never overwrites existing output", "statement": "When converting into a directory an already existing output file is left untouched, distinct kinds of source with the same base name get distinct output names, and unsupported kinds produce nothing.", "quantifier": "every input name, extension and directory state", "why_tests_cant": "All names, cases and extension combinations.", "anchors": ["vfp2py/vfp2py.py:convert_file"]}
{"id": "C52", "title": "Unsupported statements become comments only", "statement": "A statement that cannot be converted contributes only comment lines carrying its text, never executable code, and every supported neighbour is still converted.", "quantifier": "every statement text, also spanning several lines", "why_tests_cant": "Arbitrary source text.", "anchors": ["vfp2py/vfp2py_convert_visitor.py:visitLine", "vfp2py/vfp2py_convert_visitor.py:visitLines", "vfp2py/vfp2py_convert_visitor.py:visitLineComment"]}
{"id": "C53", "title": "Constant folding of string concatenation preserves the value", "statement": "Adjacent string constants joined by + (including CHR() and SPACE() of constants) fold to the concatenation and nested ADDBS()+name chains become one path join with the same components in order.", "quantifier": "all constants and nesting depths", "why_tests_cant": "Unbounded chains.", "anchors": ["vfp2py/vfp2py_convert_visitor.py:operationExpr", "vfp2py/vfp2py_convert_visitor.py:extract_args_from_addbs", "vfp2py/vfp2py_convert_visitor.py:func_call"]}
{"id": "C54", "title": "Nested WITH refers to the innermost object", "statement": "Inside nested WITH blocks a leading-dot reference is resolved against the innermost enclosing WITH object, also after an inner WITH block has ended.", "quantifier": "every nesting of WITH blocks", "why_tests_cant": "Unbounded nesting.", "anchors": ["vfp2py/vfp2py_convert_visitor.py:visitWithStmt", "vfp2py/vfp2py_convert_visitor.py:visitIdAttr"]}
{"id": "C55", "title": "FINALLY lines run on every exit", "statement": "The lines of a FINALLY block run whether the TRY lines finish or raise, with or without a CATCH; a CATCH runs only when the TRY lines raise and its WHEN holds.", "quantifier": "every TRY statement and every raise point", "why_tests_cant": "All crash points.", "anchors": ["vfp2py/vfp2py_convert_visitor.py:visitTryStmt"]}
{"id": "C56", "title": "Path lookup ignores case and reports failure", "statement": "Resolving a Windows-style relative path walks its components case-insensitively and returns either the existing path or the unresolved remainder with a failure flag, never a different file.", "quantifier": "every directory tree and path", "why_tests_cant": "All trees.", "anchors": ["vfp2py/vfp2py.py:find_full_path", "vfp2py/vfp2py.py:find_file_ignore_case"]}
{"id": "C57", "title": "Property values read from class libraries stay constants", "statement": "A property value that is not itself a constant is wrapped in a FoxPro string delimiter that does not occur in it, so that it is read back as that very string.", "quantifier": "every property text", "why_tests_cant": "All texts with every mix of quotes and brackets.", "anchors": ["vfp2py/vfp2py.py:convert_vcx_to_vfp_code"]}
{"id": "C58", "title": "A single subscript addresses the elements in storage order", "statement": "For an array with r rows and c columns, arr[n] with a single subscript reads and stores the n-th element in storage order (row by row), for every n from 1 to r*c, as FoxPro does.", "quantifier": "every array shape and contents, every element number", "why_tests_cant": "All shapes and all element numbers.", "anchors": ["vfp2py/vfpfunc.py:Array.__getitem__", "vfp2py/vfpfunc.py:Array.__setitem__", "vfp2py/vfpfunc.py:Array._get_index"]}
{"id": "C59", "title": "Reading a malformed FXP container terminates", "statement": "Reading any file as an FXP container ends with a result or an error after finitely many steps.", "quantifier": "every byte sequence", "why_tests_cant": "Only particular malformed files make the reader loop.", "anchors": ["vfp2py/fxp_read.py:read_until_null", "vfp2py/fxp_read.py:fxp_read"]}
{"id": "C60", "title": "Extraction writes only inside the output directory", "statement": "Every file written while extracting an FXP container lies in the given output directory, under the stored name.", "quantifier": "every container (any stored names) and every output directory", "why_tests_cant": "Stored names are arbitrary byte strings.", "anchors": ["vfp2py/fxp_read.py:fxp_read"]}
{"id": "C61", "title": "Currency constants are listed with their value", "statement": "A currency constant in a compiled program is listed as the decimal number that was stored.", "quantifier": "every stored amount and number of decimals", "why_tests_cant": "All 64-bit amounts.", "anchors": ["vfp2py/fxp_read.py:read_currency", "vfp2py/fxp_read.py:FXPCurrency"]}
{"id": "C62", "title": "ATLINE and RATLINE report the line of the text", "statement": "ATLINE(x, s) is the number of the line in which the first occurrence of x starts, RATLINE(x, s) that of the last one, and both are 0 when x does not occur.", "quantifier": "all texts x and s", "why_tests_cant": "All positions and line structures.", "anchors": ["vfp2py/vfpfunc.py:atline", "vfp2py/vfpfunc.py:ratline"]}
{"id": "C63", "title": "A converted SET statement can be executed", "statement": "A SET statement that the converter turns into a call of the run-time library is known there: executing it does not fail because the setting is unknown.", "quantifier": "every SET word the converter translates, every value and history", "why_tests_cant": "Words times values times histories.", "anchors": ["vfp2py/vfp2py_convert_visitor.py:visitSetCmd", "vfp2py/vfpfunc.py:set", "vfp2py/vfpfunc.py:SET_PROPS"]}
{"id": "C64", "title": "A command without a scope works on the default records", "statement": "Without a scope clause DELETE, RECALL and REPLACE work on the current record when there is no condition; with FOR, and always for COUNT, SUM, LOCATE and SCAN, the default is all records, and with WHILE the rest.", "quantifier": "every table, pointer position, and combination of FOR and WHILE", "why_tests_cant": "All combinations of clauses over all tables.", "anchors": ["vfp2py/vfp2py_convert_visitor.py:visitDeleteRecord", "vfp2py/vfp2py_convert_visitor.py:visitReplace", "vfp2py/vfp2py_convert_visitor.py:visitCount", "vfp2py/vfp2py_convert_visitor.py:visitSum", "vfp2py/vfp2py_convert_visitor.py:visitLocate", "vfp2py/vfp2py_convert_visitor.py:visitScanStmt"]}
{"id": "C65", "title": "A converted database statement can be executed", "statement": "The library call that a database statement is converted to names a method that exists and takes the given arguments.", "quantifier": "every database statement the converter translates, with every combination of clauses", "why_tests_cant": "Only statements that occur in the tests are converted and run.", "anchors": ["vfp2py/vfp2py_convert_visitor.py:visitCount", "vfp2py/vfp2py_convert_visitor.py:visitSum", "vfp2py/vfp2py_convert_visitor.py:visitAppendFrom", "vfp2py/vfp2py_convert_visitor.py:visitCloseStmt", "vfp2py/vfp2py_convert_visitor.py:visitUpdateCmd", "vfp2py/vfpdatabase.py:DatabaseContext"]}
{"id": "C66", "title": "Constants defined in terms of constants are replaced completely", "statement": "A line is output with every constant replaced until none is left, also when the replacement of a constant uses another constant.", "quantifier": "every set of definitions and every line", "why_tests_cant": "Chains of constants of any length.", "anchors": ["vfp2py/vfp2py.py:PreprocessVisitor.replace_define_tokens"]}
{"id": "C67", "title": "#DEFINE does not change string literals", "statement": "The text between the quotes of a string literal is the same after preprocessing, whatever names are defined.", "quantifier": "every line, every set of definitions", "why_tests_cant": "Any word of any message may be a defined name.", "anchors": ["vfp2py/vfp2py.py:PreprocessVisitor.replace_define_tokens"]}
{"id": "C68", "title": "A comment behind a statement does not affect the statement", "statement": "A statement followed by a && comment is converted like the statement without it; the comment becomes a comment line.", "quantifier": "every statement and every comment text", "why_tests_cant": "All comment texts, including those that end in a semicolon or contain &name.", "anchors": ["vfp2py/vfp2py.py:PreprocessVisitor.replace_define_tokens", "vfp2py/vfp2py_convert_visitor.py:visitLine"]}
{"id": "C69", "title": "Structured statements execute as in FoxPro", "statement": "For a procedure built from IF, DO CASE, FOR, FOR EACH, DO WHILE, WITH and TRY statements around simple commands, the generated Python, read with its indentation and executed, performs the same commands in the same order and ends the same way (normally, by EXIT, LOOP, RETURN or with the same error) as the FoxPro statements.", "quantifier": "every nesting of statements, every behaviour of the commands and expressions inside, every state", "why_tests_cant": "Unbounded nesting, every possible exit point.", "anchors": ["vfp2py/vfp2py_convert_visitor.py:visitIfStmt", "vfp2py/vfp2py_convert_visitor.py:visitCaseStmt", "vfp2py/vfp2py_convert_visitor.py:visitForStmt", "vfp2py/vfp2py_convert_visitor.py:visitWhileStmt", "vfp2py/vfp2py_convert_visitor.py:visitWithStmt", "vfp2py/vfp2py_convert_visitor.py:visitTryStmt", "vfp2py/vfp2py_convert_visitor.py:visitLines", "vfp2py/vfp2py.py:add_indents"]}
{"id": "C70", "title": "The loop variable after a FOR loop", "statement": "After FOR v = a TO b STEP s has run to its end, v holds the first value past b, as FoxPro programs that test the variable after a search loop expect.", "quantifier": "all bounds and positive steps, every body that does not leave the loop", "why_tests_cant": "All bounds and steps.", "anchors": ["vfp2py/vfp2py_convert_visitor.py:visitForStart", "vfp2py/vfp2py_convert_visitor.py:visitForStmt"]}
{"id": "C71", "title": "Functions converted in place keep the grouping of their arguments and results", "statement": "The Python code that a FoxPro expression with nested built-in functions (string methods, IIF, BETWEEN, NVL, SIGN, MOD, CHR, REPLICATE, ...) becomes, read with Python's precedence, applies every function to exactly the values of its arguments and every operator to exactly the values of its operands.", "quantifier": "every nesting of operators and functions, every algebra of values", "why_tests_cant": "Unbounded nesting; every pair of constructs nested either way.", "anchors": ["vfp2py/vfp2py_convert_visitor.py:func_call", "vfp2py/vfp2py_convert_visitor.py:operationExpr", "vfp2py/vfp2py_convert_visitor.py:visitAtomExpr", "vfp2py/vfp2py_convert_visitor.py:CodeStr"]}
{"id": "C72", "title": "Every file of a project is converted", "statement": "Converting a project converts every file of the project that exists and is not excluded, and no other file.", "quantifier": "every list of project records", "why_tests_cant": "Unbounded lists; equal names in different directories.", "anchors": ["vfp2py/vfp2py.py:read_vfp_project", "vfp2py/vfp2py.py:convert_project"]}
{"id": "C73", "title": "Properties initialised in a class body reach the objects", "statement": "Every property a class definition initialises (name = value, or an array declaration) is initialised when an object is created, in the order of the definition and with the value given.", "quantifier": "every class body", "why_tests_cant": "Class bodies of any length in any order, with values of any form.", "anchors": ["vfp2py/vfp2py_convert_visitor.py:visitClassDef", "vfp2py/vfp2py_convert_visitor.py:visitClassAssign"]}
{"id": "C74", "title": "Properties of member objects reach the member objects", "statement": "Every property that a class definition gives to an added object, in the WITH clause of ADD OBJECT or by an assignment object.property = value in the class body (as forms and class libraries are converted), is set when the object is created; an object whose name is given last wins.", "quantifier": "every class body with any number of added objects and assignments", "why_tests_cant": "All mixes of ADD OBJECT and assignments.", "anchors": ["vfp2py/vfp2py_convert_visitor.py:visitClassDef", "vfp2py/vfp2py_convert_visitor.py:visitAddObject", "vfp2py/vfp2py_convert_visitor.py:visitClassAssign", "vfp2py/vfp2py_convert_visitor.py:visit_with_disabled_scope"]}
{"id": "C75", "title": "Methods keep their parameters and lines", "statement": "Every method of a class definition is generated exactly once with the parameters it declares (in the header or by LPARAMETERS/PARAMETERS) and with its lines; there are no other methods.", "quantifier": "every class body", "why_tests_cant": "Depends on the other members of the class, which tests do not combine.", "anchors": ["vfp2py/vfp2py_convert_visitor.py:visitClassDef", "vfp2py/vfp2py_convert_visitor.py:visitFuncDef", "vfp2py/vfp2py_convert_visitor.py:modify_func_body"]}
{"id": "C76", "title": "Methods given for a member object are attached to it", "statement": "A method PROCEDURE object.event in a class definition becomes the method event of the object added under that name, with its parameters and lines.", "quantifier": "every class body, every object and event", "why_tests_cant": "Any number of objects and methods in any order.", "anchors": ["vfp2py/vfp2py_convert_visitor.py:visitClassDef", "vfp2py/vfp2py_convert_visitor.py:visitAddObject"]}
{"id": "C77", "title": "Array elements keep what is assigned to them", "statement": "After name[i, j] = value in a converted program, name[i, j] reads that value and every other element of the array is unchanged.", "quantifier": "every state of variables and tables, every array and every subscript in range", "why_tests_cant": "All scopes an array can live in and all name clashes.", "anchors": ["vfp2py/vfp2py_convert_visitor.py:visitIdAttr", "vfp2py/vfp2py_convert_visitor.py:visitAtomExpr", "vfp2py/vfpfunc.py:_Function.__getitem__", "vfp2py/vfpfunc.py:_Memvar.__getitem__"]}
{"id": "C78", "title": "A name means the field of the current record, else the variable", "statement": "In a converted program a name denotes the field of that name in the selected table if there is one, otherwise the visible variable; m.name denotes the variable.", "quantifier": "every set of open tables, fields and variables", "why_tests_cant": "All name clashes between aliases, fields and variables.", "anchors": ["vfp2py/vfpfunc.py:_Variable.__getitem__", "vfp2py/vfp2py_convert_visitor.py:scopeId", "vfp2py/vfp2py_convert_visitor.py:createIdAttr"]}
{"id": "C79", "title": "Declarations create the variables and arrays they name", "statement": "LOCAL, PRIVATE and PUBLIC create every listed variable (value .F.) and array (with the given dimensions) in their scope and change no other variable; DIMENSION creates the listed arrays.", "quantifier": "every list of declared names with and without dimensions, every state", "why_tests_cant": "Lists of any length mixing variables and arrays.", "anchors": ["vfp2py/vfp2py_convert_visitor.py:visitDeclaration", "vfp2py/vfpfunc.py:_Memvar.add_local", "vfp2py/vfpfunc.py:_Memvar.add_private", "vfp2py/vfpfunc.py:_Memvar.add_public"]}
{"id": "C80", "title": "Variables do not disturb each other", "statement": "After an assignment to a variable the variable has that value and every other name reads as before, whatever legal FoxPro name the variable has.", "quantifier": "every state, every pair of names", "why_tests_cant": "A particular name may collide with the run-time library.", "anchors": ["vfp2py/vfpfunc.py:_Variable.__setattr__", "vfp2py/vfpfunc.py:_Variable.__getattr__", "vfp2py/vfp2py_convert_visitor.py:visitIdentifier"]}
{"id": "C81", "title": "DO runs the code its target is converted to", "statement": "DO name.prg (.mpr, .spr) runs the main code of the module that this file is converted to; DO name IN file runs that procedure of the module that the file is converted to; DO name runs the procedure of the program, else one of a procedure file, else the program of that name.", "quantifier": "every set of modules, every file name and procedure name", "why_tests_cant": "Conversions of different files must agree with each other.", "anchors": ["vfp2py/vfp2py_convert_visitor.py:visitFuncDo", "vfp2py/vfp2py.py:convert_file"]}
{"id": "C82", "title": "Dates as texts sort and read back", "statement": "DTOS of dates (and of values with a time) is ordered like the dates themselves, CTOD(DTOC(d)) is d for every date, and CTOD yields only dates of the calendar.", "quantifier": "every date and time", "why_tests_cant": "Millions of days times millions of days.", "anchors": ["vfp2py/vfpfunc.py:dtos", "vfp2py/vfpfunc.py:dtoc", "vfp2py/vfpfunc.py:ctod"]}
{"id": "C83", "title": "GO and SKIP position the record pointer", "statement": "GO TOP, GO BOTTOM, GO n and SKIP [n] move the record pointer of the addressed work area to the record FoxPro moves it to (behind the last record at most), in any order and from any position, and RECNO() tells where it is; going to a record that does not exist is an error that changes nothing; no other work area changes.", "quantifier": "every table, every position, every history of moves", "why_tests_cant": "Histories of any length over tables of any size.", "anchors": ["vfp2py/vfp2py_convert_visitor.py:visitGoRecord", "vfp2py/vfp2py_convert_visitor.py:visitSkipRecord", "vfp2py/vfpdatabase.py:goto", "vfp2py/vfpdatabase.py:skip", "vfp2py/vfpdatabase.py:recno"]}
{"id": "C84", "title": "EOF() and BOF() tell the ends of a table", "statement": "EOF() is true exactly behind the last record and BOF() exactly before the first one, so that a loop DO WHILE NOT EOF() ... SKIP ... ENDDO processes every record once.", "quantifier": "every table and position", "why_tests_cant": "Tables of any size.", "anchors": ["vfp2py/vfpdatabase.py:eof", "vfp2py/vfpdatabase.py:bof", "vfp2py/vfp2py_convert_visitor.py:visitWhileStart"]}
{"id": "C85", "title": "A call has the value of the executed RETURN", "statement": "x = f(...) stores the value of the RETURN expression that ended f; if f ended without RETURN or with a RETURN without an expression the value is .T.; statements after an executed RETURN have no effect.", "quantifier": "every procedure, every argument list, every state, every nesting of calls", "why_tests_cant": "All executions of all procedures.", "anchors": ["vfp2py/vfp2py_convert_visitor.py:visitReturnStmt", "vfp2py/vfpfunc.py:_parameters", "vfp2py/vfp2py_convert_visitor.py:visitAssign"]}
{"id": "C86", "title": "RELEASE removes exactly the named visible variables", "statement": "RELEASE with a list of names removes the visible variable of each name: variables of the same name that it hid become visible again, all other variables and the local variables of callers are untouched, and names that are not variables do no harm.", "quantifier": "every list of names, every stack of scopes", "why_tests_cant": "All combinations of scopes with the same name.", "anchors": ["vfp2py/vfp2py_convert_visitor.py:visitRelease", "vfp2py/vfpfunc.py:_Memvar.__delitem__"]}
{"id": "C87", "title": "PADR, PADL and PADC return texts of the requested length", "statement": "PADR(s,n), PADL(s,n) and PADC(s,n), with or without a fill character, return a text of exactly n characters: s followed, preceded or surrounded by fill characters, or the first n characters of s if s is longer.", "quantifier": "every text, every length, every fill character", "why_tests_cant": "All texts against all lengths, above all texts that are too long.", "anchors": ["vfp2py/vfp2py_convert_visitor.py:func_call"]}
{"id": "C88", "title": "LTRIM, RTRIM and ALLTRIM remove blanks and nothing else", "statement": "LTRIM removes the leading blanks, RTRIM the trailing ones and ALLTRIM both; tabulators, line ends and every other character are kept.", "quantifier": "every text", "why_tests_cant": "All texts, with all characters at their ends.", "anchors": ["vfp2py/vfp2py_convert_visitor.py:func_call"]}
{"id": "C89", "title": "PROPER, UPPER, LOWER and the tests of the first character", "statement": "PROPER capitalises the first letter of every word, where words are separated by blanks, and lowers the others; UPPER and LOWER change the letters of the other case only; ISALPHA, ISDIGIT, ISLOWER and ISUPPER look at the first character and are false for the empty text.", "quantifier": "every text", "why_tests_cant": "All texts, with all characters between letters.", "anchors": ["vfp2py/vfp2py_convert_visitor.py:func_call"]}
{"id": "C90", "title": "EMPTY, EVL, NVL, ISNULL, ISBLANK, IIF and BETWEEN", "statement": "EMPTY is true of 0, .F. and texts of blanks, tabulators and line ends, and false of .NULL.; EVL(a,b) is a unless a is empty; NVL and ISNULL test for .NULL.; ISBLANK is true of blank texts; IIF chooses by its condition; BETWEEN tests both bounds.", "quantifier": "every value of every kind, every expression", "why_tests_cant": "All values of all kinds.", "anchors": ["vfp2py/vfp2py_convert_visitor.py:func_call", "vfp2py/vfpfunc.py:isblank"]}
{"id": "C91", "title": "MOD and SIGN", "statement": "MOD(a,b) differs from a by a multiple of b, has the sign of b and is smaller than b in absolute value; SIGN is 1, 0 or -1.", "quantifier": "all whole numbers, b not 0", "why_tests_cant": "Unbounded numbers and all combinations of signs.", "anchors": ["vfp2py/vfp2py_convert_visitor.py:func_call"]}
{"id": "C92", "title": "VAL reads the number at the start of a text", "statement": "VAL(s) is the number written at the start of s behind leading blanks, and 0 if there is none; it never fails; VAL(STR(n,w)) is n when n fits into w characters.", "quantifier": "every text; every number and width", "why_tests_cant": "All texts, not only numerals.", "anchors": ["vfp2py/vfp2py_convert_visitor.py:func_call", "vfp2py/vfpfunc.py:str"]}
{"id": "C93", "title": "ROUND rounds to the nearest number, halves away from zero", "statement": "ROUND(x,n) is the multiple of 10^-n nearest to x; halves are rounded away from zero.", "quantifier": "every rational number", "why_tests_cant": "Infinitely many numbers; halves are rare in samples.", "anchors": ["vfp2py/vfp2py_convert_visitor.py:func_call"]}
{"id": "C94", "title": "Calls of the program's own functions reach them", "statement": "A call of a name that FoxPro has no function of calls the function of that name in the same file, and if there is none the procedure of that name in the procedure files of the program; a call of a name that FoxPro has a function of calls FoxPro's function.", "quantifier": "every name, every program, every argument list", "why_tests_cant": "All names; collisions with internal names are rare in samples.", "anchors": ["vfp2py/vfp2py_convert_visitor.py:func_call", "vfp2py/vfpfunc.py:_Function"]}
{"id": "C95", "title": "Every FoxPro function has an implementation", "statement": "A call of a FoxPro function, under its name or an abbreviation, becomes code or a call of the run-time library and not a search for a procedure of the program.", "quantifier": "every FoxPro function, every abbreviation, every program", "why_tests_cant": "All functions in all abbreviations.", "anchors": ["vfp2py/vfp2py_convert_visitor.py:func_call", "vfp2py/function_abbreviations.py"]}
{"id": "C96", "title": "Comparison of texts", "statement": "== is true exactly of identical texts; with SET EXACT OFF a = b is true exactly if a begins with b, with SET EXACT ON exactly if they differ at most in trailing blanks; <> is the contrary; < and > order texts by the first character that differs.", "quantifier": "all texts, both settings of EXACT, all operand expressions", "why_tests_cant": "All pairs of texts; the texts for which the two notions of equality differ are rare in samples.", "anchors": ["vfp2py/vfp2py_convert_visitor.py:visitComparison"]}
{"id": "C97", "title": "Operators on texts", "statement": "a + b is a followed by b; a - b is a without its trailing blanks, then b, then those blanks; a $ b is true exactly if a is found in b.", "quantifier": "all texts, all operand expressions", "why_tests_cant": "All pairs of texts.", "anchors": ["vfp2py/vfp2py_convert_visitor.py:operationExpr", "vfp2py/vfp2py_convert_visitor.py:visitComparison"]}
{"id": "C98", "title": "Arithmetic of dates", "statement": "Dates are compared by the calendar; a date plus or minus a number of days is the date that many days later or earlier; the difference of two dates is the number of days between them.", "quantifier": "all dates, all numbers of days, all operand expressions", "why_tests_cant": "All pairs of dates.", "anchors": ["vfp2py/vfp2py_convert_visitor.py:operationExpr", "vfp2py/vfp2py_convert_visitor.py:visitComparison"]}
{"id": "C99", "title": "GOMONTH moves by whole months", "statement": "GOMONTH(d,n) is the same day of the month n months later, or the last day of that month if it is shorter; the result is a valid date, moving forth and back is the identity for days up to 28, steps add up, and the order of dates is kept.", "quantifier": "all dates, all numbers of months, negative ones too", "why_tests_cant": "All dates and numbers; leap years and ends of months.", "anchors": ["vfp2py/vfpfunc.py:gomonth"]}
{"id": "C100", "title": "STRTOFILE and FILETOSTR", "statement": "STRTOFILE(s,f) makes s the contents of the file f (flag 1 appends it, flags 2 and 4 write Unicode with a byte order mark) and returns the number of bytes; other files stay as they are; FILETOSTR(f) returns what was written.", "quantifier": "all texts, all files, all flags", "why_tests_cant": "All texts of all characters.", "anchors": ["vfp2py/vfpfunc.py:strtofile", "vfp2py/vfpfunc.py:filetostr"]}
{"id": "C101", "title": "SYS(2000) enumerates the matching files", "statement": "SYS(2000,skel) and repeated calls SYS(2000,skel,1) return every matching file exactly once and then empty texts; a new search starts at the beginning whatever was searched before.", "quantifier": "all lists of files, all numbers of calls", "why_tests_cant": "Histories of calls of any length.", "anchors": ["vfp2py/vfpfunc.py:vfp_sys"]}
{"id": "C102", "title": "PROGRAM() tells the running procedure and its callers", "statement": "PROGRAM() is the name of the running procedure; PROGRAM(n) is the name of the n-th procedure of the chain of calls, counted from the main program; PROGRAM(-1) is the length of the chain.", "quantifier": "all chains of calls", "why_tests_cant": "Chains of any length.", "anchors": ["vfp2py/vfpfunc.py:program", "vfp2py/vfpfunc.py:_parameters"]}
{"id": "C103", "title": "Every name can be the name of a variable", "statement": "The code for a variable can be read by Python whatever the variable is called, and two variables have the same code exactly if FoxPro takes their names to be the same.", "quantifier": "all names", "why_tests_cant": "All names; keywords of the target language are rare in samples.", "anchors": ["vfp2py/vfp2py_convert_visitor.py:scopeId", "vfp2py/vfp2py_convert_visitor.py:visitIdentifier", "vfp2py/vfp2py_convert_visitor.py:valid_identifier"]}
{"id": "C104", "title": "Every name can be the name of a procedure", "statement": "A procedure is defined under its name in the generated module, and no procedure changes the meaning of anything that generated code uses.", "quantifier": "all lists of procedures", "why_tests_cant": "All names in all programs.", "anchors": ["vfp2py/vfp2py_convert_visitor.py:visitPrg", "vfp2py/vfp2py_convert_visitor.py:visitFuncDef"]}
{"id": "C105", "title": "? and ?? produce the lines that FoxPro shows", "statement": "? begins a new line and writes its expressions, separated by blanks; ?? goes on in the last line.", "quantifier": "all sequences of such statements", "why_tests_cant": "Sequences of any length and mixture.", "anchors": ["vfp2py/vfp2py_convert_visitor.py:visitPrintStmt"]}
{"id": "C106", "title": "SCATTER NAME and GATHER NAME carry a record out and back", "statement": "SCATTER NAME makes an object with one property per chosen field (FIELDS list, LIKE, EXCEPT, MEMO) and its value; GATHER NAME writes the properties back into the current record; gathering a scattered object with one property changed changes exactly that field; GATHER FROM an array fills the fields in order.", "quantifier": "all tables, records, objects and clauses", "why_tests_cant": "All tables and all mixtures of clauses.", "anchors": ["vfp2py/vfp2py_convert_visitor.py:visitScatterExpr", "vfp2py/vfp2py_convert_visitor.py:visitGatherExpr", "vfp2py/vfpfunc.py:scatter", "vfp2py/vfpfunc.py:gather", "vfp2py/vfpdatabase.py:_current_record_copy", "vfp2py/vfpdatabase.py:_update_from"]}
{"id": "C107", "title": "TEXT TO assigns the text between TEXT and ENDTEXT", "statement": "TEXT TO v ... ENDTEXT assigns the lines between, with their line ends, and with ADDITIVE appends them to the value of v.", "quantifier": "all lists of lines and all clauses", "why_tests_cant": "Texts of all lengths and contents.", "anchors": ["vfp2py/vfp2py_convert_visitor.py:visitTextBlock", "vfp2py/vfp2py_convert_visitor.py:visitTextChunk", "vfp2py/vfpfunc.py:text"]}
{"id": "C108", "title": "CREATEOBJECT finds the class it names", "statement": "CREATEOBJECT(\"name\") makes an object of the class that the program or a procedure file defines under that name in letters of any case, and otherwise of the base class of FoxPro with that name.", "quantifier": "all programs, lists of procedure files and names", "why_tests_cant": "All names and all combinations of files.", "anchors": ["vfp2py/vfp2py_convert_visitor.py:func_call", "vfp2py/vfpfunc.py:create_object", "vfp2py/vfpfunc.py:_Class"]}
{"id": "C109", "title": "SEEK finds the first record with the key", "statement": "SEEK key moves to the first record that has the key in the order named or in the current one, and FOUND() is then .T.; without such a record it moves behind the last record and FOUND() is .F.; earlier SEEKs make no difference.", "quantifier": "all tables, all orders, all histories of SEEK commands", "why_tests_cant": "Histories of any length.", "anchors": ["vfp2py/vfpdatabase.py:seek", "vfp2py/vfpdatabase.py:index_on", "vfp2py/vfp2py_convert_visitor.py:visitSeekRecord"]}
{"id": "C110", "title": "Functions and commands that name a table act on that table", "statement": "ALIAS, DBF, RECNO, RECCOUNT, RECSIZE, FCOUNT, FIELD, BOF, EOF, DELETED, FOUND with an alias or the number of a work area, and ZAP IN, are about that table and not about the current one.", "quantifier": "all sets of open tables, all choices of the current one", "why_tests_cant": "All states of the work areas.", "anchors": ["vfp2py/vfpdatabase.py:fcount", "vfp2py/vfpdatabase.py:recno", "vfp2py/vfpdatabase.py:reccount", "vfp2py/vfpdatabase.py:zap", "vfp2py/vfpdatabase.py:field"]}
{"id": "C111", "title": "A form becomes the class definition that makes the same form", "statement": "Converting a form file gives a program that makes and shows the form, with one class definition per form that has the properties of the form, its objects with their classes and properties at all levels, and all methods.", "quantifier": "all form files", "why_tests_cant": "Forms of all sizes and depths; a sample holds one form.", "anchors": ["vfp2py/vfp2py.py:convert_scx_to_vfp_code"]}
{"id": "C112", "title": "A class library becomes the definitions of its classes", "statement": "Converting a class library gives one definition for each class in it, with its header files, properties, members and methods.", "quantifier": "all class libraries", "why_tests_cant": "Libraries of all sizes and depths.", "anchors": ["vfp2py/vfp2py.py:convert_vcx_to_vfp_code"]}
{"id": "C113", "title": "The functions for files read and write the bytes that FoxPro would", "statement": "FCREATE and FOPEN give a file in the state and with the rights that their arguments say, or -1; FPUTS, FWRITE, FGETS, FREAD and FSEEK write, read and move in it as in FoxPro; lines written with FPUTS are read again with FGETS.", "quantifier": "all contents of files, all positions, all lists of lines, both kinds of system", "why_tests_cant": "All sequences of writing and reading; the tests compare generated text only.", "anchors": ["vfp2py/vfp2py_convert_visitor.py:func_call"]}
{"id": "C114", "title": "The functions for paths take paths apart and put them together", "statement": "JUSTDRIVE, JUSTPATH, JUSTFNAME, JUSTSTEM and JUSTEXT give the parts of a path, FORCEEXT replaces the extension and ADDBS adds the last backslash, with letters in the case they have.", "quantifier": "all drives, folders, names and extensions", "why_tests_cant": "All paths; the tests hold three.", "anchors": ["vfp2py/vfp2py_convert_visitor.py:func_call"]}
{"id": "C115", "title": "A converted program does what the FoxPro program does", "statement": "A program of procedures with assignments, STORE, ?, ERROR, THROW, TRY with CATCH and FINALLY (also for errors such as undefined variables and division by zero), AND and OR that do without their right operand, LOCAL, PRIVATE, PUBLIC, RELEASE, IF, DO CASE, DO WHILE, FOR, EXIT, LOOP, RETURN, parameters and (recursive) calls prints, after conversion, the same values line by line, leaves the same variables with the same values, returns the same values, and runs on forever where the FoxPro program does.", "quantifier": "every such program, all values, every number of iterations and depth of calls", "why_tests_cant": "All programs and all runs; a test runs one program.", "anchors": ["vfp2py/vfp2py_convert_visitor.py:visitFuncDef", "vfp2py/vfp2py_convert_visitor.py:visitAssign", "vfp2py/vfp2py_convert_visitor.py:visitDeclaration", "vfp2py/vfp2py_convert_visitor.py:visitLines", "vfp2py/vfp2py_convert_visitor.py:visitForStart", "vfp2py/vfpfunc.py:_Memvar", "vfp2py/vfpfunc.py:_parameters"]}
{"id": "C116", "title": "DO passes variables by reference", "statement": "After DO name WITH x, the variable x has the value that the procedure left in its parameter.", "quantifier": "every procedure, all variables and values", "why_tests_cant": "All procedures; no test looks at a variable after DO.", "anchors": ["vfp2py/vfp2py_convert_visitor.py:visitFuncDo", "vfp2py/vfpfunc.py:_parameters"]}
{"id": "C117", "title": "CATCH TO receives the description of the error", "statement": "After ERROR, THROW or an error in a statement, at any depth of calls and TRY, the CATCH lines that run are those that FoxPro runs; the object of CATCH TO has the number and the message of the error and the procedure and line where it occurred; MESSAGE() gives the message.", "quantifier": "all programs of calls, TRY, ERROR and THROW, all values", "why_tests_cant": "All nestings; the tests compare the generated text of one TRY.", "anchors": ["vfp2py/vfp2py_convert_visitor.py:visitTryStmt", "vfp2py/vfp2py_convert_visitor.py:visitRaiseError", "vfp2py/vfp2py_convert_visitor.py:visitThrowError", "vfp2py/vfpfunc.py:Exception", "vfp2py/vfpfunc.py:message"]}
{"id": "C118", "title": "ON ERROR runs its command for every error outside of TRY", "statement": "After ON ERROR command, an error in a statement outside of TRY runs the command, whose effect is that of the command written as a statement, and the program goes on behind the statement.", "quantifier": "all programs, all commands, all states", "why_tests_cant": "All programs; no test has an error while ON ERROR is in force.", "anchors": ["vfp2py/vfp2py_convert_visitor.py:visitOnStmt", "vfp2py/vfp2py_convert_visitor.py:on_event", "vfp2py/vfpfunc.py:error_func"]}
{"id": "C119", "title": "The commands for files and folders act on the files and folders they name", "statement": "COPY FILE, RENAME, ERASE, DELETE FILE, MKDIR, RMDIR and CHDIR change the disk as in FoxPro: the file or folder named, and nothing else; RENAME never destroys a file; patterns stand for all matching files.", "quantifier": "all contents of a disk, all paths, systems with and without regard to case", "why_tests_cant": "All disks; the tests compare the generated text.", "anchors": ["vfp2py/vfp2py_convert_visitor.py:visitDeleteFile", "vfp2py/vfp2py_convert_visitor.py:visitCopyMoveFile", "vfp2py/vfp2py_convert_visitor.py:visitChMkRmDir", "vfp2py/vfp2py_convert_visitor.py:visitSpecialExpr"]}
{"id": "C120", "title": "Commands for the program, menus, forms and events can be executed", "statement": "A command for menus, popups, forms, reports, events, keys or macros that is converted to a call of the library calls a function that exists and takes its arguments.", "quantifier": "all these commands with all combinations of clauses", "why_tests_cant": "All combinations; the tests compare the generated text and never run it.", "anchors": ["vfp2py/vfp2py_convert_visitor.py:visitDefineMenu", "vfp2py/vfp2py_convert_visitor.py:visitOnStmt", "vfp2py/vfp2py_convert_visitor.py:visitFuncDo", "vfp2py/vfp2py_convert_visitor.py:visitReadEvent", "vfp2py/vfp2py_convert_visitor.py:visitLine"]}
{"id": "C121", "title": "A property of a form or control reads back the value assigned", "statement": "After an assignment to a property of a form or control the property has that value, the other properties have the values they had, and the control on the screen shows it.", "quantifier": "all classes of controls, all properties, all values that the property takes, all states of the control", "why_tests_cant": "All classes, properties and states; no test creates a window.", "anchors": ["vfp2py/vfpfunc.py:Form", "vfp2py/vfpfunc.py:Commandbutton", "vfp2py/vfpfunc.py:HasFont", "vfp2py/vfpfunc.py:Combobox", "vfp2py/vfpfunc.py:Spinner", "vfp2py/vfpfunc.py:Grid", "vfp2py/vfpfunc.py:Optiongroup"]}
{"id": "C122", "title": "A reference reaches the member that it names", "statement": "A reference like form.grid.columns(2).width stands for the same member in the generated code: THIS is the object itself, THISFORM its form, any other first name a variable, and every further name a member; as a line of its own it calls the member, and with arguments as the target of an assignment it stores an element.", "quantifier": "all references: any first name, any number of names and argument lists behind it", "why_tests_cant": "References of any length with any names, among them those of keywords of the target language.", "anchors": ["vfp2py/vfp2py_convert_visitor.py:createIdAttr", "vfp2py/vfp2py_convert_visitor.py:visitIdAttr", "vfp2py/vfp2py_convert_visitor.py:visitAtomExpr", "vfp2py/vfp2py_convert_visitor.py:visitAssign"]}
{"id": "C123", "title": "A method receives its object and its arguments", "statement": "A call of a method binds THIS to the object, the parameters to the arguments in order, and the missing ones to .F., whatever statements the method contains.", "quantifier": "all methods with any parameters, variables and statements; all calls with at most as many arguments as parameters", "why_tests_cant": "All bodies; the tests have a few methods and none with SCAN, CATCH TO or DIMENSION and parameters.", "anchors": ["vfp2py/vfpfunc.py:_parameters", "vfp2py/vfp2py_convert_visitor.py:visitParameterDef", "vfp2py/vfp2py_convert_visitor.py:visitClassDef", "vfp2py/vfp2py_convert_visitor.py:visitFuncDef"]}
{"id": "C124", "title": "DODEFAULT runs the method of the parent class", "statement": "DODEFAULT(args) in a method of a class runs the method of the same name of the parent of that class, with the same object; if there is none, nothing happens.", "quantifier": "all chains of classes, all methods, all objects of any class of the chain", "why_tests_cant": "Chains of any depth with methods inherited anywhere; the tests never create an object of a class that inherits a method with DODEFAULT.", "anchors": ["vfp2py/vfp2py_convert_visitor.py:func_call", "vfp2py/vfp2py_convert_visitor.py:visitClassDef", "vfp2py/vfp2py_convert_visitor.py:modify_func_body"]}
{"id": "C125", "title": "A call of a FoxPro function is converted with all its arguments", "statement": "A call of a function with the arguments that FoxPro allows is converted to code in which every argument has an effect, whose modules are imported and whose calls are accepted.", "quantifier": "all 100 functions converted in place, all lists of arguments FoxPro allows", "why_tests_cant": "All numbers and kinds of arguments; the tests have one or two calls of each function.", "anchors": ["vfp2py/vfp2py_convert_visitor.py:func_call", "vfp2py/vfpfunc.py:Array"]}
{"id": "C126", "title": "Deleted records are hidden exactly when SET DELETED is ON, and PACK removes them", "statement": "Commands with scope ALL see all records while SET DELETED is OFF and the records that are not deleted while it is ON; PACK and PACK DBF remove the deleted records and leave the pointer on the first record; PACK MEMO keeps all records.", "quantifier": "all tables, all sequences of SET DELETED, PACK and commands with scope ALL, all conditions", "why_tests_cant": "Sequences of any length over tables of any size; no test sets DELETED.", "anchors": ["vfp2py/vfpdatabase.py:pack", "vfp2py/vfpdatabase.py:_get_records", "vfp2py/vfpfunc.py:set", "vfp2py/vfp2py_convert_visitor.py:visitPack"]}
{"id": "C127", "title": "A new object has the properties of its class, its members and its INIT in the order of FoxPro", "statement": "CREATEOBJECT gives an object the properties of its class and superclasses, makes the members that ADD OBJECT names, at any depth and with their own properties, and runs the INIT methods, those of the members before that of the object, the last one with the arguments of CREATEOBJECT; an INIT method can use the properties of the containing object and THISFORM; an INIT method that returns .F. prevents the object.", "quantifier": "all classes with any chain of superclasses and any nesting of members, all arguments, all INIT methods", "why_tests_cant": "Nesting and inheritance are unbounded; tests create objects of one level.", "anchors": ["vfp2py/vfpfunc.py:Custom", "vfp2py/vfpfunc.py:parentform", "vfp2py/vfp2py_convert_visitor.py:visitClassDef", "vfp2py/vfpfunc.py:vfpclass"]}
{"id": "C128", "title": "A program in an FXP file is listed with all its procedures and classes", "statement": "Reading a compiled file gives every program with its main code, all procedures and all classes, wherever their tables and code are in the file, and the listing written for a program is its source text: main code, procedures, classes with their members and ENDDEFINE.", "quantifier": "all programs with any number of procedures and classes, all places of tables and code in the file, all lines", "why_tests_cant": "Files of any layout; no test has classes in a compiled file.", "anchors": ["vfp2py/fxp_read.py:read_fxp_file_block", "vfp2py/fxp_read.py:main", "vfp2py/fxp_read.py:read_code_block"]}
{"id": "C129", "title": "CREATE TABLE makes, opens and selects the table described, ALTER TABLE changes exactly the named columns", "statement": "CREATE TABLE, CREATE DBF and CREATE CURSOR make an empty table with the columns of the statement (names, types, widths and decimals), open it in a free work area and select it; a table in use is refused and kept; ALTER TABLE adds the columns behind ADD COLUMN, drops those behind DROP COLUMN and keeps all others, whether the table is open or not.", "quantifier": "all statements with any number of fields or clauses, all types and widths, all states of the work areas", "why_tests_cant": "Statements have any number of fields and clauses; the tests use one statement with C, N and L fields.", "anchors": ["vfp2py/vfp2py_convert_visitor.py:visitCreateTable", "vfp2py/vfp2py_convert_visitor.py:visitTableField", "vfp2py/vfp2py_convert_visitor.py:visitAlterTable", "vfp2py/vfpdatabase.py:create_table", "vfp2py/vfpdatabase.py:alter_table"]}
{"id": "C130", "title": "MESSAGEBOX shows the message, buttons, icon, default button and title asked for and returns the number of the button", "statement": "A message box has the message, title, buttons, icon and default button that its type describes, whether the type or the title is given first; its value is the number that the documentation gives for the button pressed; Escape presses Cancel, or OK when it is the only button, and does nothing else; a time limit is in milliseconds; a message that is no text is shown as text.", "quantifier": "all messages, titles, types (any integer), orders of the arguments and time limits", "why_tests_cant": "The type is any sum of three codes and the value depends on what the user presses; a box cannot be shown in a unit test.", "anchors": ["vfp2py/vfpfunc.py:messagebox"]}
{"id": "C131", "title": "CAST converts values to the type named", "statement": "CAST(v AS t) keeps NULL, keeps values that are of the type, converts numbers and logical values into each other, writes numbers with their digits, reads the digits of a text as a number and gives 0 for a text without them, gives binary values the codes of the characters; the names of types are recognised in any case, with or without width and decimals.", "quantifier": "all values, all types and their names in any case, all widths", "why_tests_cant": "Values and texts are unbounded; the tests only look at the text of the generated code, which is never run.", "anchors": ["vfp2py/vfp2py_convert_visitor.py:visitCastExpr", "vfp2py/vfp2py_convert_visitor.py:visitAsType"]}
{"id": "C132", "title": "SQLEXEC puts the rows of the result into the cursor named, whatever their number and types", "statement": "SQLEXEC (and SQLTABLES) return -1 when the command fails; otherwise the cursor of the name given has a column for each column of the result, with its name, type and width, and the rows of the result in order, also if there are none; a cursor of that name is replaced, other open tables and files are kept.", "quantifier": "all results (any columns, any number of rows), all states of the work areas, all names of cursors", "why_tests_cant": "Results and states of the work areas are unbounded; there is no data source in the tests.", "anchors": ["vfp2py/vfpfunc.py:_odbc_cursor_to_db", "vfp2py/vfpfunc.py:sqlexec", "vfp2py/vfpfunc.py:sqltables"]}
{"id": "C133", "title": "DECLARE makes the function of the library callable that it names, and nothing else", "statement": "After DECLARE [type] Function IN library [AS alias] [types], calls of the alias (or of the name), in capitals or not, call that function of that library with the types declared; the last declaration of a name counts; CLEAR DLLS takes names back; no other name gets another meaning.", "quantifier": "all systems of libraries, all histories of DECLARE and CLEAR DLLS, all names called", "why_tests_cant": "The functions exported by libraries and the order of declarations are unbounded; the tests only compare one generated line.", "anchors": ["vfp2py/vfpfunc.py:_Function.dll_declare", "vfp2py/vfpfunc.py:_Function.dll_clear", "vfp2py/vfpfunc.py:_Function.__getitem__", "vfp2py/vfp2py_convert_visitor.py:visitDllDeclare", "vfp2py/vfp2py_convert_visitor.py:visitClearStmt"]}
{"id": "C134", "title": "Changes made by SQLEXEC last", "statement": "SQLCONNECT gives a number, positive if there is a connection; a statement of SQLEXEC that succeeds changes the data source for good (transactions are automatic unless chosen otherwise), so that SQLROLLBACK and SQLDISCONNECT lose nothing; SQLEXEC, SQLCOMMIT, SQLROLLBACK and SQLDISCONNECT give 1 when they succeed.", "quantifier": "all data sources, all histories of statements, commits and rollbacks", "why_tests_cant": "There is no data source in the tests; histories and statements are unbounded.", "anchors": ["vfp2py/vfpfunc.py:sqlconnect", "vfp2py/vfpfunc.py:sqlstringconnect", "vfp2py/vfpfunc.py:sqlexec", "vfp2py/vfpfunc.py:sqlcommit", "vfp2py/vfpfunc.py:sqlrollback", "vfp2py/vfpfunc.py:sqldisconnect"]}
{"id": "C135", "title": "Names written in commands", "statement": "The name of a file, a table or a procedure in a command stands for itself (names are compared without regard to case), with or without quotes; an expression in parentheses stands for its value.", "quantifier": "all names and expressions, all values of variables", "why_tests_cant": "Names and expressions are unbounded; tests show a few names that look like words.", "anchors": ["vfp2py/vfp2py.py:TreeCleanVisitor.visitSpecialExpr", "vfp2py/vfp2py.py:contains_exceptions", "vfp2py/vfp2py_convert_visitor.py.visitSpecialExpr", "vfp2py/vfp2py_convert_visitor.py.visitPathname"]}
{"id": "C136", "title": "Lines with &", "statement": "A program with & in comments or texts runs like one without: a comment line has no effect whatever it contains, and & before a letter in a text stays as it is when there is no variable of that name; &name is replaced by the value of the variable wherever it stands in a line.", "quantifier": "all programs, all lines with & anywhere", "why_tests_cant": "A test shows one line with a macro; which lines are taken for macros depends on every character before the first &.", "anchors": ["vfp2py/VisualFoxpro9.g4:MACROLINE", "vfp2py/vfp2py_convert_visitor.py.visitLine"]}
{"id": "C137", "title": "&& in texts", "statement": "A comment begins at the first && of a line that is not in a string constant; a string constant may contain &&.", "quantifier": "all lines of string constants and other text, with and without a comment", "why_tests_cant": "Lines and the places of && in them are unbounded; no test has && in a text.", "anchors": ["vfp2py/VisualFoxpro9.g4:COMMENT", "vfp2py/VisualFoxpro9.g4:constant", "vfp2py/vfp2py.py:PreprocessVisitor.replace_define_tokens"]}
{"id": "C138", "title": "RUN gives the program its arguments", "statement": "RUN and ! run a command with the arguments that its command line says: arguments are separated by blanks, an argument in double quotes may contain blanks and the quotes are no part of it.", "quantifier": "all command lines of arguments with and without quotes and any number of blanks", "why_tests_cant": "Command lines are unbounded; the test compares the code of one command.", "anchors": ["vfp2py/vfp2py_convert_visitor.py.visitShellRun"]}
{"id": "C139", "title": "Dates and times of compiled programs", "statement": "A date or a date and time in a compiled program is shown as a constant that stands for the same date and time.", "quantifier": "all dates of the years 1 to 9999, all times of day, all stored values closer than half a second to them, and the empty date and time", "why_tests_cant": "There are more than three million dates and the values in the file are rounded; the tests read none.", "anchors": ["vfp2py/fxp_read.py.read_datetimeexpr", "vfp2py/fxp_read.py.read_datetime", "vfp2py/fxp_read.py.read_date"]}
{"id": "C140", "title": "CHR, ASC, SPACE and REPLICATE", "statement": "CHR(n) is the character with the code n, ASC(s) the code of the first character of s and 0 of an empty text, SPACE(n) n blanks and REPLICATE(s, n) n times s.", "quantifier": "all expressions as arguments, all texts, all numbers of repetitions and all codes up to 255", "why_tests_cant": "Arguments are arbitrary expressions whose code is put into a template; the tests have constants and one name.", "anchors": ["vfp2py/vfp2py_convert_visitor.py.func_call"]}
{"id": "C141", "title": "The values of INSERT", "statement": "The record that INSERT makes has in each field the value that the statement gives to it: the value at its place, the value given with its name in any order and case, the property or the variable of its name; all other fields are blank. A statement with different numbers of names and values, or with a name that is no field, makes no record.", "quantifier": "all tables, lists of names and values, objects and variables", "why_tests_cant": "Lists of fields are unbounded and may be in any order; the tests compare the code of two statements.", "anchors": ["vfp2py/vfp2py_convert_visitor.py.visitInsert", "vfp2py/vfpdatabase.py.insert"]}
{"id": "C142", "title": "Operators bind as in FoxPro", "statement": "The text of an expression is grouped as the table of operators says, whatever its length and nesting, and the Python text made from it has the value that this grouping gives: OR, AND, NOT, comparisons, + and -, %, * and /, powers, from loose to tight and from left to right. No other text is accepted as that expression.", "quantifier": "all expressions, spellings and placements of parentheses", "why_tests_cant": "A test fixes one expression; grouping errors of the parser and missing parentheses in the output cancel each other or not depending on the operators around them.", "anchors": ["VisualFoxpro9Parser.expr", "vfp2py/vfp2py_convert_visitor.py.visitComparison", "vfp2py/vfp2py_convert_visitor.py.visitBooleanNegation", "vfp2py/vfp2py_convert_visitor.py.operationExpr"]}
{"id": "C143", "title": "Every file of a container is found and extracted", "statement": "Of every compiled file with a valid header the reader lists exactly the files of its directory, in order, each with its own directory name, file name and bytes, wherever these are kept in the file; extraction leaves each of them in the output directory, programs as containers of their own.", "quantifier": "all containers, any number of files, any placement of names and bytes", "why_tests_cant": "A test has one container with a handful of files laid out by one tool; offsets that are mixed up or files that overwrite each other depend on the layout.", "anchors": ["vfp2py/fxp_read.py.fxp_read", "vfp2py/fxp_read.py.read_until_null"]}
{"id": "C144", "title": "A SET statement of a program is in effect afterwards", "statement": "After SET with ON, OFF or a value, in every spelling the parser accepts, SET() returns the value given in the statement until the next SET of that setting, and no other setting changes.", "quantifier": "all SET statements with ON and OFF, BELL, CENTURY, COMPATIBLE, NOTIFY and REFRESH, all spellings, all histories", "why_tests_cant": "A test has one spelling and one value; which of the many words and abbreviations get lost on the way from the parser to the run-time library is not visible from it.", "anchors": ["vfp2py/vfp2py_convert_visitor.py.visitSetCmd", "vfp2py/vfp2py_convert_visitor.py.visitLine", "vfp2py/vfpfunc.py.set", "VisualFoxpro9.g4:setCmd"]}
{"id": "C145", "title": "INT, CEILING, MAX, MIN and INLIST", "statement": "INT cuts off the fraction, CEILING is the least whole number not below its argument, MAX and MIN return an argument that no other exceeds or undercuts, INLIST tells whether an argument equals the first one; .NULL. is treated as in FoxPro.", "quantifier": "all rational numbers, all lists of numbers, dates and texts of any length, with and without .NULL., both values of SET EXACT", "why_tests_cant": "Which of many arguments is returned depends on all comparisons between them; tests use a few short lists, no .NULL. and no texts that begin alike.", "anchors": ["vfp2py/vfp2py_convert_visitor.py.func_call"]}
{"id": "C146", "title": "@ .. SAY becomes one statement", "statement": "A statement @ row,column SAY expression, on however many lines it is written, becomes one Python statement that prints the value of the expression, and nothing else.", "quantifier": "all statements, all texts of expressions and tokens, all levels of indentation", "why_tests_cant": "The text of the statement goes into a comment behind the code; whether all of it stays in the comment depends on where the lines of the statement end, and tests have the statement on one line.", "anchors": ["vfp2py/vfp2py_convert_visitor.py.visitAtPos", "vfp2py/vfp2py_convert_visitor.py.getCtxText", "vfp2py/vfp2py.py:add_indents", "VisualFoxpro9.g4:LINECONT"]}
{"id": "C147", "title": "A statement is converted in the same way whatever the statements before it are", "statement": "The Python code of a statement depends on the statement alone: a statement of the same procedure that cannot be converted becomes a comment and does not change what the following statements become.", "quantifier": "all programs of assignments, calls, RELEASE, DIMENSION and REPLACE over all expressions of names, members, calls and operations", "why_tests_cant": "The converter keeps state between statements; whether it is restored depends on where in a statement an exception is raised, and tests convert statements that can be converted.", "anchors": ["vfp2py/vfp2py_convert_visitor.py.visit_with_disabled_scope", "vfp2py/vfp2py_convert_visitor.py.visitLine", "vfp2py/vfp2py_convert_visitor.py.scopeId", "vfp2py/vfp2py_convert_visitor.py.visitIdentTrailer", "vfp2py/vfp2py_convert_visitor.py.visitDeclaration", "vfp2py/vfp2py_convert_visitor.py.visitRelease", "vfp2py/vfp2py_convert_visitor.py.visitReplace"]}
{"id": "C148", "title": "VARTYPE tells the type of every value", "statement": "VARTYPE(name) returns the letter of the type of the value, and U for a name that is not defined.", "quantifier": "all values of all FoxPro types, nested arrays included, all sets of variables", "why_tests_cant": "Tests ask for a few common types; which of all types and states of a variable lose their letter is a statement about all of them.", "anchors": ["vfp2py/vfpfunc.py.vartype", "vfp2py/vfpfunc.py.TYPE_MAP", "vfp2py/vfp2py_convert_visitor.py.visitDate", "vfp2py/vfp2py_convert_visitor.py.visitBlob", "vfp2py/vfp2py_convert_visitor.py.visitNumberOrCurrency"]}
{"id": "C149", "title": "FOR with fractions and negative steps", "statement": "FOR v = a TO b STEP s runs its body for a, a + s, a + 2s, .. up to the last value that is not beyond b.", "quantifier": "all rational numbers as start, bound and step", "why_tests_cant": "Tests run a few loops with whole numbers; for which of all starts, bounds and steps the iterations are lost is a statement about all of them.", "anchors": ["vfp2py/vfp2py_convert_visitor.py:visitForStart"]}
{"id": "C150", "title": "Numbers of compiled programs", "statement": "A number in a compiled program is listed as a constant with the same value.", "quantifier": "all numbers in one, two, four and eight bytes and all fixed point numbers, all numbers of digits and decimals", "why_tests_cant": "Tests list a few programs; that every constant of up to 15 digits comes back as it was written is a statement about all floating point numbers.", "anchors": ["vfp2py/fxp_read.py:FXPNumber", "vfp2py/fxp_read.py:read_int8", "vfp2py/fxp_read.py:read_int16", "vfp2py/fxp_read.py:read_int32", "vfp2py/fxp_read.py:read_double", "vfp2py/fxp_read.py:read_float"]}
{"id": "C151", "title": "REPLACE with several fields", "statement": "REPLACE f1 WITH v1, f2 WITH v2, ... changes all of the named fields of the records in scope.", "quantifier": "every table, scope, list of fields and values", "why_tests_cant": "The number of fields, their values and the table are arbitrary.", "anchors": ["vfp2py/vfp2py_convert_visitor.py:visitReplace", "vfp2py/VisualFoxpro9.g4:replace", "vfp2py/vfpdatabase.py:DatabaseContext.replace"]}
{"id": "C152", "title": "What combo boxes, list boxes and grids show", "statement": "ADDITEM adds an item and changes nothing else; assigning VALUE shows the item and calls ProgrammaticChange once; InteractiveChange is for the user only. A list box with a ROWSOURCE lists the first field of the records, a grid with a RECORDSOURCE shows the table with the current record marked; a click on a row makes its record the current one.", "quantifier": "every sequence of ADDITEM, assignments and choices of the user; every table, every former contents", "why_tests_cant": "Which items are shown depends on the whole history of the control; the tables are arbitrary.", "anchors": ["vfp2py/vfpfunc.py:Combobox", "vfp2py/vfpfunc.py:Listbox.rowsource", "vfp2py/vfpfunc.py:Grid.refresh", "vfp2py/vfpfunc.py:Grid.recordsource"]}
{"id": "C153", "title": "Programs in all code pages", "statement": "A program file in the code page named with --encoding is converted to a file that holds the translation with all characters of the program, in UTF-8.", "quantifier": "every code page, file, translation", "why_tests_cant": "Code pages and characters are arbitrary.", "anchors": ["vfp2py/vfp2py.py:convert_file", "vfp2py/vfp2py.py:preprocess_file", "vfp2py/__main__.py:main"]}
{"id": "C154", "title": "INDEX ON orders the records", "statement": "After INDEX ON key TAG t the records of the table are visited by GO TOP and SKIP in the order of the key, whatever expression it is, in descending order with DESCENDING and one record for each key with UNIQUE.", "quantifier": "every table, key, tag and direction", "why_tests_cant": "Tables, keys and the order of values are arbitrary.", "anchors": ["vfp2py/vfp2py_convert_visitor.py:visitIndexOn", "vfp2py/vfpdatabase.py:index_on", "vfp2py/vfpdatabase.py:goto", "vfp2py/vfpdatabase.py:skip"]}
{"id": "C155", "title": "FILE, DIRECTORY and LOCFILE find what is there", "statement": "FILE(name) and DIRECTORY(name) tell whether there is a file or folder of that path, whatever the case of its letters; FILE and LOCFILE look for a name without folders in the current folder and then in those of SET PATH, and LOCFILE returns the file found.", "quantifier": "every disk, current folder, path, SET PATH", "why_tests_cant": "Disks and paths are arbitrary.", "anchors": ["vfp2py/vfp2py_convert_visitor.py:func_call", "vfp2py/vfpfunc.py:locfile"]}
{"id": "C156", "title": "FOR EACH visits all elements", "statement": "FOR EACH x IN array runs its lines once for every element of the array, row after row; x has the value that the element has when its turn comes; LOOP goes on with the next element and EXIT ends the loop.", "quantifier": "every array, value, loop body that keeps the shape of the array", "why_tests_cant": "Arrays and loop bodies are arbitrary.", "anchors": ["vfp2py/vfp2py_convert_visitor.py:visitForStart", "vfp2py/vfpfunc.py:Array.__iter__"]}
{"id": "C157", "title": "A class has the superclasses that its definition names", "statement": "An object of a class of a program or procedure file has as superclasses the class named in its definition, the class named in the definition of that one and so on, up to a base class; DEFINE CLASS x AS y OF file takes y from that file.", "quantifier": "every set of class definitions in every number of files", "why_tests_cant": "Definitions, files and the depth of inheritance are arbitrary.", "anchors": ["vfp2py/vfp2py_convert_visitor.py:visitClassDefStart", "vfp2py/vfp2py_convert_visitor.py:modify_superclass", "vfp2py/vfpfunc.py:vfpclass", "vfp2py/vfpfunc.py:_Class.__getitem__"]}
{"id": "C158", "title": "Lines of a compiled program are listed with their words", "statement": "The listing of a compiled program shows each line as its command followed by its keywords, names (with what stands before their dots) and expressions, in their order.", "quantifier": "every sequence of keywords, names and expressions that fits in a line", "why_tests_cant": "Lines and expressions are arbitrary.", "anchors": ["vfp2py/fxp_read.py:parse_line", "vfp2py/fxp_read.py:parse_subline"]}
{"id": "C159", "title": "Included headers are found", "statement": "`#INCLUDE` takes the file of that name, whatever the case of its letters, from the first of the current folder, the folders given on the command line and the folders of the files of the project that has it; if none has, the conversion of the program fails.", "quantifier": "every set of files, list of folders and name of a header", "why_tests_cant": "Files, folders and names are arbitrary.", "anchors": ["vfp2py/vfp2py.py:which", "vfp2py/vfp2py.py:visitPreprocessorInclude", "vfp2py/vfp2py.py:convert_project"]}
{"id": "C160", "title": "Forms, class libraries and projects are read with their memo files", "statement": "A form, class library or project is read together with the memo file in the same folder whose name differs only in the extension and in the case of letters, and without memo file if there is none.", "quantifier": "every folder, contents and name", "why_tests_cant": "Folders and names are arbitrary.", "anchors": ["vfp2py/vfp2py.py:memo_filename", "vfp2py/vfp2py.py:copy_obscured_dbf", "vfp2py/vfp2py.py:find_file_ignore_case"]}
{"id": "C161", "title": "ASSERT stops a program only while SET ASSERTS is ON", "statement": "ASSERT shows its message if its condition does not hold and SET ASSERTS is ON; while it is OFF, as at the beginning, ASSERT does nothing.", "quantifier": "every program with ASSERT, SET ASSERTS, IF and other statements, every state", "why_tests_cant": "Programs and states are arbitrary.", "anchors": ["vfp2py/vfp2py_convert_visitor.py:visitAssert", "vfp2py/vfp2py_convert_visitor.py:visitSetCmd"]}
{"id": "C162", "title": "? shows values as FoxPro does", "statement": "? shows texts as they are, whole numbers right-aligned in ten columns, logical values as .T. and .F., the null value as .NULL. and dates as month/day/year.", "quantifier": "all texts, whole numbers, logical values, null values and dates, all lines of them", "why_tests_cant": "Values and lines are arbitrary; the tests compare the generated text and do not run it.", "anchors": ["vfp2py/vfp2py_convert_visitor.py:visitPrintStmt"]}
{"id": "C163", "title": "Parts of dates and times, the clock and the times of files", "statement": "YEAR, MONTH, DAY, HOUR, MINUTE, SEC, CDOW and CMONTH tell the parts of every date and every date with a time (a date standing for its midnight); DTOT gives that midnight; TIME and SECONDS tell the time of the day, SECONDS to the millisecond; FDATE and FTIME tell when a file was changed, FTIME as text; DTOC and DTOS write the date.", "quantifier": "all days of the calendar from the year 1 to 9999, all times, all files", "why_tests_cant": "The days and times are unbounded in practice; tests compare the generated text and use a few dates.", "anchors": ["vfp2py/vfp2py_convert_visitor.py:convert_function", "vfp2py/vfpfunc.py:fdate", "vfp2py/vfpfunc.py:ftime", "vfp2py/vfpfunc.py:seconds"]}
{"id": "C164", "title": "APPEND FROM adds the records of another table", "statement": "APPEND FROM adds to the selected table, behind its records, the records of the source that fulfil the condition of FOR (without those that are deleted if SET DELETED is ON), in their order and with their fields; all else stays.", "quantifier": "all open tables, all sources with the fields of the table, all conditions, both settings of SET DELETED", "why_tests_cant": "The records and conditions are unbounded; the tests compare the generated call and run none.", "anchors": ["vfp2py/vfpdatabase.py:append_from", "vfp2py/vfp2py_convert_visitor.py:visitAppendFrom"]}
{"id": "C165", "title": "Comparison of logical values", "statement": "Two logical values are equal exactly if they are the same, and .F. comes before .T.; comparing a logical value with a number is an error.", "quantifier": "all operand expressions, all values", "why_tests_cant": "The operands are arbitrary expressions; the tests compare generated text.", "anchors": ["vfp2py/vfp2py_convert_visitor.py:visitComparison"]}
