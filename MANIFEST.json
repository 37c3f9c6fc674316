{
 "claims": [
  {
   "property": "C01",
   "status": "proved",
   "theorems": [
    "Props.C01_call_depth",
    "Props.C01_call_balanced",
    "Props.C01_call_balanced_try",
    "Props.C01_call_fails_iff"
   ],
   "note": "Programs without TRY: exactly balanced. Any program: one extra level per call abandoned by an exception (C06)."
  },
  {
   "property": "C02",
   "status": "proved",
   "theorems": [
    "Props.C02_callee_cannot_see_caller_locals",
    "Props.C02_callee_cannot_change_caller_locals",
    "Props.C02_callee_cannot_change_caller_locals_err"
   ],
   "note": ""
  },
  {
   "property": "C03",
   "status": "proved",
   "theorems": [
    "Props.C03_read",
    "Props.C03_assign",
    "Props.C03_assign_in_place",
    "Props.C03_assign_new"
   ],
   "note": ""
  },
  {
   "property": "C04",
   "status": "proved",
   "theorems": [
    "Props.C04_binding",
    "Props.C04_call",
    "Props.C04_no_parameters"
   ],
   "note": "Parameter names of one procedure are assumed distinct, as the generated Python keyword arguments require."
  },
  {
   "property": "C05",
   "status": "proved",
   "theorems": [
    "Props.C05_pcount",
    "Props.C05_parameters"
   ],
   "note": "As long as no call was abandoned by a caught error."
  },
  {
   "property": "C06",
   "status": "partial",
   "theorems": [
    "Props.C06_handler_state_fails",
    "Props.C06_error_leaves_levels_partial"
   ],
   "note": "False as stated: witness in C06_handler_state_fails. Proved: exactly one extra level per abandoned call, callers' levels intact below."
  },
  {
   "property": "C07",
   "status": "proved",
   "theorems": [
    "Props.C07_private_restored",
    "Props.C07_private_value_restored"
   ],
   "note": ""
  },
  {
   "property": "C08",
   "status": "proved",
   "theorems": [
    "Props.C08_release_all",
    "Props.C08_visible_after"
   ],
   "note": ""
  },
  {
   "property": "C09",
   "status": "proved",
   "theorems": [
    "Props.C09_store",
    "Props.C09_read_in_range",
    "Props.C09_history",
    "Props.C09_alen",
    "Props.C09_alen_1d"
   ],
   "note": ""
  },
  {
   "property": "C10",
   "status": "partial",
   "theorems": [
    "Props.C10_column_overflow_fails",
    "Props.C10_out_of_range_partial",
    "Props.C10_stops",
    "Props.C10_one_dimensional"
   ],
   "note": "False for column subscripts that are too large (they reach the next row). Proved for subscripts whose flat position is out of range and for one-dimensional arrays."
  },
  {
   "property": "C100",
   "status": "partial",
   "theorems": [
    "Props.C100_unicode",
    "Props.C100_plain_fails",
    "Props.C100_refused",
    "Props.C100_read_fails"
   ],
   "note": "on Python 3 only the Unicode flags write anything and reading is always an error"
  },
  {
   "property": "C101",
   "status": "proved",
   "theorems": [
    "Props.C101_enumerates",
    "Props.C101_restart"
   ],
   "note": "relative to the files that glob finds; files do not change during a search"
  },
  {
   "property": "C102",
   "status": "partial",
   "theorems": [
    "Props.C102_current_partial",
    "Props.C102_main_fails",
    "Props.C102_level_fails",
    "Props.C102_nth_fails"
   ],
   "note": "levels are counted twice and every second one is called SCOPER"
  },
  {
   "property": "C103",
   "status": "partial",
   "theorems": [
    "Props.C103_variable_partial",
    "Props.C103_distinct_partial",
    "Props.C103_keyword_fails",
    "Props.C103_letter_fails",
    "Props.C103_class_fails"
   ],
   "note": "false for the keywords of Python and for names without letters"
  },
  {
   "property": "C104",
   "status": "partial",
   "theorems": [
    "Props.C104_defined",
    "Props.C104_call",
    "Props.C104_helper_iff",
    "Props.C104_helper_fails",
    "Props.C104_header_iff"
   ],
   "note": "false for the names of imports and built-in functions that generated code uses, and for the keywords of Python"
  },
  {
   "property": "C105",
   "status": "partial",
   "theorems": [
    "Props.C105_lines_iff",
    "Props.C105_continue_fails"
   ],
   "note": "texts; exact: right only without mixing ? and ??"
  },
  {
   "property": "C106",
   "status": "partial",
   "theorems": [
    "Props.C106_scatter_iff",
    "Props.C106_gather_iff",
    "Props.C106_round_trip",
    "Props.C106_gather_array_partial",
    "Props.C106_array_attribute_fails",
    "Props.C106_fields_fail",
    "Props.C106_like_fails",
    "Props.C106_memvar_fails"
   ],
   "note": "exact: right when the clauses choose all fields; FIELDS, LIKE, EXCEPT, ADDITIVE, MEMVAR and TO are false"
  },
  {
   "property": "C107",
   "status": "partial",
   "theorems": [
    "Props.C107_text_iff",
    "Props.C107_control_fails",
    "Props.C107_characters_partial",
    "Props.C107_line_ends_fail",
    "Props.C107_clauses_fail"
   ],
   "note": "exact: right only for texts of at most one line without blanks at its ends"
  },
  {
   "property": "C108",
   "status": "partial",
   "theorems": [
    "Props.C108_own",
    "Props.C108_base_partial",
    "Props.C108_library_fails",
    "Props.C108_dynamic_fails",
    "Props.C108_base_iff",
    "Props.C108_reserved_iff",
    "Props.C108_base_fails",
    "Props.C108_letter_fails"
   ],
   "note": "true for literal names of own classes and 24 base classes; false for 19 base classes, names that are not literals, some orders of procedure files; missing: several definitions of one name in one file"
  },
  {
   "property": "C109",
   "status": "partial",
   "theorems": [
    "Props.C109_seek_partial",
    "Props.C109_index_partial",
    "Props.C109_no_order",
    "Props.C109_again_fails",
    "Props.C109_stuck_fails",
    "Props.C109_tag_fails",
    "Props.C109_prefix_fails"
   ],
   "note": "true for the first SEEK on a table and those that name the current order"
  },
  {
   "property": "C11",
   "status": "proved",
   "theorems": [
    "Props.C11_ascan_start_count",
    "Props.C11_ascan_start",
    "Props.C11_ascan"
   ],
   "note": ""
  },
  {
   "property": "C110",
   "status": "partial",
   "theorems": [
    "Props.C110_functions_partial",
    "Props.C110_recno_fails",
    "Props.C110_fcount_iff",
    "Props.C110_zap_iff",
    "Props.C110_values",
    "Props.C110_field_fails",
    "Props.C110_unused_fails"
   ],
   "note": "RECNO and RECCOUNT raise, FCOUNT and ZAP use the current table, FIELD gives a number for fields that do not exist"
  },
  {
   "property": "C111",
   "status": "partial",
   "theorems": [
    "Props.C111_form_partial",
    "Props.C111_nested_fails",
    "Props.C111_class_fails",
    "Props.C111_value_fails",
    "Props.C111_color_fails",
    "Props.C111_procedure_fails"
   ],
   "note": "true for forms whose members have no members of their own, up to blank lines; nested members, forms of classes of one's own, empty values, colours of the form itself and texts with PROCEDURE are wrong"
  },
  {
   "property": "C112",
   "status": "partial",
   "theorems": [
    "Props.C112_members_fails",
    "Props.C112_class_partial"
   ],
   "note": "true for classes without members; exact otherwise: every member becomes a class of its own"
  },
  {
   "property": "C113",
   "status": "partial",
   "theorems": [
    "Props.C113_open_iff",
    "Props.C113_open_write_fails",
    "Props.C113_missing_fails",
    "Props.C113_create_fails",
    "Props.C113_create_read_fails",
    "Props.C113_attribute_fails",
    "Props.C113_fseek_iff",
    "Props.C113_fputs_iff",
    "Props.C113_fwrite",
    "Props.C113_fgets_partial",
    "Props.C113_long_line_fails",
    "Props.C113_fread_iff",
    "Props.C113_round_trip_partial",
    "Props.C113_windows_fails"
   ],
   "note": "FPUTS and FGETS are inverse where line feeds are stored as they are; FOPEN(f,1) empties the file, missing files raise, FCREATE gives no readable file, FSEEK from other places than the beginning raises, FREAD loses carriage returns, Windows writes CR CR LF"
  },
  {
   "property": "C114",
   "status": "partial",
   "theorems": [
    "Props.C114_name_partial",
    "Props.C114_slash",
    "Props.C114_path_partial",
    "Props.C114_drive_fails",
    "Props.C114_ext_iff",
    "Props.C114_stem_iff",
    "Props.C114_forceext_iff",
    "Props.C114_posix_fails",
    "Props.C114_literal_iff"
   ],
   "note": "true on Windows for paths that are not literals; exact conditions for names with leading dots, empty extensions and literals, whose letters become small; nothing is taken apart on other systems"
  },
  {
   "property": "C115",
   "status": "partial",
   "theorems": [
    "Props.C115_program_partial",
    "Props.C115_module",
    "Props.C115_output_partial"
   ],
   "note": "whole programs of the described fragment, all runs, with errors of expressions handled by TRY; missing: FOR EACH, WITH, objects, arrays, tables, error objects, errors that leave their procedure (C06), expressions and assignments for which C45, C71 do not hold, negative STEP, runs whose FoxPro meaning is not described"
  },
  {
   "property": "C116",
   "status": "partial",
   "theorems": [
    "Props.C116_reference_partial",
    "Props.C116_reference_fails"
   ],
   "note": "variables keep their old values after DO, whatever the procedure does; right exactly when the parameters end with the values they began with"
  },
  {
   "property": "C117",
   "status": "partial",
   "theorems": [
    "Props.C117_control_partial",
    "Props.C117_message_iff",
    "Props.C117_number_fails",
    "Props.C117_place_iff",
    "Props.C117_message_function_fails"
   ],
   "note": "the CATCH lines that run are right and the message of ERROR with a text; the number is always 0, procedure and line are those of the TRY, MESSAGE() always fails"
  },
  {
   "property": "C118",
   "status": "partial",
   "theorems": [
    "Props.C118_on_error_partial",
    "Props.C118_on_error_fails",
    "Props.C118_command_partial",
    "Props.C118_store_fails",
    "Props.C118_command_fails"
   ],
   "note": "right exactly as long as the command is not needed; the library never runs it"
  },
  {
   "property": "C119",
   "status": "partial",
   "theorems": [
    "Props.C119_command_partial",
    "Props.C119_rename_fails",
    "Props.C119_literal_fails",
    "Props.C119_pattern_fails"
   ],
   "note": "all commands refine the map of paths; RENAME replaces an existing file, literal names lose their case, patterns raise errors"
  },
  {
   "property": "C12",
   "status": "partial",
   "theorems": [
    "Props.C12_chrtran_partial",
    "Props.C12_same_length_partial",
    "Props.C12_delete_fails"
   ],
   "note": "False when 'to' is shorter than 'from' and such a character occurs (IndexError instead of deletion); proved exactly otherwise."
  },
  {
   "property": "C120",
   "status": "partial",
   "theorems": [
    "Props.C120_executable_iff",
    "Props.C120_events_fails"
   ],
   "note": "which commands can be executed, exactly; menus, DO FORM, READ EVENTS, ON KEY, REPORT and macros call functions that do not exist"
  },
  {
   "property": "C121",
   "status": "partial",
   "theorems": [
    "Props.C121_readback_iff",
    "Props.C121_own_property",
    "Props.C121_others_partial",
    "Props.C121_width_fails",
    "Props.C121_limits_fails",
    "Props.C121_silent_fails",
    "Props.C121_underline_fails",
    "Props.C121_cells_fails",
    "Props.C121_group_fails"
   ],
   "note": "which properties read back, exactly, for all classes; WIDTH reads the height in five classes; positions and many states never reach the widget; colours, sources of lists and grids are left out"
  },
  {
   "property": "C122",
   "status": "partial",
   "theorems": [
    "Props.C122_reference_iff",
    "Props.C122_command",
    "Props.C122_element",
    "Props.C122_item_fails",
    "Props.C122_function_fails"
   ],
   "note": "the condition under which it holds is exact for references that are not a call of a function or of getitem, setitem or callmethod; false for these members and for members of what a function returns"
  },
  {
   "property": "C123",
   "status": "partial",
   "theorems": [
    "Props.C123_call_iff",
    "Props.C123_call_fails"
   ],
   "note": "the condition is exact: a method with parameters receives its object exactly when no variable of its own is a local one of Python, which SCAN, CATCH TO and DIMENSION make"
  },
  {
   "property": "C124",
   "status": "partial",
   "theorems": [
    "Props.C124_run_partial",
    "Props.C124_target_iff",
    "Props.C124_inherited_fails",
    "Props.C124_missing_fails",
    "Props.C124_member_fails"
   ],
   "note": "runs are as in FoxPro when every method with DODEFAULT belongs to the class of the object and has a method above it; exact condition for what DODEFAULT reaches; endless recursion for inherited methods, errors without a parent method"
  },
  {
   "property": "C125",
   "status": "partial",
   "theorems": [
    "Props.C125_call_iff",
    "Props.C125_occurrence_fails",
    "Props.C125_getenv_fails"
   ],
   "note": "exact for all functions converted in place; arguments of AT, RAT, ATC, BITAND, RAND, CURDIR and FILE are lost, GETENV, AINS, ACOPY, AFIELDS never work, trims with a second argument and open modes above the first few raise errors"
  },
  {
   "property": "C126",
   "status": "partial",
   "theorems": [
    "Props.C126_history_partial",
    "Props.C126_seen_iff",
    "Props.C126_memo_fails",
    "Props.C126_pack_pointer_fails"
   ],
   "note": "sequences are right while SET DELETED is OFF and PACK MEMO does not occur; SET DELETED ON has no effect (exact condition when that does not matter), PACK MEMO removes records, PACK does not go to the first record"
  },
  {
   "property": "C127",
   "status": "partial",
   "theorems": [
    "Props.C127_objects_partial",
    "Props.C127_parent_iff",
    "Props.C127_thisform_iff",
    "Props.C127_refused_iff",
    "Props.C127_plain_fails"
   ],
   "note": "objects, properties and the order of the INIT methods are right with PySide; an INIT sees the properties of its container only as far as they are set by then and THISFORM only one level deep, .F. prevents nothing, and without PySide there are no properties, members or INIT (exact conditions)"
  },
  {
   "property": "C128",
   "status": "partial",
   "theorems": [
    "Props.C128_block",
    "Props.C128_date_fails",
    "Props.C128_listing_partial",
    "Props.C128_complete_iff",
    "Props.C128_methods_partial",
    "Props.C128_class_fails",
    "Props.C128_others_fails",
    "Props.C128_dump_fails"
   ],
   "note": "reading a program is right for every layout of the file; listings are right for programs without classes; a class ends the listing with an exception or lacks ENDDEFINE (exact condition), the listings behind it are not written, undecodable lines are joined with the next, blocks with an invalid date are skipped"
  },
  {
   "property": "C129",
   "status": "partial",
   "theorems": [
    "Props.C129_columns_iff",
    "Props.C129_create_partial",
    "Props.C129_free_fails",
    "Props.C129_selected_fails",
    "Props.C129_in_use_fails",
    "Props.C129_alter_iff",
    "Props.C129_drop_missing",
    "Props.C129_alter_closed_fails"
   ],
   "note": "with FREE the table gets its columns exactly if the package takes every type as written (exact condition: dates, memos and long names of types do not work); it is not selected, without FREE nothing happens, DBF and CURSOR are errors, a table in use is emptied; ALTER TABLE ignores all but the first DROP, and ALTER COLUMN drops the column (exact condition)"
  },
  {
   "property": "C13",
   "status": "partial",
   "theorems": [
    "Props.C13_pieces_exist",
    "Props.C13_from_first_partial",
    "Props.C13_start_off_by_one",
    "Props.C13_start_iff",
    "Props.C13_empty_fails"
   ],
   "note": "false for start >= 2 (one occurrence too late, characterised for every start) unless there are fewer occurrences or the texts are the same; proved for start 1"
  },
  {
   "property": "C130",
   "status": "partial",
   "theorems": [
    "Props.C130_box",
    "Props.C130_result",
    "Props.C130_types_iff",
    "Props.C130_escape_iff",
    "Props.C130_timeout_fails",
    "Props.C130_message_fails"
   ],
   "note": "buttons, icon, default button and title are right for the documented types in either order of the arguments; other types are errors (exact condition); Escape closes boxes with Abort, Retry, Ignore and with Yes, No (exact condition); the time limit is a thousand times too long; messages that are no texts are errors"
  },
  {
   "property": "C131",
   "status": "partial",
   "theorems": [
    "Props.C131_types_iff",
    "Props.C131_cast_iff",
    "Props.C131_null_fails",
    "Props.C131_dates_fails",
    "Props.C131_width_fails",
    "Props.C131_text_partial",
    "Props.C131_text_fails"
   ],
   "note": "numbers, logical values and memos are converted as in FoxPro (exact condition); NULL is never kept; every CAST to a date, a time or from a text to a binary value is an error; types with widths are not converted; texts without digits are errors"
  },
  {
   "property": "C132",
   "status": "partial",
   "theorems": [
    "Props.C132_rows_partial",
    "Props.C132_empty_fails",
    "Props.C132_types_fails",
    "Props.C132_names_fails"
   ],
   "note": "results with rows of texts, numbers and logical values become the cursor, row by row; a result without rows or with a date, a decimal number or bytes leaves the old cursor and still gives 1; names of columns are cut after ten characters"
  },
  {
   "property": "C133",
   "status": "partial",
   "theorems": [
    "Props.C133_declared_partial",
    "Props.C133_capitals_fails",
    "Props.C133_order_fails",
    "Props.C133_alias_fails",
    "Props.C133_undeclared_fails",
    "Props.C133_clear_iff",
    "Props.C133_types_fails"
   ],
   "note": "names without capitals and without conflicts between libraries call what was declared last; function names are put into lower case, so that no function with a capital can be declared; a function of a library loaded before, declared or not, comes first, also before procedures of the program; an alias that is another function of the library replaces that function for later declarations; CLEAR DLLS has no effect on a function under its own name; types are dropped"
  },
  {
   "property": "C134",
   "status": "partial",
   "theorems": [
    "Props.C134_committed_partial",
    "Props.C134_lost_fails",
    "Props.C134_rollback_fails",
    "Props.C134_handle_fails",
    "Props.C134_values"
   ],
   "note": "programs that commit every change keep it; without SQLCOMMIT all changes are lost at the end, SQLROLLBACK takes back all since the last commit; the handle is no number, a failed connection raises, SQLDISCONNECT gives None"
  },
  {
   "property": "C135",
   "status": "partial",
   "theorems": [
    "Props.C135_bare_iff",
    "Props.C135_names_partial"
   ],
   "note": "names in quotes, expressions in parentheses and texts that are no expressions; unquoted names stand for themselves exactly if no operand is a constant, in parentheses or followed by parentheses or brackets (data-2 is computed). Names with operators that are no path elements (/, *) are outside the model"
  },
  {
   "property": "C136",
   "status": "partial",
   "theorems": [
    "Props.C136_runs_iff",
    "Props.C136_comment_fails",
    "Props.C136_text_fails",
    "Props.C136_second_fails"
   ],
   "note": "programs run exactly if in no line the first & is followed by a name; comment lines such as * R&D and texts such as AT&T end the program with an error (macro_eval does not exist); &name behind another & is not seen"
  },
  {
   "property": "C137",
   "status": "partial",
   "theorems": [
    "Props.C137_statement_iff",
    "Props.C137_cut_fails"
   ],
   "note": "the parser gets the statement exactly if no string constant contains &&; otherwise the constant loses its closing delimiter. Constants in brackets and continued lines are outside the model"
  },
  {
   "property": "C138",
   "status": "partial",
   "theorems": [
    "Props.C138_arguments_iff",
    "Props.C138_blank_fails"
   ],
   "note": "the arguments are right exactly if none is in quotes; an argument with blanks never arrives. Built-in commands of the interpreter and its pipes are outside the model"
  },
  {
   "property": "C139",
   "status": "partial",
   "theorems": [
    "Props.C139_datetime",
    "Props.C139_date",
    "Props.C139_distinct",
    "Props.C139_empty_date",
    "Props.C139_not_empty",
    "Props.C139_empty_datetime_fails"
   ],
   "note": "false for the empty date and time; the calendar of datetime is modelled as in its reference implementation and proved against counting day by day from 1 January 1; the conversion of the stored floating point number to microseconds is outside the model"
  },
  {
   "property": "C14",
   "status": "proved",
   "theorems": [
    "Props.C14_stuff"
   ],
   "note": ""
  },
  {
   "property": "C140",
   "status": "partial",
   "theorems": [
    "Props.C140_chr",
    "Props.C140_asc_partial",
    "Props.C140_asc_fails",
    "Props.C140_asc_chr",
    "Props.C140_space",
    "Props.C140_replicate",
    "Props.C140_replicate_fails"
   ],
   "note": "ASC of an empty text is an error; REPLICATE of a sum repeats the second summand"
  },
  {
   "property": "C141",
   "status": "partial",
   "theorems": [
    "Props.C141_values",
    "Props.C141_named",
    "Props.C141_refused",
    "Props.C141_object",
    "Props.C141_memvar_fails"
   ],
   "note": "FROM MEMVAR never makes a record (the name variable is not defined); arrays are in C28. The package dbf is modelled by its documentation"
  },
  {
   "property": "C142",
   "status": "partial",
   "theorems": [
    "Props.C142_grammar_iff",
    "Props.C142_unique",
    "Props.C142_arithmetic_partial",
    "Props.C142_condition_partial",
    "Props.C142_sum_fails",
    "Props.C142_product_fails",
    "Props.C142_power_fails",
    "Props.C142_chain_fails"
   ],
   "note": "The rule expr of the parser is characterised exactly. NOT binds tighter than arithmetic there; the missing parentheses of the output repair that except when NOT stands in front of a compared sum, of parentheses followed by an operator or of a power of a power. Chained comparisons become Python chains. Tokens for functions stand for the lookup by name"
  },
  {
   "property": "C143",
   "status": "partial",
   "theorems": [
    "Props.C143_directory",
    "Props.C143_extracted",
    "Props.C143_same_name_fails"
   ],
   "note": "Reading is proved for every layout. Extraction ignores the directories, so that of several files with the same name only the last one is left. Names are free of slashes (see C60 for others)"
  },
  {
   "property": "C144",
   "status": "partial",
   "theorems": [
    "Props.C144_in_effect_partial",
    "Props.C144_abbreviated_fails",
    "Props.C144_dropped_fails",
    "Props.C144_noprompt_fails",
    "Props.C144_unknown_fails"
   ],
   "note": "Holds for words written in full and known to the library. Every abbreviated word (EXAC, CENT, CURS, DELE to DELETE, EXCL, SAFE) becomes a comment; so do ASSERTS, CONSOLE, SAFETY and STEP; NOPROMPT never has an effect. Settings the library lacks are C63"
  },
  {
   "property": "C145",
   "status": "partial",
   "theorems": [
    "Props.C145_int",
    "Props.C145_ceiling",
    "Props.C145_max",
    "Props.C145_min",
    "Props.C145_control_fails",
    "Props.C145_null_fails",
    "Props.C145_inlist_iff",
    "Props.C145_inlist_partial",
    "Props.C145_beginning_fails"
   ],
   "note": "numbers and dates are right; INLIST is exact: wrong for texts that FoxPro takes for equal without being the same (SET EXACT) and with .NULL.; MAX and MIN with .NULL. raise an exception and differ for texts with control characters; numbers are exact rationals"
  },
  {
   "property": "C146",
   "status": "partial",
   "theorems": [
    "Props.C146_statement_iff",
    "Props.C146_one_line_partial",
    "Props.C146_continued_fails",
    "Props.C146_converted_iff"
   ],
   "note": "exact: right if no further line of the statement is code for Python; every continued statement leaves its other lines as code behind the comment, so that the program cannot be imported. The position on the screen is not modelled"
  },
  {
   "property": "C147",
   "status": "partial",
   "theorems": [
    "Props.C147_program_partial",
    "Props.C147_alone",
    "Props.C147_next_iff",
    "Props.C147_names_fails",
    "Props.C147_member"
   ],
   "note": "exact condition for a statement to disturb the next one: an impossible call in the names to be released, the bounds of an array or the field of REPLACE, with no member of a name before it; from then on plain names become names of Python instead of FoxPro variables, until the next declaration, member or procedure"
  },
  {
   "property": "C148",
   "status": "partial",
   "theorems": [
    "Props.C148_vartype_iff",
    "Props.C148_undefined_fails",
    "Props.C148_letter_fails",
    "Props.C148_second_fails"
   ],
   "note": "exact: right for defined texts, numbers, dates, times, logical values, NULL and objects; names that are not defined and calls with a second argument raise exceptions; currency, binary values, the empty date and arrays have the wrong letter"
  },
  {
   "property": "C149",
   "status": "partial",
   "theorems": [
    "Props.C149_up_iff",
    "Props.C149_for_partial",
    "Props.C149_plain_partial",
    "Props.C149_negative_fails",
    "Props.C149_down_iff",
    "Props.C149_down_fails",
    "Props.C149_start_fails",
    "Props.C149_step_fails",
    "Props.C149_fraction_fails"
   ],
   "note": "exact for whole starts and steps and any bound; starts and steps with a fraction are cut off, a step below 1 is an error, counting down in steps of 1 or 2 always loses the last iterations, up to a negative bound with a fraction there is an iteration too many"
  },
  {
   "property": "C15",
   "status": "partial",
   "theorems": [
    "Props.C15_words_exist",
    "Props.C15_words_partial",
    "Props.C15_index_zero_fails",
    "Props.C15_delimiters_fails",
    "Props.C15_no_delimiter_fails"
   ],
   "note": "False for index 0, several delimiter characters and an empty delimiter; proved otherwise."
  },
  {
   "property": "C150",
   "status": "partial",
   "theorems": [
    "Props.C150_double",
    "Props.C150_constant",
    "Props.C150_whole",
    "Props.C150_fixed_iff"
   ],
   "note": "whole numbers and constants of up to 15 digits are proved for all values; the listing has the decimals that the file states and is the nearest number with them; fixed point numbers (code E7) come back exactly if they are multiples of 1/16. Floating point values that are no numbers or infinite are outside the claim"
  },
  {
   "property": "C151",
   "status": "partial",
   "theorems": [
    "Props.C151_dropped_fails",
    "Props.C151_iff",
    "Props.C151_single_partial",
    "Props.C151_fields_fails",
    "Props.C151_clauses_fails",
    "Props.C151_table"
   ],
   "note": "the statement with several fields is converted as if only the first were written; exact condition under which that is what is written; one field with a value that is the same for all records works"
  },
  {
   "property": "C152",
   "status": "partial",
   "theorems": [
    "Props.C152_combo_partial",
    "Props.C152_program_events",
    "Props.C152_new_text_fails",
    "Props.C152_list_partial",
    "Props.C152_list_again_fails",
    "Props.C152_list_created_fails",
    "Props.C152_grid_partial",
    "Props.C152_refresh",
    "Props.C152_click",
    "Props.C152_grid_created_fails",
    "Props.C152_values_fails"
   ],
   "note": "combo box: refinement for all histories; a text not among the items is lost; list boxes: a second ROWSOURCE is appended to the first; list boxes and grids forget a source given at creation; logical and empty values are shown as in Python"
  },
  {
   "property": "C153",
   "status": "partial",
   "theorems": [
    "Props.C153_iff",
    "Props.C153_output",
    "Props.C153_western_partial",
    "Props.C153_other_fails",
    "Props.C153_bytes_fails",
    "Props.C153_profile_fails",
    "Props.C153_main"
   ],
   "note": "exact condition: all characters are in Windows-1252; the output is read back by Python as written; programs with other characters, bytes without a character and the option --profile make the conversion fail"
  },
  {
   "property": "C154",
   "status": "partial",
   "theorems": [
    "Props.C154_field_partial",
    "Props.C154_order_iff",
    "Props.C154_direction_fails",
    "Props.C154_unique_fails",
    "Props.C154_expression_fails",
    "Props.C154_expression_code",
    "Props.C154_joined_fails"
   ],
   "note": "the index has the values of the field for all records; records are visited in the order of the key exactly if they are in that order in the file; the direction and UNIQUE are ignored; keys that are not the name of a field raise an exception"
  },
  {
   "property": "C155",
   "status": "partial",
   "theorems": [
    "Props.C155_file_partial",
    "Props.C155_directory_partial",
    "Props.C155_path_iff",
    "Props.C155_case_iff",
    "Props.C155_folder_fails",
    "Props.C155_flag_fails",
    "Props.C155_locfile_partial",
    "Props.C155_locfile_fails"
   ],
   "note": "on Windows exact without SET PATH; SET PATH is never taken into account (exact condition); elsewhere the case of letters must agree, names in the program are made small, paths with backslashes find nothing; a second argument raises an exception"
  },
  {
   "property": "C156",
   "status": "partial",
   "theorems": [
    "Props.C156_array_partial",
    "Props.C156_all"
   ],
   "note": "exact for arrays whose shape the lines of the loop leave as it is; missing: lines that dimension the array anew, and collections of objects"
  },
  {
   "property": "C157",
   "status": "partial",
   "theorems": [
    "Props.C157_chain_partial",
    "Props.C157_of_iff",
    "Props.C157_self_fails",
    "Props.C157_missing_fails"
   ],
   "note": "exact for superclasses named without OF that are base classes of the run-time library or defined once in their file; the file named with OF is ignored, so the class of that file is the superclass under exactly the condition of C157_of_iff; a class named like its superclass in another file extends itself and no object of it can be made; neither can objects of classes that extend one of nineteen base classes; missing: several definitions of one name in one file"
  },
  {
   "property": "C158",
   "status": "partial",
   "theorems": [
    "Props.C158_line_partial",
    "Props.C158_ambiguous_fails",
    "Props.C158_assignment_fails"
   ],
   "note": "exact for 66 commands with 48 keywords whose codes mean nothing else, and any names and expressions; ten keywords with codes of several meanings, and all assignments, are listed with all the words that the code can mean; missing: the remaining commands and keywords"
  },
  {
   "property": "C159",
   "status": "partial",
   "theorems": [
    "Props.C159_folders_partial",
    "Props.C159_case_iff",
    "Props.C159_project_fails"
   ],
   "note": "exact on Windows for the current folder and those of the command line; where case matters the name is taken in small letters; the files of a project are searched as if they were folders"
  },
  {
   "property": "C16",
   "status": "partial",
   "theorems": [
    "Props.C16_width",
    "Props.C16_scientific",
    "Props.C16_fits",
    "Props.C16_never_raises_partial",
    "Props.C16_negative_iff"
   ],
   "note": "the width holds whenever STR returns; it raises exactly for negative numbers whose sign and digits before the point do not fit"
  },
  {
   "property": "C160",
   "status": "partial",
   "theorems": [
    "Props.C160_memo_partial",
    "Props.C160_case_fails"
   ],
   "note": "exact for folders without two names that differ only in case; missing: such folders, where two tables get the same memo file"
  },
  {
   "property": "C161",
   "status": "partial",
   "theorems": [
    "Props.C161_on_partial",
    "Props.C161_end_partial",
    "Props.C161_off_fails",
    "Props.C161_set_fails"
   ],
   "note": "exact while SET ASSERTS is ON, and for all programs that run to their end; missing: assertions that do not hold while SET ASSERTS is OFF, which stop the program"
  },
  {
   "property": "C162",
   "status": "partial",
   "theorems": [
    "Props.C162_value_iff",
    "Props.C162_line_partial",
    "Props.C162_value_fails"
   ],
   "note": "exact for each value: texts and whole numbers of ten or more characters are shown as in FoxPro; missing: all other values, which Python shows differently"
  },
  {
   "property": "C163",
   "status": "partial",
   "theorems": [
    "Props.C163_parts_partial",
    "Props.C163_day_unique",
    "Props.C163_date_fails",
    "Props.C163_dtot",
    "Props.C163_time",
    "Props.C163_seconds_iff",
    "Props.C163_fdate",
    "Props.C163_ftime_fails",
    "Props.C163_text_fails"
   ],
   "note": "the names of the days are those of the calendar, counted from one known day; missing: HOUR, MINUTE and SEC of a date, the fraction of SECONDS, the text of FTIME, DTOC and DTOS of a date with a time"
  },
  {
   "property": "C164",
   "status": "partial",
   "theorems": [
    "Props.C164_records_partial",
    "Props.C164_deleted_iff",
    "Props.C164_clause_fails"
   ],
   "note": "sources with the fields of the table; what the package dbf makes of deletion marks and of the position is left open; missing: FOR and TYPE, deleted records after SET DELETED ON"
  },
  {
   "property": "C165",
   "status": "partial",
   "theorems": [
    "Props.C165_compare",
    "Props.C165_number_fails"
   ],
   "note": "comparisons of two logical values hold in full; a logical value and a number are compared without an error, .T. being taken for 1"
  },
  {
   "property": "C17",
   "status": "partial",
   "theorems": [
    "Props.C17_pieces_exist",
    "Props.C17_strextract_partial",
    "Props.C17_lines_fails",
    "Props.C17_missing_end_iff",
    "Props.C17_no_end_fails"
   ],
   "note": "false when a piece spans lines, for a missing end behind an opening delimiter that is special in regular expressions, and for a second piece without an end delimiter; proved for text without line feeds and non-empty delimiters"
  },
  {
   "property": "C18",
   "status": "partial",
   "theorems": [
    "Props.C18_prefix_partial",
    "Props.C18_star_partial",
    "Props.C18_whole_fails"
   ],
   "note": "False: only a prefix has to match. Proved for patterns that end in *."
  },
  {
   "property": "C19",
   "status": "proved",
   "theorems": [
    "Props.C19_calendar",
    "Props.C19_dow_range",
    "Props.C19_dow_first",
    "Props.C19_dow_next",
    "Props.C19_quarter_range",
    "Props.C19_quarter_counts"
   ],
   "note": ""
  },
  {
   "property": "C20",
   "status": "partial",
   "theorems": [
    "Props.C20_switch_read_back",
    "Props.C20_switch_rejects",
    "Props.C20_others_unchanged",
    "Props.C20_always_on_or_off",
    "Props.C20_bell",
    "Props.C20_century",
    "Props.C20_fails"
   ],
   "note": "Proved for the ten ON/OFF words, BELL and CENTURY with their several values, after every history; false for COMPATIBLE and NOTIFY, and for what CENTURY and BELL accept."
  },
  {
   "property": "C21",
   "status": "partial",
   "theorems": [
    "Props.C21_history_partial",
    "Props.C21_unique",
    "Props.C21_select_partial",
    "Props.C21_open_undisturbed",
    "Props.C21_opened",
    "Props.C21_plain_use_fails",
    "Props.C21_alias_conflict_fails",
    "Props.C21_select_number_fails",
    "Props.C21_select_zero_fails",
    "Props.C21_free"
   ],
   "note": "Refinement for every history with plain names; false for USE without IN, aliases in use and SELECT with a number."
  },
  {
   "property": "C22",
   "status": "partial",
   "theorems": [
    "Props.C22_number_partial",
    "Props.C22_alias_fails",
    "Props.C22_alone_fails"
   ],
   "note": "Proved for numbers; for an alias and for USE alone another work area is closed."
  },
  {
   "property": "C23",
   "status": "partial",
   "theorems": [
    "Props.C23_processed",
    "Props.C23_count",
    "Props.C23_sum",
    "Props.C23_delete",
    "Props.C23_pointer",
    "Props.C23_error_iff",
    "Props.C23_next_overrun_fails"
   ],
   "note": "The processed records are right in every case; NEXT past the end and RECORD without such a record raise an exception."
  },
  {
   "property": "C24",
   "status": "partial",
   "theorems": [
    "Props.C24_restored_partial",
    "Props.C24_fails"
   ],
   "note": "False when the command ends with an exception, proved otherwise."
  },
  {
   "property": "C25",
   "status": "partial",
   "theorems": [
    "Props.C25_scan_partial",
    "Props.C25_scan_named_partial",
    "Props.C25_select_fails",
    "Props.C25_condition_fails",
    "Props.C25_empty_fails",
    "Props.C25_eof_fails",
    "Props.C25_scope_fails"
   ],
   "note": "Proved for bodies that come back to the work area (or named conditions outside the first work area)."
  },
  {
   "property": "C26",
   "status": "proved",
   "theorems": [
    "Props.C26_locate"
   ],
   "note": ""
  },
  {
   "property": "C27",
   "status": "partial",
   "theorems": [
    "Props.C27_replace_partial",
    "Props.C27_default_partial",
    "Props.C27_for_fails",
    "Props.C27_value_fails"
   ],
   "note": "False with FOR and for values that depend on the record."
  },
  {
   "property": "C28",
   "status": "partial",
   "theorems": [
    "Props.C28_append",
    "Props.C28_insert",
    "Props.C28_insert_array",
    "Props.C28_array_1d_fails"
   ],
   "note": "False for one-dimensional arrays."
  },
  {
   "property": "C29",
   "status": "proved",
   "theorems": [
    "Props.C29_single_byte_detected",
    "Props.C29_two_neighbours_detected",
    "Props.C29_uncovered_bytes",
    "Props.C29_truncated_header"
   ],
   "note": ""
  },
  {
   "property": "C30",
   "status": "proved",
   "theorems": [
    "Props.C30_checksum_is_crc",
    "Props.C30_first_two_bytes_ignored"
   ],
   "note": ""
  },
  {
   "property": "C31",
   "status": "partial",
   "theorems": [
    "Props.C31_extracted_program_readable_partial",
    "Props.C31_extraction_idempotent_partial",
    "Props.C31_other_entries_copied",
    "Props.C31_truncated_program_fails"
   ],
   "note": "Proved for every program whose bytes are all present in the container; an entry that claims more bytes than there are is written as an unreadable container."
  },
  {
   "property": "C32",
   "status": "proved",
   "theorems": [
    "Props.C32_date_round_trip"
   ],
   "note": ""
  },
  {
   "property": "C33",
   "status": "proved",
   "theorems": [
    "Props.C33_always_terminates",
    "Props.C33_one_entry_per_line",
    "Props.C33_block",
    "Props.C33_invalid_length_fails"
   ],
   "note": "The property is about valid lengths; stored lengths 0 and 1 are shown to break the area."
  },
  {
   "property": "C34",
   "status": "proved",
   "theorems": [
    "Props.C34_decode_expression",
    "Props.C34_command_line",
    "Props.C34_set_line",
    "Props.C34_separator_fails",
    "Props.C34_iif_marker_fails"
   ],
   "note": "Proved for constants (dates and numbers with decimals with the text that C139 and C150 are about), names, object prefixes, unary and binary operators, AND and OR with short-circuit marks, parentheses and calls; short-circuit markers of IIF are shown to leak into the listing."
  },
  {
   "property": "C35",
   "status": "proved",
   "theorems": [
    "Props.C35_substitution",
    "Props.C35_undefine_unknown_fails",
    "Props.C35_other_directive_fails"
   ],
   "note": "Also shows that #UNDEFINE of an unknown name and unknown directives stop the conversion."
  },
  {
   "property": "C36",
   "status": "proved",
   "theorems": [
    "Props.C36_conditional"
   ],
   "note": "For programs without #INCLUDE; C37_textual_partial covers programs with headers."
  },
  {
   "property": "C37",
   "status": "partial",
   "theorems": [
    "Props.C37_cache_invisible",
    "Props.C37_cache_complete",
    "Props.C37_textual_partial",
    "Props.C37_outer_definition_fails",
    "Props.C37_outer_undefine_fails"
   ],
   "note": "Repeated inclusion is proved; textual inclusion is false for headers that use names of the including file."
  },
  {
   "property": "C38",
   "status": "partial",
   "theorems": [
    "Props.C38_arithmetic_partial",
    "Props.C38_minus_iff",
    "Props.C38_modulo_fails",
    "Props.C38_power_iff"
   ],
   "note": "Names, numbers, + - * / ^ and parentheses are proved; a sign in front of parentheses or of a power and % next to * or / are wrong."
  },
  {
   "property": "C39",
   "status": "partial",
   "theorems": [
    "Props.C39_conditions_partial",
    "Props.C39_operand",
    "Props.C39_comparison_iff",
    "Props.C39_constant_fails"
   ],
   "note": "All AND/OR/NOT trees over logical names, functions and comparisons, including NOT directly in front of a compared name, number or arithmetic in parentheses (see C142 for what the parser makes of longer operands); wrong when a logical operation in parentheses is compared or a string constant follows NOT."
  },
  {
   "property": "C40",
   "status": "partial",
   "theorems": [
    "Props.C40_signs_partial",
    "Props.C40_signs_fails",
    "Props.C40_parentheses"
   ],
   "note": "Exact characterisation of the chains of signs that keep their value; doubled parentheses never matter."
  },
  {
   "property": "C41",
   "status": "proved",
   "theorems": [
    "Props.C41_repr",
    "Props.C41_literal"
   ],
   "note": "Python 3 repr over an arbitrary table of printable characters; the recognition of literals by the parser is not modelled"
  },
  {
   "property": "C42",
   "status": "partial",
   "theorems": [
    "Props.C42_for_partial",
    "Props.C42_down_fails",
    "Props.C42_down_run_fails"
   ],
   "note": "Positive steps with integer bounds proved; counting down loses the last iterations. Fractional starts, bounds and steps are the subject of C149."
  },
  {
   "property": "C43",
   "status": "partial",
   "theorems": [
    "Props.C43_first_case",
    "Props.C43_otherwise_partial",
    "Props.C43_otherwise_only_fails"
   ],
   "note": "Only DO CASE without any CASE is wrong: its OTHERWISE never runs."
  },
  {
   "property": "C44",
   "status": "proved",
   "theorems": [
    "Props.C44_blocks"
   ],
   "note": "The text of a line is not modelled, only its kind and depth. Class and function headers are not included."
  },
  {
   "property": "C45",
   "status": "partial",
   "theorems": [
    "Props.C45_stores_partial",
    "Props.C45_compound",
    "Props.C45_compound_fails"
   ],
   "note": "Wrong when v op is only the beginning of a larger operation."
  },
  {
   "property": "C46",
   "status": "proved",
   "theorems": [
    "Props.C46_expand",
    "Props.C46_unambiguous",
    "Props.C46_full"
   ],
   "note": "for the whole table of the repository"
  },
  {
   "property": "C47",
   "status": "partial",
   "theorems": [
    "Props.C47_number_partial",
    "Props.C47_blob",
    "Props.C47_logical",
    "Props.C47_time_partial",
    "Props.C47_exponent_fails",
    "Props.C47_noon_fails"
   ],
   "note": "false for an exponent sign without digits and for the hour 12 of a 12-hour clock; currency and rounding of floats are not modelled"
  },
  {
   "property": "C48",
   "status": "partial",
   "theorems": [
    "Props.C48_left_partial",
    "Props.C48_right_partial",
    "Props.C48_substr_partial",
    "Props.C48_substr_length_partial",
    "Props.C48_at_partial",
    "Props.C48_at_none",
    "Props.C48_rat_partial",
    "Props.C48_rat_none",
    "Props.C48_occurs_partial",
    "Props.C48_right_fails",
    "Props.C48_left_fails",
    "Props.C48_substr_fails",
    "Props.C48_at_fails"
   ],
   "note": "Arguments are arbitrary expressions; the string argument must not be an operation (C71_receiver_iff)."
  },
  {
   "property": "C49",
   "status": "partial",
   "theorems": [
    "Props.C49_logical",
    "Props.C49_bitset",
    "Props.C49_bitclear",
    "Props.C49_bittest",
    "Props.C49_shift_partial",
    "Props.C49_bitnot",
    "Props.C49_shift_fails",
    "Props.C49_sign_fails"
   ],
   "note": "All non-negative numbers; results that need bit 31 or more are not wrapped to signed 32-bit integers."
  },
  {
   "property": "C50",
   "status": "partial",
   "theorems": [
    "Props.C50_order",
    "Props.C50_call",
    "Props.C50_class",
    "Props.C50_release_several",
    "Props.C50_release_fails",
    "Props.C50_several_fails"
   ],
   "note": "the lists of modules behave as claimed for every history of calls; the generated RELEASE PROCEDURE always raises an exception, and SET PROCEDURE uses only the first of several files"
  },
  {
   "property": "C51",
   "status": "partial",
   "theorems": [
    "Props.C51_kept_partial",
    "Props.C51_written",
    "Props.C51_unsupported",
    "Props.C51_distinct",
    "Props.C51_case",
    "Props.C51_copy_fails",
    "Props.C51_collision_fails"
   ],
   "note": "false for files of unknown kinds, which are copied over existing ones"
  },
  {
   "property": "C52",
   "status": "partial",
   "theorems": [
    "Props.C52_neighbours_partial",
    "Props.C52_fix_me",
    "Props.C52_comment_partial",
    "Props.C52_recognised",
    "Props.C52_stars_fails"
   ],
   "note": "the effect on neighbouring statements, the text of statements that cannot be converted and the text of comments; false for comments of separated stars"
  },
  {
   "property": "C53",
   "status": "partial",
   "theorems": [
    "Props.C53_constants",
    "Props.C53_paths_partial",
    "Props.C53_paths_text",
    "Props.C53_sum_fails"
   ],
   "note": "Folding and chains are proved; ADDBS() of a sum is taken apart wrongly."
  },
  {
   "property": "C54",
   "status": "partial",
   "theorems": [
    "Props.C54_with_partial",
    "Props.C54_command_partial",
    "Props.C54_with_fails",
    "Props.C54_this_iff",
    "Props.C54_this_fails",
    "Props.C54_element_fails"
   ],
   "note": "false behind the end of a nested block, for blocks for THIS or THISFORM or their parts, and for assignments to elements of arrays that are members"
  },
  {
   "property": "C55",
   "status": "partial",
   "theorems": [
    "Props.C55_finally_partial",
    "Props.C55_catch",
    "Props.C55_no_catch_fails"
   ],
   "note": "FINALLY without CATCH is skipped when the TRY lines raise."
  },
  {
   "property": "C56",
   "status": "partial",
   "theorems": [
    "Props.C56_found",
    "Props.C56_not_found_partial",
    "Props.C56_complete",
    "Props.C56_not_found_exact"
   ],
   "note": "false if the missing component occurs earlier in the path; splitting into components and links are not modelled"
  },
  {
   "property": "C57",
   "status": "partial",
   "theorems": [
    "Props.C57_quoted_partial",
    "Props.C57_kept",
    "Props.C57_empty",
    "Props.C57_delimiters_fails",
    "Props.C57_prefix_fails"
   ],
   "note": "false for texts with all kinds of delimiters and for texts that begin with a constant; the recognition of constants is a parameter"
  },
  {
   "property": "C58",
   "status": "partial",
   "theorems": [
    "Props.C58_single_subscript_fails",
    "Props.C58_single_subscript_partial"
   ],
   "note": "False for arrays with several columns; proved for one-column arrays."
  },
  {
   "property": "C59",
   "status": "partial",
   "theorems": [
    "Props.C59_unterminated_name_iff",
    "Props.C59_unterminated_name_fails",
    "Props.C59_terminated_name_partial"
   ],
   "note": "False: an unterminated name makes the reader loop forever."
  },
  {
   "property": "C60",
   "status": "partial",
   "theorems": [
    "Props.C60_place",
    "Props.C60_extraction_confined_fails",
    "Props.C60_extraction_confined_partial"
   ],
   "note": "False for stored names with slashes or '..'; the place of every file written is given exactly (C60_place), and plain names stay inside."
  },
  {
   "property": "C61",
   "status": "partial",
   "theorems": [
    "Props.C61_currency_exact",
    "Props.C61_currency_partial"
   ],
   "note": "False for negative amounts and for zeros after the decimal point; proved for the other amounts."
  },
  {
   "property": "C62",
   "status": "partial",
   "theorems": [
    "Props.C62_atline_partial",
    "Props.C62_ratline_partial",
    "Props.C62_absent_fails"
   ],
   "note": "False when the text does not occur; proved for both functions where it occurs."
  },
  {
   "property": "C63",
   "status": "partial",
   "theorems": [
    "Props.C63_set_word_fails",
    "Props.C63_known_words_partial"
   ],
   "note": "False for thirteen words, proved for the sixteen the library knows."
  },
  {
   "property": "C64",
   "status": "partial",
   "theorems": [
    "Props.C64_count_sum_partial",
    "Props.C64_delete_one_partial",
    "Props.C64_delete_for_fails",
    "Props.C64_locate_fails",
    "Props.C64_scan_fails"
   ],
   "note": "False for DELETE FOR, LOCATE and SCAN."
  },
  {
   "property": "C65",
   "status": "partial",
   "theorems": [
    "Props.C65_executable_partial",
    "Props.C65_fails"
   ],
   "note": "Exact list of the statements that cannot be executed."
  },
  {
   "property": "C66",
   "status": "partial",
   "theorems": [
    "Props.C66_full_replacement_partial",
    "Props.C66_nested_constant_fails"
   ],
   "note": "False when a replacement contains a constant."
  },
  {
   "property": "C67",
   "status": "partial",
   "theorems": [
    "Props.C67_literals_partial",
    "Props.C67_literal_changed_fails"
   ],
   "note": "False when a literal contains a defined name."
  },
  {
   "property": "C68",
   "status": "partial",
   "theorems": [
    "Props.C68_comment_separate_partial",
    "Props.C68_semicolon_fails",
    "Props.C68_macro_fails"
   ],
   "note": "False for comments ending in a semicolon or containing &name."
  },
  {
   "property": "C69",
   "status": "partial",
   "theorems": [
    "Props.C69_structured_partial",
    "Props.C69_exact"
   ],
   "note": "SCAN is not included (C25). What the generated code does is proved for every program (C69_exact); it is what FoxPro does except for FINALLY without CATCH, OTHERWISE without CASE and STEP not positive."
  },
  {
   "property": "C70",
   "status": "partial",
   "theorems": [
    "Props.C70_left_value_fails"
   ],
   "note": "The property is false: the variable keeps the last value; the theorem says by how much it differs."
  },
  {
   "property": "C71",
   "status": "partial",
   "theorems": [
    "Props.C71_expression_partial",
    "Props.C71_unique",
    "Props.C71_receiver_iff",
    "Props.C71_result_iff",
    "Props.C71_mod_iff"
   ],
   "note": "Proved for every expression whose operands need no parentheses that the converter omits (Plain); three of the exceptions are exhibited."
  },
  {
   "property": "C72",
   "status": "partial",
   "theorems": [
    "Props.C72_project_partial",
    "Props.C72_only",
    "Props.C72_project_iff"
   ],
   "note": "false for files of the same name in several directories"
  },
  {
   "property": "C73",
   "status": "partial",
   "theorems": [
    "Props.C73_properties_exact",
    "Props.C73_properties_partial",
    "Props.C73_properties_iff"
   ],
   "note": "false for properties whose value contains a member access and for arrays, which are dropped; C73_properties_exact says exactly which properties are kept"
  },
  {
   "property": "C74",
   "status": "partial",
   "theorems": [
    "Props.C74_object_exact",
    "Props.C74_with_partial",
    "Props.C74_object_fails"
   ],
   "note": "the WITH clause is proved; assignments object.property = value in the class body never reach the object"
  },
  {
   "property": "C75",
   "status": "partial",
   "theorems": [
    "Props.C75_methods_partial",
    "Props.C75_no_others",
    "Props.C75_parameters_lost_fails"
   ],
   "note": "false for parameter statements in every class with ADD OBJECT, whose parameters are lost"
  },
  {
   "property": "C76",
   "status": "partial",
   "theorems": [
    "Props.C76_member_method_partial",
    "Props.C76_parameters_lost_fails",
    "Props.C76_inherited_fails"
   ],
   "note": "false for the second and later objects if the method has a parameter statement, and for inherited objects"
  },
  {
   "property": "C77",
   "status": "partial",
   "theorems": [
    "Props.C77_element_partial",
    "Props.C77_local_fails",
    "Props.C77_function_fails",
    "Props.C77_hidden_fails"
   ],
   "note": "two subscripts, arrays in public or private scope that do not hide another one; elements of LOCAL arrays and of arrays named like a function cannot be read"
  },
  {
   "property": "C78",
   "status": "partial",
   "theorems": [
    "Props.C78_field_partial",
    "Props.C78_variable_partial",
    "Props.C78_alias_fails",
    "Props.C78_memvar_fails",
    "Props.C78_m_table_fails"
   ],
   "note": "false for names equal to the alias of an open table and for m.name; names that are attributes of the run-time objects are excluded (C80)"
  },
  {
   "property": "C79",
   "status": "partial",
   "theorems": [
    "Props.C79_scoped",
    "Props.C79_dimension_fails"
   ],
   "note": "LOCAL, PRIVATE and PUBLIC are proved for lists without repeated names; DIMENSION does not create a FoxPro variable"
  },
  {
   "property": "C80",
   "status": "partial",
   "theorems": [
    "Props.C80_reads_back_partial",
    "Props.C80_others_partial",
    "Props.C80_class_fails",
    "Props.C80_db_fails",
    "Props.C80_internal_fails",
    "Props.C80_memvar_fails"
   ],
   "note": "false for the names CLASS/CLASSTYPE, DB and MEMVAR"
  },
  {
   "property": "C81",
   "status": "partial",
   "theorems": [
    "Props.C81_program",
    "Props.C81_in_file",
    "Props.C81_function",
    "Props.C81_program_fails",
    "Props.C81_in_menu_fails",
    "Props.C81_names_fails"
   ],
   "note": "false for DO name where name is a separate program, for DO name IN file.mpr, for files whose names begin with a digit or are VFPFUNC, and for functions named like reserved words of Python; the file names must be lower-case and without directories (Stem)"
  },
  {
   "property": "C82",
   "status": "partial",
   "theorems": [
    "Props.C82_dtos_dates_partial",
    "Props.C82_dtos_times_partial",
    "Props.C82_ctod_dtoc_partial",
    "Props.C82_ctod_valid",
    "Props.C82_dtos_fails",
    "Props.C82_ctod_fails",
    "Props.C82_ctod_iff"
   ],
   "note": "from the year 1000 on; strftime and strptime are modelled from their documentation; the empty date and years of two digits are errors"
  },
  {
   "property": "C83",
   "status": "partial",
   "theorems": [
    "Props.C83_history_partial",
    "Props.C83_recno",
    "Props.C83_out_of_range",
    "Props.C83_error_stops",
    "Props.C83_skip_zero_fails",
    "Props.C83_skip_back_fails",
    "Props.C83_go_negative_fails",
    "Props.C83_empty_fails",
    "Props.C83_closed"
   ],
   "note": "false for SKIP 0, for skipping back beyond the first record, for record numbers below 1 and on empty tables"
  },
  {
   "property": "C84",
   "status": "partial",
   "theorems": [
    "Props.C84_eof_partial",
    "Props.C84_closed_fails",
    "Props.C84_last_fails",
    "Props.C84_first_fails",
    "Props.C84_loop_fails"
   ],
   "note": "false: EOF() of an empty work area is an exception, EOF() is true on the last record and BOF() on the first one, and the loop leaves out the last record (with eof/bof of the dbf library as stated in DESIGN.md)"
  },
  {
   "property": "C85",
   "status": "partial",
   "theorems": [
    "Props.C85_value_partial",
    "Props.C85_return_stops",
    "Props.C85_no_return_fails"
   ],
   "note": "false for procedures that end without RETURN expression: the value is .NULL."
  },
  {
   "property": "C86",
   "status": "proved",
   "theorems": [
    "Props.C86_release",
    "Props.C86_gone"
   ],
   "note": "for lists without repeated names"
  },
  {
   "property": "C87",
   "status": "partial",
   "theorems": [
    "Props.C87_pad_partial",
    "Props.C87_long_fails"
   ],
   "note": "false for texts that are too long: they are not cut"
  },
  {
   "property": "C88",
   "status": "partial",
   "theorems": [
    "Props.C88_ltrim_iff",
    "Props.C88_rtrim_iff",
    "Props.C88_alltrim_iff",
    "Props.C88_fails"
   ],
   "note": "exact characterisation; false for texts that begin or end with tabulators or line ends, which are removed"
  },
  {
   "property": "C89",
   "status": "partial",
   "theorems": [
    "Props.C89_proper_iff",
    "Props.C89_proper_fails",
    "Props.C89_case",
    "Props.C89_tests"
   ],
   "note": "PROPER is characterised exactly; false where a letter follows a character that is neither a letter nor a blank"
  },
  {
   "property": "C90",
   "status": "partial",
   "theorems": [
    "Props.C90_empty_partial",
    "Props.C90_blank_fails",
    "Props.C90_evl_partial",
    "Props.C90_evl_null_fails",
    "Props.C90_null",
    "Props.C90_iif_between",
    "Props.C90_isblank_partial"
   ],
   "note": "EMPTY and EVL are false for blank texts, EVL for .NULL."
  },
  {
   "property": "C91",
   "status": "proved",
   "theorems": [
    "Props.C91_mod",
    "Props.C91_sign"
   ],
   "note": "for whole numbers and operands that need no parentheses"
  },
  {
   "property": "C92",
   "status": "partial",
   "theorems": [
    "Props.C92_val_partial",
    "Props.C92_exponent",
    "Props.C92_underscore_fails",
    "Props.C92_no_number_fails",
    "Props.C92_rest_fails",
    "Props.C92_str_val"
   ],
   "note": "numerals between blanks, by the grammar of Python's float; blank texts and numbers followed by text are errors; exact decimals, rounding to floats not modelled"
  },
  {
   "property": "C93",
   "status": "partial",
   "theorems": [
    "Props.C93_nearest",
    "Props.C93_round_iff",
    "Props.C93_half_fails"
   ],
   "note": "exact rationals; halves go to the even neighbour"
  },
  {
   "property": "C94",
   "status": "partial",
   "theorems": [
    "Props.C94_user_partial",
    "Props.C94_captured_fails",
    "Props.C94_msgb_fails",
    "Props.C94_shadow_fails"
   ],
   "note": "false for 56 names that are names of the run-time library, for MSGB, and for functions of the program with the name of a FoxPro function"
  },
  {
   "property": "C95",
   "status": "partial",
   "theorems": [
    "Props.C95_long_partial",
    "Props.C95_short_partial",
    "Props.C95_double_byte",
    "Props.C95_unknown_fails",
    "Props.C95_os_fails",
    "Props.C95_atcline_fails"
   ],
   "note": "exact list of the functions that are not known (TRANSFORM, FLOOR, ICASE, TTOC, TYPE, ...); calls with unusual numbers of arguments are left out"
  },
  {
   "property": "C96",
   "status": "partial",
   "theorems": [
    "Props.C96_exact",
    "Props.C96_equal_iff",
    "Props.C96_differs_iff",
    "Props.C96_equal_fails",
    "Props.C96_order_partial"
   ],
   "note": "exact characterisation of = and <>: equal beginnings and trailing blanks are not ignored whatever SET EXACT says; < and > for texts of one length"
  },
  {
   "property": "C97",
   "status": "partial",
   "theorems": [
    "Props.C97_plus",
    "Props.C97_minus_fails",
    "Props.C97_within"
   ],
   "note": "- of texts is an error"
  },
  {
   "property": "C98",
   "status": "partial",
   "theorems": [
    "Props.C98_compare",
    "Props.C98_days_fail",
    "Props.C98_difference_fails",
    "Props.C98_shift_partial"
   ],
   "note": "comparisons; adding days is an error, differences are no numbers; dates without times"
  },
  {
   "property": "C99",
   "status": "proved",
   "theorems": [
    "Props.C99_gomonth",
    "Props.C99_valid",
    "Props.C99_compose",
    "Props.C99_back",
    "Props.C99_back_iff",
    "Props.C99_order"
   ],
   "note": "years 1 to 9999, by the algorithm of dateutil.relativedelta; empty dates are not modelled"
  }
 ]
}