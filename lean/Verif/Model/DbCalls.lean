/-!
# Which library calls the database statements are converted to

The shape of the call (method, number of positional arguments, keyword names) of every database
statement that the converter translates, and the methods of `DatabaseContext` with their
parameters.  The values of the arguments are not looked at here.
-/
namespace Model.DbCalls

/-- The methods named in generated calls. vfp2py_convert_visitor.py:488-495, 1479-1736 -/
inductive Meth where
  | close_tables | close_indexes | close_databases | close_all | create_table | create_dbf
  | create_cursor | alter_table | select | sqlselect | goto | use | locate | continue_locate | insert
  | append_from | append | replace | skip | copy_structure | delete_record | pack_database | pack
  | index_on | count | sum | reindex | update | seek | zap | browse | scanner
  deriving DecidableEq, Repr

/-- Keyword names used in generated calls and parameter names of the library.
vfp2py_convert_visitor.py:488-495, 1479-1736; vfpdatabase.py:37-377 -/
inductive Param where
  | tablename | setup_string | free | alter_type | field_specs | workarea | opentype | alias
  | editwindow | from_source | from_type | scope | field | value | values | skipnum | num
  | for_cond | while_cond | nooptimize | condition | recall | sumexpr | pack | compact_flag
  | indexname | order | tag_flag | unique_flag | all_flag | key_expr | key_index | key_index_file
  | descending | filetype | where_ | join | from_args
  deriving DecidableEq, Repr

/-- vfp2py_convert_visitor.py:106-112 -/
structure Call where
  meth : Meth
  npos : Nat
  kws : List Param
  deriving DecidableEq, Repr

/-- `params` after `self`; the last `optional` of them have defaults; `varkw`: takes `**kwargs` and
passes them to `_get_records`. vfpdatabase.py:37-377 -/
structure Sig where
  params : List Param
  optional : Nat
  varkw : Bool
  deriving DecidableEq, Repr

/-- The methods of `DatabaseContext`, vfpdatabase.py:99-376; `none`: there is no such method. -/
def library : Meth → Option Sig
  | .create_table => some ⟨[.tablename, .setup_string, .free], 0, false⟩        -- :99
  | .alter_table => some ⟨[.tablename, .alter_type, .field_specs], 0, false⟩     -- :104
  | .select => some ⟨[.tablename], 0, false⟩                                     -- :110
  | .use => some ⟨[.tablename, .workarea, .opentype, .alias], 1, false⟩          -- :113
  | .append => some ⟨[.tablename, .editwindow], 0, false⟩                        -- :142
  | .append_from => some ⟨[.tablename, .from_source, .from_type], 1, false⟩      -- :147
  | .replace => some ⟨[.tablename, .scope, .field, .value], 0, false⟩            -- :154
  | .insert => some ⟨[.tablename, .values], 0, false⟩                            -- :162
  | .skip => some ⟨[.tablename, .skipnum], 0, false⟩                             -- :179
  | .goto => some ⟨[.tablename, .num], 0, false⟩                                 -- :185
  | .scanner => some ⟨[.condition, .scope], 2, false⟩                            -- :237
  | .count => some ⟨[.tablename, .scope], 0, true⟩                               -- :254
  | .copy_structure => some ⟨[.tablename], 0, false⟩                             -- :257
  | .delete_record => some ⟨[.tablename, .scope, .recall], 1, true⟩              -- :260
  | .sum => some ⟨[.tablename, .scope, .sumexpr], 0, true⟩                       -- :264
  | .pack => some ⟨[.pack, .tablename, .workarea], 0, false⟩                     -- :267
  | .reindex => some ⟨[.compact_flag], 0, false⟩                                 -- :276
  | .index_on => some ⟨[.field, .indexname, .order, .tag_flag, .compact_flag, .unique_flag], 0, false⟩ -- :279
  | .close_tables => some ⟨[.all_flag], 0, false⟩                                -- :284
  | .locate => some ⟨[.tablename, .for_cond, .while_cond, .nooptimize], 4, false⟩ -- :311
  | .continue_locate => some ⟨[.tablename], 1, false⟩                            -- :317
  | .seek => some ⟨[.tablename, .key_expr, .key_index, .key_index_file, .descending], 3, false⟩ -- :330
  | .browse => some ⟨[], 0, false⟩                                               -- :347
  | .zap => some ⟨[.tablename], 0, false⟩                                        -- :355
  | .close_indexes | .close_databases | .close_all | .create_dbf | .create_cursor | .sqlselect
  | .pack_database | .update => none

/-- Binding of arguments in a Python call: no surplus positional argument, every keyword names a
parameter that is not bound yet (or is taken by `**kwargs`), every parameter without a default is
bound.  Keywords caught by `**kwargs` must be the conditions of `_get_records`, vfpdatabase.py:190. -/
def accepted (c : Call) : Bool :=
  match library c.meth with
  | none => false
  | some s =>
    let open_ := s.params.drop c.npos
    decide (c.npos ≤ s.params.length) &&
    c.kws.all (fun k => decide (k ∈ open_) ||
      (s.varkw && !decide (k ∈ s.params) && decide (k ∈ [Param.for_cond, .while_cond]))) &&
    ((s.params.take (s.params.length - s.optional)).drop c.npos).all (fun k => decide (k ∈ c.kws))

/-- The database statements, with the clauses that make a difference for the call. vfp2py_convert_visitor.py:488-495, 1479-1736 -/
inductive Stmt where
  | closeTables | closeIndexes | closeDatabases | closeAll
  | createTable | createDbf | createCursor | alterTable
  | selectArea | sqlSelect | go | use (alias : Bool)
  | locate (for_ while_ noopt : Bool) | continue_
  | appendFromArray | appendFrom (for_ type : Bool) | append | insert
  | replace (for_ while_ noopt : Bool) | skip | copyStructure
  | delete (for_ while_ noopt recall : Bool) | packDatabase | pack | indexOn
  | count (for_ while_ noopt : Bool) | sum (for_ while_ noopt : Bool)
  | reindex | update (where_ join from_ : Bool) | seek (order file desc : Bool) | zap | browse
  | scan (for_ : Bool)
  deriving DecidableEq, Repr

/-- A keyword argument that is only given if the clause is there, vfp2py_convert_visitor.py:1550-1562,
1658-1703 -/
def kw (b : Bool) (p : Param) : List Param := if b then [p] else []

/-- The calls made by the visitor, vfp2py_convert_visitor.py: 494 (SCAN), 1447-1457 (CLOSE),
1478-1489 (CREATE), 1506 (ALTER), 1510, 1518 (SELECT), 1528 (GO), 1548 (USE), 1562, 1565 (LOCATE),
1569, 1576, 1581 (APPEND), 1596 (INSERT), 1609 (REPLACE), 1614 (SKIP), 1619 (COPY), 1632 (DELETE),
1636, 1645 (PACK), 1656 (INDEX), 1670 (COUNT), 1685 (SUM), 1706 (REINDEX), 1718 (UPDATE), 1730
(SEEK), 1733 (ZAP), 1736 (BROWSE). -/
def emit : Stmt → Call
  | .closeTables => ⟨.close_tables, 1, []⟩
  | .closeIndexes => ⟨.close_indexes, 1, []⟩
  | .closeDatabases => ⟨.close_databases, 1, []⟩
  | .closeAll => ⟨.close_all, 0, []⟩
  | .createTable => ⟨.create_table, 3, []⟩
  | .createDbf => ⟨.create_dbf, 3, []⟩
  | .createCursor => ⟨.create_cursor, 3, []⟩
  | .alterTable => ⟨.alter_table, 3, []⟩
  | .selectArea => ⟨.select, 1, []⟩
  | .sqlSelect => ⟨.sqlselect, 6, []⟩
  | .go => ⟨.goto, 2, []⟩
  | .use al => ⟨.use, 3, kw al .alias⟩
  | .locate f w n => ⟨.locate, 0, kw f .for_cond ++ kw w .while_cond ++ kw n .nooptimize⟩
  | .continue_ => ⟨.continue_locate, 0, []⟩
  | .appendFromArray => ⟨.insert, 2, []⟩
  | .appendFrom f t => ⟨.append_from, 2, kw f .for_cond ++ kw t .filetype⟩
  | .append => ⟨.append, 2, []⟩
  | .insert => ⟨.insert, 2, []⟩
  | .replace _ _ _ => ⟨.replace, 4, []⟩
  | .skip => ⟨.skip, 2, []⟩
  | .copyStructure => ⟨.copy_structure, 1, []⟩
  | .delete f w _ r => ⟨.delete_record, 2, kw f .for_cond ++ kw w .while_cond ++ kw r .recall⟩
  | .packDatabase => ⟨.pack_database, 0, []⟩
  | .pack => ⟨.pack, 3, []⟩
  | .indexOn => ⟨.index_on, 6, []⟩
  | .count f w n => ⟨.count, 2, kw f .for_cond ++ kw w .while_cond ++ kw n .nooptimize⟩
  | .sum f w n => ⟨.sum, 3, kw f .for_cond ++ kw w .while_cond ++ kw n .nooptimize⟩
  | .reindex => ⟨.reindex, 1, []⟩
  | .update w j f => ⟨.update, 2, kw w .where_ ++ kw j .join ++ kw f .from_args⟩
  | .seek o f d => ⟨.seek, 2, kw o .key_index ++ kw f .key_index_file ++ kw d .descending⟩
  | .zap => ⟨.zap, 1, []⟩
  | .browse => ⟨.browse, 0, []⟩
  | .scan f => ⟨.scanner, 0, kw f .condition ++ [.scope]⟩

end Model.DbCalls
