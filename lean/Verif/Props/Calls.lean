import Verif.Model.Calls
import Verif.Model.Procs
import Verif.Lemmas.NameCodes
/-!
# Which function a call means (C94, C95)
-/
namespace Props.CallsSpec
open Model.Abbrev (Str)

/-- FoxPro's functions whose names are not abbreviated, beside those of the table of abbreviations
(`Props.functions`). -/
def shortNames : List Str :=
  names["abs", "acos", "adel", "adir", "ains", "alen", "ansitooem", "asc", "asin", "at", "at_c", "atan", "atc", "atcc", "atn2", "bar",
   "bof", "cast", "cdow", "cdx", "chr", "chrtranc", "col", "cos", "ctod", "ctot", "date", "day", "dbc", "dbf", "dmy", "dow", "dtoc",
   "dtor", "dtos", "dtot", "eof", "evl", "exp", "file", "for", "fv", "home", "hour", "iif", "int", "key", "left", "leftc", "len",
   "lenc", "like", "likec", "lock", "log", "max", "mcol", "mdx", "mdy", "min", "mod", "mrow", "mton", "ndx", "ntom", "nvl",
   "objnum", "oemtoansi", "on", "os", "pad", "padc", "padl", "padr", "pcol", "pi", "prow", "pv", "rand", "rat", "ratc", "rdlevel",
   "readkey", "rgb", "rightc", "row", "rtod", "sec", "seek", "set", "sign", "sin", "sqrt", "str", "stuffc", "substrc", "sys",
   "tan", "time", "trim", "ttoc", "ttod", "type", "updated", "used", "val", "varread", "week", "wread", "year"]

/-- The name is that of a FoxPro function, or an abbreviation of one. -/
def Builtin (n : Str) : Prop := (∃ e ∈ functions, Abbreviates e.1 e.2 n) ∨ n ∈ shortNames

/-- Names that FoxPro has no function of and that the converter takes for itself. -/
def captured : List Str :=
  names["absolute_import", "division", "print_function", "dt", "types", "ctypes", "traceback", "re", "inspect", "glob", "importlib",
   "functools", "pyodbc", "dateutil", "win32com", "qt_app", "dow_fix", "quit", "vfp_sys", "wait", "gather", "scatter",
   "create_object", "clearall", "clear", "module", "error_func", "lparameters", "vfpclass", "get_workarea", "select_function",
   "create_table", "alter_table", "use", "append", "append_from", "replace", "insert", "skip", "goto", "scanner", "count",
   "copy_structure", "delete_record", "sum", "pack", "reindex", "index_on", "close_tables", "locate", "continue_locate", "browse",
   "zap", "current_table", "open_tables", "atan2"]

/-- The functions with an abbreviation that the converter does not know. -/
def unknownLong : List Str :=
  names["aclass", "adbobjects", "adatabases", "adockstate", "aerror", "aevents", "afont", "agetclass", "agetfileversion",
   "ainstance", "alanguage", "alines", "amembers", "amouseobj", "anetresources", "aprinters", "aprocinfo", "asqlhandles",
   "aselobj", "astackinfo", "ataginfo", "aused", "avcxclasses", "addproperty", "adlls", "aelement", "asessions", "asort",
   "asubscript", "bintoc", "bindevent", "ctobin", "candidate", "chrsaw", "clearresultset", "cntbar", "cntpad", "comarray",
   "comclassinfo", "comreturnerror", "compobj", "cpconvert", "cpcurrent", "createbinary", "createoffline",
   "cursorgetprop", "cursorsetprop", "cursortoxml", "curval", "dbalias", "dbgetprop", "dbsetprop", "dbused",
   "ddeaborttrans", "ddeadvise", "ddeenabled", "ddeexecute", "ddelasterror", "ddepoke", "dderequest", "defaultext",
   "descending", "difference", "diskspace", "displaypath", "drivetype", "dropoffline", "editsource",
   "evaluate", "eventhandler", "execscript", "fchsize", "ferror", "fflush", "filter", "fklabel", "fkmax", "flock",
   "floor", "fontmetric", "forcepath", "fsize", "fullpath", "getautoincvalue", "getcolor", "getcursoradapter",
   "getfldstate", "getfont", "gethost", "getinterface", "getnextmodified", "getobject", "getpem", "getpict", "getprinter",
   "getresultset", "getbar", "getpad", "header", "icase", "imestatus", "idxcollate", "indbc", "indexseek", "inputbox",
   "insmode", "iscolor", "isexclusive", "isflocked", "ishosted", "isleadbyte", "ismemofetched", "ismouse", "ispen",
   "isrlocked", "isreadonly", "istransactable", "keymatch", "lastkey", "loadpicture", "lookup", "lupdate",
   "maketransactable", "mdown", "memlines", "memory", "mline", "mrkbar", "mrkpad", "mwindow", "newobject", "normalize",
   "numlock", "objtoclient", "oldval", "order", "payment", "pemstatus", "popup", "primary", "printstatus", "prmbar",
   "prmpad", "prompt", "prtinfo", "putfile", "raiseevent", "refresh", "relation", "removeproperty", "requery",
   "rgbscheme", "rlock", "sqlcancel", "sqlcolumns", "sqlgetprop", "sqlidledisconnect", "sqlmoreresults", "sqlprepare",
   "sqlsetprop", "savepicture", "scheme", "scols", "setfldstate", "setresultset", "skpbar", "skppad", "soundex",
   "srows", "sysmetric", "tablerevert", "tableupdate", "tagcount", "tagno", "target", "textmerge", "transform",
   "txnlevel", "txtwidth", "unbindevents", "wdockable", "wborder", "wchild", "wcols", "wexist", "wfont", "wlast", "wlcol",
   "wlrow", "wmaximum", "wminimum", "wontop", "woutput", "wparent", "wrows", "wtitle", "wvisible", "xmltocursor",
   "xmlupdategram"]

/-- The other functions that the converter does not know. -/
def unknownShort : List Str :=
  names["adel", "adir", "ansitooem", "atn2", "bar", "cast", "col", "ctot", "dbc", "for", "fv", "key", "lock", "mcol", "mdx", "mdy", "mrow",
   "mton", "ndx", "ntom", "objnum", "oemtoansi", "on", "pad", "pcol", "prow", "pv", "rdlevel", "readkey", "row", "ttoc",
   "ttod", "type", "updated", "varread", "week", "wread"]

/-- The usual number of arguments of the functions for which that matters, and a conversion that STRCONV
knows. -/
def Usual (f : Str) (count : Nat) (special : Bool) : Prop :=
  (f ∈ names["chr", "val", "space"] → count = 1) ∧ (f ∈ names["replicate", "left", "leftc"] → count = 2) ∧
  (f = "iif".toList → count = 3) ∧ (f = "ascan".toList → count = 2 ∨ count = 3 ∨ count = 4) ∧ (f = "strconv".toList → special = true)

/-- The functions for texts with double-byte characters, and the ones they are for single bytes. -/
def doubleByte : List (Str × Str) :=
  List.zip names["at_c", "atcc", "chrtranc", "leftc", "lenc", "likec", "ratc", "rightc", "stuffc", "substrc"]
    names["at", "atc", "chrtran", "left", "len", "like", "rat", "right", "stuff", "substr"]

end Props.CallsSpec

namespace Props
open Model.Calls CallsSpec AbbrevAux CodesAux
open Model.Abbrev (Str expand)

namespace CallsAux

theorem alias_none {n : Str} (h : ∀ p ∈ aliases, p.1 ≠ n) : alias n = n := by
  unfold alias
  have : aliases.lookup n = none := by
    rw [List.lookup_eq_none_iff]
    intro p hp
    have := h p hp
    simp only [bne_iff_ne, ne_eq]
    exact fun e => this e.symm
  rw [this]; rfl

def isLong (n : Str) : Bool := (codes.map Prod.snd).contains (code n)

theorem isLong_iff {n : Str} : isLong n = true ↔ n ∈ functions.map Prod.snd := by
  simp only [isLong, List.contains_iff_mem]
  exact ⟨mem_functions, fun h => Classical.byContradiction fun x => not_mem_functions x h⟩

/-- A FoxPro function or a captured name. -/
def covered (extra : List Str) (n : Str) : Bool := isIn n extra || isIn n shortNames || isLong n

theorem covered_spec {extra : List Str} {n : Str} (h : covered extra n = true) : n ∈ extra ∨ n ∈ shortNames ∨ n ∈ functions.map Prod.snd := by
  simp only [covered, Bool.or_eq_true, isIn_iff, isLong_iff] at h
  rcases h with (h | h) | h
  · exact .inl h
  · exact .inr (.inl h)
  · exact .inr (.inr h)

theorem alias_keys : ∀ p ∈ aliases, p.1 ∈ shortNames ∨ p.1 ∈ functions.map Prod.snd := by
  have h : aliases.all (fun p => covered [] p.1) = true := by decide +kernel
  intro p hp
  rcases covered_spec (List.all_eq_true.mp h p hp) with h | h | h
  · simp at h
  · exact .inl h
  · exact .inr h

theorem cut_le : ∀ e ∈ functions, e.1 ≤ e.2.length := by
  have h : functions.all (fun e => e.1 ≤ e.2.length) = true := by decide +kernel
  intro e he
  simpa using List.all_eq_true.mp h e he

theorem full_builtin {n : Str} (h : n ∈ functions.map Prod.snd) : Builtin n := by
  obtain ⟨e, he, rfl⟩ := List.mem_map.mp h
  exact .inl ⟨e, he, List.prefix_refl _, cut_le e he⟩

/-- Everything that the converter knows is a FoxPro function or in the list of captured names. -/
theorem known_inline : ∀ n ∈ inlineNames, n ∈ captured ∨ n ∈ shortNames ∨ n ∈ functions.map Prod.snd := by
  have h : inlineNames.all (covered captured) = true := by decide +kernel
  exact fun n hn => covered_spec (List.all_eq_true.mp h n hn)
theorem known_vfp : ∀ n ∈ vfpNames, n ∈ captured ∨ n ∈ shortNames ∨ n ∈ functions.map Prod.snd ∨ n = "text".toList := by
  have h : vfpNames.all (fun n => covered captured n || n == "text".toList) = true := by decide +kernel
  intro n hn
  have := List.all_eq_true.mp h n hn
  simp only [Bool.or_eq_true, beq_iff_eq] at this
  rcases this with h | h
  · rcases covered_spec h with h | h | h
    · exact .inl h
    · exact .inr (.inl h)
    · exact .inr (.inr (.inl h))
  · exact .inr (.inr (.inr h))
theorem known_db : ∀ n ∈ dbNames, n ∈ captured ∨ n ∈ shortNames ∨ n ∈ functions.map Prod.snd := by
  have h : dbNames.all (covered captured) = true := by decide +kernel
  exact fun n hn => covered_spec (List.all_eq_true.mp h n hn)
theorem known_counts : ∀ p ∈ inlineCounts, p.1 = "pythonfunctioncall".toList ∨ p.1 ∈ shortNames ∨ p.1 ∈ functions.map Prod.snd := by
  have h : inlineCounts.all (fun p => covered ["pythonfunctioncall".toList] p.1) = true := by decide +kernel
  intro p hp
  simpa using covered_spec (List.all_eq_true.mp h p hp)
theorem known_special : ∀ n ∈ inlineSpecial, n ∈ shortNames ∨ n ∈ functions.map Prod.snd := by
  have h : inlineSpecial.all (covered []) = true := by decide +kernel
  intro n hn
  simpa using covered_spec (List.all_eq_true.mp h n hn)

theorem text_builtin : Builtin "text".toList := .inl ⟨(4, "textmerge".toList), by decide +kernel, by
  constructor
  · exact ⟨"merge".toList, by decide⟩
  · decide⟩

/-- A name that is no FoxPro function is neither expanded nor replaced. -/
theorem user_name {n : Str} (hb : ¬ Builtin n) (hm : n ≠ "msgb".toList) : alias (expand n) = n := by
  have he : expand n = n := by
    rw [(C46_expand n).2 fun e he ha => hb (.inl ⟨e, he, ha⟩), if_neg hm, if_neg]
    rintro rfl
    exact hb (.inr (by decide +kernel))
  rw [he]
  apply alias_none
  rintro p hp rfl
  rcases alias_keys p hp with h | h
  · exact hb (.inr h)
  · exact hb (full_builtin h)

theorem not_dodefault {n : Str} (hb : ¬ Builtin n) : n ≠ "dodefault".toList := by
  rintro rfl
  exact hb (full_builtin (isLong_iff.mp (by decide +kernel)))

end CallsAux
open CallsAux

/-! ## C94: functions of the program -/

/-- C94 for a name that FoxPro has no function of: a function of the same file is called, and otherwise
the name is looked up among the procedures of the program.  Missing: MSGB, the captured names (see below)
and PYTHONFUNCTIONCALL, the converter's own extension. -/
theorem C94_user_partial (fs : List Str) (n : Str) (site : Site) (hb : ¬ Builtin n) (hm : n ≠ "msgb".toList) :
    (n ∈ fs → resolve fs n site = .own n) ∧
    (n ∉ fs → n ∉ captured → n ≠ "pythonfunctioncall".toList → resolve fs n site = .viaF n) := by
  have hr : ∀ t, (n ∈ fs → .own n = t) → (n ∉ fs → library n site = t) → resolve fs n site = t := by
    intro t h1 h2
    unfold resolve
    simp only [user_name hb hm]
    rw [if_neg (not_dodefault hb)]
    by_cases h : n ∈ fs
    · rw [if_pos (by simpa using h)]; exact h1 h
    · rw [if_neg (by simpa using h)]; exact h2 h
  refine ⟨fun h => hr _ (fun _ => rfl) (fun h' => absurd h h'), fun h hc hp => hr _ (fun h' => absurd h' h) fun _ => ?_⟩
  have hs : n ∉ shortNames := fun x => hb (.inr x)
  have hl : n ∉ functions.map Prod.snd := fun x => hb (full_builtin x)
  unfold library
  rw [if_neg, if_neg, if_neg]
  · intro x
    rcases known_db n (by simpa using x) with h | h | h
    · exact hc h
    · exact hs h
    · exact hl h
  · intro x
    rcases known_vfp n (by simpa using x) with h | h | h | h
    · exact hc h
    · exact hs h
    · exact hl h
    · exact hb (h ▸ text_builtin)
  · intro x
    simp only [isInline, Bool.or_eq_true, Bool.and_eq_true, List.any_eq_true, List.contains_iff_mem, beq_iff_eq] at x
    rcases x with (x | ⟨p, hp', hx, -⟩) | ⟨x, -⟩
    · rcases known_inline n x with h | h | h
      · exact hc h
      · exact hs h
      · exact hl h
    · rcases known_counts p hp' with h | h | h
      · exact hp (hx ▸ h)
      · exact hs (hx ▸ h)
      · exact hl (hx ▸ h)
    · rcases known_special n x with h | h
      · exact hs h
      · exact hl h

example : resolve ["total".toList] "total".toList ⟨1, false⟩ = .own "total".toList ∧
    resolve [] "total".toList ⟨1, false⟩ = .viaF "total".toList := by
  have hb : ¬ Builtin "total".toList := by
    rintro (⟨e, he, ha⟩ | h)
    · exact noAbbreviation_spec (by decide +kernel) e he ha
    · exact absurd (isIn_iff.mpr h) (by decide +kernel)
  exact ⟨(C94_user_partial _ _ _ hb (by decide)).1 (by simp), (C94_user_partial _ _ _ hb (by decide)).2 (by simp) (by decide +kernel) (by decide)⟩

/-- C94 does not hold for the captured names: a procedure of another file with such a name is not called,
whatever the arguments are. -/
theorem C94_captured_fails (fs : List Str) (n : Str) (site : Site) (hn : n ∈ captured) (hf : n ∉ fs) :
    ¬ Builtin n ∧ resolve fs n site ∈ [.inline n, .vfp n, .db n] := by
  have g1 : captured.all (fun n => !isIn n shortNames && n != "msgb".toList && noAbbreviation n) = true := by decide +kernel
  have g2 : captured.all (fun n => isIn n inlineNames || isIn n vfpNames || isIn n dbNames) = true := by decide +kernel
  have h1 := List.all_eq_true.mp g1 n hn
  simp only [Bool.and_eq_true, Bool.not_eq_true', bne_iff_ne, ne_eq] at h1
  have h2 : inlineNames.contains n = true ∨ vfpNames.contains n = true ∨ dbNames.contains n = true := by
    have := List.all_eq_true.mp g2 n hn
    simpa only [Bool.or_eq_true, isIn_iff, List.contains_iff_mem, or_assoc] using this
  have hb : ¬ Builtin n := by
    rintro (⟨e, he, ha⟩ | h)
    · exact noAbbreviation_spec h1.2 e he ha
    · rw [isIn_iff.mpr h] at h1; exact absurd h1.1.1 (by simp)
  refine ⟨hb, ?_⟩
  unfold resolve
  simp only [user_name hb h1.1.2]
  rw [if_neg (not_dodefault hb), if_neg (by simpa using hf)]
  unfold library
  split
  · simp
  · rename_i hi
    rcases h2 with h | h | h
    · simp only [isInline, h, Bool.true_or, not_true_eq_false] at hi
    · rw [if_pos h]; simp
    · split
      · simp
      · first | rw [if_pos h]; simp | simp

example : resolve [] "count".toList ⟨0, false⟩ = .db "count".toList ∧ "count".toList ∈ captured := by
  refine ⟨?_, by decide +kernel⟩
  have h := (C94_captured_fails [] "count".toList ⟨0, false⟩ (by decide +kernel) (by decide)).1
  unfold resolve
  simp only [user_name h (by decide)]
  decide +kernel

/-- C94 does not hold for MSGB: a function of that name in the same file is not called. -/
theorem C94_msgb_fails (site : Site) :
    ¬ Builtin "msgb".toList ∧ resolve ["msgb".toList] "msgb".toList site = .vfp "messagebox".toList := by
  have h1 : "msgb".toList ∉ shortNames ∧ ∀ e ∈ functions, ¬ Abbreviates e.1 e.2 "msgb".toList := by
    refine ⟨by decide +kernel, noAbbreviation_spec (by decide +kernel)⟩
  have hn : ∀ e ∈ functions, ¬ Abbreviates e.1 e.2 "msgb".toList :=
    fun e he ha => h1.2 e he ha
  refine ⟨?_, ?_⟩
  · rintro (⟨e, he, ha⟩ | h)
    · exact hn e he ha
    · exact h1.1 h
  · unfold resolve
    have : expand "msgb".toList = "messagebox".toList := by rw [(C46_expand _).2 hn, if_pos rfl]
    rw [this]
    have : alias "messagebox".toList = "messagebox".toList := by decide +kernel
    simp only [this]
    rw [if_neg (by decide), if_neg (by decide), library, if_neg, if_pos (by decide +kernel)]
    have a : inlineNames.contains "messagebox".toList = false ∧ inlineSpecial.contains "messagebox".toList = false ∧
        ∀ p ∈ inlineCounts, p.1 ≠ "messagebox".toList := by decide +kernel
    simp only [isInline, a.1, a.2.1, Bool.false_or, Bool.false_and, Bool.or_false, List.any_eq_true, not_exists, not_and, Bool.and_eq_true]
    intro p hp h
    exact absurd (by simpa using h) (a.2.2 p hp)

/-- C94 does not hold for functions of the program with the name of a FoxPro function: in FoxPro that name
and its abbreviations mean FoxPro's function, here the program's. -/
theorem C94_shadow_fails (fs : List Str) (e : Nat × Str) (n : Str) (site : Site) (he : e ∈ functions) (ha : Abbreviates e.1 e.2 n)
    (hd : e.2 ≠ "dodefault".toList) (hs : e.2 ≠ "select".toList ∧ e.2 ≠ "atcline".toList) (hf : e.2 ∈ fs) : resolve fs n site = .own e.2 := by
  have hk : ∀ p ∈ aliases, p.1 ∈ functions.map Prod.snd → p.1 = "select".toList ∨ p.1 = "atcline".toList := by
    have h : aliases.all (fun p => !isLong p.1 || p.1 == "select".toList || p.1 == "atcline".toList) = true := by decide +kernel
    intro p hp hl
    have := List.all_eq_true.mp h p hp
    rw [isLong_iff.mpr hl] at this
    simpa using this
  unfold resolve
  rw [(C46_expand n).1 e he ha]
  have : alias e.2 = e.2 := alias_none fun p hp h => by
    rcases hk p hp (h ▸ List.mem_map.mpr ⟨e, he, rfl⟩) with x | x
    · exact hs.1 (h ▸ x)
    · exact hs.2 (h ▸ x)
  simp only [this]
  rw [if_neg hd, if_pos (by simpa using hf)]

example : (4, "replicate".toList) ∈ functions ∧ Abbreviates 4 "replicate".toList "replic".toList :=
  ⟨by decide +kernel, ⟨"ate".toList, by decide⟩, by decide⟩

/-! ## C95: FoxPro's functions -/

namespace CallsAux

theorem library_unknown {f : Str} (site : Site) (h1 : inlineNames.contains f = false) (h2 : inlineSpecial.contains f = false)
    (h3 : ∀ p ∈ inlineCounts, p.1 ≠ f) (h4 : vfpNames.contains f = false) (h5 : dbNames.contains f = false) :
    library f site = .viaF f := by
  have : isInline f site = false := by
    cases hi : isInline f site with
    | false => rfl
    | true =>
      simp only [isInline, h1, h2, Bool.false_or, Bool.false_and, Bool.or_false, List.any_eq_true, Bool.and_eq_true] at hi
      obtain ⟨p, hp, hx, -⟩ := hi
      exact absurd (by simpa using hx) (h3 p hp)
  rw [library, this, h4, h5]; rfl

def Plain (f : Str) : Bool :=
  inlineNames.contains f = false && inlineSpecial.contains f = false && inlineCounts.all (fun p => p.1 ≠ f) && vfpNames.contains f = false &&
    dbNames.contains f = false && (aliases.lookup f).isNone && f ≠ "dodefault".toList

theorem plain_unknown {fs : List Str} {f n : Str} {site : Site} (h : Plain f = true) (he : expand n = f) (hf : f ∉ fs) :
    resolve fs n site = .viaF f := by
  simp only [Plain, Bool.and_eq_true, decide_eq_true_eq, List.all_eq_true, Option.isNone_iff_eq_none] at h
  obtain ⟨⟨⟨⟨⟨⟨h1, h2⟩, h3⟩, h4⟩, h5⟩, h6⟩, h7⟩ := h
  unfold resolve
  have : alias f = f := by rw [alias, h6]; rfl
  simp only [he, this]
  rw [if_neg h7, if_neg (by simpa using hf)]
  exact library_unknown site h1 h2 h3 h4 h5

/-- Known for every call, or for the usual ones. -/
def Known (f : Str) : Bool := inlineNames.contains f || vfpNames.contains f || dbNames.contains f

theorem known_found {f : Str} {site : Site} (h : Known f = true) : ∀ g, library f site ≠ .viaF g := by
  intro g hg
  unfold library at hg
  simp only [Known, Bool.or_eq_true] at h
  split at hg
  · cases hg
  · rename_i hi
    split at hg
    · cases hg
    · rename_i hv
      split at hg
      · cases hg
      · rename_i hd
        rcases h with (h | h) | h
        · simp only [isInline, h, Bool.true_or, not_true_eq_false] at hi
        · exact hv h
        · exact hd h

theorem inline_found {f : Str} {site : Site} (h : isInline f site = true) : ∀ g, library f site ≠ .viaF g := by
  intro g hg
  rw [library, if_pos h] at hg
  cases hg

/-- A function that is not in the lists of unknown ones. -/
theorem usual_found {f : Str} {site : Site} (h : Known (alias f) = true ∨ f ∈ names["chr", "val", "space", "replicate", "left", "leftc", "iif", "ascan", "strconv"])
    (hu : Usual f site.count site.special) : ∀ g, library (alias f) site ≠ .viaF g := by
  rcases h with h | h
  · exact known_found h
  · obtain ⟨u1, u2, u3, u4, u5⟩ := hu
    obtain ⟨count, special⟩ := site
    simp only [List.map_cons, List.map_nil, List.mem_cons, List.not_mem_nil, or_false] at h u1 u2
    rcases h with rfl | rfl | rfl | rfl | rfl | rfl | rfl | rfl | rfl
    · obtain rfl := u1 (by simp); exact inline_found (by cases special <;> decide +kernel)
    · obtain rfl := u1 (by simp); exact inline_found (by cases special <;> decide +kernel)
    · obtain rfl := u1 (by simp); exact inline_found (by cases special <;> decide +kernel)
    · obtain rfl := u2 (by simp); exact inline_found (by cases special <;> decide +kernel)
    · obtain rfl := u2 (by simp); exact inline_found (by cases special <;> decide +kernel)
    · obtain rfl := u2 (by simp); exact inline_found (by cases special <;> decide +kernel)
    · obtain rfl := u3 rfl; exact inline_found (by cases special <;> decide +kernel)
    · rcases u4 rfl with rfl | rfl | rfl <;> exact inline_found (by cases special <;> decide +kernel)
    · obtain rfl := u5 rfl
      refine inline_found ?_
      have : inlineSpecial.contains (alias ['s', 't', 'r', 'c', 'o', 'n', 'v']) = true := by decide +kernel
      simp only [isInline, this, Bool.true_and, Bool.or_true]

theorem rtrim_known : Known (alias "rtrim".toList) = true := by decide +kernel

theorem resolve_not {fs : List Str} {n m g : Str} {site : Site} (hx : expand n = m) (hf : alias (expand n) ∉ fs)
    (h : library (alias m) site ≠ .viaF g) : resolve fs n site ≠ .viaF g := by
  subst hx
  unfold resolve
  simp only
  split
  · intro h; cases h
  · rw [if_neg (by simpa using hf)]; exact h

/-- `Plain` by numbers. -/
def plainN (f : Str) : Bool :=
  !isIn f inlineNames && !isIn f inlineSpecial && !isIn f (inlineCounts.map Prod.fst) && !isIn f vfpNames && !isIn f dbNames &&
    !isIn f (aliases.map Prod.fst) && !isIn f ["dodefault".toList]

theorem isIn_false {n : Str} {l : List Str} : isIn n l = false ↔ n ∉ l := by
  rw [← isIn_iff]; simp

theorem plainN_spec {f : Str} (h : plainN f = true) : Plain f = true := by
  simp only [plainN, Bool.and_eq_true, Bool.not_eq_true', isIn_false] at h
  obtain ⟨⟨⟨⟨⟨⟨h1, h2⟩, h3⟩, h4⟩, h5⟩, h6⟩, h7⟩ := h
  simp only [Plain, Bool.and_eq_true, decide_eq_true_eq, List.all_eq_true, Option.isNone_iff_eq_none, List.contains_eq_mem, decide_eq_false_iff_not]
  refine ⟨⟨⟨⟨⟨⟨h1, h2⟩, fun p hp e => h3 (e ▸ List.mem_map.mpr ⟨p, hp, rfl⟩)⟩, h4⟩, h5⟩, ?_⟩, fun e => h7 (by simp [e])⟩
  rw [List.lookup_eq_none_iff]
  intro p hp
  simp only [bne_iff_ne, ne_eq]
  intro e
  exact h6 (e ▸ List.mem_map.mpr ⟨p, hp, rfl⟩)

theorem unknown_plain_long : ∀ f ∈ unknownLong, Plain f = true := by
  have h : unknownLong.all plainN = true := by decide +kernel
  exact fun f hf => plainN_spec (List.all_eq_true.mp h f hf)
theorem unknown_plain_short : ∀ f ∈ unknownShort, Plain f = true ∧ expand f = f := by
  have h : unknownShort.all (fun f => plainN f && f != "msgb".toList && f != "trim".toList && noAbbreviation f) = true := by decide +kernel
  intro f hf
  have := List.all_eq_true.mp h f hf
  simp only [Bool.and_eq_true, bne_iff_ne, ne_eq] at this
  obtain ⟨⟨⟨a, b⟩, c⟩, d⟩ := this
  refine ⟨plainN_spec a, ?_⟩
  rw [(C46_expand f).2 (noAbbreviation_spec d), if_neg b, if_neg c]

/-- The other functions of the table. -/
def knownLong : List Str :=
  names["afields", "acopy", "addbs", "alias", "alltrim", "atcline", "atline", "between", "bitand", "bitclear",
    "bitlshift", "bitnot", "bitor", "bitrshift", "bitset", "bittest", "bitxor", "capslock", "ceiling", "chrtran",
    "cmonth", "cpdbf", "createobject", "curdir", "ddeinitiate", "ddesetoption", "ddesetservice", "ddesettopic",
    "ddeterminate", "datetime", "deleted", "directory", "empty", "error", "fclose", "fcount", "fcreate", "fdate",
    "fgets", "field", "filetostr", "fopen", "forceext", "found", "fputs", "fread", "fseek", "ftime", "fwrite", "getdir",
    "getenv", "getfile", "getwordcount", "getwordnum", "gomonth", "inlist", "inkey", "isalpha", "isblank", "isdigit",
    "islower", "isnull", "isupper", "justdrive", "justext", "justfname", "justpath", "juststem", "lineno", "locfile",
    "log10", "lower", "ltrim", "message", "messagebox", "minute", "month", "occurs", "parameters", "pcount", "program",
    "proper", "quarter", "ratline", "reccount", "recno", "recsize", "right", "round", "rtrim", "sqlcommit",
    "sqlconnect", "sqldisconnect", "sqlexec", "sqlrollback", "sqlstringconnect", "sqltables", "seconds", "select",
    "strextract", "strtofile", "strtran", "stuff", "substr", "upper", "vartype", "version"]

def usual : List Str := names["chr", "val", "space", "replicate", "left", "leftc", "iif", "ascan", "strconv"]

theorem knownLong_spec : ∀ f ∈ knownLong, Known (alias f) = true := by
  have h : knownLong.all (fun f => isIn (alias f) inlineNames || isIn (alias f) vfpNames || isIn (alias f) dbNames) = true := by decide +kernel
  intro f hf
  have := List.all_eq_true.mp h f hf
  simpa only [Known, Bool.or_eq_true, isIn_iff, List.contains_iff_mem] using this

theorem long_cases : ∀ e ∈ functions, e.2 ∈ unknownLong ∨ e.2 = "dodefault".toList ∨ Known (alias e.2) = true ∨ e.2 ∈ usual := by
  have h : codes.all (fun e => (unknownLong.map code).contains e.2 || e.2 == code "dodefault".toList || (knownLong.map code).contains e.2 ||
      (usual.map code).contains e.2) = true := by decide +kernel
  intro e he
  have hm : (e.1, code e.2) ∈ codes := by rw [← codes_eq]; exact List.mem_map.mpr ⟨e, he, rfl⟩
  have := List.all_eq_true.mp h _ hm
  have back : ∀ l : List Str, (l.map code).contains (code e.2) = true → e.2 ∈ l := fun l h => isIn_iff.mp h
  simp only [Bool.or_eq_true, beq_iff_eq] at this
  rcases this with ((h | h) | h) | h
  · exact .inl (back _ h)
  · exact .inr (.inl (code_inj h))
  · exact .inr (.inr (.inl (knownLong_spec _ (back _ h))))
  · exact .inr (.inr (.inr (back _ h)))

theorem short_cases : ∀ f ∈ shortNames, f ∈ unknownShort ∨ f = "trim".toList ∨ Known (alias f) = true ∨ f ∈ usual := by
  have h : shortNames.all (fun f => isIn f unknownShort || f == "trim".toList || isIn (alias f) inlineNames || isIn (alias f) vfpNames ||
      isIn (alias f) dbNames || isIn f usual) = true := by decide +kernel
  intro f hf
  have := List.all_eq_true.mp h f hf
  simp only [Bool.or_eq_true, isIn_iff, beq_iff_eq] at this
  simp only [Known, Bool.or_eq_true, List.contains_iff_mem]
  rcases this with ((((h | h) | h) | h) | h) | h
  · exact .inl h
  · exact .inr (.inl h)
  · exact .inr (.inr (.inl (.inl (.inl h))))
  · exact .inr (.inr (.inl (.inl (.inr h))))
  · exact .inr (.inr (.inl (.inr h)))
  · exact .inr (.inr (.inr h))

end CallsAux

/-- C95 for the functions that may be abbreviated, exactly: a call under the full name or an abbreviation
reaches an implementation unless the function is one of the list of 199 unknown ones; those are looked up
among the procedures of the program. -/
theorem C95_long_partial (fs : List Str) (e : Nat × Str) (n : Str) (site : Site) (he : e ∈ functions) (ha : Abbreviates e.1 e.2 n)
    (hf : alias e.2 ∉ fs) :
    (e.2 ∈ unknownLong → resolve fs n site = .viaF e.2) ∧
    (e.2 ∉ unknownLong → Usual e.2 site.count site.special → ∀ g, resolve fs n site ≠ .viaF g) := by
  have hx := (C46_expand n).1 e he ha
  constructor
  · intro hu
    have hp := unknown_plain_long e.2 hu
    have : alias e.2 = e.2 := by
      simp only [Plain, Bool.and_eq_true, Option.isNone_iff_eq_none] at hp
      rw [alias, hp.1.2]; rfl
    exact plain_unknown hp hx (this ▸ hf)
  · intro hu us g
    unfold resolve
    simp only [hx]
    split
    · simp
    · rename_i hd
      rw [if_neg (by simpa using hf)]
      rcases long_cases e he with h | h | h | h
      · exact absurd h hu
      · rw [h] at hd; exact absurd (by decide +kernel) hd
      · exact usual_found (.inl h) us g
      · exact usual_found (.inr h) us g

example : resolve [] "transf".toList ⟨1, false⟩ = .viaF "transform".toList :=
  (C95_long_partial [] (4, "transform".toList) "transf".toList ⟨1, false⟩ (by decide +kernel) ⟨⟨"orm".toList, by decide⟩, by decide⟩
    (by simp)).1 (by decide +kernel)

/-- C95 for the other functions, exactly: unknown are 37. -/
theorem C95_short_partial (fs : List Str) (n : Str) (site : Site) (hn : n ∈ shortNames) :
    (n ∈ unknownShort → n ∉ fs → resolve fs n site = .viaF n) ∧
    (n ∉ unknownShort → alias (expand n) ∉ fs → Usual n site.count site.special → ∀ g, resolve fs n site ≠ .viaF g) := by
  constructor
  · intro hu hf
    obtain ⟨hp, hx⟩ := unknown_plain_short n hu
    exact plain_unknown hp hx hf
  · intro hu hf us g
    have h1 : shortNames.all (fun f => f != "msgb".toList && noAbbreviation f) = true := by decide +kernel
    have h2 := List.all_eq_true.mp h1 n hn
    simp only [Bool.and_eq_true, bne_iff_ne, ne_eq] at h2
    obtain ⟨b, d⟩ := h2
    have hx := (C46_expand n).2 (noAbbreviation_spec d)
    rw [if_neg b] at hx
    generalize hm : (if n = "trim".toList then "rtrim".toList else n) = m at hx
    apply resolve_not hx hf
    by_cases ht : n = "trim".toList
    · rw [if_pos ht] at hm
      rw [← hm]
      exact known_found rtrim_known g
    · rw [if_neg ht] at hm
      rw [← hm]
      rcases short_cases n hn with h | h | h | h
      · exact absurd h hu
      · exact absurd h ht
      · exact usual_found (.inl h) us g
      · exact usual_found (.inr h) us g

example : "ttoc".toList ∈ shortNames ∧ "ttoc".toList ∈ unknownShort ∧ "trim".toList ∈ shortNames ∧ "trim".toList ∉ unknownShort := by
  decide +kernel

/-- C95: what happens to an unknown function when the program runs: unless a library, a procedure file or
an array has that name, the call is an exception. -/
theorem C95_unknown_fails {M K V : Type} [DecidableEq M] (env : Model.Procs.Env M K V) (dll array : K → Option V) (modules : List M) (f : K)
    (hd : dll f = none) (hm : ∀ m ∈ modules, env.attr m f = none) (hA : array f = none) :
    Model.Procs.getFunction env dll array modules f = none := by
  have : Model.Procs.findFunction env f modules = none := by
    induction modules with
    | nil => rfl
    | cons m ms ih =>
      rw [Model.Procs.findFunction, hm m List.mem_cons_self]
      exact ih fun x hx => hm x (List.mem_cons_of_mem _ hx)
  rw [Model.Procs.getFunction, hd, this]
  exact hA

/-- C95: OS() is a FoxPro function, but the name of a module in the run-time library, which cannot be
called. -/
theorem C95_os_fails (site : Site) : "os".toList ∈ shortNames ∧ resolve [] "os".toList site = .vfp "os".toList := by
  have h1 : "os".toList ∈ shortNames ∧ ∀ e ∈ functions, ¬ Abbreviates e.1 e.2 "os".toList := by
    refine ⟨by decide +kernel, noAbbreviation_spec (by decide +kernel)⟩
  refine ⟨h1.1, ?_⟩
  have hx := (C46_expand "os".toList).2 h1.2
  rw [if_neg (by decide), if_neg (by decide)] at hx
  unfold resolve
  rw [hx]
  have : alias "os".toList = "os".toList := by decide +kernel
  simp only [this]
  rw [if_neg (by decide), if_neg (by decide), library, if_neg, if_pos (by decide +kernel)]
  have a : inlineNames.contains "os".toList = false ∧ inlineSpecial.contains "os".toList = false ∧
      ∀ p ∈ inlineCounts, p.1 ≠ "os".toList := by decide +kernel
  simp only [isInline, a.1, a.2.1, Bool.false_or, Bool.false_and, Bool.or_false, List.any_eq_true, not_exists, not_and, Bool.and_eq_true]
  intro p hp h
  exact absurd (by simpa using h) (a.2.2 p hp)

namespace CallsAux

theorem expand_long {n : Str} (h : isLong n = true) : expand n = n := by
  obtain ⟨e, he, rfl⟩ := List.mem_map.mp (isLong_iff.mp h)
  have hc : functions.all (fun e => decide (e.1 ≤ e.2.length)) = true := by decide +kernel
  have := List.all_eq_true.mp hc e he
  exact (C46_expand e.2).1 e he ⟨List.prefix_refl _, by simpa using this⟩

end CallsAux

/-- C95: the functions for double-byte characters reach what those for single bytes reach. -/
theorem C95_double_byte (fs : List Str) (p : Str × Str) (hp : p ∈ doubleByte) (site : Site) :
    resolve fs p.1 site = resolve fs p.2 site := by
  have hx : ∀ n : Str, (isLong n || noAbbreviation n && n != "msgb".toList && n != "trim".toList) = true → expand n = n := by
    intro n h
    rw [Bool.or_eq_true, Bool.and_eq_true, Bool.and_eq_true] at h
    rcases h with h | ⟨⟨h, h2⟩, h3⟩
    · exact expand_long h
    · rw [(C46_expand n).2 (noAbbreviation_spec h), if_neg (by simpa using h2), if_neg (by simpa using h3)]
  have h1 : doubleByte.all (fun p => (isLong p.1 || noAbbreviation p.1 && p.1 != "msgb".toList && p.1 != "trim".toList) &&
      (isLong p.2 || noAbbreviation p.2 && p.2 != "msgb".toList && p.2 != "trim".toList) && alias p.1 == alias p.2) = true := by
    decide +kernel
  have h2 := List.all_eq_true.mp h1 p hp
  simp only [Bool.and_eq_true] at h2
  unfold resolve
  rw [hx p.1 h2.1.1, hx p.2 h2.1.2, eq_of_beq h2.2]

example : ("substrc".toList, "substr".toList) ∈ doubleByte := by decide +kernel

/-- C95 does not hold for ATCLINE, which ignores case in FoxPro: under its name and its abbreviations it
is ATLINE. -/
theorem C95_atcline_fails (fs : List Str) (n : Str) (hn : ∃ e ∈ functions, e.2 = "atcline".toList ∧ Abbreviates e.1 e.2 n) (site : Site) :
    resolve fs n site = resolve fs "atline".toList site := by
  obtain ⟨e, he, h2, ha⟩ := hn
  have h1 : alias "atcline".toList = alias "atline".toList ∧ isLong "atline".toList = true := by decide +kernel
  unfold resolve
  rw [(C46_expand n).1 e he ha, h2, expand_long h1.2, h1.1]

example : ∃ e ∈ functions, e.2 = "atcline".toList ∧ Abbreviates e.1 e.2 "atcl".toList :=
  ⟨(4, "atcline".toList), by decide +kernel, rfl, ⟨"ine".toList, rfl⟩, by decide⟩

end Props
