import Verif.Props.FxpCode
/-!
# C158: lines of keywords, names and expressions
-/
namespace Props

namespace FxpLinesSpec
open Spec.FxpExpr

/-- What a line consists of behind its command. -/
inductive Item where
  /-- a keyword, with its code -/
  | word (code : Nat) (text : String)
  /-- `a.b.name` -/
  | name (p : List Nat) (i : Nat)
  | expr (e : Expr)

def Item.bytes : Item → List Nat
  | .word c _ => [c]
  | .name p i => p.flatMap (fun j => 0xE3 :: le16 j) ++ 0xF7 :: le16 i
  | .expr e => 0xFC :: (e.compile ++ [0xFD])

def dotted (names : List String) : List Nat → Nat → String
  | [], i => nameText names i
  | j :: p, i => nameText names j ++ "." ++ dotted names p i

def Item.text (names : List String) : Item → String
  | .word _ s => s
  | .name p i => dotted names p i
  | .expr e => e.text names

/-- Keywords are of the table `words`, names exist, expressions can be compiled. -/
def Item.Ok (words : List (Nat × String)) (fn : List Nat → Option String) (lit : Nat → List Nat → Option String)
    (names : List String) : Item → Prop
  | .word c s => (c, s) ∈ words
  | .name p i => (∀ j ∈ p, j < names.length ∧ j < 65536) ∧ i < names.length ∧ i < 65536
  | .expr e => e.Ok fn lit names

/-- The keywords whose codes mean nothing else. -/
def words : List (Nat × String) :=
  [(0x01, "ADDITIVE"), (0x02, "ALIAS"), (0x03, "ALL"), (0x04, "ARRAY"), (0x06, "BAR"), (0x07, ","), (0x08, "BLANK"),
   (0x0C, "CLEAR"), (0x0E, "DEFAULT"), (0x11, "FIELDS"), (0x12, "FILE"), (0x13, "FOR"), (0x14, "FORM"), (0x15, "FROM"),
   (0x16, "IN"), (0x17, "KEY"), (0x1A, "MACROS"), (0x1B, "MEMO"), (0x1C, "MENU"), (0x1D, "MESSAGE"), (0x1E, "NEXT"),
   (0x1F, "OFF"), (0x20, "ON"), (0x21, "PRINTER"), (0x22, "PROMPT"), (0x23, "RECORD"), (0x24, "REST"), (0x25, "SAVE"),
   (0x26, "SCREEN"), (0x27, "TITLE"), (0x28, "TO"), (0x29, "TOP"), (0x2B, "WHILE"), (0x2C, "WINDOW"), (0x30, "NOOPTIMIZE"),
   (0x31, "TABLE"), (0x32, "LABEL"), (0x33, "REPORT"), (0x36, "BOTTOM"), (0x38, "BY"), (0x39, "NOCONSOLE"), (0x3A, "NOWAIT"),
   (0x3C, "DESCENDING"), (0x48, "CASE"), (0x4A, "NAME"), (0x4F, "CLASS"), (0x51, "AS"), (0x52, "CLASSLIB")]

/-- Commands, with their codes. -/
def commandWords : List (Nat × String) :=
  [(0x02, "?"), (0x03, "??"), (0x06, "APPEND"), (0x0C, "CASE"), (0x0E, "CLEAR"), (0x0F, "CLOSE"), (0x10, "CONTINUE"),
   (0x11, "COPY"), (0x12, "COUNT"), (0x14, "DELETE"), (0x15, "DIMENSION"), (0x18, "DO"), (0x1B, "ELSE"), (0x1C, "ENDCASE"),
   (0x1D, "ENDDO"), (0x1E, "ENDIF"), (0x20, "ERASE"), (0x21, "EXIT"), (0x23, "GO"), (0x25, "IF"), (0x26, "INDEX"),
   (0x2D, "LOCATE"), (0x2E, "LOOP"), (0x32, "OTHERWISE"), (0x33, "PACK"), (0x34, "PARAMETERS"), (0x35, "PRIVATE"),
   (0x37, "PUBLIC"), (0x38, "QUIT"), (0x3A, "RECALL"), (0x3B, "REINDEX"), (0x3C, "RELEASE"), (0x3D, "RENAME"),
   (0x3E, "REPLACE"), (0x42, "RETURN"), (0x45, "SEEK"), (0x46, "SELECT"), (0x48, "SKIP"), (0x4A, "STORE"), (0x4B, "SUM"),
   (0x51, "USE"), (0x52, "WAIT"), (0x53, "ZAP"), (0x58, "RETRY"), (0x5E, "SCATTER"), (0x5F, "GATHER"), (0x7E, "SCAN"),
   (0x7F, "ENDSCAN"), (0x84, "FOR"), (0x85, "ENDFOR"), (0x86, "="), (0xA6, "WITH"), (0xA7, "ENDWITH"), (0xA8, "ERROR"),
   (0xA9, "ASSERT"), (0xAC, "NODEFAULT"), (0xAE, "LOCAL"), (0xAF, "LPARAMETERS"), (0xB0, "CD"), (0xB1, "MKDIR"),
   (0xB2, "RMDIR"), (0xBA, "TRY"), (0xBB, "CATCH"), (0xBC, "FINALLY"), (0xBD, "THROW"), (0xBE, "ENDTRY")]

/-- Keywords whose codes have several meanings, and what the listing shows for them. -/
def ambiguous : List (Nat × String × String) :=
  [(0x10, "=", "= or ERROR"), (0xC7, "STEP", "* or STEP or XLS or MARK"), (0xD1, "WITH", "WITH or INTEGER or CONNECTION"),
   (0xC0, "HAVING", "HAVING or FREE or LOCAL or FOOTER"), (0xC3, "OF", "ORDER BY or OF or REPLACE or NOCLOSE"),
   (0xC2, "SHARED", "SHARED or DATABASE or DROP or GETS or NOINIT"), (0xCA, "TAG", "TAG or SET or FORCE or NOMINIMIZE or EXIT"),
   (0xD3, "UNIQUE", "UNIQUE or SIZE"), (0xCE, "TIMEOUT", "TIMEOUT or UPDATE"), (0xC5, "VALUES", "VALUES or DBLCLICK")]

/-- The text of a line: the words with blanks between them, and the end of the line. -/
def lineText (ws : List String) : String := " ".intercalate (ws ++ ["\n"])

end FxpLinesSpec
open FxpLinesSpec
open Spec.FxpExpr Spec.FxpLines Model.Fxp

variable {fmt : Nat → List Nat → Option String} {names : List String}

namespace FxpLinesAux

/-- A keyword of a line is shown as the tables of the reader say. -/
def Shown (c : Nat) (s : String) : Prop :=
  ¬ (c = 0xF6 ∨ c = 0xF7) ∧ c ≠ 0xE5 ∧ (multiClauses.lookup c = some s ∨
    (multiClauses.lookup c = none ∧ valueConstants.lookup c = none ∧ c ≠ 0xE8 ∧ clauses.lookup c = some s))

instance (c : Nat) (s : String) : Decidable (Shown c s) := by unfold Shown; infer_instance

/-- Like `Item.Ok`, with the keywords that are shown as they should be. -/
def Good (fmt : Nat → List Nat → Option String) (names : List String) : Item → Prop
  | .word c s => Shown c s
  | .name p i => (∀ j ∈ p, j < names.length ∧ j < 65536) ∧ i < names.length ∧ i < 65536
  | .expr e => e.Ok fnToken fmt names

theorem words_shown : ∀ q ∈ words, Shown q.1 q.2 := by decide +kernel

theorem ambiguous_shown : ∀ q ∈ ambiguous, Shown q.1 q.2.2 := by decide +kernel

theorem good {it : Item} (h : it.Ok words fnToken fmt names) : Good fmt names it := by
  cases it with
  | word c s => exact words_shown _ h
  | name p i => exact h
  | expr e => exact h

/-- No alias is pending. -/
def Settled (line : List Obj) : Prop := ∀ o ∈ line, ∃ s, o = Obj.name s

theorem join_settled {l : List Obj} (hl : Settled l) : joinLine l = " ".intercalate (l.reverse.map Obj.repr) := by
  unfold joinLine
  split
  · rename_i x n t
    obtain ⟨s, hs⟩ := hl (.int n) (by simp)
    cases hs
  · rfl

theorem take_settled {line : List Obj} (h : Settled line) (s : String) : takeAliases line s = (s, line) := by
  cases line with
  | nil => rfl
  | cons o t =>
    obtain ⟨x, rfl⟩ := h o (by simp)
    rfl

theorem take_all {line : List Obj} (h : Settled line) (as : List String) (s : String) :
    takeAliases (as.map Obj.alias ++ line) s = (as.foldl (fun s a => a ++ "." ++ s) s, line) := by
  induction as generalizing s with
  | nil => exact take_settled h s
  | cons a as ih =>
    simp only [List.map_cons, List.cons_append, takeAliases, List.foldl_cons]
    exact ih _

theorem dotted_eq (p : List Nat) (i : Nat) :
    dotted names p i = (p.map (nameText names)).reverse.foldl (fun s a => a ++ "." ++ s) (nameText names i) := by
  rw [List.foldl_reverse]
  induction p with
  | nil => rfl
  | cons j p ih => simp [dotted, ih]

/-- One turn for a keyword. -/
theorem sub_word {c : Nat} {s : String} (hc : Shown c s) {n length : Nat} {start r : Rest} {line : List Obj} {st : Option Obj}
    (hl : start.length - (c :: r).length < length) :
    subline fmt names (n + 1) start length (c :: r) line st = subline fmt names n start length r (.name s :: line) (some (.name s)) := by
  obtain ⟨h1, h2, h3⟩ := hc
  rw [subline, if_pos hl]
  simp only [read1]
  rw [if_neg h1, if_neg h2]
  rcases h3 with h3 | ⟨h3, h4, h5, h6⟩
  · simp only [h3]
  · simp only [h3, h4, if_neg h5, h6]

theorem sub_alias {j : Nat} (hj : j < names.length) (hj' : j < 65536) {n length : Nat} {start r : Rest} {line : List Obj}
    {st : Option Obj} (hl : start.length - (0xE3 :: (le16 j ++ r)).length < length) :
    subline fmt names (n + 2) start length (0xE3 :: (le16 j ++ r)) line st =
      subline fmt names (n + 1) start length r (.alias (nameText names j) :: line) (some (.alias (nameText names j))) := by
  have m1 : multiClauses.lookup 0xE3 = none := by decide +kernel
  have m2 : valueConstants.lookup 0xE3 = none := by decide +kernel
  have m3 : clauses.lookup 0xE3 = none := by decide +kernel
  rw [subline, if_pos hl]
  simp only [read1]
  rw [if_neg (by decide), if_neg (by decide)]
  simp only [m1, m2, m3]
  rw [if_neg (by decide), if_pos (by decide)]
  simp only [readValue, readSimple, m2, fmtBytes, readName_le16 hj hj']
  simp

theorem sub_aliases {n length : Nat} {start r : Rest} (p : List Nat) (hp : ∀ j ∈ p, j < names.length ∧ j < 65536)
    {line : List Obj} {st : Option Obj} (hr : r ≠ []) (hl : start.length - r.length < length) :
    ∃ st', subline fmt names (n + p.length + 1) start length (p.flatMap (fun j => 0xE3 :: le16 j) ++ r) line st =
      subline fmt names (n + 1) start length r (((p.map (nameText names)).reverse.map Obj.alias) ++ line) st' := by
  induction p generalizing line st with
  | nil => exact ⟨st, by simp⟩
  | cons j p ih =>
    obtain ⟨h1, h2⟩ := hp j (by simp)
    obtain ⟨st', h⟩ := ih (fun k hk => hp k (by simp [hk])) (line := .alias (nameText names j) :: line)
      (st := some (.alias (nameText names j)))
    refine ⟨st', ?_⟩
    have := sub_alias (fmt := fmt) h1 h2 (n := n + p.length) (length := length) (start := start)
      (r := p.flatMap (fun j => 0xE3 :: le16 j) ++ r) (line := line) (st := st) (by simp; omega)
    simp only [List.flatMap_cons, List.cons_append, List.append_assoc, List.length_cons]
    rw [show n + (p.length + 1) + 1 = n + p.length + 2 by omega, this, h]
    simp

theorem sub_name {p : List Nat} {i : Nat} (hp : ∀ j ∈ p, j < names.length ∧ j < 65536) (hi : i < names.length) (hi' : i < 65536)
    {n length : Nat} {start r : Rest} {line : List Obj} {st : Option Obj} (hs : Settled line)
    (hl : start.length - (0xF7 :: (le16 i ++ r)).length < length) :
    ∃ st', subline fmt names (n + p.length + 1) start length ((Item.name p i).bytes ++ r) line st =
      subline fmt names n start length r (.name (dotted names p i) :: line) st' := by
  obtain ⟨st', h⟩ := sub_aliases (fmt := fmt) (n := n) p hp (line := line) (st := st) (r := 0xF7 :: (le16 i ++ r)) (by simp) hl
  refine ⟨some (.name (dotted names p i)), ?_⟩
  simp only [Item.bytes, List.append_assoc, List.cons_append]
  rw [h, subline, if_pos hl]
  simp only [read1]
  rw [if_pos (by decide), readName_le16 hi hi']
  simp only [take_all hs, dotted_eq]

theorem sub_expr {e : Expr} (he : e.Ok fnToken fmt names) {n length : Nat} {start r : Rest} {line : List Obj}
    {st : Option Obj} (hn : e.compile.length + 3 ≤ n) (hl : start.length - (0xFC :: (e.compile ++ 0xFD :: r)).length < length) :
    ∃ st', subline fmt names (n + 1) start length ((Item.expr e).bytes ++ r) line st =
      subline fmt names n start length r (.name (e.text names) :: line) st' := by
  have m1 : multiClauses.lookup 0xFC = none := by decide +kernel
  have m2 : valueConstants.lookup 0xFC = none := by decide +kernel
  have m3 : clauses.lookup 0xFC = none := by decide +kernel
  have m7 : readSimple fmt names 0xFC (e.compile ++ 0xFD :: r) = none := by
    simp [readSimple, m2, fmtBytes]
  have hrv : readValue fmt names n 0xFC (e.compile ++ 0xFD :: r) = .ok (.name (e.text names), r) := by
    obtain ⟨k, rfl⟩ : ∃ k, n = k + 1 := ⟨n - 1, by omega⟩
    rw [readValue, m7]
    simp only [show ¬ (0xFC = 0xEB) by decide, if_false, if_true]
    exact readExpr_compile e he _ _ (by omega)
  refine ⟨some (.name (e.text names)), ?_⟩
  simp only [Item.bytes, List.cons_append, List.append_assoc, List.nil_append]
  rw [subline, if_pos hl]
  simp only [read1]
  rw [if_neg (by decide), if_neg (by decide)]
  simp only [m1, m2, m3]
  rw [if_neg (by decide), if_pos (by decide), hrv]

theorem bytes_length_name (p : List Nat) (i : Nat) : (Item.name p i).bytes.length = 3 * p.length + 3 := by
  simp only [Item.bytes, List.length_append, List.length_flatMap]
  induction p with
  | nil => rfl
  | cons j p ih => simp [le16] at ih ⊢; omega

/-- All items, then the end of the line. -/
theorem sub_items (items : List Item) (hok : ∀ it ∈ items, Good fmt names it) {start after : Rest} {length : Nat}
    (hlen : start.length = length + after.length) :
    ∀ (n : Nat) (line : List Obj) (st : Option Obj), Settled line → (items.flatMap Item.bytes).length + 1 ≤ length →
      (items.flatMap Item.bytes).length + 6 ≤ n →
      subline fmt names n start length (items.flatMap Item.bytes ++ 0xFE :: after) line st =
        .ok (" ".intercalate (line.reverse.map Obj.repr ++ items.map (Item.text names) ++ ["\n"])) := by
  induction items with
  | nil =>
    intro n line st hs hl hn
    obtain ⟨k, rfl⟩ : ∃ k, n = k + 2 := ⟨n - 2, by simp at hn; omega⟩
    simp only [List.flatMap_nil, List.length_nil] at hl
    simp only [List.flatMap_nil, List.nil_append, List.map_nil, List.append_nil]
    rw [sub_word (c := 0xFE) (s := "\n") (by decide +kernel) (by simp; omega), subline, if_neg (by omega),
      join_settled (by intro o ho; rcases List.mem_cons.mp ho with rfl | ho; exact ⟨_, rfl⟩; exact hs o ho)]
    simp [Obj.repr]
  | cons it items ih =>
    intro n line st hs hl hn
    have hgood := hok it (by simp)
    have hrest := ih (fun x hx => hok x (by simp [hx]))
    simp only [List.flatMap_cons, List.length_append] at hl hn
    have hset : ∀ s, Settled (Obj.name s :: line) := by
      intro s o ho
      rcases List.mem_cons.mp ho with rfl | ho
      · exact ⟨_, rfl⟩
      · exact hs o ho
    have hstep : ∃ k st', (items.flatMap Item.bytes).length + 6 ≤ k ∧
        subline fmt names n start length (it.bytes ++ (items.flatMap Item.bytes ++ 0xFE :: after)) line st =
          subline fmt names k start length (items.flatMap Item.bytes ++ 0xFE :: after) (.name (it.text names) :: line) st' := by
      cases it with
      | word c s =>
        have hb : (Item.word c s).bytes.length = 1 := rfl
        obtain ⟨k, rfl⟩ : ∃ k, n = k + 1 := ⟨n - 1, by omega⟩
        exact ⟨k, _, by omega, sub_word hgood (by simp; omega)⟩
      | name p i =>
        have hb := bytes_length_name p i
        obtain ⟨k, rfl⟩ : ∃ k, n = k + p.length + 1 := ⟨n - p.length - 1, by omega⟩
        obtain ⟨st', h⟩ := sub_name (fmt := fmt) hgood.1 hgood.2.1 hgood.2.2 (n := k) (length := length) (start := start)
          (r := items.flatMap Item.bytes ++ 0xFE :: after) (line := line) (st := st) hs (by simp [le16]; omega)
        exact ⟨k, st', by omega, h⟩
      | expr e =>
        have hb : (Item.expr e).bytes.length = e.compile.length + 2 := by simp [Item.bytes]
        obtain ⟨k, rfl⟩ : ∃ k, n = k + 1 := ⟨n - 1, by omega⟩
        obtain ⟨st', h⟩ := sub_expr (fmt := fmt) hgood (n := k) (length := length) (start := start)
          (r := items.flatMap Item.bytes ++ 0xFE :: after) (line := line) (st := st) (by omega) (by simp; omega)
        exact ⟨k, st', by omega, h⟩
    obtain ⟨k, st', hk, h⟩ := hstep
    rw [List.flatMap_cons, List.append_assoc, h, hrest k _ st' (hset _) (by omega) hk]
    simp [Obj.repr]

/-- A whole line. -/
theorem line_text {pre : List Nat} {cmds : List String}
    (hcmd : ∀ rest k, readCommand (pre ++ rest) k = .ok ((cmds.map Obj.name).reverse, rest)) (hpre : pre.length ≤ 2)
    (items : List Item) (hok : ∀ it ∈ items, Good fmt names it) (hlen : (items.flatMap Item.bytes).length < 65000) (after : List Nat) :
    codeLine (parseLine fmt names) (record (pre ++ items.flatMap Item.bytes ++ [0xFE]) ++ after) =
      .ok (lineText (cmds ++ items.map (Item.text names)), after) := by
  rw [codeLine_record _ (by simp only [List.length_append, List.length_cons, List.length_nil]; omega)]
  congr 1
  congr 1
  unfold entryOf
  have hcm : ∀ k, readCommand (pre ++ items.flatMap Item.bytes ++ [0xFE] ++ after) k =
      .ok ((cmds.map Obj.name).reverse, items.flatMap Item.bytes ++ 0xFE :: after) := by
    intro k
    have := hcmd (items.flatMap Item.bytes ++ 0xFE :: after) k
    simpa using this
  generalize hp : pre ++ items.flatMap Item.bytes ++ [0xFE] = p at hcm
  have hpl : p.length = pre.length + (items.flatMap Item.bytes).length + 1 := by
    rw [← hp]; simp only [List.length_append, List.length_cons, List.length_nil]
  have hsub := sub_items (fmt := fmt) items hok (start := p ++ after) (after := after) (length := p.length) (by simp)
    (enough (items.flatMap Item.bytes ++ 0xFE :: after)) (cmds.map Obj.name).reverse none
    (by intro o ho; simp at ho; obtain ⟨a, _, rfl⟩ := ho; exact ⟨a, rfl⟩) (by omega)
    (by simp only [enough, List.length_append, List.length_cons]; omega)
  have hpar : parseLine fmt names (p ++ after) p.length = .ok (lineText (cmds ++ items.map (Item.text names)), after) := by
    unfold parseLine
    rw [hcm]
    simp only [Int.toNat_natCast]
    rw [hsub]
    have b : ¬ ((p.length : Int) < -1) := by omega
    have c : ¬ ((p.length : Int) = -1) := by omega
    simp only [readN, b, c, if_false]
    simp [lineText, Obj.repr, Function.comp_def]
  rw [hpar]

theorem command_words : ∀ q ∈ commandWords, (¬ (q.1 = 0x01 ∨ q.1 = 0xB4)) ∧ q.1 ≠ 0x30 ∧ q.1 ≠ 0x47 ∧
      ¬ (q.1 = 0x54 ∨ q.1 = 0x99) ∧ q.1 ≠ 0xFB ∧ commands.lookup q.1 = some q.2 := by decide +kernel

theorem read_word {c : Nat} {cmd : String} (hc : (c, cmd) ∈ commandWords) (rest : Rest) (k : Int) :
    readCommand ([c] ++ rest) k = .ok (([cmd].map Obj.name).reverse, rest) := by
  obtain ⟨c1, c2, c3, c4, c5, c6⟩ := command_words _ hc
  simp [readCommand, read1, c1, c2, c3, c4, c5, tableGet, c6]

end FxpLinesAux
open FxpLinesAux

/-- C158: a line of a command and any sequence of keywords, names and expressions is listed with these, in their
order.  Missing: keywords whose codes have several meanings (`C158_ambiguous_fails`, `C158_assignment_fails`). -/
theorem C158_line_partial {c : Nat} {cmd : String} (hc : (c, cmd) ∈ commandWords) (items : List Item)
    (hok : ∀ it ∈ items, it.Ok words fnToken fmt names) (hlen : (items.flatMap Item.bytes).length < 65000) (after : List Nat) :
    codeLine (parseLine fmt names) (record (c :: items.flatMap Item.bytes ++ [0xFE]) ++ after) =
      .ok (lineText (cmd :: items.map (Item.text names)), after) :=
  line_text (pre := [c]) (cmds := [cmd]) (read_word hc) (by simp) items (fun it h => good (hok it h)) hlen after

/-- `STORE a < 3 TO x, this.y` -/
example : codeLine (parseLine (fun _ _ => none) ["a", "x", "this", "y"])
    (record (0x4A :: [Item.expr (.bin .lt (.ref .none 0) (.int8 1 3)), .word 0x28 "TO", .name [] 1, .word 0x07 ",",
      .name [2] 3].flatMap Item.bytes ++ [0xFE]) ++ [1, 2]) = .ok ("STORE (a < 3) TO x , this.y \n", [1, 2]) := by
  rw [C158_line_partial (c := 0x4A) (cmd := "STORE") (by decide) _ (by
    intro it hit
    simp only [List.mem_cons, List.not_mem_nil, or_false] at hit
    rcases hit with rfl | rfl | rfl | rfl | rfl
    · simp [Item.Ok, Expr.Ok, Prefix.Ok]
    · show _ ∈ words; decide
    · simp [Item.Ok]
    · show _ ∈ words; decide
    · simp [Item.Ok]) (by decide)]
  decide +kernel

/-- C158 fails for keywords whose codes have several meanings: every line with one of them shows all the words. -/
theorem C158_ambiguous_fails {c : Nat} {cmd : String} (hc : (c, cmd) ∈ commandWords) {w : Nat} {right shown : String}
    (hw : (w, right, shown) ∈ ambiguous) (before behind : List Item)
    (h1 : ∀ it ∈ before, it.Ok words fnToken fmt names) (h2 : ∀ it ∈ behind, it.Ok words fnToken fmt names)
    (hlen : ((before ++ .word w right :: behind).flatMap Item.bytes).length < 65000) (after : List Nat) :
    codeLine (parseLine fmt names) (record (c :: (before ++ .word w right :: behind).flatMap Item.bytes ++ [0xFE]) ++ after) =
      .ok (lineText (cmd :: (before.map (Item.text names) ++ shown :: behind.map (Item.text names))), after) ∧ shown ≠ right := by
  constructor
  · have := line_text (fmt := fmt) (names := names) (pre := [c]) (cmds := [cmd]) (read_word hc) (by simp)
      (before ++ .word w shown :: behind) (fun it h => by
        simp only [List.mem_append, List.mem_cons] at h
        rcases h with h | rfl | h
        · exact good (h1 it h)
        · exact ambiguous_shown _ hw
        · exact good (h2 it h)) (by simpa [Item.bytes] using hlen) after
    simpa [Item.bytes, Item.text] using this
  · have : ∀ q ∈ ambiguous, q.2.2 ≠ q.2.1 := by decide
    exact this _ hw

/-- `DO print WITH a` -/
example : codeLine (parseLine (fun _ _ => none) ["print", "a"])
    (record (0x18 :: [Item.name [] 0, .word 0xD1 "WITH", .expr (.ref .none 1)].flatMap Item.bytes ++ [0xFE]) ++ []) =
      .ok ("DO print WITH or INTEGER or CONNECTION a \n", []) := by
  have := (C158_ambiguous_fails (fmt := fun _ _ => none) (names := ["print", "a"]) (c := 0x18) (cmd := "DO") (by decide) (w := 0xD1)
    (right := "WITH") (shown := "WITH or INTEGER or CONNECTION") (by decide) [.name [] 0] [.expr (.ref .none 1)]
    (by simp [Item.Ok]) (by simp [Item.Ok, Expr.Ok, Prefix.Ok]) (by decide) []).1
  rw [show lineText ("DO" :: ([Item.name [] 0].map (Item.text ["print", "a"]) ++ "WITH or INTEGER or CONNECTION" ::
    [Item.expr (.ref .none 1)].map (Item.text ["print", "a"]))) = "DO print WITH or INTEGER or CONNECTION a \n" by decide +kernel] at this
  exact this

/-- C158 fails for assignments: a variable or property to which a value is assigned is listed with `= or ERROR`. -/
theorem C158_assignment_fails (p : List Nat) (i : Nat) (e : Expr) (hn : (Item.name p i).Ok words fnToken fmt names)
    (he : e.Ok fnToken fmt names) (hlen : 3 * p.length + e.compile.length < 64000) (after : List Nat) :
    codeLine (parseLine fmt names) (record (0x54 :: [Item.name p i, .word 0x10 "=", .expr e].flatMap Item.bytes ++ [0xFE]) ++ after) =
      .ok (dotted names p i ++ " = or ERROR " ++ e.text names ++ " \n", after) := by
  have hb := bytes_length_name p i
  have := line_text (fmt := fmt) (names := names) (pre := [0x54]) (cmds := [])
    (fun rest k => by simp [readCommand, read1]) (by simp) [.name p i, .word 0x10 "= or ERROR", .expr e] (fun it h => by
      simp only [List.mem_cons, List.not_mem_nil, or_false] at h
      rcases h with rfl | rfl | rfl
      · exact hn
      · show Shown _ _; decide +kernel
      · exact he) (by simp [hb]; simp [Item.bytes]; omega) after
  rw [show lineText ([] ++ [Item.name p i, .word 0x10 "= or ERROR", .expr e].map (Item.text names)) =
    dotted names p i ++ " = or ERROR " ++ e.text names ++ " \n" by
      show dotted names p i ++ " " ++ "= or ERROR" ++ " " ++ e.text names ++ " " ++ "\n" = _
      rw [show " = or ERROR " = " " ++ ("= or ERROR" ++ " ") by rfl, show " \n" = " " ++ "\n" by rfl]
      simp only [String.append_assoc]] at this
  simpa [Item.bytes] using this

/-- `this.y = 3` -/
example : codeLine (parseLine (fun _ _ => none) ["this", "y"])
    (record (0x54 :: [Item.name [0] 1, .word 0x10 "=", .expr (.int8 1 3)].flatMap Item.bytes ++ [0xFE]) ++ []) =
      .ok ("this.y = or ERROR 3 \n", []) := by
  rw [C158_assignment_fails [0] 1 (.int8 1 3) (by simp [Item.Ok]) (by simp [Expr.Ok]) (by decide)]
  decide +kernel

end Props
