import Verif.Lemmas.FxpExpr
import Verif.Lemmas.FxpFuel
import Verif.Spec.FxpLines
/-!
# Properties of the decoder of compiled programs (C33, C34, C61)
-/
namespace Model.Fxp
open Spec.FxpLines

variable {fmt : Nat → List Nat → Option String} {names : List String}

theorem hexByte_spec {b : Nat} (h : b < 256) :
    (hexByte b).toList = [hexDigit (b / 16), hexDigit (b % 16)] := by
  have : ∀ k, k < 16 →
      (if k < 10 then Char.ofNat (48 + k) else Char.ofNat (87 + k)) = hexDigit k := by decide
  unfold hexByte
  rw [String.toList_ofList]
  simp only
  rw [this _ (by omega), this _ (by omega)]

theorem rawText_spec (bs : List Nat) (h : ∀ b ∈ bs, b < 256) :
    (rawText bs).toList = hexDump bs := by
  induction bs with
  | nil => rfl
  | cons b bs ih =>
    have hb := hexByte_spec (h b (by simp))
    have := ih (fun x hx => h x (by simp [hx]))
    cases bs with
    | nil => simp [rawText, hexDump, hb]
    | cons c cs =>
      unfold rawText at this ⊢
      simp only [List.map_cons, String.toList_intercalate, List.intercalate_cons_cons] at this ⊢
      rw [this]
      simp [hexDump, hb]

theorem readUInt_two (n : Nat) (hn : n < 65536) (r : Rest) :
    readUInt 2 (le2 n ++ r) = .ok (n, r) := by
  exact readUInt_le16 hn r

theorem readUInt_four (n : Nat) (r : Rest) :
    readUInt 4 (le4 n ++ r) = .ok (n, r) := by
  have : ¬ ((le4 n ++ r).length < 4) := by simp [le4]
  simp only [readUInt, this, if_false]
  have e1 : (le4 n ++ r).take 4 = le4 n := by simp [le4]
  have e2 : (le4 n ++ r).drop 4 = r := by simp [le4]
  rw [e1, e2]
  simp only [le4, leDecode]
  congr 2; omega

/-- What the handler of the loop makes of a well-formed record. -/
theorem dumpLine_record (p : List Nat) (hp : p.length + 2 < 65536) (r : Rest) :
    dumpLine (record p ++ r) = .ok (rawText p, r) := by
  unfold dumpLine record
  rw [List.append_assoc, readUInt_two _ hp]
  have a : ((p.length + 2 : Nat) : Int) - 2 = (p.length : Int) := by omega
  have b : ¬ ((p.length : Int) < -1) := by omega
  have c : ¬ ((p.length : Int) = -1) := by omega
  simp only [a, readN, b, c, if_false]
  simp

/-- The entry of a record: what `line` makes of it, or its dump. -/
def entryOf (line : Rest → Int → Except DErr (String × Rest)) (p : List Nat) (after : Rest) :
    String :=
  match line (p ++ after) p.length with
  | .ok (s, _) => s
  | .error _ => rawText p

theorem codeLine_record (p : List Nat) (hp : p.length + 2 < 65536) (r : Rest) :
    codeLine (parseLine fmt names) (record p ++ r) = .ok (entryOf (parseLine fmt names) p r, r) := by
  have hd := dumpLine_record p hp r
  unfold codeLine
  rw [hd]
  unfold record
  rw [List.append_assoc, readUInt_two _ hp]
  have a : ((p.length + 2 : Nat) : Int) - 2 = (p.length : Int) := by omega
  simp only [a, entryOf]
  cases h : parseLine fmt names (p ++ r) p.length with
  | error e => rfl
  | ok x =>
    obtain ⟨s, r'⟩ := x
    have := parseLine_rest h
    simp at this
    simp [this]

/-- All entries of an area followed by `after`. -/
def entries (line : Rest → Int → Except DErr (String × Rest)) : List (List Nat) → Rest → List String
  | [], _ => []
  | p :: ps, after => entryOf line p (area ps ++ after) :: entries line ps after

theorem codeLines_area (lines : List (List Nat)) (h : ∀ p ∈ lines, p.length + 2 < 65536)
    (after : Rest) (n : Nat) (hn : (area lines ++ after).length < n) :
    codeLines (parseLine fmt names) n (area lines ++ after) (area lines).length
      = .ok (entries (parseLine fmt names) lines after, after) := by
  induction lines generalizing n with
  | nil =>
    cases n with
    | zero => omega
    | succ n => simp [codeLines, area, entries]
  | cons p ps ih =>
    cases n with
    | zero => omega
    | succ n =>
      have hp := h p (by simp)
      have e : area (p :: ps) = record p ++ area ps := by simp [area]
      have l : (record p).length = p.length + 2 := by simp [record, le2]
      rw [codeLines, if_neg (by rw [e]; simp [l]), e, List.append_assoc, codeLine_record p hp]
      simp only
      have hb : (record p ++ area ps).length
          - ((record p ++ (area ps ++ after)).length - (area ps ++ after).length)
          = (area ps).length := by simp
      rw [hb, ih (fun q hq => h q (by simp [hq])) n (by rw [e] at hn; simp [l] at hn ⊢; omega)]
      simp [entries]

theorem entries_length (line : Rest → Int → Except DErr (String × Rest)) (lines : List (List Nat))
    (after : Rest) : (entries line lines after).length = lines.length := by
  induction lines with
  | nil => rfl
  | cons p ps ih => simp [entries, ih]

theorem entries_get (line : Rest → Int → Except DErr (String × Rest)) (lines : List (List Nat))
    (after : Rest) (i : Nat) (p : List Nat) (h : lines[i]? = some p) :
    (entries line lines after)[i]? = some (entryOf line p (area (lines.drop (i + 1)) ++ after)) := by
  induction lines generalizing i with
  | nil => simp at h
  | cons q qs ih =>
    cases i with
    | zero => simp at h; simp [entries, h]
    | succ i =>
      simp at h
      simp [entries, ih i h]

theorem readNames_table (ns : List (List Nat)) (h : ∀ n ∈ ns, n.length < 65536) (r : Rest) :
    readNames ns.length (ns.flatMap (fun n => le2 n.length ++ n) ++ r)
      = .ok (ns.map latin1) := by
  induction ns with
  | nil => rfl
  | cons n ns ih =>
    have e : readString (le2 n.length ++ (n ++ (ns.flatMap (fun n => le2 n.length ++ n) ++ r)))
        = .ok (latin1 n, ns.flatMap (fun n => le2 n.length ++ n) ++ r) := by
      unfold readString
      rw [readUInt_two _ (h n (by simp))]
      simp
    simp only [List.length_cons, List.flatMap_cons, List.append_assoc, readNames]
    rw [e]
    simp [ih (fun x hx => h x (by simp [hx]))]

end Model.Fxp

namespace Props
open Model.Fxp Spec.FxpLines Spec.FxpExpr

variable (fmt : Nat → List Nat → Option String) (names : List String)

/-! ## C33: decoding a code area -/

/-- Decoding ends for every byte string, well-formed or not, and every claimed length of the area:
the recursion bound of the model is never reached. -/
theorem C33_always_terminates (r : List Nat) (budget : Nat) :
    codeLines (parseLine fmt names) (r.length + 1) r budget ≠ .error .fuel :=
  codeLines_fuel _ _ _ (Nat.lt_succ_self _)

example : codeLines (parseLine (fun _ _ => none) []) 4 [9, 0, 1] 200 ≠ .error .fuel := C33_always_terminates _ _ [9, 0, 1] 200

/-- An area of line records of arbitrary contents is decoded to exactly one entry per line, in
order, and the position afterwards is the end of the area.  The entry of a line is its decoded
text, or its hexadecimal dump when it cannot be decoded; whether and how a line is decoded does
not depend on the lines before it. -/
theorem C33_one_entry_per_line (lines : List (List Nat)) (after : List Nat)
    (hl : ∀ p ∈ lines, p.length + 2 < 65536) (hb : ∀ p ∈ lines, ∀ b ∈ p, b < 256) :
    ∃ es, codeLines (parseLine fmt names) ((area lines ++ after).length + 1) (area lines ++ after)
        (area lines).length = .ok (es, after)
      ∧ es.length = lines.length
      ∧ ∀ i p, lines[i]? = some p →
          (∃ s, parseLine fmt names (p ++ (area (lines.drop (i + 1)) ++ after)) p.length
              = .ok (s, area (lines.drop (i + 1)) ++ after) ∧ es[i]? = some s)
          ∨ (∃ e s, parseLine fmt names (p ++ (area (lines.drop (i + 1)) ++ after)) p.length
              = .error e ∧ es[i]? = some s ∧ s.toList = hexDump p) := by
  refine ⟨_, codeLines_area lines hl after _ (Nat.lt_succ_self _), entries_length _ _ _, ?_⟩
  intro i p hp
  rw [entries_get _ _ _ _ _ hp]
  unfold entryOf
  cases h : parseLine fmt names (p ++ (area (lines.drop (i + 1)) ++ after)) p.length with
  | error e =>
    exact Or.inr ⟨e, _, rfl, rfl, rawText_spec p (hb p (List.mem_of_getElem? hp))⟩
  | ok x =>
    obtain ⟨s, r'⟩ := x
    have := parseLine_rest h
    simp only [List.drop_left] at this
    exact Or.inl ⟨s, by rw [this], rfl⟩

example : codeLines (parseLine (fun _ _ => none) []) 20 (area [[0x0E, 0xFE], [0xEE, 0x01]] ++ [7]) (area [[0x0E, 0xFE], [0xEE, 0x01]]).length
    = .ok (["CLEAR \n", "ee 01"], [7]) := by decide +kernel

/-- The same for a whole block with its name table, whether its length is stored in two or in four
bytes. -/
theorem C33_block (lines ns : List (List Nat)) (after : List Nat)
    (hl : ∀ p ∈ lines, p.length + 2 < 65536) (hn : ∀ n ∈ ns, n.length < 65536)
    (hc : ns.length < 65536) :
    readCodeBlock fmt (block lines ns ++ after)
      = .ok (entries (parseLine fmt (ns.map latin1)) lines (nameTable ns ++ after))
    ∧ (entries (parseLine fmt (ns.map latin1)) lines (nameTable ns ++ after)).length
        = lines.length := by
  refine ⟨?_, entries_length _ _ _⟩
  have hlen : blockLength (block lines ns ++ after)
      = .ok ((area lines).length, area lines ++ (nameTable ns ++ after)) := by
    unfold blockLength block
    by_cases h : 0 < (area lines).length ∧ (area lines).length < 65536
    · rw [if_pos h, List.append_assoc, List.append_assoc, readUInt_two _ h.2]
      simp only
      rw [if_neg (by omega)]
    · have : [0, 0] = le2 0 := rfl
      rw [if_neg h, this]
      simp only [List.append_assoc]
      rw [readUInt_two 0 (by omega)]
      simp only [if_true]
      rw [readUInt_four]
  have hnames : readNameList ((area lines ++ (nameTable ns ++ after)).drop (area lines).length)
      = .ok (ns.map latin1) := by
    rw [List.drop_left]
    unfold readNameList nameTable
    rw [List.append_assoc, readUInt_two _ hc]
    exact readNames_table ns hn after
  unfold readCodeBlock
  rw [hlen]
  simp only
  rw [hnames]
  simp only
  rw [codeLines_area lines hl _ _ (Nat.lt_succ_self _)]

/-- Two lines, the first `CLEAR` (0x0E) and well-formed, the second with a command byte that does
not exist: the second is dumped. -/
example : readCodeBlock (fun _ _ => none) (block [[0x0E, 0xFE], [0xEE, 0x01]] [[65, 66]])
    = .ok ["CLEAR \n", "ee 01"] := by decide +kernel

/-- A stored length of zero makes the whole area undecodable (the handler raises again), and a
stored length of one swallows the rest of the file. -/
theorem C33_invalid_length_fails (rest : List Nat) (n : Nat) :
    codeLines (parseLine fmt names) (n + 1) ([0, 0] ++ rest) (2 + rest.length) = .error .valueError
    ∧ dumpLine ([1, 0] ++ rest) = .ok (rawText rest, []) := by
  constructor
  · have h0 : ∀ r : List Nat, readUInt 2 ([0, 0] ++ r) = .ok (0, r) := fun r => by
      simp [readUInt, leDecode]
    rw [codeLines, if_neg (by omega)]
    have hd : dumpLine ([0, 0] ++ rest) = .error .valueError := by
      unfold dumpLine; rw [h0]; rfl
    have hp : ∃ e, parseLine fmt names rest (((0 : Nat) : Int) - 2) = .error e := by
      cases h : parseLine fmt names rest (((0 : Nat) : Int) - 2) with
      | error e => exact ⟨e, rfl⟩
      | ok x =>
        exfalso
        unfold parseLine at h
        split at h
        · cases h
        · split at h
          · cases h
          · simp [readN] at h
    obtain ⟨e, he⟩ := hp
    have : codeLine (parseLine fmt names) ([0, 0] ++ rest) = .error .valueError := by
      unfold codeLine; rw [h0]; simp only; rw [he]; exact hd
    rw [this]
  · have h1 : readUInt 2 ([1, 0] ++ rest) = .ok (1, rest) := by
      have : ¬ (([1, 0] ++ rest).length < 2) := by simp
      simp [readUInt, leDecode]
    unfold dumpLine; rw [h1]; rfl

/-! ## C34: postfix expressions -/

/-- Decoding the compiled form of an expression, followed by the end mark and anything else, yields
the fully parenthesised text of that expression and leaves what follows unread. -/
theorem C34_decode_expression (e : Expr) (he : e.Ok fnToken fmt names) (after : List Nat) :
    decodeExpr fmt names (e.compile ++ 0xFD :: after) = .ok (.name (e.text names), after) :=
  decodeExpr_compile e he after

/-- `foo(a - 1, THIS.b).c = "x" AND NOT .F.`-like expression meeting the hypothesis. -/
example : (Expr.bin .and
      (.bin .eq (.ref (.call .none 0 (.cons (.bin .sub (.ref .none 1) (.int8 1 7)) .nil)) 2)
        (.dstr [120]))
      (.not .fls)).Ok fnToken (fun _ _ => none) ["foo", "a", "c"] := by
  simp [Expr.Ok, Prefix.Ok, Args.Ok]

example : (Expr.bin .and
      (.bin .eq (.ref (.call .none 0 (.cons (.bin .sub (.ref .none 1) (.int8 1 7)) .nil)) 2)
        (.dstr [120]))
      (.not .fls)).text ["foo", "a", "c"] = "((foo((a - 7)).c = \"x\") AND (NOT .F.))" := by
  decide +kernel

/-- -300 in two bytes, and the same number in four. -/
example : (Expr.bin .add (.int16 4 (-300)) (.int32 4 (-300))).Ok fnToken (fun _ _ => none) [] ∧
    (Expr.bin .add (.int16 4 (-300)) (.int32 4 (-300))).text [] = "(-300 + -300)" ∧
    (Expr.int16 4 (-300)).compile = [0xF9, 4, 212, 254] := by
  simp only [Expr.Ok]
  refine ⟨?_, ?_, ?_⟩ <;> decide +kernel

/-- `{^2020-01-31} < dDay`, with the eight bytes of the date. -/
example : let bytes := [0, 0, 0, 0, 0x40, 0xC3, 0x42, 0x41]
    let fmt := fun code b => if code = 0xE6 ∧ b = bytes then some "{^2020-01-31}" else none
    (Expr.bin .lt (.lit 0xE6 bytes "{^2020-01-31}") (.ref .none 0)).Ok fnToken fmt ["dday"] ∧
    (Expr.bin .lt (.lit 0xE6 bytes "{^2020-01-31}") (.ref .none 0)).text ["dday"] = "({^2020-01-31} < dday)" := by
  refine ⟨?_, by decide +kernel⟩
  simp [Expr.Ok, Prefix.Ok]

/-- `a AND b OR .T.` with its short-circuit markers, which are not listed. -/
example : (Expr.short true 2 (.short false 4 (.ref .none 0) (.ref .none 1)) .tru).Ok fnToken (fun _ _ => none) ["a", "b"] ∧
    (Expr.short true 2 (.short false 4 (.ref .none 0) (.ref .none 1)) .tru).text ["a", "b"] = "((a AND b) OR .T.)" ∧
    (Expr.short true 2 (.short false 4 (.ref .none 0) (.ref .none 1)) .tru).compile =
      [0xF7, 0, 0, 0xF0, 4, 0, 0xF7, 1, 0, 0x09, 0xF1, 2, 0, 0x61, 0x0B] := by
  refine ⟨?_, by decide +kernel, by decide +kernel⟩
  simp [Expr.Ok, Prefix.Ok]

/-- The mark of IIF is read as a value. -/
theorem FxpCodeAux.readNext_iif {n jump : Nat} (c : Nat) (hc : c = 0xF2 ∨ c = 0xF3) (hj : jump < 65536) (r : Rest) (st : List Obj) :
    readNext fmt names (n + 2) (c :: (le16 jump ++ r)) st =
      .ok (.name ("(SHORT CIRCUIT IIF IN " ++ toString jump ++ ")"), st, r) := by
  have h1 : valueConstants.lookup 0xF2 = none := by decide +kernel
  have h2 : valueConstants.lookup 0xF3 = none := by decide +kernel
  rcases hc with rfl | rfl
  · exact readNext_simple (o := .str ("(SHORT CIRCUIT IIF IN " ++ toString jump ++ ")")) (by decide) (by decide +kernel) (by decide +kernel)
      (by simp [readSimple, h1, fmtBytes, readUInt_le16 hj])
  · exact readNext_simple (o := .str ("(SHORT CIRCUIT IIF IN " ++ toString jump ++ ")")) (by decide) (by decide +kernel) (by decide +kernel)
      (by simp [readSimple, h2, fmtBytes, readUInt_le16 hj])

/-- `IIF(c, a, b)` compiled with its short-circuit markers, as the VFP compiler stores it, is
listed with the two markers as additional arguments. -/
theorem C34_iif_marker_fails (c a b : Expr) (hc : c.Ok fnToken fmt names) (ha : a.Ok fnToken fmt names) (hb : b.Ok fnToken fmt names)
    (m n : Nat) (hm : m < 65536) (hn : n < 65536) (after : List Nat) :
    decodeExpr fmt names (0x43 :: (c.compile ++ (0xF2 :: (le16 m ++ (a.compile ++ (0xF3 :: (le16 n ++ (b.compile ++ 0x36 :: 0xFD :: after))))))))
      = .ok (.name ("IIF(" ++ ", ".intercalate [c.text names, "(SHORT CIRCUIT IIF IN " ++ toString m ++ ")", a.text names,
          "(SHORT CIRCUIT IIF IN " ++ toString n ++ ")", b.text names] ++ ")"), after) := by
  have l1 := toksE_le c hc
  have l2 := toksE_le a ha
  have l3 := toksE_le b hb
  unfold decodeExpr
  obtain ⟨k, hk⟩ : ∃ k, enough (0x43 :: (c.compile ++ (0xF2 :: (le16 m ++ (a.compile ++ (0xF3 :: (le16 n ++ (b.compile ++ 0x36 :: 0xFD :: after)))))))) =
      toksE c + (toksE a + (toksE b + (k + 2 + 2) + 1) + 1) + 1 := by
    refine ⟨enough (0x43 :: (c.compile ++ (0xF2 :: (le16 m ++ (a.compile ++ (0xF3 :: (le16 n ++ (b.compile ++ 0x36 :: 0xFD :: after)))))))) -
      (toksE c + toksE a + toksE b + 7), ?_⟩
    simp [enough, le16]
    omega
  have e0 : toksE c + (toksE a + (toksE b + (k + 2 + 2) + 1) + 1) + 1 = (toksE c + toksE a + toksE b + k + 5) + 1 + 1 := by omega
  rw [hk, e0, readExpr_step readNext_mark (by simp [endExpr])]
  have e1 : toksE c + toksE a + toksE b + k + 5 + 1 = toksE c + ((toksE a + toksE b + k + 4) + 2) := by omega
  rw [e1, runE c hc _ _ _ (noAlias_mark _)]
  have e2 : toksE a + toksE b + k + 4 + 2 = (toksE a + toksE b + k + 3 + 2) + 1 := by omega
  rw [e2, readExpr_step (FxpCodeAux.readNext_iif fmt names 0xF2 (.inl rfl) hm _ _) (by simp)]
  have e3 : toksE a + toksE b + k + 3 + 2 = toksE a + ((toksE b + k + 3) + 2) := by omega
  rw [e3, runE a ha _ _ _ (noAlias_cons_name _ _)]
  have e4 : toksE b + k + 3 + 2 = (toksE b + k + 2 + 2) + 1 := by omega
  rw [e4, readExpr_step (FxpCodeAux.readNext_iif fmt names 0xF3 (.inr rfl) hn _ _) (by simp)]
  have e5 : toksE b + k + 2 + 2 = toksE b + ((k + 2) + 2) := by omega
  rw [e5, runE b hb _ _ _ (noAlias_cons_name _ _)]
  have hf : fnToken [0x36] = some "IIF" := by decide +kernel
  have hr := readNext_fn (fmt := fmt) (names := names) (n := k + 2) (r := 0xFD :: after)
    (st := .name (b.text names) :: .name ("(SHORT CIRCUIT IIF IN " ++ toString n ++ ")") :: .name (a.text names) ::
      .name ("(SHORT CIRCUIT IIF IN " ++ toString m ++ ")") :: .name (c.text names) :: [.int 0x43]) hf
  rw [List.singleton_append] at hr
  rw [readExpr_step hr (by simp)]
  have hp := popParams_names [c.text names, "(SHORT CIRCUIT IIF IN " ++ toString m ++ ")", a.text names,
          "(SHORT CIRCUIT IIF IN " ++ toString n ++ ")", b.text names] []
  simp only [List.map_cons, List.map_nil, List.reverse_cons, List.reverse_nil, List.nil_append, List.cons_append] at hp
  rw [hp, readExpr, readNext_end]
  simp [callText, endExpr, Obj.repr]

example : decodeExpr (fun _ _ => none) []
        [0x43, 0x61, 0xF2, 5, 0, 0xF8, 1, 1, 0xF3, 3, 0, 0xF8, 1, 2, 0x36, 0xFD]
      = .ok (.name "IIF(.T., (SHORT CIRCUIT IIF IN 5), 1, (SHORT CIRCUIT IIF IN 3), 2)", []) := by
  decide +kernel

/-- A line of a command, one expression and the end of the line. -/
theorem FxpCodeAux.command_line (pre : List Nat) (cmd : String)
    (hcmd : ∀ rest k, readCommand (pre ++ rest) k = .ok ([.name cmd], rest)) (hpre : pre.length ≤ 2) (e : Expr)
    (he : e.Ok fnToken fmt names) (hlen : e.compile.length < 65000) (after : List Nat) :
    codeLine (parseLine fmt names) (record (pre ++ 0xFC :: (e.compile ++ [0xFD, 0xFE])) ++ after)
      = .ok (cmd ++ " " ++ e.text names ++ " " ++ "\n", after) := by
  rw [codeLine_record _ (by simp; omega)]
  congr 1
  congr 1
  unfold entryOf
  let p := pre ++ 0xFC :: (e.compile ++ [0xFD, 0xFE])
  have hpl : p.length = e.compile.length + pre.length + 3 := by simp [p]; omega
  have hcm : ∀ k, readCommand (p ++ after) k
      = .ok ([.name cmd], 0xFC :: (e.compile ++ 0xFD :: 0xFE :: after)) := by
    intro k
    have := hcmd (0xFC :: (e.compile ++ 0xFD :: 0xFE :: after)) k
    simpa [p] using this
  have hsub : ∀ n, e.compile.length + 6 ≤ n →
      subline fmt names n (p ++ after) p.length (0xFC :: (e.compile ++ 0xFD :: 0xFE :: after))
        [.name cmd] none = .ok (cmd ++ " " ++ e.text names ++ " " ++ "\n") := by
    intro n hn
    obtain ⟨k, rfl⟩ : ∃ k, n = k + 4 := ⟨n - 4, by omega⟩
    have m1 : multiClauses.lookup 0xFC = none := by decide +kernel
    have m2 : valueConstants.lookup 0xFC = none := by decide +kernel
    have m3 : clauses.lookup 0xFC = none := by decide +kernel
    have m4 : multiClauses.lookup 0xFE = none := by decide +kernel
    have m5 : valueConstants.lookup 0xFE = none := by decide +kernel
    have m6 : clauses.lookup 0xFE = some "\n" := by decide +kernel
    have m7 : readSimple fmt names 0xFC (e.compile ++ 0xFD :: 0xFE :: after) = none := by
      simp [readSimple, m2, fmtBytes]
    have hrv : readValue fmt names (k + 3) 0xFC (e.compile ++ 0xFD :: 0xFE :: after)
        = .ok (.name (e.text names), 0xFE :: after) := by
      rw [readValue, m7]
      simp only [show ¬ (0xFC = 0xEB) by decide, if_false, if_true]
      exact readExpr_compile e he _ _ (by omega)
    have hj : joinLine [.name "\n", .name (e.text names), .name cmd]
        = cmd ++ " " ++ e.text names ++ " " ++ "\n" := by
      rfl
    rw [subline, if_pos (by simp [p])]
    simp only [read1]
    rw [if_neg (by decide), if_neg (by decide)]
    simp only [m1, m2, m3]
    rw [if_neg (by decide), if_pos (by decide), hrv]
    simp only
    rw [subline, if_pos (by simp [p]; omega)]
    simp only [read1]
    rw [if_neg (by decide), if_neg (by decide)]
    simp only [m4, m5, m6]
    rw [if_neg (by decide), subline, if_neg (by simp [p]; omega), hj]
  have hp : parseLine fmt names (p ++ after) p.length
      = .ok (cmd ++ " " ++ e.text names ++ " " ++ "\n", after) := by
    unfold parseLine
    rw [hcm]
    simp only [Int.toNat_natCast]
    rw [hsub _ (by simp [enough]; omega)]
    have b : ¬ ((p.length : Int) < -1) := by omega
    have c : ¬ ((p.length : Int) = -1) := by omega
    simp only [readN, b, c, if_false]
    simp
  show (match parseLine fmt names (p ++ after) p.length with
    | .ok (s, _) => s
    | .error _ => rawText p) = _
  rw [hp]

/-- Commands that take one expression, with their codes. -/
def exprCommands : List (Nat × String) :=
  [(0x02, "?"), (0x0C, "CASE"), (0x25, "IF"), (0x42, "RETURN"), (0xA8, "ERROR"), (0xBD, "THROW")]

/-- A stored line made of such a command, one expression and the end of line decodes to the
command followed by the fully parenthesised expression, whatever follows the line. -/
theorem C34_command_line (c : Nat) (cmd : String) (hc : (c, cmd) ∈ exprCommands) (e : Expr)
    (he : e.Ok fnToken fmt names) (hlen : e.compile.length < 65000) (after : List Nat) :
    codeLine (parseLine fmt names) (record (c :: 0xFC :: (e.compile ++ [0xFD, 0xFE])) ++ after)
      = .ok (cmd ++ " " ++ e.text names ++ " " ++ "\n", after) := by
  have hcmd : (¬ (c = 0x01 ∨ c = 0xB4)) ∧ c ≠ 0x30 ∧ c ≠ 0x47 ∧ ¬ (c = 0x54 ∨ c = 0x99) ∧ c ≠ 0xFB ∧
      commands.lookup c = some cmd := by
    have : ∀ q ∈ exprCommands, (¬ (q.1 = 0x01 ∨ q.1 = 0xB4)) ∧ q.1 ≠ 0x30 ∧ q.1 ≠ 0x47 ∧
      ¬ (q.1 = 0x54 ∨ q.1 = 0x99) ∧ q.1 ≠ 0xFB ∧ commands.lookup q.1 = some q.2 := by decide +kernel
    exact this _ hc
  obtain ⟨c1, c2, c3, c4, c5, c6⟩ := hcmd
  refine FxpCodeAux.command_line _ _ [c] cmd (fun rest k => ?_) (by simp) e he hlen after
  simp [readCommand, read1, c1, c2, c3, c4, c5, tableGet, c6]

/-- `IF a < 3`. -/
example : (Expr.bin .lt (.ref .none 0) (.int8 1 3)).Ok fnToken (fun _ _ => none) ["a"]
    ∧ (Expr.bin .lt (.ref .none 0) (.int8 1 3)).text ["a"] = "(a < 3)" := by
  constructor
  · simp [Expr.Ok, Prefix.Ok]
  · decide +kernel

/-- Settings, with their codes. -/
def exprSettings : List (Nat × String) :=
  [(0x0B, "DATE"), (0x0D, "DECIMALS"), (0x0E, "DEFAULT"), (0x1A, "FILTER"), (0x28, "ORDER"), (0x29, "PATH"),
   (0x2B, "PROCEDURE"), (0x2D, "RELATION"), (0x3A, "MARK"), (0x3B, "POINT"), (0x4D, "REPROCESS")]

/-- The line of a SET command decodes to SET, the setting and the expression. -/
theorem C34_set_line (c : Nat) (word : String) (hc : (c, word) ∈ exprSettings) (e : Expr)
    (he : e.Ok fnToken fmt names) (hlen : e.compile.length < 65000) (after : List Nat) :
    codeLine (parseLine fmt names) (record (0x47 :: c :: 0xFC :: (e.compile ++ [0xFD, 0xFE])) ++ after)
      = .ok ("SET " ++ word ++ " " ++ e.text names ++ " " ++ "\n", after) := by
  have hcmd : setCodes.lookup c = some word := by
    have : ∀ q ∈ exprSettings, setCodes.lookup q.1 = some q.2 := by decide +kernel
    exact this _ hc
  refine FxpCodeAux.command_line _ _ [0x47, c] ("SET " ++ word) (fun rest k => ?_) (by simp) e he hlen after
  simp [readCommand, read1, readKeyed, tableGet, hcmd]

/-- `SET FILTER a < 3`, with a number that is stored as three characters wide. -/
example : (0x1A, "FILTER") ∈ exprSettings ∧ (Expr.bin .lt (.ref .none 0) (.int8 3 3)).Ok fnToken (fun _ _ => none) ["a"]
    ∧ (Expr.bin .lt (.ref .none 0) (.int8 3 3)).text ["a"] = "(a < 003)" := by
  refine ⟨by decide, ?_, ?_⟩
  · simp [Expr.Ok, Prefix.Ok]
  · decide +kernel

/-- The line of SET SEPARATOR decodes to a setting that does not exist. -/
theorem C34_separator_fails (e : Expr) (he : e.Ok fnToken fmt names) (hlen : e.compile.length < 65000) (after : List Nat) :
    codeLine (parseLine fmt names) (record (0x47 :: 0x3C :: 0xFC :: (e.compile ++ [0xFD, 0xFE])) ++ after)
      = .ok ("SET SEPERATOR " ++ e.text names ++ " " ++ "\n", after) :=
  FxpCodeAux.command_line _ _ [0x47, 0x3C] "SET SEPERATOR"
    (fun rest k => by simp [readCommand, read1, readKeyed, tableGet, show setCodes.lookup 0x3C = some "SEPERATOR" by decide +kernel])
    (by simp) e he hlen after

example : (Expr.dstr [44]).Ok fnToken (fun _ _ => none) [] ∧ (Expr.dstr [44]).text [] = "\",\"" := by
  refine ⟨?_, by decide +kernel⟩
  simp [Expr.Ok]

/-- Numbers that are as wide as they are stored are written in full. -/
theorem FxpCodeAux.padded_full (d : Nat) (n : Int) (h : d ≤ (toString n).length) : padded d n = toString n := by
  match n with
  | .ofNat m =>
    have h' : d ≤ (toString m).length := h
    simp only [padded, show d - (toString m).length = 0 by omega]
    simp [zeros]; rfl
  | .negSucc m =>
    have hs : toString (Int.negSucc m) = "-" ++ toString (m + 1) := rfl
    rw [hs, String.length_append, show "-".length = 1 from rfl] at h
    simp only [padded, show d - 1 - (toString (m + 1)).length = 0 by omega, hs]
    simp [zeros]

/-! ## C61: currency constants -/

/-- Every stored amount is listed as `$w.f`, where `w` is the amount rounded down to a whole number and `f`
the rest as a number, so that the whole part is that of the amount exactly if the amount is not negative
or whole, and there are `d` decimals exactly if the first one is not zero (or `d` is 1). -/
theorem C61_currency_exact (width d : Nat) (hd : 0 < d) (v : Int) (h1 : -(2 : Int) ^ 63 ≤ v) (h2 : v < 2 ^ 63) (after : List Nat) :
    ∃ (w : Int) (f : Nat),
      decodeExpr fmt names ([0xDE, width, d] ++ twos 8 v ++ 0xFD :: after) = .ok (.name ("$" ++ toString w ++ "." ++ toString f), after) ∧
      v = w * 10 ^ d + f ∧ f < 10 ^ d ∧ (w = v.tdiv (10 ^ d) ↔ 0 ≤ v ∨ f = 0) ∧
      ((toString f).length = d ↔ 10 ^ (d - 1) ≤ f ∨ d = 1) := by
  have hpos : (0 : Int) < 10 ^ d := Int.pow_pos (by omega)
  have hf : ((v % 10 ^ d).toNat : Int) = v % 10 ^ d := Int.toNat_of_nonneg (Int.emod_nonneg _ (by omega))
  have hlt : (v % 10 ^ d).toNat < 10 ^ d := by
    have := Int.emod_lt_of_pos v hpos
    have e : ((10 ^ d : Nat) : Int) = (10 : Int) ^ d := by simp
    omega
  refine ⟨v / 10 ^ d, (v % 10 ^ d).toNat, ?_, ?_, hlt, ?_, ?_⟩
  · have hs : readSInt 8 (twos 8 v ++ 0xFD :: after) = .ok (v, 0xFD :: after) := readSInt_twos (by decide) h1 h2
    have hc : readCurrency (width :: d :: (twos 8 v ++ 0xFD :: after))
        = .ok (.num ("$" ++ toString (v / 10 ^ d) ++ "." ++ toString (v % 10 ^ d).toNat), 0xFD :: after) := by
      unfold readCurrency
      simp only
      rw [hs]
      simp only
      rw [Int.fdiv_eq_ediv_of_nonneg _ (by omega), Int.fmod_eq_emod_of_nonneg _ (by omega), ← hf]
      rfl
    have h1 : valueConstants.lookup 0xDE = none := by decide
    have hr : readSimple fmt names 0xDE (width :: d :: (twos 8 v ++ 0xFD :: after))
        = some (.ok (.num ("$" ++ toString (v / 10 ^ d) ++ "." ++ toString (v % 10 ^ d).toNat), 0xFD :: after)) := by
      simp only [readSimple, h1]
      simp only [fmtBytes]
      simp [hc]
    obtain ⟨k, hk⟩ : ∃ k, enough ([0xDE, width, d] ++ twos 8 v ++ 0xFD :: after) = k + 3 := ⟨_, rfl⟩
    rw [decodeExpr, hk]
    show readExpr fmt names (k + 3) (0xDE :: width :: d :: (twos 8 v ++ 0xFD :: after)) [] = _
    rw [readExpr, readNext_simple (by decide) (by decide +kernel) (by decide +kernel) hr]
    simp [wrapValue, Obj.text, Obj.repr, readExpr, readNext_end, endExpr]
  · rw [hf, Int.mul_comm]; exact (Int.mul_ediv_add_emod v (10 ^ d)).symm
  · rw [Int.tdiv_eq_ediv]
    have hf0 : (v % 10 ^ d).toNat = 0 ↔ (10 : Int) ^ d ∣ v := by
      rw [Int.dvd_iff_emod_eq_zero]; omega
    rw [hf0, Int.sign_eq_one_of_pos hpos]
    split
    · rename_i h; simp [h]
    · rename_i h
      rw [not_or] at h
      simp only [h.1, h.2, or_self, iff_false]
      omega
  · have e : (toString (v % 10 ^ d).toNat).length = (Nat.toDigits 10 (v % 10 ^ d).toNat).length := by
      rw [Nat.toString_eq_ofList_toDigits]; simp
    rw [e]
    have h1 := (Nat.length_toDigits_le_iff (b := 10) (n := (v % 10 ^ d).toNat) (by omega) hd).mpr hlt
    have h2 : 0 < (Nat.toDigits 10 (v % 10 ^ d).toNat).length := Nat.length_toDigits_pos
    by_cases hd1 : d = 1
    · subst hd1; simp only [or_true, iff_true]; omega
    · have h3 := (Nat.length_toDigits_le_iff (b := 10) (n := (v % 10 ^ d).toNat) (k := d - 1) (by omega) (by omega))
      simp only [hd1, or_false]
      constructor
      · intro h
        rcases Nat.lt_or_ge (v % 10 ^ d).toNat (10 ^ (d - 1)) with h' | h'
        · have := h3.mpr h'; omega
        · exact h'
      · intro h
        have : ¬ (Nat.toDigits 10 (v % 10 ^ d).toNat).length ≤ d - 1 := fun h' => by have := h3.mp h'; omega
        omega

/-- 1.05 in four decimals is listed as `$1.500`, and -1.5 as `$-2.5000`. -/
example : decodeExpr (fun _ _ => none) [] ([0xDE, 9, 4] ++ twos 8 10500 ++ [0xFD]) = .ok (.name "$1.500", []) ∧
    decodeExpr (fun _ _ => none) [] ([0xDE, 9, 4] ++ twos 8 (-15000) ++ [0xFD]) = .ok (.name "$-2.5000", []) := by
  decide +kernel

/-- What holds: a stored amount that is not negative and whose first decimal is not zero is listed
with exactly its whole part and its `d` decimals.  Missing: negative amounts and amounts with
zeros after the decimal point. -/
theorem C61_currency_partial (width d n : Nat) (hn : n < 2 ^ 63) (hd : 0 < d)
    (hfrac : 10 ^ (d - 1) ≤ n % 10 ^ d) (after : List Nat) :
    ∃ whole frac : Nat, n = whole * 10 ^ d + frac ∧ (toString frac).length = d ∧
      decodeExpr fmt names ([0xDE, width, d] ++ leEncode 8 n ++ 0xFD :: after)
        = .ok (.name ("$" ++ toString whole ++ "." ++ toString frac), after) := by
  refine ⟨n / 10 ^ d, n % 10 ^ d, ?_, ?_, ?_⟩
  · have := Nat.div_add_mod n (10 ^ d); rw [Nat.mul_comm]; exact this.symm
  · have hlt : n % 10 ^ d < 10 ^ d := Nat.mod_lt _ (Nat.pow_pos (by omega))
    have e : (toString (n % 10 ^ d)).length = (Nat.toDigits 10 (n % 10 ^ d)).length := by
      rw [Nat.toString_eq_ofList_toDigits]; simp
    rw [e]
    have h1 := (Nat.length_toDigits_le_iff (b := 10) (n := n % 10 ^ d) (by omega) hd).mpr hlt
    have h2 : 0 < (Nat.toDigits 10 (n % 10 ^ d)).length := Nat.length_toDigits_pos
    by_cases hd1 : d = 1
    · omega
    · have h3 := (Nat.length_toDigits_le_iff (b := 10) (n := n % 10 ^ d) (k := d - 1) (by omega)
        (by omega))
      have : ¬ (Nat.toDigits 10 (n % 10 ^ d)).length ≤ d - 1 := fun h => by
        have := h3.mp h; omega
      omega
  · have hs : readSInt 8 (leEncode 8 n ++ 0xFD :: after) = .ok ((n : Int), 0xFD :: after) := by
      have l : (leEncode 8 n).length = 8 := leEncode_length 8 n
      have : ¬ ((leEncode 8 n ++ 0xFD :: after).length < 8) := by simp [l]
      simp only [readSInt, this, if_false]
      rw [List.take_left' l, List.drop_left' l, leDecode_leEncode 8 n (by omega), if_pos hn]
    have hc : readCurrency (width :: d :: (leEncode 8 n ++ 0xFD :: after))
        = .ok (.num ("$" ++ toString (n / 10 ^ d) ++ "." ++ toString (n % 10 ^ d)), 0xFD :: after) := by
      unfold readCurrency
      simp only
      rw [hs]
      have e : (10 : Int) ^ d = ((10 ^ d : Nat) : Int) := by simp
      simp only
      rw [e, Int.fdiv_eq_ediv_of_nonneg _ (by omega), Int.fmod_eq_emod_of_nonneg _ (by omega),
        ← Int.natCast_ediv, ← Int.natCast_emod]
      rfl
    have h1 : valueConstants.lookup 0xDE = none := by decide
    have hr : readSimple fmt names 0xDE (width :: d :: (leEncode 8 n ++ 0xFD :: after))
        = some (.ok (.num ("$" ++ toString (n / 10 ^ d) ++ "." ++ toString (n % 10 ^ d)),
            0xFD :: after)) := by
      simp only [readSimple, h1]
      simp only [fmtBytes]
      simp [hc]
    obtain ⟨k, hk⟩ : ∃ k, enough ([0xDE, width, d] ++ leEncode 8 n ++ 0xFD :: after) = k + 3 :=
      ⟨_, rfl⟩
    rw [decodeExpr, hk]
    show readExpr fmt names (k + 3) (0xDE :: width :: d :: (leEncode 8 n ++ 0xFD :: after)) [] = _
    rw [readExpr, readNext_simple (by decide) (by decide +kernel) (by decide +kernel) hr]
    simp [wrapValue, Obj.text, Obj.repr, readExpr, readNext_end, endExpr]

/-- 1.2500 meets the hypotheses. -/
example : 12500 < 2 ^ 63 ∧ 10 ^ (4 - 1) ≤ 12500 % 10 ^ 4 := by decide

end Props
