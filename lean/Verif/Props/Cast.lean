import Verif.Model.Cast
/-!
# C131: CAST
-/
namespace Props
open Model.Cast

namespace CastSpec

/-- The names of the types of FoxPro. -/
def names : DataType → List String
  | .blob => ["w", "blob"]
  | .character => ["c", "char", "character"]
  | .currency => ["y", "currency"]
  | .date => ["d", "date"]
  | .datetime => ["t", "datetime"]
  | .double => ["b", "double"]
  | .float => ["f", "float"]
  | .general => ["g", "general"]
  | .integer => ["i", "int", "integer"]
  | .logical => ["l", "logical"]
  | .memo => ["m", "memo"]
  | .numeric => ["n", "num", "numeric"]
  | .varbinary => ["q", "varbinary"]
  | .varchar => ["v", "varchar"]

/-- A name of the type, in any case. -/
def Named (t : DataType) (s : List Char) : Prop := ∃ n ∈ names t, s.map Char.toLower = n.toList

/-- The values of conversions, as far as they are stated here: NULL stays NULL, a value of the type stays
as it is, numbers and logical values are converted into each other, numbers are written with
their digits, a binary value has the codes of the characters. -/
inductive Converts : DataType → Val → Val → Prop
  | null (t) : Converts t .null .null
  | number (t n) : t ∈ [DataType.integer, .numeric, .currency, .float, .double] → Converts t (.num n) (.num n)
  | logicalNumber (b : Bool) : Converts .integer (.bool b) (.num b.toNat)
  | numberLogical (n : Int) : Converts .logical (.num n) (.bool (decide (n ≠ 0)))
  | logical (b) : Converts .logical (.bool b) (.bool b)
  | memo (s) : Converts .memo (.text s) (.text s)
  | numberMemo (n : Int) : Converts .memo (.num n) (.text (toString n).toList)
  | date (n) : Converts .date (.day n) (.day n)
  | blob (t s) : t ∈ [DataType.blob, .varbinary] → Converts t (.text s) (.bytes (s.map Char.toNat))

end CastSpec
open CastSpec

namespace CastAux

theorem digits_eq (n : Int) : digits n = (toString n).toList := by
  cases n with
  | ofNat m => 
    have h : ¬ (Int.ofNat m < 0) := by simp
    simp only [digits, h, if_false, toString, Int.repr]
    simp [Nat.repr]
  | negSucc m =>
    have h : Int.negSucc m < 0 := Int.negSucc_lt_zero m
    simp only [digits, h, if_true, toString, Int.repr]
    simp [Nat.repr]

theorem lookup_iff (s : Str) (t : DataType) : lookup s [] = some t ↔ Named t s := by
  unfold lookup Named
  rw [List.append_nil]
  generalize s.map Char.toLower = l
  constructor
  · intro h
    obtain ⟨p, hp, rfl⟩ := Option.map_eq_some_iff.mp h
    have h1 := List.find?_some hp
    have h2 := List.mem_of_find?_eq_some hp
    simp only [decide_eq_true_eq] at h1
    rw [← h1]
    exact ⟨p.1, (by decide : ∀ p ∈ datatypesMap, p.1 ∈ names p.2) p h2, rfl⟩
  · rintro ⟨n, hn, rfl⟩
    have : ∀ t : DataType, ∀ n ∈ names t, ((datatypesMap.find? fun p => p.1.toList = n.toList).map (·.2)) = some t := by
      intro t; cases t <;> decide +kernel
    exact this t n hn

theorem lookup_width (s w : Str) (hw : '(' ∈ w) : lookup s w = none := by
  unfold lookup
  rw [Option.map_eq_none_iff, List.find?_eq_none]
  intro p hp
  simp only [decide_eq_true_eq]
  intro h
  have : ∀ p ∈ datatypesMap, '(' ∉ p.1.toList := by decide +kernel
  exact this p hp (h ▸ List.mem_append_right _ hw)

end CastAux
open CastAux

/-- C131, exactly: the names of types are those of FoxPro, in any case. -/
theorem C131_types_iff (s : List Char) (t : DataType) : lookup s [] = some t ↔ Named t s := lookup_iff s t

example : Named .integer "Int".toList := ⟨"int", by decide, by decide⟩

/-- C131, exactly: CAST has the right value except for NULL, for dates and for binary values. -/
theorem C131_cast_iff (e : Env) (s : List Char) (t : DataType) (v w : Val) (hs : Named t s) (h : Converts t v w) :
    castAs e s [] v = some w ↔ v ≠ .null ∧ t ∉ [DataType.date, .blob, .varbinary] := by
  rw [castAs, (lookup_iff s t).mpr hs, Option.bind_some]
  cases h with
  | null => cases t <;> simp [func, call]
  | number _ n ht =>
    simp only [List.mem_cons, List.not_mem_nil, or_false] at ht
    rcases ht with rfl | rfl | rfl | rfl | rfl <;> simp [func, call]
  | logicalNumber b => cases b <;> simp [func, call]
  | numberLogical n => simp [func, call, bne, BEq.beq]
  | logical b => simp [func, call]
  | memo s => simp [func, call]
  | numberMemo n => simp [func, call, digits_eq]
  | date n => simp [func, call]
  | blob _ s ht =>
    simp only [List.mem_cons, List.not_mem_nil, or_false] at ht
    rcases ht with rfl | rfl <;> simp [func, call]

example (e : Env) : Named .logical "L".toList ∧ Converts .logical (.num 2) (.bool true) ∧ castAs e "L".toList [] (.num 2) = some (.bool true) :=
  ⟨⟨"l", by decide, by decide⟩, .numberLogical 2, by
    rw [castAs, show lookup "L".toList [] = some .logical by decide +kernel]; rfl⟩

/-- C131: NULL is never kept. -/
theorem C131_null_fails (e : Env) (s width : List Char) : castAs e s width .null ≠ some .null := by
  intro h
  obtain ⟨t, -, h⟩ := Option.bind_eq_some_iff.mp h
  cases t <;> simp [func, call] at h

example (e : Env) : castAs e "M".toList [] .null = some (.text "None".toList) := by
  rw [castAs, show lookup "M".toList [] = some .memo by decide +kernel]; rfl

/-- C131: no value can be converted to a date or to a time. -/
theorem C131_dates_fails (e : Env) (s : List Char) (v : Val) (h : Named .date s ∨ Named .datetime s) : castAs e s [] v = none := by
  rcases h with h | h <;> rw [castAs, (lookup_iff s _).mpr h] <;> simp [func, call]

example : Named .datetime "T".toList := ⟨"t", by decide, by decide⟩

/-- C131: statements with a type that has a width, as `N(10, 2)`, are not converted. -/
theorem C131_width_fails (e : Env) (s width : List Char) (v : Val) (hw : '(' ∈ width) : castAs e s width v = none := by
  rw [castAs, lookup_width s width hw]; rfl

example (e : Env) : castAs e "n".toList "(10, 2)".toList (.num 5) = none := C131_width_fails e _ _ _ (by decide)

/-! ## Texts as integers -/

namespace CastAux

theorem readDigits_eq : ∀ (ds : Str) (n : Nat), (∀ c ∈ ds, c.isDigit = true) → readDigits n ds = some (Nat.ofDigitChars 10 ds n)
  | [], n, _ => by simp [readDigits, Nat.ofDigitChars]
  | c :: ds, n, h => by
    have hc := h c (by simp)
    have hu : c ≠ '_' := by rintro rfl; revert hc; decide
    have ih := readDigits_eq ds (10 * n + (c.toNat - 48)) (fun d hd => h d (by simp [hd]))
    rw [readDigits]
    · rw [if_pos hc, ih]
      simp [Nat.ofDigitChars]
    · intro c' s' h1 h2
      exact hu h1

theorem readNat_eq (ds : Str) (hne : ds ≠ []) (h : ∀ c ∈ ds, c.isDigit = true) : readNat ds = some (Nat.ofDigitChars 10 ds 0) := by
  cases ds with
  | nil => exact absurd rfl hne
  | cons c ds =>
    rw [readNat, if_pos (h c (by simp)), readDigits_eq _ _ (fun d hd => h d (by simp [hd]))]
    simp [Nat.ofDigitChars]

theorem dropWhile_all {p : Char → Bool} : ∀ {a : Str} (b : Str), (∀ c ∈ a, p c = true) → (a ++ b).dropWhile p = b.dropWhile p
  | [], _, _ => rfl
  | c :: a, b, h => by
    rw [List.cons_append, List.dropWhile_cons, if_pos (h c (by simp)), dropWhile_all b (fun d hd => h d (by simp [hd]))]

theorem dropWhile_head {p : Char → Bool} {b : Str} (h : ∀ c, b.head? = some c → p c = false) : b.dropWhile p = b := by
  cases b with
  | nil => rfl
  | cons c b => rw [List.dropWhile_cons, if_neg (by rw [h c rfl]; decide)]

theorem strip_eq (a b m : Str) (ha : ∀ c ∈ a, isBlank c = true) (hb : ∀ c ∈ b, isBlank c = true)
    (h1 : ∀ c, m.head? = some c → isBlank c = false) (h2 : ∀ c, m.getLast? = some c → isBlank c = false) (hm : m ≠ []) : strip (a ++ m ++ b) = m := by
  unfold strip
  rw [List.append_assoc, dropWhile_all _ ha, dropWhile_head (b := m ++ b), List.reverse_append, dropWhile_all _ (by simpa using hb), dropWhile_head, List.reverse_reverse]
  · intro c hc; rw [List.head?_reverse] at hc; exact h2 c hc
  · intro c hc
    cases m with
    | nil => exact absurd rfl hm
    | cons d m => exact h1 c hc

theorem digit_blank {c : Char} (h : c.isDigit = true) : isBlank c = false := by
  cases hb : isBlank c with
  | false => rfl
  | true =>
    simp only [isBlank, Bool.or_eq_true, decide_eq_true_eq] at hb
    rcases hb with ((rfl | rfl) | rfl) | rfl <;> revert h <;> decide

theorem mem_strip {s : Str} {c : Char} (h : c ∈ strip s) : c ∈ s := by
  unfold strip at h
  rw [List.mem_reverse] at h
  have := (List.dropWhile_sublist _).subset h
  rw [List.mem_reverse] at this
  exact (List.dropWhile_sublist _).subset this

theorem readNat_digit {s : Str} {n : Nat} (h : readNat s = some n) : ∃ c ∈ s, c.isDigit = true := by
  cases s with
  | nil => cases h
  | cons c s =>
    simp only [readNat] at h
    split at h
    · rename_i hc; exact ⟨c, by simp, hc⟩
    · cases h

theorem readInt_digit {s : Str} {n : Int} (h : readInt s = some n) : ∃ c ∈ s, c.isDigit = true := by
  unfold readInt at h
  have key : ∀ {t : Str} {f : Nat → Int}, (readNat t).map f = some n → (∀ c ∈ t, c ∈ strip s) → ∃ c ∈ s, c.isDigit = true := by
    intro t f ht hsub
    obtain ⟨k, hk, -⟩ := Option.map_eq_some_iff.mp ht
    obtain ⟨c, hc, hd⟩ := readNat_digit hk
    exact ⟨c, mem_strip (hsub c hc), hd⟩
  split at h
  · rename_i t ht; exact key h (fun c hc => by rw [ht]; simp [hc])
  · rename_i t ht; exact key h (fun c hc => by rw [ht]; simp [hc])
  · exact key h (fun c hc => hc)

end CastAux

/-- C131: the digits of an integer, with blanks around them, are read as that integer. -/
theorem C131_text_partial (e : Env) (s a b : List Char) (n : Int) (hs : Named .integer s) (ha : ∀ c ∈ a, c = ' ') (hb : ∀ c ∈ b, c = ' ') :
    castAs e s [] (.text (a ++ (toString n).toList ++ b)) = some (.num n) := by
  rw [castAs, (lookup_iff s _).mpr hs, Option.bind_some, ← digits_eq]
  have blank : ∀ {l : Str}, (∀ c ∈ l, c = ' ') → ∀ c ∈ l, isBlank c = true := by
    intro l hl c hc; rw [hl c hc]; decide
  have hd : ∀ c ∈ Nat.toDigits 10 n.natAbs, c.isDigit = true := fun _ hc => Nat.isDigit_of_mem_toDigits (by decide) (by decide) hc
  have hne : Nat.toDigits 10 n.natAbs ≠ [] := Nat.toDigits_ne_nil
  have hlast : ∀ c, (Nat.toDigits 10 n.natAbs).getLast? = some c → isBlank c = false :=
    fun c hc => digit_blank (hd c (List.mem_of_getLast? hc))
  have hread : readInt (a ++ digits n ++ b) = some n := by
    unfold readInt
    by_cases hn : n < 0
    · have hstrip := strip_eq a b (digits n) (blank ha) (blank hb) (by
        intro c hc; simp only [digits, if_pos hn, List.head?_cons, Option.some.injEq] at hc; subst hc; decide) (by
        intro c hc
        simp only [digits, if_pos hn] at hc
        rw [List.getLast?_cons_of_ne_nil hne] at hc
        exact hlast c hc) (by simp [digits, if_pos hn])
      rw [hstrip]
      simp only [digits, if_pos hn, readNat_eq _ hne hd, Option.map_some, Nat.ofDigitChars_ten_toDigits]
      congr 1; omega
    · have hstrip := strip_eq a b (digits n) (blank ha) (blank hb) (by
        intro c hc; simp only [digits, if_neg hn] at hc; exact digit_blank (hd c (List.mem_of_head? hc))) (by
        intro c hc
        simp only [digits, if_neg hn] at hc
        exact hlast c hc) (by simp only [digits, if_neg hn]; exact hne)
      rw [hstrip]
      have hread := readNat_eq _ hne hd
      simp only [digits, if_neg hn]
      generalize hl : Nat.toDigits 10 n.natAbs = l at *
      rw [← hl, Nat.ofDigitChars_ten_toDigits] at hread
      rw [hl] at hread
      split
      · exact absurd (hd '-' (by simp)) (by decide)
      · exact absurd (hd '+' (by simp)) (by decide)
      · rw [hread]; simp only [Option.map_some]; congr 1; simp only [Int.ofNat_eq_natCast]; omega
  simp only [func, call, hread, Option.map_some]

example (e : Env) : castAs e "I".toList [] (.text " -12 ".toList) = some (.num (-12)) :=
  C131_text_partial e _ [' '] [' '] (-12) ⟨"i", by decide, by decide⟩ (by simp) (by simp)

/-- C131: a text without digits is an error as an integer; FoxPro gives 0. -/
theorem C131_text_fails (e : Env) (s t : List Char) (hs : Named .integer s) (ht : ∀ c ∈ t, c.isDigit = false) :
    castAs e s [] (.text t) = none := by
  rw [castAs, (lookup_iff s _).mpr hs, Option.bind_some]
  cases h : readInt t with
  | none => simp [func, call, h]
  | some n =>
    obtain ⟨c, hc, hd⟩ := readInt_digit h
    rw [ht c hc] at hd; cases hd

example (e : Env) : castAs e "int".toList [] (.text "abc".toList) = none :=
  C131_text_fails e _ _ ⟨"int", by decide, by decide⟩ (by decide)

end Props
