import Verif.Props.Inline
/-!
# C140: CHR, ASC, SPACE and REPLICATE

The value of the Python expression that a call becomes, for arguments that are themselves arbitrary expressions.
-/
namespace Props
open PyExpr FoxExpr Expr Props.ExprAux Props.PyExprAux PyVal InlineAux

variable {env : String → Val}

namespace CharsSpec

/-- FoxPro: the text of one character with a code from 0 to 255. -/
def character (k : Nat) : List Char := [Char.ofNat k]

/-- FoxPro: the code of the first character, 0 of an empty text. -/
def code : List Char → Nat
  | [] => 0
  | c :: _ => c.toNat

/-- FoxPro: a text a number of times in a row. -/
def times (s : List Char) : Nat → List Char
  | 0 => []
  | n + 1 => s ++ times s n

end CharsSpec
open CharsSpec

namespace CharsAux

theorem byte_valid (k : Nat) (h : k < 256) : k.isValidChar := Or.inl (by omega)

theorem is_one {f : Fn} {a : Ex} {x v : Val} (ha : Is env a x) (har : f.arity 1 = true) (hf : fits f.needs [a] = true)
    (hv : fnVal (py env) f [x] = v) : Is env (.call f [a]) v := by
  obtain ⟨p1, t1, v1⟩ := ha
  refine ⟨by rw [Plain, Plains, Plains, p1, hf]; simp [har], ?_, ?_⟩
  · rw [Typed, Typeds, Typeds]
    exact ⟨⟨t1, trivial⟩, fun _ s i n h => by simp [foxs] at h⟩
  · rw [fox, foxs, foxs, v1, hv]

theorem chr_val (k : Nat) (h : k < 256) : fnVal (py env) .chr [.int (k : Int)] = .str (character k) := by
  have : PyVal.callObj "chr" [.int (k : Int)] = .str (character k) := by
    simp only [callObj]
    simp only [show ("chr" = "os.path.join") = False by simp, show ("chr" = "int") = False by simp, if_false, if_true]
    exact if_pos (byte_valid k h)
  exact this

theorem times_repeat (s : List Char) (n : Nat) : Py.repeatN s (n : Int) = times s n := by
  induction n with
  | zero => rfl
  | succ n ih =>
    show (List.replicate (n + 1) s).flatten = _
    rw [List.replicate_succ, List.flatten_cons, times, ← ih]
    rfl

theorem toNat_ofNat (k : Nat) (h : k < 256) : (Char.ofNat k).toNat = k := by
  simp [Char.ofNat, byte_valid k h, Char.ofNatAux, Char.toNat]

end CharsAux
open CharsAux

/-- **C140**: CHR(n) is the character with the code n. -/
theorem C140_chr {a : Ex} {k : Nat} (ha : Is env a (.int k)) (h : k < 256) : Shows env (.call .chr [a]) (.str (character k)) :=
  shows_one ha rfl rfl (chr_val k h)

example : Shows envS (.call .chr [.bin .add (.int 64) (.name "c")]) (.str ['B']) :=
  C140_chr (env := envS) (k := 66) ⟨rfl, ⟨trivial, trivial, fun _ h => by obtain ⟨x, hx⟩ := h; cases hx⟩, rfl⟩ (by decide)

/-- **C140**: ASC of a text that is not empty is the code of its first character. -/
theorem C140_asc_partial {a : Ex} {s : List Char} (ha : Is env a (.str s)) (hs : strength a = 13) (hne : s ≠ []) :
    Shows env (.call .asc [a]) (.int (code s)) := by
  refine shows_one ha rfl (by simp [Fn.needs, fits, atom (Nat.le_refl 13) hs]) ?_
  obtain ⟨c, t, rfl⟩ := List.exists_cons_of_ne_nil hne
  rfl

example : Shows envS (.call .asc [.name "b"]) (.int 97) := C140_asc_partial (env := envS) (s := ['a', 'b', 'c', 'b', 'c']) ⟨rfl, trivial, rfl⟩ rfl (by decide)

/-- **C140** (disagreement): ASC of an empty text is an error; FoxPro has 0. -/
theorem C140_asc_fails {a : Ex} (ha : Is env a (.str [])) (hs : strength a = 13) :
    Shows env (.call .asc [a]) .err ∧ code [] = 0 :=
  ⟨shows_one ha rfl (by simp [Fn.needs, fits, atom (Nat.le_refl 13) hs]) rfl, rfl⟩

example : Shows envS (.call .asc [.str []]) .err := (C140_asc_fails (env := envS) (a := .str []) ⟨rfl, trivial, rfl⟩ rfl).1

/-- **C140**: ASC(CHR(n)) is n. -/
theorem C140_asc_chr {a : Ex} {k : Nat} (ha : Is env a (.int k)) (h : k < 256) :
    Shows env (.call .asc [.call .chr [a]]) (.int k) := by
  have hi : Is env (.call .chr [a]) (.str (character k)) := is_one ha rfl rfl (chr_val k h)
  have := C140_asc_partial hi rfl (by simp [character])
  rwa [show code (character k) = k from toNat_ofNat k h] at this

example : Shows envS (.call .asc [.call .chr [.name "c"]]) (.int 2) := C140_asc_chr (env := envS) (k := 2) ⟨rfl, trivial, rfl⟩ (by decide)

/-- **C140**: SPACE(n) is n blanks. -/
theorem C140_space {a : Ex} {n : Nat} (ha : Is env a (.int n)) : Shows env (.call .space [a]) (.str (times [' '] n)) := by
  refine shows_one ha rfl rfl ?_
  show Val.str (Py.repeatN [' '] (n : Int)) = _
  rw [times_repeat]

example : Shows envS (.call .space [.int 12]) (.str "            ".toList) := C140_space (env := envS) (n := 12) ⟨rfl, trivial, rfl⟩

/-- **C140**: REPLICATE(s, n) is n times s. -/
theorem C140_replicate {a b : Ex} {s : List Char} {n : Nat} (ha : Is env a (.str s)) (hs : 10 ≤ strength a) (hb : Is env b (.int n)) :
    Shows env (.call .replicate [a, b]) (.str (times s n)) := by
  refine shows_two ha hb rfl (by simp [Fn.needs, fits, hs]) ?_
  show Val.str (Py.repeatN s (n : Int)) = _
  rw [times_repeat]

example : Shows envS (.call .replicate [.name "a", .int 3]) (.str "bcbcbc".toList) :=
  C140_replicate (env := envS) (s := ['b', 'c']) (n := 3) ⟨rfl, trivial, rfl⟩ (by decide) ⟨rfl, trivial, rfl⟩

/-- **C140** (disagreement): of the sum of two texts only the second one is repeated. -/
theorem C140_replicate_fails (s t : List Char) (n : Nat) (hs : env "a" = .str s) (ht : env "b" = .str t) :
    Shows env (.call .replicate [.bin .add (.name "a") (.name "b"), .int n]) (.str (s ++ times t n)) := by
  have ha : Is env (.name "a") (.str s) := ⟨rfl, trivial, hs⟩
  have hb : Is env (.name "b") (.str t) := ⟨rfl, trivial, ht⟩
  have hn : Is env (.int n) (.int n) := ⟨rfl, trivial, rfl⟩
  have := C71_expression_partial (py_laws env) (.bin .add (.name "a") (.call .replicate [.name "b", .int n])) rfl
    ⟨trivial, ⟨⟨trivial, trivial, trivial⟩, fun h => by cases h⟩, fun _ h => by obtain ⟨x, hx⟩ := h; cases hx⟩
  have hv : fox (py env) (.bin .add (.name "a") (.call .replicate [.name "b", .int n])) = .str (s ++ times t n) := by
    simp only [fox, foxs]
    have h1 : (py env).name "a" = .str s := hs
    have h2 : (py env).name "b" = .str t := ht
    rw [h1, h2]
    show Val.str (s ++ Py.repeatN t (n : Int)) = _
    rw [times_repeat]
  rw [hv] at this
  exact this

/-- `REPLICATE(a + b, 2)` is `bcabcbcabcbc` instead of twice `bcabcbc`. -/
example : Shows envS (.call .replicate [.bin .add (.name "a") (.name "b"), .int 2]) (.str "bcabcbcabcbc".toList) :=
  C140_replicate_fails (env := envS) ['b', 'c'] ['a', 'b', 'c', 'b', 'c'] 2 rfl rfl

end Props
