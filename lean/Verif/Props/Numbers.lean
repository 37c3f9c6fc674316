import Verif.Props.TextFns
import Verif.Model.Numbers
/-!
# VAL and ROUND (C92, C93)
-/
namespace Props.NumbersSpec

/-- FoxPro's VAL: the number at the start of the text behind leading blanks, as a whole number and
its decimal places; 0 if there is none.  (A number followed by an exponent is not described.) -/
def foxSigned (neg : Bool) (t : List Char) : Int × Nat :=
  let ip := t.takeWhile Char.isDigit
  let fp := match t.dropWhile Char.isDigit with
    | '.' :: u => u.takeWhile Char.isDigit
    | _ => []
  let m := Nat.ofDigitChars 10 (ip ++ fp) 0
  (if neg then -(m : Int) else m, fp.length)

def foxVal (s : List Char) : Int × Nat :=
  match s.dropWhile (· == ' ') with
  | '-' :: t => foxSigned true t
  | '+' :: t => foxSigned false t
  | t => foxSigned false t

/-- How a sign is written. -/
inductive Sign where
  | none | plus | minus
  deriving DecidableEq

def Sign.text : Sign → List Char
  | .none => []
  | .plus => ['+']
  | .minus => ['-']

def Sign.apply : Sign → Nat → Int
  | .minus, n => -(n : Int)
  | _, n => n

def Digits (ds : List Char) : Prop := ∀ c ∈ ds, c.isDigit = true
def Blanks (s : List Char) : Prop := ∀ c ∈ s, c = ' '

/-- The nearest whole number to `a / b`; halves go away from zero. -/
def foxRound (a b : Int) : Int :=
  if 0 ≤ a then (2 * a + b) / (2 * b) else -((2 * (-a) + b) / (2 * b))

end Props.NumbersSpec

namespace Props
open Model.Numbers NumbersSpec PyVal TextAux

namespace NumbersAux

theorem digit_not_space {c : Char} (h : c.isDigit = true) : isSpace c = false := by
  simp only [Char.isDigit, Bool.and_eq_true, decide_eq_true_eq, ge_iff_le, UInt32.le_iff_toNat_le] at h
  have h1 : 48 ≤ c.toNat := h.1
  have h2 : c.toNat ≤ 57 := h.2
  simp only [isSpace, Bool.or_eq_false_iff, Bool.and_eq_false_iff, decide_eq_false_iff_not]
  omega

theorem digit_ten {c : Char} (h : c.isDigit = true) : c ∈ ['0', '1', '2', '3', '4', '5', '6', '7', '8', '9'] := by
  have table : ∀ n : Fin 128, (Char.ofNat n).isDigit = true → Char.ofNat n ∈ ['0', '1', '2', '3', '4', '5', '6', '7', '8', '9'] := by decide
  have h2 : c.toNat < 128 := by
    simp only [Char.isDigit, Bool.and_eq_true, decide_eq_true_eq, ge_iff_le, UInt32.le_iff_toNat_le] at h
    have : c.toNat ≤ 57 := h.2
    omega
  have := table ⟨c.toNat, h2⟩
  simp only [Char.ofNat_toNat] at this
  exact this h

theorem moreDigits_run {ds rest : List Char} (h : Digits ds) (hr : ∀ c, rest.head? = some c → c.isDigit = false ∧ c ≠ '_') :
    moreDigits (ds ++ rest) = (ds, rest) := by
  induction ds with
  | nil =>
    match rest, hr with
    | [], _ => rfl
    | [c], hr => simp [moreDigits, (hr c rfl).1]
    | c :: d :: s, hr => simp [moreDigits, (hr c rfl).1, (hr c rfl).2]
  | cons x ds ih =>
    have hx := h x List.mem_cons_self
    have ih := ih fun c hc => h c (List.mem_cons_of_mem _ hc)
    cases hd : ds ++ rest with
    | nil =>
      simp only [List.append_eq_nil_iff] at hd
      simp [hd.1, hd.2, moreDigits, hx]
    | cons y t =>
      rw [List.cons_append, hd, moreDigits, if_pos hx, ← hd, ih]

theorem exponent_digit {c x : Char} {t : List Char} {m e : Int} (h : x.isDigit = true) :
    exponent m e (c :: x :: t) = if c = 'e' ∨ c = 'E' then (match digitPart (x :: t) with
      | ([], _) => none
      | (ds, []) => some (.fin m (e + value ds))
      | _ => none) else none := by
  have h10 := digit_ten h
  simp only [List.mem_cons, List.not_mem_nil, or_false] at h10
  rcases h10 with rfl | rfl | rfl | rfl | rfl | rfl | rfl | rfl | rfl | rfl <;> rfl

theorem exponent_plus {c : Char} {t : List Char} {m e : Int} :
    exponent m e (c :: '+' :: t) = if c = 'e' ∨ c = 'E' then (match digitPart (t) with
      | ([], _) => none
      | (ds, []) => some (.fin m (e + value ds))
      | _ => none) else none := rfl

theorem exponent_minus {c : Char} {t : List Char} {m e : Int} :
    exponent m e (c :: '-' :: t) = if c = 'e' ∨ c = 'E' then (match digitPart (t) with
      | ([], _) => none
      | (ds, []) => some (.fin m (e - value ds))
      | _ => none) else none := rfl

theorem digitPart_run {ds rest : List Char} (h : Digits ds) (hr : ∀ c, rest.head? = some c → c.isDigit = false ∧ c ≠ '_') :
    digitPart (ds ++ rest) = (ds, rest) := by
  cases ds with
  | nil =>
    cases rest with
    | nil => rfl
    | cons c t => simp [digitPart, (hr c rfl).1]
  | cons x ds =>
    rw [List.cons_append, digitPart, if_pos (h x List.mem_cons_self),
      moreDigits_run (fun c hc => h c (List.mem_cons_of_mem _ hc)) hr]

theorem dot_ok : ∀ (t : List Char) (c : Char), ('.' :: t).head? = some c → c.isDigit = false ∧ c ≠ '_' := by
  intro t c h; simp at h; subst h; decide

theorem unsigned_point {ip fp : List Char} (hi : Digits ip) (hf : Digits fp) (hne : ip ≠ [] ∨ fp ≠ []) :
    unsigned (ip ++ '.' :: fp) = some (.fin (value (ip ++ fp)) (-(fp.length : Int))) := by
  unfold unsigned
  rw [digitPart_run hi (dot_ok fp)]
  have := digitPart_run (rest := []) hf (by simp)
  rw [List.append_nil] at this
  simp only [this]
  rw [if_neg (by rintro ⟨a, b⟩; rcases hne with h | h <;> contradiction)]
  rfl

theorem unsigned_whole {ip : List Char} (hi : Digits ip) (hne : ip ≠ []) : unsigned ip = some (.fin (value ip) 0) := by
  unfold unsigned
  have := digitPart_run (rest := []) hi (by simp)
  rw [List.append_nil] at this
  rw [this]
  simp only [if_neg hne]
  rfl

/-- What begins with a digit or a point has no sign. -/
theorem signed_plain {s : List Char} (h : ∀ c, s.head? = some c → c ≠ '-' ∧ c ≠ '+') : signed s = unsigned s := by
  unfold signed
  split
  · exact absurd rfl (h _ rfl).1
  · exact absurd rfl (h _ rfl).2
  · rfl

theorem signed_sign {sg : Sign} {u : List Char} {m e : Int} (h : unsigned u = some (.fin m e))
    (hh : ∀ c, u.head? = some c → c ≠ '-' ∧ c ≠ '+') :
    signed (sg.text ++ u) = some (.fin (match sg with | .minus => -m | _ => m) e) := by
  cases sg with
  | none => show signed u = _; rw [signed_plain hh, h]
  | plus => show unsigned u = _; rw [h]
  | minus => show (unsigned u).map Num.neg = _; rw [h]; rfl

/-- Blanks around a text that begins and ends with other characters. -/
theorem strip_around {a b s : List Char} (ha : Blanks a) (hb : Blanks b) (hne : s ≠ [])
    (h1 : ∀ c, s.head? = some c → isSpace c = false) (h2 : ∀ c, s.getLast? = some c → isSpace c = false) :
    strip (a ++ s ++ b) = s := by
  have sp : isSpace ' ' = true := by decide
  have hl : lstrip (a ++ s ++ b) = s ++ b := by
    unfold lstrip
    rw [List.append_assoc, List.dropWhile_append_of_pos (by intro c hc; rw [ha c hc]; exact sp), dropWhile_fix]
    intro c hc
    cases s with
    | nil => exact absurd rfl hne
    | cons x s => exact h1 c (by simpa using hc)
  unfold strip rstrip
  rw [hl, List.reverse_append, List.dropWhile_append_of_pos
    (by intro c hc; rw [hb c (List.mem_reverse.mp hc)]; exact sp), (dropWhile_fix isSpace s.reverse).mpr, List.reverse_reverse]
  intro c hc
  rw [List.head?_reverse] at hc
  exact h2 c hc

theorem digit_head {ds : List Char} (h : Digits ds) {c : Char} (hc : c ∈ ds) : isSpace c = false ∧ c ≠ '-' ∧ c ≠ '+' ∧ c ≠ ' ' := by
  have hd := h c hc
  refine ⟨digit_not_space hd, ?_, ?_, ?_⟩ <;> (rintro rfl; revert hd; decide)

theorem point_char : isSpace '.' = false ∧ '.' ≠ '-' ∧ '.' ≠ '+' ∧ '.' ≠ ' ' := by decide

theorem takeWhile_digits {ds rest : List Char} (h : Digits ds) (hr : ∀ c, rest.head? = some c → c.isDigit = false) :
    (ds ++ rest).takeWhile Char.isDigit = ds ∧ (ds ++ rest).dropWhile Char.isDigit = rest := by
  rw [List.takeWhile_append_of_pos h, List.dropWhile_append_of_pos h]
  cases rest with
  | nil => simp
  | cons c t => simp [hr c rfl]

end NumbersAux
open NumbersAux

/-! ## C92: VAL -/

/-- C92 for texts that are a number between blanks: `VAL` has its value, as in FoxPro.  Missing: texts
that are not (see `C92_no_number_fails`, `C92_rest_fails`). -/
theorem C92_val_partial (a b : List Char) (sg : Sign) (ip fp : List Char) (point : Bool) (ha : Blanks a) (hb : Blanks b)
    (hi : Digits ip) (hf : Digits fp) (hne : ip ≠ [] ∨ fp ≠ []) (hp : point = false → fp = []) :
    val (a ++ (sg.text ++ (ip ++ (if point then ['.'] else []) ++ fp)) ++ b) =
        some (.fin (sg.apply (Nat.ofDigitChars 10 (ip ++ fp) 0)) (-(fp.length : Int))) ∧
    foxVal (a ++ (sg.text ++ (ip ++ (if point then ['.'] else []) ++ fp)) ++ b) =
        (sg.apply (Nat.ofDigitChars 10 (ip ++ fp) 0), fp.length) := by
  -- the unsigned number
  let u := ip ++ (if point then ['.'] else []) ++ fp
  have hu : unsigned u = some (.fin (value (ip ++ fp)) (-(fp.length : Int))) := by
    cases point with
    | true =>
      show unsigned (ip ++ ['.'] ++ fp) = _
      rw [List.append_assoc]; exact unsigned_point hi hf hne
    | false =>
      have := hp rfl; subst this
      show unsigned (ip ++ [] ++ []) = _
      simp only [List.append_nil]
      exact unsigned_whole hi (by simpa using hne)
  have hmem : ∀ c ∈ u, isSpace c = false ∧ c ≠ '-' ∧ c ≠ '+' ∧ c ≠ ' ' := by
    intro c hc
    simp only [u, List.mem_append] at hc
    rcases hc with (hc | hc) | hc
    · exact digit_head hi hc
    · cases point with
      | true => simp at hc; subst hc; exact point_char
      | false => simp at hc
    · exact digit_head hf hc
  have hune : u ≠ [] := by
    intro e
    simp only [u, List.append_eq_nil_iff] at e
    rcases hne with h | h
    · exact h e.1.1
    · exact h e.2
  constructor
  · have hs := signed_sign (sg := sg) hu fun c hc => ⟨(hmem c (List.mem_of_mem_head? hc)).2.1, (hmem c (List.mem_of_mem_head? hc)).2.2.1⟩
    show signed (strip (a ++ (sg.text ++ u) ++ b)) = _
    rw [strip_around ha hb (by simp [hune]), hs]
    · cases sg <;> rfl
    · intro c hc
      cases sg with
      | none => exact (hmem c (List.mem_of_mem_head? hc)).1
      | plus => simp [Sign.text] at hc; subst hc; decide
      | minus => simp [Sign.text] at hc; subst hc; decide
    · intro c hc
      rw [List.getLast?_append] at hc
      cases hl : u.getLast? with
      | none => exact absurd (List.getLast?_eq_none_iff.mp hl) hune
      | some d => rw [hl] at hc; simp at hc; subst hc; exact (hmem d (List.mem_of_getLast? hl)).1
  · -- FoxPro
    have hbl : ∀ c, b.head? = some c → c.isDigit = false := by
      intro c hc; rw [hb c (List.mem_of_mem_head? hc)]; decide
    have fs : ∀ neg, foxSigned neg (u ++ b) = (if neg then -(Nat.ofDigitChars 10 (ip ++ fp) 0 : Int) else Nat.ofDigitChars 10 (ip ++ fp) 0, fp.length) := by
      intro neg
      cases point with
      | true =>
        have e : u ++ b = ip ++ ('.' :: (fp ++ b)) := by simp [u]
        obtain ⟨h1, h2⟩ := takeWhile_digits (rest := '.' :: (fp ++ b)) hi fun c hc => (dot_ok _ c hc).1
        unfold foxSigned
        rw [e, h1, h2]
        simp only
        rw [(takeWhile_digits hf hbl).1]
      | false =>
        have := hp rfl; subst this
        have e : u ++ b = ip ++ b := by simp [u]
        obtain ⟨h1, h2⟩ := takeWhile_digits hi hbl
        unfold foxSigned
        rw [e, h1, h2]
        have hd : ∀ t, b ≠ '.' :: t := by rintro t rfl; have := hb '.' List.mem_cons_self; revert this; decide
        split
        · rename_i t; exact absurd rfl (hd t)
        · simp
    have drop : (a ++ (sg.text ++ u) ++ b).dropWhile (· == ' ') = sg.text ++ u ++ b := by
      rw [List.append_assoc, List.dropWhile_append_of_pos (by intro c hc; simp [ha c hc]), dropWhile_fix]
      intro c hc
      cases sg with
      | none =>
        have : u.head? = some c := by
          cases hx : u with
          | nil => exact absurd hx hune
          | cons x t => rw [hx] at hc; simpa [Sign.text] using hc
        simpa using (hmem c (List.mem_of_mem_head? this)).2.2.2
      | plus => simp [Sign.text] at hc; subst hc; decide
      | minus => simp [Sign.text] at hc; subst hc; decide
    show foxVal (a ++ (sg.text ++ u) ++ b) = _
    unfold foxVal
    rw [drop]
    cases sg with
    | plus => exact fs false
    | minus => exact fs true
    | none =>
      show (match u ++ b with | '-' :: t => foxSigned true t | '+' :: t => foxSigned false t | t => foxSigned false t) = _
      cases hx : u with
      | nil => exact absurd hx hune
      | cons x t =>
        have := hmem x (by rw [hx]; exact List.mem_cons_self)
        rw [List.cons_append]
        split
        · rename_i e; simp at e; exact absurd e.1 this.2.1
        · rename_i e; simp at e; exact absurd e.1 this.2.2.1
        · have := fs false
          rw [hx] at this
          exact this

example : val "  -12.50 ".toList = some (.fin (-1250) (-2)) ∧ foxVal "  -12.50 ".toList = (-1250, 2) := by decide +kernel

/-- C92: a number with an exponent has the value that it denotes. -/
theorem C92_exponent (a b : List Char) (sg esg : Sign) (ip fp ed : List Char) (point : Bool) (mark : Char) (ha : Blanks a) (hb : Blanks b)
    (hi : Digits ip) (hf : Digits fp) (hed : Digits ed) (hne : ip ≠ [] ∨ fp ≠ []) (hne2 : ed ≠ []) (hp : point = false → fp = [])
    (hm : mark = 'e' ∨ mark = 'E') :
    val (a ++ (sg.text ++ (ip ++ (if point then ['.'] else []) ++ fp ++ mark :: (esg.text ++ ed))) ++ b) =
      some (.fin (sg.apply (Nat.ofDigitChars 10 (ip ++ fp) 0)) (esg.apply (Nat.ofDigitChars 10 ed 0) - fp.length)) := by
  have hmark : ∀ c, (mark :: (esg.text ++ ed)).head? = some c → c.isDigit = false ∧ c ≠ '_' := by
    intro c hc
    simp only [List.head?_cons, Option.some.injEq] at hc
    rcases hm with rfl | rfl <;> subst hc <;> decide
  have hexp : ∀ m e : Int, exponent m e (mark :: (esg.text ++ ed)) = some (.fin m (e + esg.apply (Nat.ofDigitChars 10 ed 0))) := by
    intro m e
    have hd := digitPart_run (rest := []) hed (by simp)
    rw [List.append_nil] at hd
    obtain ⟨x, t, rfl⟩ : ∃ x t, ed = x :: t := by
      cases ed with
      | nil => exact absurd rfl hne2
      | cons x t => exact ⟨x, t, rfl⟩
    have hx := digit_head hed (c := x) List.mem_cons_self
    cases esg with
    | none =>
      show exponent m e (mark :: x :: t) = _
      rw [exponent_digit (hed x List.mem_cons_self), if_pos hm, hd]
      rfl
    | plus =>
      show exponent m e (mark :: '+' :: x :: t) = _
      rw [exponent_plus, if_pos hm, hd]
      rfl
    | minus =>
      show exponent m e (mark :: '-' :: x :: t) = _
      rw [exponent_minus, if_pos hm, hd]
      simp [Sign.apply, value, Int.sub_eq_add_neg]
  let u := ip ++ (if point then ['.'] else []) ++ fp ++ mark :: (esg.text ++ ed)
  have hu : unsigned u = some (.fin (value (ip ++ fp)) (esg.apply (Nat.ofDigitChars 10 ed 0) - fp.length)) := by
    cases point with
    | true =>
      have e : u = ip ++ '.' :: (fp ++ mark :: (esg.text ++ ed)) := by simp [u]
      unfold unsigned
      rw [e, digitPart_run hi (dot_ok _)]
      simp only [digitPart_run hf hmark]
      rw [if_neg (by rintro ⟨a, b⟩; rcases hne with h | h <;> contradiction), hexp]
      congr 2; omega
    | false =>
      have := hp rfl; subst this
      have e : u = ip ++ mark :: (esg.text ++ ed) := by simp [u]
      have hip : ip ≠ [] := by simpa using hne
      unfold unsigned
      rw [e, digitPart_run hi hmark]
      split
      · rename_i h; simp at h; rcases hm with rfl | rfl <;> exact absurd h.2.1 (by decide)
      · rename_i r h
        simp only [Prod.mk.injEq] at h
        obtain ⟨rfl, rfl⟩ := h
        rw [if_neg hip, hexp]
        simp
  have hmem : ∀ c ∈ ip ++ (if point then ['.'] else []) ++ fp, isSpace c = false ∧ c ≠ '-' ∧ c ≠ '+' ∧ c ≠ ' ' := by
    intro c hc
    simp only [List.mem_append] at hc
    rcases hc with (hc | hc) | hc
    · exact digit_head hi hc
    · cases point with
      | true => simp at hc; subst hc; exact point_char
      | false => simp at hc
    · exact digit_head hf hc
  obtain ⟨x, t, hx⟩ : ∃ x t, ip ++ (if point then ['.'] else []) ++ fp = x :: t := by
    cases h : ip ++ (if point then ['.'] else []) ++ fp with
    | nil =>
      simp only [List.append_eq_nil_iff] at h
      rcases hne with h' | h'
      · exact absurd h.1.1 h'
      · exact absurd h.2 h'
    | cons x t => exact ⟨x, t, rfl⟩
  have hx' := hmem x (by rw [hx]; exact List.mem_cons_self)
  have hux : u = x :: (t ++ mark :: (esg.text ++ ed)) := by
    show ip ++ (if point then ['.'] else []) ++ fp ++ _ = _
    rw [hx]; rfl
  have hs := signed_sign (sg := sg) hu fun c hc => by
    rw [hux] at hc; simp at hc; subst hc; exact ⟨hx'.2.1, hx'.2.2.1⟩
  show signed (strip (a ++ (sg.text ++ u) ++ b)) = _
  rw [strip_around ha hb (by rw [hux]; simp), hs]
  · cases sg <;> rfl
  · intro c hc
    cases sg with
    | none => rw [hux] at hc; simp [Sign.text] at hc; subst hc; exact hx'.1
    | plus => simp [Sign.text] at hc; subst hc; decide
    | minus => simp [Sign.text] at hc; subst hc; decide
  · intro c hc
    have hl : ed.getLast? = some c := by
      have e : sg.text ++ u = (sg.text ++ (ip ++ (if point then ['.'] else []) ++ fp ++ mark :: esg.text)) ++ ed := by
        simp [u]
      rw [e, List.getLast?_append] at hc
      cases hl : ed.getLast? with
      | none => exact absurd (List.getLast?_eq_none_iff.mp hl) hne2
      | some d => rw [hl] at hc; simpa using hc
    exact digit_not_space (hed c (List.mem_of_getLast? hl))

example : val " 1.5e-3".toList = some (.fin 15 (-4)) ∧ val "-2E+10".toList = some (.fin (-2) 10) := by decide +kernel

/-- C92 does not hold for digits around an underscore: VAL takes all of them, FoxPro those before it. -/
theorem C92_underscore_fails (ip jp : List Char) (hi : Digits ip) (hj : Digits jp) (hi0 : ip ≠ []) (hj0 : jp ≠ []) :
    val (ip ++ '_' :: jp) = some (.fin (Nat.ofDigitChars 10 (ip ++ jp) 0) 0) ∧
    foxVal (ip ++ '_' :: jp) = (((Nat.ofDigitChars 10 ip 0 : Nat) : Int), 0) := by
  obtain ⟨x, t, rfl⟩ : ∃ x t, ip = x :: t := by
    cases ip with
    | nil => exact absurd rfl hi0
    | cons x t => exact ⟨x, t, rfl⟩
  have hx := digit_head hi (c := x) List.mem_cons_self
  constructor
  · have hmore : ∀ ds : List Char, Digits ds → moreDigits (ds ++ '_' :: jp) = (ds ++ jp, []) := by
      intro ds hds
      induction ds with
      | nil =>
        cases jp with
        | nil => exact absurd rfl hj0
        | cons y u =>
          have hy := hj y List.mem_cons_self
          have := moreDigits_run (rest := []) (ds := u) (fun c hc => hj c (List.mem_cons_of_mem _ hc)) (by simp)
          rw [List.append_nil] at this
          simp [moreDigits, hy, this, show ('_' : Char).isDigit = false from by decide]
      | cons y ds ih =>
        have hy := hds y List.mem_cons_self
        have ih := ih fun c hc => hds c (List.mem_cons_of_mem _ hc)
        cases hd : ds ++ '_' :: jp with
        | nil => simp at hd
        | cons z v => rw [List.cons_append, hd, moreDigits, if_pos hy, ← hd, ih]; rfl
    have hd : digitPart (x :: t ++ '_' :: jp) = (x :: t ++ jp, []) := by
      rw [List.cons_append, digitPart, if_pos (hi x List.mem_cons_self), hmore t fun c hc => hi c (List.mem_cons_of_mem _ hc)]
      rfl
    have hstrip : strip (x :: t ++ '_' :: jp) = x :: t ++ '_' :: jp := by
      have := strip_around (a := []) (b := []) (s := x :: t ++ '_' :: jp) (by intro c h; cases h) (by intro c h; cases h) (by simp)
        (by intro c hc; simp at hc; subst hc; exact hx.1)
        (by
          intro c hc
          have e : x :: t ++ '_' :: jp = (x :: t ++ ['_']) ++ jp := by simp
          rw [e, List.getLast?_append] at hc
          cases hl : jp.getLast? with
          | none => exact absurd (List.getLast?_eq_none_iff.mp hl) hj0
          | some d => rw [hl] at hc; simp at hc; subst hc; exact digit_not_space (hj d (List.mem_of_getLast? hl)))
      simpa using this
    unfold val
    rw [hstrip, signed_plain (by intro c hc; simp at hc; subst hc; exact ⟨hx.2.1, hx.2.2.1⟩)]
    unfold unsigned
    rw [hd]
    simp only [List.cons_append]
    rw [if_neg (by simp)]
    rfl
  · unfold foxVal
    have hdrop : (x :: t ++ '_' :: jp).dropWhile (· == ' ') = x :: t ++ '_' :: jp := by
      rw [dropWhile_fix]; intro c hc; simp at hc; subst hc; simpa using hx.2.2.2
    rw [hdrop]
    have hfs : foxSigned false (x :: t ++ '_' :: jp) = (((Nat.ofDigitChars 10 (x :: t) 0 : Nat) : Int), 0) := by
      obtain ⟨h1, h2⟩ := takeWhile_digits (rest := '_' :: jp) hi (by intro c hc; simp at hc; subst hc; decide)
      unfold foxSigned
      rw [h1, h2]
      simp
    split
    · rename_i h; simp at h; exact absurd h.1 hx.2.1
    · rename_i h; simp at h; exact absurd h.1 hx.2.2.1
    · exact hfs

example : val "1_000".toList = some (.fin 1000 0) ∧ foxVal "1_000".toList = (1, 0) := by decide +kernel

/-- C92 does not hold for texts without a number: VAL is an exception and not 0; here the texts of
blanks. -/
theorem C92_no_number_fails (s : List Char) (h : Blanks s) : val s = none ∧ foxVal s = (0, 0) := by
  constructor
  · have : strip s = [] := by
      unfold strip
      rw [show lstrip s = [] from dropWhile_all fun c hc => by rw [h c hc]; decide]; rfl
    rw [val, this]; decide
  · have : s.dropWhile (· == ' ') = [] := dropWhile_all fun c hc => by simp [h c hc]
    rw [foxVal, this]; rfl

example : Blanks "   ".toList := by unfold Blanks; decide

/-- C92 does not hold for a whole number followed by other text: VAL is an exception and not the number. -/
theorem C92_rest_fails (ip t : List Char) (c : Char) (hi : Digits ip) (hne : ip ≠ []) (hc : c.isAlpha = true) (he : c ≠ 'e' ∧ c ≠ 'E') :
    val (ip ++ c :: t) = none ∧ foxVal (ip ++ c :: t) = (((Nat.ofDigitChars 10 ip 0 : Nat) : Int), 0) := by
  have hcd : c.isDigit = false := by
    cases h : c.isDigit with
    | false => rfl
    | true =>
      simp only [Char.isDigit, Char.isAlpha, Char.isUpper, Char.isLower, Bool.or_eq_true, Bool.and_eq_true, decide_eq_true_eq, ge_iff_le,
        UInt32.le_iff_toNat_le] at h hc
      have h1 : c.val.toNat ≤ 57 := h.2
      rcases hc with hc | hc
      · have : 65 ≤ c.val.toNat := hc.1
        omega
      · have : 97 ≤ c.val.toNat := hc.1
        omega
  have hcp : c ≠ '.' ∧ c ≠ '_' ∧ isSpace c = false := by
    refine ⟨?_, ?_, ?_⟩
    · rintro rfl; revert hc; decide
    · rintro rfl; revert hc; decide
    · cases hs : isSpace c with
      | false => rfl
      | true =>
        exfalso
        rw [isSpace_iff] at hs
        rcases hs with rfl | hs
        · revert hc; decide
        · simp only [Char.isAlpha, Char.isUpper, Char.isLower, Bool.or_eq_true, Bool.and_eq_true, decide_eq_true_eq, ge_iff_le,
            UInt32.le_iff_toNat_le] at hc
          simp only [TextSpec.Other, List.mem_cons, List.not_mem_nil, or_false] at hs
          have e : c.toNat = c.val.toNat := rfl
          rcases hc with hc | hc
          · have h1 : 65 ≤ c.val.toNat := hc.1
            have h2 : c.val.toNat ≤ 90 := hc.2
            omega
          · have h1 : 97 ≤ c.val.toNat := hc.1
            have h2 : c.val.toNat ≤ 122 := hc.2
            omega
  -- what is left after stripping still begins with the digits and the character
  obtain ⟨x, xs, rfl⟩ : ∃ x xs, ip = x :: xs := by
    cases ip with
    | nil => exact absurd rfl hne
    | cons x xs => exact ⟨x, xs, rfl⟩
  have hx := digit_head hi (c := x) List.mem_cons_self
  constructor
  · have hstrip : ∃ t', strip ((x :: xs) ++ c :: t) = (x :: xs) ++ c :: t' := by
      have hl : lstrip ((x :: xs) ++ c :: t) = (x :: xs) ++ c :: t := by
        unfold lstrip
        rw [dropWhile_fix]
        intro d hd; simp at hd; subst hd; exact hx.1
      unfold strip rstrip
      rw [hl]
      have : ((x :: xs) ++ c :: t).reverse = t.reverse ++ ([c] ++ (x :: xs).reverse) := by simp
      rw [this, List.dropWhile_append]
      split
      · refine ⟨[], ?_⟩
        rw [List.singleton_append, List.dropWhile_cons_of_neg (by rw [hcp.2.2]; simp)]
        simp
      · refine ⟨(t.reverse.dropWhile isSpace).reverse, by simp⟩
    obtain ⟨t', ht'⟩ := hstrip
    rw [val, ht', signed_plain (by intro d hd; simp at hd; subst hd; exact ⟨hx.2.1, hx.2.2.1⟩)]
    unfold unsigned
    rw [digitPart_run hi (rest := c :: t') (by intro d hd; simp at hd; subst hd; exact ⟨hcd, hcp.2.1⟩)]
    split
    · rename_i e; simp at e; exact absurd e.2.1 hcp.1
    · rename_i e
      simp only [Prod.mk.injEq] at e
      rw [← e.1, ← e.2, if_neg (by simp)]
      simp [exponent, he.1, he.2]
  · have hd : (x :: xs ++ c :: t).dropWhile (· == ' ') = x :: xs ++ c :: t := by
      rw [dropWhile_fix]
      intro d hd; simp at hd; subst hd; simpa using hx.2.2.2
    obtain ⟨h1, h2⟩ := takeWhile_digits (rest := c :: t) hi (by intro d hd; simp at hd; subst hd; exact hcd)
    unfold foxVal
    rw [hd, List.cons_append]
    split
    · rename_i e; simp at e; exact absurd e.1 hx.2.1
    · rename_i e; simp at e; exact absurd e.1 hx.2.2.1
    · rw [← List.cons_append]
      unfold foxSigned
      rw [h1, h2]
      split
      · rename_i e; simp at e; exact absurd e.1 hcp.1
      · simp

example : val "12 Main Street".toList = none ∧ val "12x".toList = none ∧ foxVal "12x".toList = (12, 0) := by decide +kernel

/-- C92: VAL(STR(n, w)) is `n` for every whole number that fits into `w` characters. -/
theorem C92_str_val (neg : Bool) (n w : Nat) (decimals : Int) (sci : List Char)
    (h : ((if neg then Sign.minus else .none).text ++ Nat.toDigits 10 n).length ≤ w) :
    ∃ t, Model.Strings.strFn ((if neg then Sign.minus else .none).text ++ Nat.toDigits 10 n) sci w decimals = some t ∧
      val t = some (.fin (if neg then -(n : Int) else n) 0) ∧ foxVal t = (if neg then -(n : Int) else n, 0) := by
  refine ⟨_, C16_fits _ _ _ _ h, ?_⟩
  have hd : Digits (Nat.toDigits 10 n) := fun c hc => Nat.isDigit_of_mem_toDigits (by decide) (by decide) hc
  have := C92_val_partial (List.replicate (w - ((if neg then Sign.minus else .none).text ++ Nat.toDigits 10 n).length) ' ') []
    (if neg then .minus else .none) (Nat.toDigits 10 n) [] false (by intro c hc; exact (List.mem_replicate.mp hc).2) (by intro c hc; simp at hc) hd
    (by intro c hc; simp at hc) (.inl Nat.toDigits_ne_nil) (fun _ => rfl)
  simp only [List.append_nil, Bool.false_eq_true, if_false, Nat.ofDigitChars_ten_toDigits, List.length_nil] at this
  cases neg
  · exact this
  · exact this

example : Model.Strings.strFn "-120".toList [] 7 0 = some "   -120".toList ∧ val "   -120".toList = some (.fin (-120) 0) := by decide +kernel

/-! ## C93: ROUND -/

/-- C93: ROUND returns a number that is nowhere further away than half a unit. -/
theorem C93_nearest (a b : Int) (hb : 0 < b) : 2 * (round a b * b - a) ≤ b ∧ 2 * (a - round a b * b) ≤ b := by
  have h1 := Int.emod_add_mul_ediv a b
  have h2 := Int.emod_nonneg a (Int.ne_of_gt hb)
  have h3 := Int.emod_lt_of_pos a hb
  have e : b * (a / b) = a / b * b := Int.mul_comm _ _
  have e2 : (a / b + 1) * b = a / b * b + b := by rw [Int.add_mul, Int.one_mul]
  unfold round
  simp only
  split
  · omega
  · split
    · rw [e2]; omega
    · split
      · omega
      · rw [e2]; omega

example : round 25 10 = 2 ∧ round 35 10 = 4 ∧ round (-26) 10 = -3 := by decide

/-- C93 exactly: the result is FoxPro's unless the number is a half whose neighbour nearer to zero is
even. -/
theorem C93_round_iff (a b : Int) (hb : 0 < b) :
    round a b = foxRound a b ↔ ¬ (2 * (a % b) = b ∧ (if 0 ≤ a then (a / b) % 2 = 0 else (a / b) % 2 = 1)) := by
  have h1 := Int.emod_add_mul_ediv a b
  have h2 := Int.emod_nonneg a (Int.ne_of_gt hb)
  have h3 := Int.emod_lt_of_pos a hb
  generalize hq : a / b = q at *
  generalize hr : a % b = r at *
  have up : ∀ x y : Int, 0 ≤ y → y < 2 * b → (2 * b * x + y) / (2 * b) = x := by
    intro x y h h'
    rw [Int.add_comm, Int.add_mul_ediv_left _ _ (by omega), Int.ediv_eq_zero_of_lt h h']; omega
  unfold round foxRound
  simp only [hq, hr]
  by_cases ha : 0 ≤ a
  · simp only [if_pos ha]
    by_cases c1 : 2 * r < b
    · rw [if_pos c1]
      have : (2 * a + b) / (2 * b) = q := by
        rw [show 2 * a + b = 2 * b * q + (2 * r + b) by rw [Int.mul_assoc]; omega]
        exact up q _ (by omega) (by omega)
      rw [this]; simp; omega
    · rw [if_neg c1]
      have : (2 * a + b) / (2 * b) = q + 1 := by
        rw [show 2 * a + b = 2 * b * (q + 1) + (2 * r - b) by rw [Int.mul_add, Int.mul_assoc]; omega]
        exact up (q + 1) _ (by omega) (by omega)
      rw [this]
      by_cases c2 : 2 * r > b
      · rw [if_pos c2]; simp; omega
      · rw [if_neg c2]
        by_cases c3 : q % 2 = 0
        · rw [if_pos c3]; simp [c3]; omega
        · rw [if_neg c3]; simp [c3]
  · simp only [if_neg ha]
    by_cases c1 : 2 * r > b
    · rw [if_neg (by omega), if_pos c1]
      have : (2 * (-a) + b) / (2 * b) = -q - 1 := by
        rw [show 2 * (-a) + b = 2 * b * (-q - 1) + (3 * b - 2 * r) by
          rw [Int.mul_sub, Int.mul_neg, Int.mul_neg, Int.mul_assoc 2 b q]; omega]
        exact up (-q - 1) _ (by omega) (by omega)
      rw [this]; simp; omega
    · have : (2 * (-a) + b) / (2 * b) = -q := by
        rw [show 2 * (-a) + b = 2 * b * (-q) + (b - 2 * r) by rw [Int.mul_neg, Int.mul_neg, Int.mul_assoc 2 b q]; omega]
        exact up (-q) _ (by omega) (by omega)
      rw [this]
      by_cases c2 : 2 * r < b
      · rw [if_pos c2]; simp; omega
      · rw [if_neg c2, if_neg c1]
        by_cases c3 : q % 2 = 0
        · rw [if_pos c3]; simp [c3]
        · rw [if_neg c3]; simp; omega

example : round 25 10 ≠ foxRound 25 10 ∧ round 35 10 = foxRound 35 10 ∧ round (-25) 10 ≠ foxRound (-25) 10 := by decide

/-- C93 does not hold for halves above an even number: ROUND(2 k + 0.5, 0) is 2 k. -/
theorem C93_half_fails (k : Nat) : round (4 * k + 1) 2 = 2 * k ∧ foxRound (4 * k + 1) 2 = 2 * k + 1 := by
  constructor
  · unfold round
    have e1 : (4 * (k : Int) + 1) / 2 = 2 * k := by omega
    have e2 : (4 * (k : Int) + 1) % 2 = 1 := by omega
    simp only [e1, e2]
    rw [if_neg (by omega), if_neg (by omega), if_pos (by omega)]
  · unfold foxRound
    rw [if_pos (by omega)]; omega

end Props
