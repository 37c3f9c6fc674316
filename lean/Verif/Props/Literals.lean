import Verif.Model.Literals
/-!
# Literals

C41 (strings) and C47 (numbers, binary strings, logical values and times).
-/
namespace Props
open Spec.Literals
open Model.Literals hiding Str reprStr

namespace LiteralsAux

theorem hexVal_digit : ∀ n, n < 16 → hexVal (hexDigit n) = some n := by
  intro n hn
  match n, hn with
  | 0, _ => rfl | 1, _ => rfl | 2, _ => rfl | 3, _ => rfl | 4, _ => rfl | 5, _ => rfl | 6, _ => rfl | 7, _ => rfl
  | 8, _ => rfl | 9, _ => rfl | 10, _ => rfl | 11, _ => rfl | 12, _ => rfl | 13, _ => rfl | 14, _ => rfl | 15, _ => rfl
  | n + 16, h => omega

theorem hexDigits_isHex : ∀ k n, (hexDigits k n).all isHex = true
  | 0, _ => rfl
  | k + 1, n => by
    rw [hexDigits, List.all_cons, hexDigits_isHex k n, isHex, hexVal_digit _ (Nat.mod_lt _ (by decide))]; rfl

theorem foldl_hex : ∀ k n a, (hexDigits k n).foldl (fun n c => n * 16 + (hexVal c).getD 0) a = a * 16 ^ k + n % 16 ^ k
  | 0, n, a => by simp [hexDigits, Nat.mod_one]
  | k + 1, n, a => by
    rw [hexDigits, List.foldl_cons, hexVal_digit _ (Nat.mod_lt _ (by decide)), foldl_hex k n, Option.getD_some]
    have h1 : n % 16 ^ (k + 1) = (n / 16 ^ k % 16) * 16 ^ k + n % 16 ^ k := by
      rw [Nat.pow_succ, Nat.mod_mul, Nat.mul_comm (16 ^ k), Nat.add_comm]
    rw [h1, Nat.add_mul, Nat.mul_assoc, ← Nat.pow_succ', Nat.add_assoc]

theorem number_hex (k n : Nat) (h : n < 16 ^ k) : number 16 (hexDigits k n) = n := by
  rw [number, foldl_hex, Nat.zero_mul, Nat.zero_add, Nat.mod_eq_of_lt h]

theorem charOf_hex (k : Nat) (c : Char) (h : c.toNat < 16 ^ k) : charOf (hexDigits k c.toNat) = some c := by
  rw [charOf, hexDigits_isHex, number_hex k _ h]
  have : c.toNat.isValidChar := c.valid
  simp [this]

/-- One character. -/
theorem literal_escape (printable : Char → Bool) (q c : Char) (hq : q = '\'' ∨ q = '"') (r : Str) :
    literal q (escape printable q c ++ r) = (literal q r).map fun p => (c :: p.1, p.2) := by
  have plain : c ≠ q → c ≠ '\\' → c ≠ '\n' → c ≠ '\r' → literal q ([c] ++ r) = (literal q r).map fun p => (c :: p.1, p.2) := by
    intro h1 h2 h3 h4
    rw [List.singleton_append, literal.eq_def]
    split <;> simp_all
  have hx : ∀ (_ : c.toNat < 16 ^ 2), literal q ('\\' :: 'x' :: hexDigits 2 c.toNat ++ r) = (literal q r).map fun p => (c :: p.1, p.2) := by
    intro h
    have := charOf_hex 2 c h
    simp only [hexDigits, List.cons_append, List.nil_append] at this ⊢
    rw [literal, this]; rfl
  unfold escape
  split
  · rename_i h
    rcases h with rfl | rfl
    · rcases hq with rfl | rfl <;> simp [literal]
    · simp [literal]
  · rename_i h
    have hq' : c ≠ q := fun e => h (.inl e)
    have hb : c ≠ '\\' := fun e => h (.inr e)
    split
    · rename_i e; subst e; simp [literal]
    · split
      · rename_i e; subst e; simp [literal]
      · split
        · rename_i e; subst e; simp [literal]
        · rename_i h1 h2 h3
          split
          · rename_i hc
            exact hx (by rcases hc with h | h <;> omega)
          · split
            · exact plain hq' hb h2 h3
            · split
              · exact plain hq' hb h2 h3
              · split
                · rename_i hc; exact hx (by omega)
                · split
                  · rename_i hc
                    have := charOf_hex 4 c (by omega)
                    simp only [hexDigits, List.cons_append, List.nil_append] at this ⊢
                    rw [literal, this]; rfl
                  · have hlt : c.toNat < 16 ^ 8 := by
                      have := c.valid
                      have : c.toNat < 1114112 := by
                        rcases c.valid with h | h
                        · exact Nat.lt_trans h (by decide)
                        · exact h.2
                      omega
                    have := charOf_hex 8 c hlt
                    simp only [hexDigits, List.cons_append, List.nil_append] at this ⊢
                    rw [literal, this]; rfl

theorem literal_all (printable : Char → Bool) (q : Char) (hq : q = '\'' ∨ q = '"') (rest : Str) : ∀ s : Str,
    literal q (s.flatMap (escape printable q) ++ q :: rest) = some (s, rest)
  | [] => by rcases hq with rfl | rfl <;> simp [literal]
  | c :: s => by
    rw [List.flatMap_cons, List.append_assoc, literal_escape printable q c hq, literal_all printable q hq rest s]; rfl

end LiteralsAux
open LiteralsAux

/-! ## C41 -/

/-- C41: Python reads the text generated for a string as exactly that string, and the
literal ends where the generated text ends. Another quote cannot follow directly, or the
empty string would become the beginning of a triple-quoted one. -/
theorem C41_repr (printable : Char → Bool) (s rest : Str) (h : s ≠ [] ∨ rest.head? ≠ some '\'') :
    readString (Model.Literals.reprStr printable s ++ rest) = some (s, rest) := by
  have hq : quoteFor s = '\'' ∨ quoteFor s = '"' := by unfold quoteFor; split <;> simp
  have hlit := literal_all printable (quoteFor s) hq rest s
  have hfirst : s ≠ [] → ∀ t, s.flatMap (escape printable (quoteFor s)) ≠ quoteFor s :: t := by
    intro hs t he
    rw [he, List.cons_append] at hlit
    have : literal (quoteFor s) (quoteFor s :: (t ++ quoteFor s :: rest)) = some ([], t ++ quoteFor s :: rest) := by
      rcases hq with h | h <;> rw [h] <;> rfl
    rw [this] at hlit
    exact hs (congrArg Prod.fst (Option.some.inj hlit)).symm
  unfold Model.Literals.reprStr
  rw [List.cons_append, List.append_assoc]
  have hthree : ∀ t, s.flatMap (escape printable (quoteFor s)) ++ ([quoteFor s] ++ rest) ≠ quoteFor s :: quoteFor s :: t := by
    intro t he
    cases s with
    | nil =>
      rcases h with h | h
      · exact h rfl
      · simp [quoteFor] at he
        rw [he] at h
        exact h rfl
    | cons c s =>
      cases hx : (c :: s).flatMap (escape printable (quoteFor (c :: s))) with
      | nil =>
        rw [hx] at hlit
        rcases hq with h | h <;> rw [h] at hlit <;> simp [literal] at hlit
      | cons d w =>
        rw [hx, List.cons_append, List.cons.injEq] at he
        exact hfirst (by simp) w (by rw [hx, he.1])
  rcases hq with h | h <;> rw [h] at hlit hthree ⊢ <;> rw [readString.eq_def] <;> split
  all_goals first
    | (rename_i heq; simp only [List.cons.injEq] at heq; exact absurd heq.2 (hthree _))
    | (rename_i heq; simp only [List.cons.injEq] at heq; exact absurd heq.1 (by decide))
    | (rename_i heq; simp only [List.cons.injEq] at heq; rw [← heq.2]; exact hlit)
    | (rename_i hn _; exact absurd rfl (hn _))
    | (rename_i hn; exact absurd rfl (hn _))

example : readString (Model.Literals.reprStr (fun _ => true) "a'b\n".toList ++ ", 1)".toList) = some ("a'b\n".toList, ", 1)".toList) :=
  C41_repr _ _ _ (.inl (by decide))

/-- C41: a literal of the source, delimited by `'..'`, `".."` or `[..]`, becomes a Python
literal of its characters. -/
theorem C41_literal (printable : Char → Bool) (opening closing : Char) (content rest : Str)
    (h : content ≠ [] ∨ rest.head? ≠ some '\'') :
    readString (Model.Literals.reprStr printable (visitString (opening :: (content ++ [closing]))) ++ rest) = some (content, rest) := by
  have e : visitString (opening :: (content ++ [closing])) = content := by simp [visitString]
  rw [e, C41_repr _ _ _ h]

-- `[it's "x"\]`, followed by code
example : String.ofList (Model.Literals.reprStr (fun _ => false) "it's \"\\é".toList) = "'it\\'s \"\\\\\\xe9'" := by decide +kernel
example : readString "'it\\'s \"\\\\\\xe9').foo".toList = some ("it's \"\\é".toList, ").foo".toList) := by decide +kernel

/-! ## C47 -/

namespace LiteralsAux

theorem lower_digit {c : Char} (h : isDigit c = true) : c.toLower = c ∧ c ≠ 'x' ∧ c ≠ 'e' ∧ c ≠ '.' := by
  have h' : '0' ≤ c ∧ c ≤ '9' := of_decide_eq_true h
  have h1 : (48 : Nat) ≤ c.toNat := h'.1
  have h2 : c.toNat ≤ 57 := h'.2
  refine ⟨?_, ?_, ?_, ?_⟩
  · unfold Char.toLower
    split
    · rename_i hc
      have : (65 : Nat) ≤ c.toNat := hc.1
      omega
    · rfl
  · rintro rfl; revert h2; decide
  · rintro rfl; revert h2; decide
  · rintro rfl; revert h1; decide

theorem lower_digits {ds : Str} (h : ds.all isDigit = true) : lower ds = ds := by
  induction ds with
  | nil => rfl
  | cons c ds ih =>
    rw [List.all_cons, Bool.and_eq_true] at h
    simp only [lower, List.map_cons, (lower_digit h.1).1]
    exact congrArg _ (ih h.2)

theorem digits_not {ds : Str} {c : Char} (h : ds.all isDigit = true) (hc : isDigit c = false) : c ∉ ds := by
  intro hm
  have := List.all_eq_true.mp h c hm
  rw [hc] at this; cases this

/-- A fixed number has no letters. -/
theorem fixed_chars {t d} (h : Fixed t d) : lower t = t ∧ 'x' ∉ t ∧ 'e' ∉ t ∧ t ≠ [] := by
  cases h with
  | int hne h => exact ⟨lower_digits h, digits_not h (by decide), digits_not h (by decide), hne⟩
  | frac ha hb hne =>
    refine ⟨?_, ?_, ?_, by simp⟩
    · unfold lower at *
      rw [List.map_append, List.map_cons]
      have e1 := lower_digits ha
      have e2 := lower_digits hb
      unfold lower at e1 e2
      rw [e1, e2]; rfl
    · simp [digits_not ha (show isDigit 'x' = false by decide), digits_not hb (show isDigit 'x' = false by decide)]
    · simp [digits_not ha (show isDigit 'e' = false by decide), digits_not hb (show isDigit 'e' = false by decide)]

theorem hexVal_lower {c : Char} (h : isHex c = true) : hexVal c.toLower = hexVal c := by
  unfold Char.toLower
  split
  · rename_i hc
    have h1 : (65 : Nat) ≤ c.toNat := hc.1
    have h2 : c.toNat ≤ 90 := hc.2
    have h3 : c.toNat ≤ 70 := by
      unfold isHex hexVal at h
      split at h
      · rename_i h'; have : c.toNat ≤ 57 := h'.2; omega
      · split at h
        · rename_i h'; have : (97 : Nat) ≤ c.toNat := h'.1; omega
        · split at h
          · rename_i h'; exact h'.2
          · cases h
    obtain ⟨n, hn⟩ : ∃ n, n = c.toNat := ⟨_, rfl⟩
    have hcn : c = Char.ofNat n := by rw [hn, Char.ofNat_toNat]
    subst hcn
    have : n = 65 ∨ n = 66 ∨ n = 67 ∨ n = 68 ∨ n = 69 ∨ n = 70 := by omega
    rcases this with rfl | rfl | rfl | rfl | rfl | rfl <;> rfl
  · rfl

theorem lower_hex {hs : Str} (h : hs.all isHex = true) : (lower hs).all isHex = true ∧ number 16 (lower hs) = number 16 hs := by
  have key : ∀ (hs : Str) a, hs.all isHex = true → (lower hs).foldl (fun n c => n * 16 + (hexVal c).getD 0) a =
      hs.foldl (fun n c => n * 16 + (hexVal c).getD 0) a := by
    intro hs
    induction hs with
    | nil => intro a _; rfl
    | cons c hs ih =>
      intro a h
      rw [List.all_cons, Bool.and_eq_true] at h
      simp only [lower, List.map_cons, List.foldl_cons, hexVal_lower h.1]
      exact ih _ h.2
  refine ⟨?_, key hs 0 h⟩
  rw [lower, List.all_map]
  rw [List.all_eq_true] at h ⊢
  intro c hc
  have := h c hc
  simp only [Function.comp, isHex, hexVal_lower this]
  exact this

end LiteralsAux

/-- What a converted number denotes in Python. -/
inductive Shown : Num → Dec → Prop
  | int {n} : Shown (.int n) ⟨n, 0⟩
  | float {d} : Shown (.float d) d
  | code {t d} : PyNum t d → Shown (.code t) d

/-- C47: a number literal becomes the same number. Missing: an exponent with a sign and
without digits. -/
theorem C47_number_partial {t : Str} {d : Dec} (h : FoxNum t d) (hsign : t.getLast? ≠ some '+' ∧ t.getLast? ≠ some '-') :
    ∃ n, convertNumber t = some n ∧ Shown n d := by
  cases h with
  | fixed h =>
    obtain ⟨hl, hx, he, hne⟩ := fixed_chars h
    unfold convertNumber
    simp only [hl]
    rw [if_neg (by simp [hx, he])]
    cases h with
    | int hne h => rw [pyInt, if_pos ⟨hne, h⟩]; exact ⟨_, rfl, .int⟩
    | @frac a b ha hb hne' =>
      have hd : ¬ ((a ++ '.' :: b).all isDigit = true) := by
        intro hall
        have := List.all_eq_true.mp hall '.' (by simp)
        revert this; decide
      rw [pyInt, if_neg (by intro h; exact hd h.2)]
      have hdot : '.' ∉ a := digits_not ha (by decide)
      have e1 : (a ++ '.' :: b).takeWhile (· ≠ '.') = a := by
        rw [List.takeWhile_append_of_pos (by intro c hc; simp; rintro rfl; exact hdot hc)]; simp
      have e2 : (a ++ '.' :: b).dropWhile (· ≠ '.') = '.' :: b := by
        rw [List.dropWhile_append_of_pos (by intro c hc; simp; rintro rfl; exact hdot hc)]; simp
      simp only [pyFloat, e1, e2]
      rw [if_pos ⟨hne', by rw [List.all_append, ha, hb]; rfl⟩]
      exact ⟨_, rfl, .float⟩
  | @exp t d e s g ds h he hs hds =>
    obtain ⟨hl, hx, hne, hnn⟩ := fixed_chars h
    have hlow : lower (t ++ e :: (s ++ ds)) = t ++ 'e' :: (s ++ ds) := by
      have h1 : e.toLower = 'e' := by rcases he with rfl | rfl <;> decide
      have h2 : lower s = s := by cases hs <;> decide
      have h3 := lower_digits hds
      unfold lower at *
      rw [List.map_append, List.map_cons, List.map_append, hl, h1, h2, h3]
    have hxx : 'x' ∉ t ++ 'e' :: (s ++ ds) := by
      have : 'x' ∉ s := by cases hs <;> decide
      simp [hx, this, digits_not hds (show isDigit 'x' = false by decide)]
    unfold convertNumber
    simp only [hlow]
    rw [if_pos (by right; simp)]
    by_cases hd : ds = []
    · subst hd
      have hs0 : s = [] := by
        cases hs with
        | none => rfl
        | plus => exact absurd (by simp) hsign.1
        | minus => exact absurd (by simp) hsign.2
      subst hs0
      cases hs
      rw [if_pos (by left; exact ⟨hxx, by simp⟩)]
      refine ⟨_, rfl, .code ?_⟩
      have := PyNum.exp (s := []) (ds := ['0']) h .none (by decide) (by decide)
      have e0 : ∀ z : Int, z + 1 * (number 10 ['0'] : Nat) = z + 1 * (number 10 [] : Nat) := fun z => rfl
      rw [e0] at this
      simpa using this
    · have hlast : (t ++ 'e' :: (s ++ ds)).getLast? ≠ some 'e' := by
        rw [List.getLast?_append, List.getLast?_cons, List.getLast?_append]
        obtain ⟨c, hc⟩ : ∃ c, ds.getLast? = some c := by
          cases hg : ds.getLast? with
          | none => exact absurd (List.getLast?_eq_none_iff.mp hg) hd
          | some c => exact ⟨c, rfl⟩
        have hm : c ∈ ds := List.mem_of_getLast? hc
        have := (lower_digit (List.all_eq_true.mp hds c hm)).2.2.1
        simp [hc, this]
      rw [if_neg (by rintro (⟨_, h⟩ | ⟨h, _⟩) <;> first | exact hlast h | exact hxx h)]
      exact ⟨_, rfl, .code (.exp h hs hd hds)⟩
  | @hex x hs hx hh =>
    have hlow : lower ('0' :: x :: hs) = '0' :: 'x' :: lower hs := by
      rcases hx with rfl | rfl <;> rfl
    unfold convertNumber
    simp only [hlow]
    rw [if_pos (by left; simp)]
    obtain ⟨h1, h2⟩ := lower_hex hh
    by_cases hd : hs = []
    · subst hd
      rw [if_pos (by right; exact ⟨by simp, rfl⟩)]
      exact ⟨_, rfl, .code (.hex (hs := ['0']) (by decide) (by decide))⟩
    · rw [if_neg]
      · refine ⟨_, rfl, .code ?_⟩
        have hne : lower hs ≠ [] := by intro h; exact hd (List.map_eq_nil_iff.mp h)
        rw [← h2]
        exact .hex hne h1
      · rintro (⟨h, _⟩ | ⟨_, h⟩)
        · exact h (by simp)
        · simp [lower] at h; exact hd h

example : FoxNum "1.5E".toList ⟨15, -1⟩ := by
  have := FoxNum.exp (t := ['1', '.', '5']) (e := 'E') (ds := []) (.frac (a := ['1']) (b := ['5']) rfl rfl (by decide)) (.inr rfl) .none rfl
  exact this
example : FoxNum "0xFf".toList ⟨255, 0⟩ := .hex (.inl rfl) (by decide)

/-- C47 does not hold for `1e+`, which is left as it is and is no Python number. -/
theorem C47_exponent_fails : FoxNum "1e+".toList ⟨1, 0⟩ ∧ convertNumber "1e+".toList = some (.code "1e+".toList) ∧
    ∀ d, ¬ PyNum "1e+".toList d := by
  refine ⟨FoxNum.exp (t := ['1']) (e := 'e') (s := ['+']) (ds := []) (.int (by decide) rfl) (.inl rfl) .plus rfl, by decide +kernel, ?_⟩
  intro d h
  generalize ht : "1e+".toList = t at h
  cases h with
  | @exp t d s g ds h hs hne hd =>
    have hl := congrArg List.getLast? ht
    rw [List.getLast?_append, List.getLast?_cons, List.getLast?_append] at hl
    obtain ⟨c, hc⟩ : ∃ c, ds.getLast? = some c := by
      cases hg : ds.getLast? with
      | none => exact absurd (List.getLast?_eq_none_iff.mp hg) hne
      | some c => exact ⟨c, rfl⟩
    have hm : c ∈ ds := List.mem_of_getLast? hc
    have hcd := List.all_eq_true.mp hd c hm
    simp [hc] at hl
    subst hl
    revert hcd; decide
  | hex h1 h2 => simp at ht

/-- C47: a binary literal becomes the bytes whose digits it spells: as many as needed,
and together the same number. -/
theorem C47_blob (x : Char) (hs : Str) :
    (visitBlob ('0' :: x :: hs)).length = (hs.length + 1) / 2 ∧
      (visitBlob ('0' :: x :: hs)).foldl (fun n b => n * 256 + b) 0 = number 16 hs := by
  have key : ∀ k, ∀ (l : Str), l.length = 2 * k → ∀ a,
      (pairs l).length = k ∧ ((pairs l).map fun p => number 16 [p.1, p.2]).foldl (fun n b => n * 256 + b) a =
        l.foldl (fun n c => n * 16 + (hexVal c).getD 0) a := by
    intro k
    induction k with
    | zero => intro l hl a; rw [List.length_eq_zero_iff.mp (by omega : l.length = 0)]; exact ⟨rfl, rfl⟩
    | succ k ih =>
      intro l hl a
      match l, hl with
      | c :: d :: l, hl =>
        obtain ⟨i1, i2⟩ := ih l (by simp at hl; omega) (a * 256 + number 16 [c, d])
        refine ⟨by rw [pairs, List.length_cons, i1], ?_⟩
        rw [pairs, List.map_cons, List.foldl_cons, i2, List.foldl_cons, List.foldl_cons]
        congr 1
        simp only [number, List.foldl_cons, List.foldl_nil]
        omega
  unfold visitBlob
  simp only [List.drop_succ_cons, List.drop_zero]
  split
  · rename_i h
    obtain ⟨h1, h2⟩ := key ((hs.length + 1) / 2) ('0' :: hs) (by simp; omega) 0
    refine ⟨by rw [List.length_map, h1], h2.trans ?_⟩
    rw [List.foldl_cons, number]
    rfl
  · rename_i h
    obtain ⟨h1, h2⟩ := key ((hs.length + 1) / 2) hs (by omega) 0
    exact ⟨by rw [List.length_map, h1], h2⟩

example : visitBlob "0h123".toList = [1, 35] := by decide +kernel

/-- C47: logical letters. -/
theorem C47_logical (c : Char) :
    (visitBool [c] = some true ↔ c = 't' ∨ c = 'T' ∨ c = 'y' ∨ c = 'Y') ∧
    (visitBool [c] = some false ↔ c = 'f' ∨ c = 'F' ∨ c = 'n' ∨ c = 'N') := by
  have inv : ∀ (l u : Char), u.toLower = l → l.toLower = l → (∀ n : Nat, n.isValidChar → 65 ≤ n → n ≤ 90 → n + 32 = l.toNat → Char.ofNat n = u) →
      (¬ (65 ≤ l.toNat ∧ l.toNat ≤ 90)) → (c.toLower = l ↔ c = l ∨ c = u) := by
    intro l u hu hl hn hlow
    constructor
    · intro h
      unfold Char.toLower at h
      split at h
      · rename_i hc
        right
        have h1 : (65 : Nat) ≤ c.toNat := hc.1
        have h2 : c.toNat ≤ 90 := hc.2
        have h3 : c.toNat + 32 = l.toNat := by
          rw [← h]
          show _ = UInt32.toNat (c.val + 32)
          rw [UInt32.toNat_add]
          have : c.val.toNat = c.toNat := rfl
          rw [this, Nat.mod_eq_of_lt] <;> simp <;> omega
        rw [← hn c.toNat c.valid h1 h2 h3, Char.ofNat_toNat]
      · exact .inl h
    · rintro (rfl | rfl)
      · exact hl
      · exact hu
  have lt := inv 't' 'T' (by decide) (by decide)
    (fun n _ _ _ h => by
      have h' : n + 32 = 116 := h
      obtain rfl : n = 84 := by omega
      rfl) (by decide)
  have ly := inv 'y' 'Y' (by decide) (by decide)
    (fun n _ _ _ h => by
      have h' : n + 32 = 121 := h
      obtain rfl : n = 89 := by omega
      rfl) (by decide)
  have lf := inv 'f' 'F' (by decide) (by decide)
    (fun n _ _ _ h => by
      have h' : n + 32 = 102 := h
      obtain rfl : n = 70 := by omega
      rfl) (by decide)
  have ln := inv 'n' 'N' (by decide) (by decide)
    (fun n _ _ _ h => by
      have h' : n + 32 = 110 := h
      obtain rfl : n = 78 := by omega
      rfl) (by decide)
  have key : visitBool [c] = if c.toLower = 'f' ∨ c.toLower = 'n' ∨ c.toLower = 't' ∨ c.toLower = 'y' then
      some (decide (c.toLower = 't' ∨ c.toLower = 'y')) else none := rfl
  rw [key]
  constructor
  · constructor
    · intro h
      split at h
      · have := of_decide_eq_true (Option.some.inj h)
        rw [lt, ly] at this
        rcases this with (h | h) | h | h <;> simp [h]
      · cases h
    · intro h
      have : c.toLower = 't' ∨ c.toLower = 'y' := by rw [lt, ly]; rcases h with h | h | h | h <;> simp [h]
      rw [if_pos (.inr (.inr this)), decide_eq_true this]
  · constructor
    · intro h
      split at h
      · rename_i hc
        have hn := of_decide_eq_false (Option.some.inj h)
        have : c.toLower = 'f' ∨ c.toLower = 'n' := by
          rcases hc with h | h | h | h
          · exact .inl h
          · exact .inr h
          · exact absurd (.inl h) hn
          · exact absurd (.inr h) hn
        rw [lf, ln] at this
        rcases this with (h | h) | h | h <;> simp [h]
      · cases h
    · intro h
      have : c.toLower = 'f' ∨ c.toLower = 'n' := by rw [lf, ln]; rcases h with h | h | h | h <;> simp [h]
      have hno : ¬ (c.toLower = 't' ∨ c.toLower = 'y') := by
        rintro (h' | h') <;> rcases this with h | h <;> rw [h] at h' <;> revert h' <;> decide
      rw [if_pos (by rcases this with h | h <;> simp [h]), decide_eq_false hno]

example : visitBool ['Y'] = some true ∧ visitBool ['n'] = some false ∧ visitBool ['x'] = none := by decide

/-- C47: the time of a date literal. Missing: the hour 12. -/
theorem C47_time_partial (y m d h : Nat) (r : List Nat) (hh : h < 12) :
    (∀ s ∈ [['a'], ['A', 'M'], ['a', 'm'], ['A']], visitDate (y :: m :: d :: h :: r) s = some (y :: m :: d :: hour24 h false :: r)) ∧
    (∀ s ∈ [['p'], ['P', 'M'], ['p', 'm'], ['P']], visitDate (y :: m :: d :: h :: r) s = some (y :: m :: d :: hour24 h true :: r)) := by
  have e1 : hour24 h false = h := by simp [hour24, Nat.mod_eq_of_lt hh]
  have e2 : hour24 h true = h + 12 := by simp [hour24, Nat.mod_eq_of_lt hh]
  rw [e1, e2]
  constructor <;> intro s hs <;> simp at hs <;> rcases hs with rfl | rfl | rfl | rfl <;> rfl

example : visitDate [2001, 2, 3, 11, 30] ['P', 'M'] = some [2001, 2, 3, 23, 30] := by decide

/-- C47 does not hold for 12 AM, which becomes 12 o'clock, nor for 12 PM, which becomes
hour 24, no time of day. -/
theorem C47_noon_fails (y m d : Nat) (r : List Nat) :
    visitDate (y :: m :: d :: 12 :: r) ['A', 'M'] = some (y :: m :: d :: 12 :: r) ∧ hour24 12 false = 0 ∧
    visitDate (y :: m :: d :: 12 :: r) ['P', 'M'] = some (y :: m :: d :: 24 :: r) ∧ hour24 12 true = 12 :=
  ⟨rfl, rfl, rfl, rfl⟩

end Props
