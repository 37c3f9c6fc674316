import Verif.Model.FxpCode
import Verif.Spec.FxpExpr
import Verif.Lemmas.Fxp
/-! Decoding the compiled form of an expression, token by token. -/
namespace Model.Fxp
open Spec.FxpExpr

variable {fmt : Nat → List Nat → Option String} {names : List String}

/-- The token table of the built-in functions. -/
def fnToken : List Nat → Option String
  | [c] => if c = 0x43 then none else functions.lookup c
  | [c, k] => if c = 0x1A then extended1.lookup k else if c = 0xEA then extended2.lookup k else none
  | _ => none

theorem readExpr_step {n : Nat} {r r' : Rest} {st st' : List Obj} {o : Obj}
    (h : readNext fmt names n r st = .ok (o, st', r')) (ho : o ≠ .int endExpr) :
    readExpr fmt names (n + 1) r st = readExpr fmt names n r' (o :: st') := by
  rw [readExpr, h]; simp [ho]

theorem readNext_mark {n : Nat} {r : Rest} {st : List Obj} :
    readNext fmt names (n + 1) (0x43 :: r) st = .ok (.int 0x43, st, r) := by
  simp [readNext, read1, endExpr, parameterMark]

theorem readNext_end {n : Nat} {r : Rest} {st : List Obj} :
    readNext fmt names (n + 1) (0xFD :: r) st = .ok (.int 0xFD, st, r) := by
  simp [readNext, read1, endExpr]

/-- A value code whose reader is simple. -/
theorem readNext_simple {n code : Nat} {r r' : Rest} {st : List Obj} {o : Obj}
    (h1 : code ∉ [0xFD, 0x43, 0xE8, 0xE5, 0xF6, 0x1A, 0xEA, 0xF0, 0xF1])
    (hf : functions.lookup code = none) (ho : operators.lookup code = none)
    (hs : readSimple fmt names code r = some (.ok (o, r'))) :
    readNext fmt names (n + 2) (code :: r) st = .ok ((wrapValue o st).1, (wrapValue o st).2, r') := by
  simp only [List.mem_cons, List.not_mem_nil, or_false, not_or] at h1
  obtain ⟨a, b, c, d, e, f, g, i, j⟩ := h1
  rw [readNext]
  simp only [read1, endExpr, parameterMark, a, b, c, d, e, if_false, or_self, readFunction, hf, f, g, ho]
  rw [readValue]
  simp [hs, i, j]

theorem readNext_op {n code : Nat} {r : Rest} {st st' : List Obj} {o : Obj} {op : String} {k : Int}
    (h1 : code ∉ [0xFD, 0x43, 0xE8, 0xE5, 0xF6, 0x1A, 0xEA])
    (hf : functions.lookup code = none) (ho : operators.lookup code = some (op, k)) (hk : k > 0)
    (h : applyOp op k st = .ok (o, st')) :
    readNext fmt names (n + 1) (code :: r) st = .ok (o, st', r) := by
  simp only [List.mem_cons, List.not_mem_nil, or_false, not_or] at h1
  obtain ⟨a, b, c, d, e, f, g⟩ := h1
  have hk0 : k ≠ 0 := by omega
  rw [readNext]
  simp only [read1, endExpr, parameterMark, a, b, c, d, e, if_false, or_self, readFunction, hf, f, g, ho, hk0,
    hk, if_true, h]

theorem functions_codes : ∀ p ∈ functions, p.1 ∉ [0xFD, 0xE8, 0xE5, 0xF6] := by decide +kernel

theorem lookup_mem {α : Type} {l : List (Nat × α)} {k : Nat} {v : α} (h : l.lookup k = some v) :
    (k, v) ∈ l := by
  induction l with
  | nil => simp at h
  | cons p t ih =>
    obtain ⟨a, b⟩ := p
    rw [List.lookup_cons] at h
    by_cases hk : k = a
    · subst hk; simp at h; simp [h]
    · have : (k == a) = false := by simpa using hk
      rw [this] at h
      simp [ih h]

theorem readNext_fn {n : Nat} {tok : List Nat} {f : String} {r : Rest} {st : List Obj}
    (h : fnToken tok = some f) :
    readNext fmt names (n + 1) (tok ++ r) st =
      .ok (.name (callText f (popParams st []).1), (popParams st []).2, r) := by
  match tok, h with
  | [c], h =>
    simp only [fnToken] at h
    split at h
    · cases h
    · rename_i h43
      have hm := functions_codes _ (lookup_mem h)
      simp only [List.mem_cons, List.not_mem_nil, or_false, not_or] at hm
      obtain ⟨a, b, c', d⟩ := hm
      rw [List.singleton_append, readNext]
      simp [read1, endExpr, parameterMark, a, b, c', d, h43, readFunction, h]
  | [c, k], h =>
    simp only [fnToken] at h
    split at h
    · rename_i hc
      subst hc
      have h2 : functions.lookup 0x1A = none := by decide +kernel
      rw [List.cons_append, List.singleton_append, readNext]
      simp [read1, endExpr, parameterMark, readFunction, h2, readKeyed, tableGet, h]
    · split at h
      · rename_i hc
        subst hc
        have h2 : functions.lookup 0xEA = none := by decide +kernel
        rw [List.cons_append, List.singleton_append, readNext]
        simp [read1, endExpr, parameterMark, readFunction, h2, readKeyed, tableGet, h]
      · cases h

theorem readUInt_le16 {n : Nat} (h : n < 65536) (r : Rest) :
    readUInt 2 (le16 n ++ r) = .ok (n, r) := by
  have : ¬ ((le16 n ++ r).length < 2) := by simp [le16]
  simp only [readUInt, this, if_false]
  have e1 : (le16 n ++ r).take 2 = le16 n := by simp [le16]
  have e2 : (le16 n ++ r).drop 2 = r := by simp [le16]
  rw [e1, e2]
  simp only [le16, leDecode]
  congr 2; omega

theorem readName_le16 {i : Nat} (h : i < names.length) (h' : i < 65536) (r : Rest) :
    readName names (le16 i ++ r) = .ok (nameText names i, r) := by
  simp [readName, readUInt_le16 h', nameAt, nameText, h]

theorem readString_le16 {b : List Nat} (h : b.length < 65536) (r : Rest) :
    readString (le16 b.length ++ (b ++ r)) = .ok (latin1 b, r) := by
  simp [readString, readUInt_le16 h]

/-- The top of the stack is not an object prefix. -/
def NoAlias (st : List Obj) : Prop := ∀ o, st.head? = some o → o.isAlias = false

theorem takeAliases_none {st : List Obj} (h : NoAlias st) (s : String) : takeAliases st s = (s, st) := by
  match st with
  | [] => rfl
  | .alias a :: t => have := h (.alias a) rfl; simp [Obj.isAlias] at this
  | .int _ :: t => rfl
  | .name _ :: t => rfl
  | .str _ :: t => rfl
  | .num _ :: t => rfl
  | .list _ :: t => rfl

mutual
/-- Number of tokens. -/
def toksE : Expr → Nat
  | .ref p _ => toksP p + 1
  | .not e => toksE e + 1
  | .paren e => toksE e + 1
  | .bin _ a b => toksE a + toksE b + 1
  | .short _ _ a b => toksE a + toksE b + 1
  | .fn _ _ as => toksA as + 2
  | .udf p _ as => toksA as + toksP p + 2
  | _ => 1
def toksA : Args → Nat
  | .nil => 0
  | .cons e as => toksE e + toksA as
def toksP : Prefix → Nat
  | .none => 0
  | .name p _ => toksP p + 1
  | .call p _ as => toksA as + toksP p + 2
end

theorem toksE_pos (e : Expr) : 0 < toksE e := by
  cases e <;> simp [toksE]

/-- The prefix objects on the stack, top first. -/
def aliasesP (names : List String) : Prefix → List Obj
  | .none => []
  | .name p i => .alias (nameText names i) :: aliasesP names p
  | .call p i as =>
    [.alias (callText (p.text names ++ nameText names i) ((as.texts names).map Obj.name))]

theorem map_repr_name (l : List String) : (l.map Obj.name).map Obj.repr = l := by
  induction l with
  | nil => rfl
  | cons x t ih => simp [Obj.repr, ih] at *

theorem takeAliases_prefix {st : List Obj} (h : NoAlias st) (p : Prefix) (s : String) :
    takeAliases (aliasesP names p ++ st) s = (p.text names ++ s, st) := by
  match p with
  | .none => simp [aliasesP, Prefix.text, takeAliases_none h]
  | .name p i =>
    simp only [aliasesP, List.cons_append, takeAliases, Prefix.text]
    rw [takeAliases_prefix h p]
    simp [String.append_assoc]
  | .call p i as =>
    simp only [aliasesP, List.cons_append, List.nil_append, takeAliases, takeAliases_none h]
    simp only [callText, map_repr_name, Prefix.text]

theorem popParams_aux (l : List String) (st acc : List Obj) :
    popParams (l.map Obj.name ++ .int 0x43 :: st) acc = (l.reverse.map Obj.name ++ acc, st) := by
  induction l generalizing acc with
  | nil => simp [popParams, parameterMark]
  | cons x t ih =>
    simp only [List.map_cons, List.cons_append, popParams]
    rw [ih]; simp

theorem popParams_names (l : List String) (st : List Obj) :
    popParams ((l.map Obj.name).reverse ++ .int 0x43 :: st) [] = (l.map Obj.name, st) := by
  rw [← List.map_reverse, popParams_aux]; simp

theorem noAlias_cons_name (s : String) (st : List Obj) : NoAlias (.name s :: st) := by
  intro o h; simp at h; subst h; rfl

theorem noAlias_mark (st : List Obj) : NoAlias (.int 0x43 :: st) := by
  intro o h; simp at h; subst h; rfl

theorem noAlias_args (l : List String) (st : List Obj) :
    NoAlias ((l.map Obj.name).reverse ++ .int 0x43 :: st) := by
  rw [← List.map_reverse]
  cases l.reverse with
  | nil => exact noAlias_mark st
  | cons x t => exact noAlias_cons_name _ _

theorem zeroPad_eq (d : Nat) (n : Int) : zeroPad d n = padded d n := by
  match n with
  | .ofNat m =>
    have h : ¬ (Int.ofNat m < 0) := by simp
    simp only [zeroPad, if_neg h]
    rfl
  | .negSucc m =>
    simp only [zeroPad, if_pos (Int.negSucc_lt_zero m)]
    rfl

theorem name_ne_end (s : String) : (Obj.name s) ≠ .int endExpr := by simp

theorem readNext_udf {n i : Nat} {r : Rest} {st : List Obj} {p : Prefix} {l : List String}
    (hi : i < names.length) (hi' : i < 65536) :
    readNext fmt names (n + 1) (0xF6 :: (le16 i ++ r))
      (aliasesP names p ++ ((l.map Obj.name).reverse ++ .int 0x43 :: st)) =
      .ok (.name (callText (p.text names ++ nameText names i) (l.map Obj.name)), st, r) := by
  rw [readNext]
  simp only [read1, endExpr, parameterMark]
  simp [readName_le16 hi hi', takeAliases_prefix (noAlias_args l st), popParams_names]

theorem readNext_udfAlias {n i : Nat} {r : Rest} {st : List Obj} {p : Prefix} {l : List String}
    (hi : i < names.length) (hi' : i < 65536) :
    readNext fmt names (n + 1) (0xE5 :: (le16 i ++ r))
      (aliasesP names p ++ ((l.map Obj.name).reverse ++ .int 0x43 :: st)) =
      .ok (.alias (callText (p.text names ++ nameText names i) (l.map Obj.name)), st, r) := by
  rw [readNext]
  simp only [read1, endExpr, parameterMark]
  simp [readName_le16 hi hi', takeAliases_prefix (noAlias_args l st), popParams_names]

theorem readNext_ref {n i : Nat} {r : Rest} {st : List Obj} {p : Prefix} (h : NoAlias st)
    (hi : i < names.length) (hi' : i < 65536) :
    readNext fmt names (n + 2) (0xF7 :: (le16 i ++ r)) (aliasesP names p ++ st) =
      .ok (.name (p.text names ++ nameText names i), st, r) := by
  rw [readNext_simple (o := .name (nameText names i)) (r' := r) (by decide) (by decide +kernel)
    (by decide +kernel)]
  · simp [wrapValue, takeAliases_prefix h]
  · have h1 : valueConstants.lookup 0xF7 = none := by decide
    simp [readSimple, h1, fmtBytes, readName_le16 hi hi']

theorem readNext_alias {n i : Nat} {r : Rest} {st : List Obj}
    (hi : i < names.length) (hi' : i < 65536) :
    readNext fmt names (n + 2) (0xE3 :: (le16 i ++ r)) st =
      .ok (.alias (nameText names i), st, r) := by
  rw [readNext_simple (o := .alias (nameText names i)) (r' := r) (by decide) (by decide +kernel)
    (by decide +kernel)]
  · simp [wrapValue]
  · have h1 : valueConstants.lookup 0xE3 = none := by decide
    simp [readSimple, h1, fmtBytes, readName_le16 hi hi']

theorem readNext_const {n code : Nat} {s : String} {r : Rest} {st : List Obj}
    (h : valueConstants.lookup code = some s) :
    readNext fmt names (n + 2) (code :: r) st = .ok (.name s, st, r) := by
  have hc : ∀ q ∈ valueConstants, q.1 ∉ [0xFD, 0x43, 0xE8, 0xE5, 0xF6, 0x1A, 0xEA, 0xF0, 0xF1] ∧
      functions.lookup q.1 = none ∧ operators.lookup q.1 = none := by decide +kernel
  obtain ⟨a, b, c⟩ := hc _ (lookup_mem h)
  rw [readNext_simple (o := .str s) (r' := r) a b c]
  · simp [wrapValue, Obj.text]
  · simp [readSimple, h]

theorem readNext_int8 {n d k : Nat} {r : Rest} {st : List Obj} :
    readNext fmt names (n + 2) (0xF8 :: d :: k :: r) st = .ok (.name (padded d k), st, r) := by
  rw [readNext_simple (o := .num (padded d k)) (r' := r) (by decide) (by decide +kernel)
    (by decide +kernel)]
  · simp [wrapValue, Obj.text, Obj.repr]
  · have h1 : valueConstants.lookup 0xF8 = none := by decide
    have h2 := zeroPad_eq d k
    simp [readSimple, h1, fmtBytes, readDigits, read1, readUInt, leDecode]
    simpa using h2

theorem readNext_lit {n code : Nat} {b : List Nat} {text : String} {r : Rest} {st : List Obj}
    (h : (code, b.length) ∈ [(0xE6, 8), (0xEE, 8), (0xE7, 4), (0xFA, 10)]) (hf : fmt code b = some text) :
    readNext fmt names (n + 2) (code :: (b ++ r)) st = .ok (.name text, st, r) := by
  have hc : code ∈ [0xE6, 0xEE, 0xE7, 0xFA] ∧ fmtBytes code = some b.length := by
    simp only [List.mem_cons, List.not_mem_nil, Prod.mk.injEq, or_false] at h
    rcases h with ⟨rfl, h⟩ | ⟨rfl, h⟩ | ⟨rfl, h⟩ | ⟨rfl, h⟩ <;> exact ⟨by decide, by rw [h]; rfl⟩
  have hall : ∀ c ∈ [0xE6, 0xEE, 0xE7, 0xFA], c ∉ [0xFD, 0x43, 0xE8, 0xE5, 0xF6, 0x1A, 0xEA, 0xF0, 0xF1] ∧
      functions.lookup c = none ∧ operators.lookup c = none ∧ valueConstants.lookup c = none := by decide +kernel
  obtain ⟨a, f, o, v⟩ := hall code hc.1
  rw [readNext_simple (o := fmtObj code text) (r' := r) a f o]
  · unfold fmtObj
    split <;> simp [wrapValue, Obj.text, Obj.repr]
  · have : ¬ (b ++ r).length < b.length := by simp
    simp only [readSimple, v, hc.2, this, if_false, List.take_left' rfl, List.drop_left' rfl, hf]

theorem twos_length (k : Nat) (n : Int) : (twos k n).length = k := by
  induction k generalizing n with
  | zero => rfl
  | succ k ih => simp [twos, ih]

theorem leDecode_twos (k : Nat) (n : Int) : (leDecode (twos k n) : Int) = n % (256 : Int) ^ k := by
  induction k generalizing n with
  | zero => simp [twos, leDecode, Int.emod_one]
  | succ k ih =>
    simp only [twos, leDecode, Int.natCast_add, Int.natCast_mul, ih]
    have h0 : 0 ≤ n % 256 := Int.emod_nonneg _ (by omega)
    rw [Int.toNat_of_nonneg h0, Int.pow_succ, Int.mul_comm ((256 : Int) ^ k) 256,
      Int.emod_def n (256 * 256 ^ k), Int.emod_def (n / 256) (256 ^ k),
      ← Int.ediv_ediv_of_nonneg (by omega : (0 : Int) ≤ 256), Int.mul_assoc]
    generalize (256 : Int) ^ k * (n / 256 / 256 ^ k) = t
    have : ((256 : Nat) : Int) = 256 := rfl
    rw [this]
    omega

theorem readSInt_twos {k : Nat} {n : Int} {r : Rest} (hk : 0 < k) (h1 : -(2 : Int) ^ (8 * k - 1) ≤ n)
    (h2 : n < (2 : Int) ^ (8 * k - 1)) : readSInt k (twos k n ++ r) = .ok (n, r) := by
  have l := twos_length k n
  have : ¬ ((twos k n ++ r).length < k) := by simp [l]
  simp only [readSInt, this, if_false]
  rw [List.take_left' l, List.drop_left' l]
  have hd := leDecode_twos k n
  have e : (256 : Int) ^ k = 2 * 2 ^ (8 * k - 1) := by
    rw [show (256 : Int) = 2 ^ 8 by rfl, ← Int.pow_mul, ← Int.pow_succ']
    congr 1; omega
  have e2 : (2 : Int) ^ (8 * k) = 2 * 2 ^ (8 * k - 1) := by
    rw [← Int.pow_succ']; congr 1; omega
  have e3 : ((2 ^ (8 * k - 1) : Nat) : Int) = (2 : Int) ^ (8 * k - 1) := by simp
  rw [e2]
  generalize (2 : Int) ^ (8 * k - 1) = P at *
  generalize (2 : Nat) ^ (8 * k - 1) = Q at *
  rw [e] at hd
  generalize leDecode (twos k n) = m at *
  by_cases hn : 0 ≤ n
  · rw [Int.emod_eq_of_lt hn (by omega)] at hd
    rw [if_pos (by omega), hd]
  · have hm : n % (2 * P) = n + 2 * P := by
      rw [← Int.add_emod_right, Int.emod_eq_of_lt (by omega) (by omega)]
    rw [if_neg (by omega)]
    congr 2; omega

theorem readNext_int16 {n d : Nat} {k : Int} {r : Rest} {st : List Obj} (h1 : -32768 ≤ k)
    (h2 : k < 32768) :
    readNext fmt names (n + 2) (0xF9 :: d :: (twos 2 k ++ r)) st = .ok (.name (padded d k), st, r) := by
  rw [readNext_simple (o := .num (padded d k)) (r' := r) (by decide) (by decide +kernel)
    (by decide +kernel)]
  · simp [wrapValue, Obj.text, Obj.repr]
  · have h3 : valueConstants.lookup 0xF9 = none := by decide
    have hr : readSInt 2 (twos 2 k ++ r) = .ok (k, r) := readSInt_twos (by omega) (by simpa using h1) (by simpa using h2)
    simp [readSimple, h3, fmtBytes, readDigits, read1, hr, zeroPad_eq]

theorem readNext_int32 {n d : Nat} {k : Int} {r : Rest} {st : List Obj} (h1 : -2147483648 ≤ k)
    (h2 : k < 2147483648) :
    readNext fmt names (n + 2) (0xE9 :: d :: (twos 4 k ++ r)) st = .ok (.name (padded d k), st, r) := by
  rw [readNext_simple (o := .num (padded d k)) (r' := r) (by decide) (by decide +kernel)
    (by decide +kernel)]
  · simp [wrapValue, Obj.text, Obj.repr]
  · have h3 : valueConstants.lookup 0xE9 = none := by decide
    have hr : readSInt 4 (twos 4 k ++ r) = .ok (k, r) := readSInt_twos (by omega) (by simpa using h1) (by simpa using h2)
    simp [readSimple, h3, fmtBytes, readDigits, read1, hr, zeroPad_eq]

theorem readNext_dstr {n : Nat} {b : List Nat} {r : Rest} {st : List Obj} (h : NoAlias st)
    (hb : b.length < 65536) :
    readNext fmt names (n + 2) (0xD9 :: (le16 b.length ++ (b ++ r))) st =
      .ok (.name ("\"" ++ latin1 b ++ "\""), st, r) := by
  rw [readNext_simple (o := .name ("\"" ++ latin1 b ++ "\"")) (r' := r) (by decide) (by decide +kernel)
    (by decide +kernel)]
  · simp [wrapValue, takeAliases_none h]
  · have h1 : valueConstants.lookup 0xD9 = none := by decide
    simp [readSimple, h1, fmtBytes, readString_le16 hb]

theorem readNext_sstr {n : Nat} {b : List Nat} {r : Rest} {st : List Obj} (h : NoAlias st)
    (hb : b.length < 65536) :
    readNext fmt names (n + 2) (0xFB :: (le16 b.length ++ (b ++ r))) st =
      .ok (.name ("'" ++ latin1 b ++ "'"), st, r) := by
  rw [readNext_simple (o := .name ("'" ++ latin1 b ++ "'")) (r' := r) (by decide) (by decide +kernel)
    (by decide +kernel)]
  · simp [wrapValue, takeAliases_none h]
  · have h1 : valueConstants.lookup 0xFB = none := by decide
    simp [readSimple, h1, fmtBytes, readString_le16 hb]

theorem readNext_bin {n : Nat} {op : BinOp} {a b : String} {r : Rest} {st : List Obj} :
    readNext fmt names (n + 1) (op.code :: r) (.name b :: .name a :: st) =
      .ok (.name ("(" ++ a ++ (" " ++ op.text ++ " ") ++ b ++ ")"), st, r) := by
  have h : op.code ∉ [0xFD, 0x43, 0xE8, 0xE5, 0xF6, 0x1A, 0xEA] ∧ functions.lookup op.code = none ∧
      operators.lookup op.code = some (op.text, 2) := by
    cases op <;> decide +kernel
  exact readNext_op h.1 h.2.1 h.2.2 (by decide) (by simp [applyOp, Obj.repr])

theorem readNext_not {n : Nat} {a : String} {r : Rest} {st : List Obj} :
    readNext fmt names (n + 1) (0x0A :: r) (.name a :: st) = .ok (.name ("(NOT " ++ a ++ ")"), st, r) :=
  readNext_op (op := "NOT") (k := 1) (by decide) (by decide +kernel) (by decide +kernel) (by decide)
    (by simp [applyOp, Obj.repr])

theorem readNext_paren {n : Nat} {a : String} {r : Rest} {st : List Obj} :
    readNext fmt names (n + 1) (0xCC :: r) (.name a :: st) = .ok (.name ("( " ++ a ++ ")"), st, r) :=
  readNext_op (op := "") (k := 1) (by decide) (by decide +kernel) (by decide +kernel) (by decide)
    (by simp [applyOp, Obj.repr])

mutual
/-- The first step of reading an expression does not depend on the fuel. -/
theorem firstE (e : Expr) (he : e.Ok fnToken fmt names) (r : Rest) (st : List Obj) (hst : NoAlias st) :
    ∃ x, ∀ n, readNext fmt names (n + 2) (e.compile ++ r) st = x := by
  match e, he with
  | .tru, _ => exact ⟨_, fun n => readNext_const (s := ".T.") (by decide)⟩
  | .fls, _ => exact ⟨_, fun n => readNext_const (s := ".F.") (by decide)⟩
  | .null, _ => exact ⟨_, fun n => readNext_const (s := ".NULL.") (by decide)⟩
  | .int8 d n, he => exact ⟨_, fun n => readNext_int8⟩
  | .int16 d n, he =>
    simp only [Expr.Ok] at he
    simp only [Expr.compile, List.cons_append]
    exact ⟨_, fun n => readNext_int16 he.1 he.2⟩
  | .int32 d n, he =>
    simp only [Expr.Ok] at he
    simp only [Expr.compile, List.cons_append]
    exact ⟨_, fun n => readNext_int32 he.1 he.2⟩
  | .lit c b t, he =>
    simp only [Expr.Ok] at he
    simp only [Expr.compile, List.cons_append]
    exact ⟨_, fun n => readNext_lit he.1 he.2⟩
  | .dstr b, he =>
    simp only [Expr.Ok] at he
    simp only [Expr.compile, List.cons_append, List.append_assoc]
    exact ⟨_, fun n => readNext_dstr hst he⟩
  | .sstr b, he =>
    simp only [Expr.Ok] at he
    simp only [Expr.compile, List.cons_append, List.append_assoc]
    exact ⟨_, fun n => readNext_sstr hst he⟩
  | .ref p i, he =>
    simp only [Expr.Ok] at he
    simp only [Expr.compile, List.cons_append, List.append_assoc]
    cases p with
    | none => exact ⟨_, fun n => readNext_ref (p := .none) hst he.2.1 he.2.2⟩
    | name p j => exact firstP (.name p j) (by simp) he.1 _ st hst
    | call p j as => exact firstP (.call p j as) (by simp) he.1 _ st hst
  | .not e, he =>
    simp only [Expr.Ok] at he
    simp only [Expr.compile, List.append_assoc]
    exact firstE e he _ st hst
  | .paren e, he =>
    simp only [Expr.Ok] at he
    simp only [Expr.compile, List.append_assoc]
    exact firstE e he _ st hst
  | .bin op a b, he =>
    simp only [Expr.Ok] at he
    simp only [Expr.compile, List.append_assoc]
    exact firstE a he.1 _ st hst
  | .short o j a b, he =>
    simp only [Expr.Ok] at he
    simp only [Expr.compile, List.append_assoc]
    exact firstE a he.2.1 _ st hst
  | .fn tok f as, he => exact ⟨_, fun n => readNext_mark⟩
  | .udf p i as, he => exact ⟨_, fun n => readNext_mark⟩
theorem firstP (p : Prefix) (hne : p ≠ .none) (hp : p.Ok fnToken fmt names) (r : Rest) (st : List Obj) (hst : NoAlias st) :
    ∃ x, ∀ n, readNext fmt names (n + 2) (p.compile ++ r) st = x := by
  match p, hp with
  | .none, _ => exact absurd rfl hne
  | .name p i, hp =>
    simp only [Prefix.Ok] at hp
    simp only [Prefix.compile, List.cons_append, List.append_assoc]
    cases p with
    | none => exact ⟨_, fun n => readNext_alias hp.2.1 hp.2.2⟩
    | name p j => exact firstP (.name p j) (by simp) hp.1 _ st hst
    | call p j as => exact firstP (.call p j as) (by simp) hp.1 _ st hst
  | .call p i as, _ => exact ⟨_, fun n => readNext_mark⟩
end

/-- The mark of a short circuit is passed over. -/
theorem readExpr_short (isOr : Bool) (jump : Nat) (hj : jump < 65536) (e : Expr) (he : e.Ok fnToken fmt names) (n : Nat) (r : Rest)
    (st : List Obj) (hst : NoAlias st) :
    readExpr fmt names (n + 4) ((if isOr then 0xF1 else 0xF0) :: (le16 jump ++ (e.compile ++ r))) st =
      readExpr fmt names (n + 4) (e.compile ++ r) st := by
  obtain ⟨x, hx⟩ := firstE (fmt := fmt) e he r st hst
  have h : readNext fmt names (n + 3) ((if isOr then 0xF1 else 0xF0) :: (le16 jump ++ (e.compile ++ r))) st = x := by
    rw [← hx n, readNext]
    have h1 : functions.lookup 0xF0 = none := by decide +kernel
    have h2 : functions.lookup 0xF1 = none := by decide +kernel
    have h3 : operators.lookup 0xF0 = none := by decide +kernel
    have h4 : operators.lookup 0xF1 = none := by decide +kernel
    have h5 : valueConstants.lookup 0xF0 = none := by decide +kernel
    have h6 : valueConstants.lookup 0xF1 = none := by decide +kernel
    cases isOr
    · simp [read1, endExpr, parameterMark, readFunction, h1, h3, readValue, readSimple, h5, readUInt_le16 hj, fmtBytes]
    · simp [read1, endExpr, parameterMark, readFunction, h2, h4, readValue, readSimple, h6, readUInt_le16 hj, fmtBytes]
  rw [readExpr, readExpr, h, ← hx (n + 1)]

mutual
theorem runE (e : Expr) (he : e.Ok fnToken fmt names) (fuel : Nat) (r : Rest) (st : List Obj)
    (hst : NoAlias st) :
    readExpr fmt names (toksE e + (fuel + 2)) (e.compile ++ r) st =
      readExpr fmt names (fuel + 2) r (.name (e.text names) :: st) := by
  match e, he with
  | .tru, _ =>
    simp only [toksE, Expr.compile, Expr.text]
    rw [Nat.add_comm 1]
    exact readExpr_step (readNext_const (by decide)) (by simp)
  | .fls, _ =>
    simp only [toksE, Expr.compile, Expr.text]
    rw [Nat.add_comm 1]
    exact readExpr_step (readNext_const (by decide)) (by simp)
  | .null, _ =>
    simp only [toksE, Expr.compile, Expr.text]
    rw [Nat.add_comm 1]
    exact readExpr_step (readNext_const (by decide)) (by simp)
  | .int8 d n, he =>
    simp only [Expr.Ok] at he
    simp only [toksE, Expr.compile, Expr.text]
    rw [Nat.add_comm 1]
    exact readExpr_step (readNext_int8) (by simp)
  | .int16 d n, he =>
    simp only [Expr.Ok] at he
    simp only [toksE, Expr.compile, Expr.text, List.cons_append]
    rw [Nat.add_comm 1]
    exact readExpr_step (readNext_int16 he.1 he.2) (by simp)
  | .int32 d n, he =>
    simp only [Expr.Ok] at he
    simp only [toksE, Expr.compile, Expr.text, List.cons_append]
    rw [Nat.add_comm 1]
    exact readExpr_step (readNext_int32 he.1 he.2) (by simp)
  | .lit c b t, he =>
    simp only [Expr.Ok] at he
    simp only [toksE, Expr.compile, Expr.text, List.cons_append]
    rw [Nat.add_comm 1]
    exact readExpr_step (readNext_lit he.1 he.2) (by simp)
  | .dstr b, he =>
    simp only [Expr.Ok] at he
    simp only [toksE, Expr.compile, Expr.text, List.cons_append, List.append_assoc]
    rw [Nat.add_comm 1]
    exact readExpr_step (readNext_dstr hst he) (by simp)
  | .sstr b, he =>
    simp only [Expr.Ok] at he
    simp only [toksE, Expr.compile, Expr.text, List.cons_append, List.append_assoc]
    rw [Nat.add_comm 1]
    exact readExpr_step (readNext_sstr hst he) (by simp)
  | .ref p i, he =>
    simp only [Expr.Ok] at he
    simp only [toksE, Expr.compile, Expr.text, List.cons_append, List.append_assoc]
    rw [show toksP p + 1 + (fuel + 2) = toksP p + (fuel + 1 + 2) by omega, runP p he.1 (fuel + 1) _ st hst]
    exact readExpr_step (readNext_ref hst he.2.1 he.2.2) (by simp)
  | .not e, he =>
    simp only [Expr.Ok] at he
    simp only [toksE, Expr.compile, Expr.text, List.append_assoc]
    rw [show toksE e + 1 + (fuel + 2) = toksE e + (fuel + 1 + 2) by omega, runE e he (fuel + 1) _ st hst]
    exact readExpr_step readNext_not (by simp)
  | .paren e, he =>
    simp only [Expr.Ok] at he
    simp only [toksE, Expr.compile, Expr.text, List.append_assoc]
    rw [show toksE e + 1 + (fuel + 2) = toksE e + (fuel + 1 + 2) by omega, runE e he (fuel + 1) _ st hst]
    exact readExpr_step readNext_paren (by simp)
  | .bin op a b, he =>
    simp only [Expr.Ok] at he
    simp only [toksE, Expr.compile, Expr.text, List.append_assoc]
    rw [show toksE a + toksE b + 1 + (fuel + 2) = toksE a + (toksE b + fuel + 1 + 2) by omega,
      runE a he.1 (toksE b + fuel + 1) _ st hst,
      show toksE b + fuel + 1 + 2 = toksE b + (fuel + 1 + 2) by omega,
      runE b he.2 (fuel + 1) _ _ (noAlias_cons_name _ _)]
    exact readExpr_step readNext_bin (by simp)
  | .short isOr jump a b, he =>
    simp only [Expr.Ok] at he
    simp only [toksE, Expr.compile, Expr.text, List.append_assoc, List.cons_append]
    have hb : 0 < toksE b := toksE_pos b
    rw [show toksE a + toksE b + 1 + (fuel + 2) = toksE a + (toksE b + fuel + 1 + 2) by omega,
      runE a he.2.1 (toksE b + fuel + 1) _ st hst,
      show toksE b + fuel + 1 + 2 = (toksE b + fuel - 1) + 4 by omega,
      readExpr_short isOr jump he.1 b he.2.2 _ _ _ (noAlias_cons_name _ _),
      show (toksE b + fuel - 1) + 4 = toksE b + (fuel + 1 + 2) by omega,
      runE b he.2.2 (fuel + 1) _ _ (noAlias_cons_name _ _)]
    cases isOr
    · exact readExpr_step (readNext_bin (op := .and)) (by simp)
    · exact readExpr_step (readNext_bin (op := .or)) (by simp)
  | .fn tok f as, he =>
    simp only [Expr.Ok] at he
    simp only [toksE, Expr.compile, Expr.text, List.cons_append, List.append_assoc]
    rw [show toksA as + 2 + (fuel + 2) = (toksA as + (fuel + 1 + 2)) + 1 by omega,
      readExpr_step (n := toksA as + (fuel + 1 + 2)) readNext_mark (by simp [endExpr]),
      runA as he.2 (fuel + 1) _ _ (noAlias_mark st)]
    rw [readExpr_step (n := fuel + 2) (readNext_fn he.1) (by simp)]
    rw [popParams_names]
    simp only [callText, map_repr_name]
  | .udf p i as, he =>
    simp only [Expr.Ok] at he
    simp only [toksE, Expr.compile, Expr.text, List.cons_append, List.append_assoc]
    rw [show toksA as + toksP p + 2 + (fuel + 2) = (toksA as + (toksP p + fuel + 1 + 2)) + 1 by omega,
      readExpr_step (n := toksA as + (toksP p + fuel + 1 + 2)) readNext_mark (by simp [endExpr]),
      runA as he.2.1 _ _ _ (noAlias_mark st),
      show toksP p + fuel + 1 + 2 = toksP p + (fuel + 1 + 2) by omega,
      runP p he.1 (fuel + 1) _ _ (noAlias_args _ _),
      readExpr_step (n := fuel + 2) (readNext_udf he.2.2.1 he.2.2.2) (by simp)]
    simp only [callText, map_repr_name]
theorem runA (as : Args) (ha : as.Ok fnToken fmt names) (fuel : Nat) (r : Rest) (st : List Obj)
    (hst : NoAlias st) :
    readExpr fmt names (toksA as + (fuel + 2)) (as.compile ++ r) st =
      readExpr fmt names (fuel + 2) r (((as.texts names).map Obj.name).reverse ++ st) := by
  match as, ha with
  | .nil, _ => simp [toksA, Args.compile, Args.texts]
  | .cons e as, ha =>
    simp only [Args.Ok] at ha
    simp only [toksA, Args.compile, Args.texts, List.append_assoc]
    rw [show toksE e + toksA as + (fuel + 2) = toksE e + (toksA as + fuel + 2) by omega,
      runE e ha.1 (toksA as + fuel) _ st hst,
      show toksA as + fuel + 2 = toksA as + (fuel + 2) by omega,
      runA as ha.2 fuel r _ (noAlias_cons_name _ _)]
    simp
theorem runP (p : Prefix) (hp : p.Ok fnToken fmt names) (fuel : Nat) (r : Rest) (st : List Obj)
    (hst : NoAlias st) :
    readExpr fmt names (toksP p + (fuel + 2)) (p.compile ++ r) st =
      readExpr fmt names (fuel + 2) r (aliasesP names p ++ st) := by
  match p, hp with
  | .none, _ => simp [toksP, Prefix.compile, aliasesP]
  | .name p i, hp =>
    simp only [Prefix.Ok] at hp
    simp only [toksP, Prefix.compile, aliasesP, List.cons_append, List.append_assoc]
    rw [show toksP p + 1 + (fuel + 2) = toksP p + (fuel + 1 + 2) by omega, runP p hp.1 (fuel + 1) _ st hst]
    exact readExpr_step (readNext_alias hp.2.1 hp.2.2) (by simp)
  | .call p i as, hp =>
    simp only [Prefix.Ok] at hp
    simp only [toksP, Prefix.compile, aliasesP, List.cons_append, List.append_assoc]
    rw [show toksA as + toksP p + 2 + (fuel + 2) = (toksA as + (toksP p + fuel + 1 + 2)) + 1 by omega,
      readExpr_step (n := toksA as + (toksP p + fuel + 1 + 2)) readNext_mark (by simp [endExpr]),
      runA as hp.2.1 _ _ _ (noAlias_mark st),
      show toksP p + fuel + 1 + 2 = toksP p + (fuel + 1 + 2) by omega,
      runP p hp.1 (fuel + 1) _ _ (noAlias_args _ _),
      readExpr_step (n := fuel + 2) (readNext_udfAlias hp.2.2.1 hp.2.2.2) (by simp)]
    simp
end

mutual
theorem toksE_le (e : Expr) (he : e.Ok fnToken fmt names) : toksE e ≤ e.compile.length := by
  match e, he with
  | .tru, _ => simp [toksE, Expr.compile]
  | .fls, _ => simp [toksE, Expr.compile]
  | .null, _ => simp [toksE, Expr.compile]
  | .int8 d n, _ => simp [toksE, Expr.compile]
  | .int16 d n, _ => simp [toksE, Expr.compile]
  | .int32 d n, _ => simp [toksE, Expr.compile]
  | .lit c b t, _ => simp [toksE, Expr.compile]
  | .dstr b, _ => simp [toksE, Expr.compile]
  | .sstr b, _ => simp [toksE, Expr.compile]
  | .ref p i, he => have := toksP_le p he.1; simp [toksE, Expr.compile]; omega
  | .not e, he => have := toksE_le e he; simp [toksE, Expr.compile]; omega
  | .paren e, he => have := toksE_le e he; simp [toksE, Expr.compile]; omega
  | .bin op a b, he =>
    have := toksE_le a he.1; have := toksE_le b he.2; simp [toksE, Expr.compile]; omega
  | .short _ _ a b, he =>
    have := toksE_le a he.2.1; have := toksE_le b he.2.2; simp [toksE, Expr.compile, le16]; omega
  | .fn tok f as, he =>
    have := toksA_le as he.2
    have : 1 ≤ tok.length := by
      cases tok with
      | nil => simp [Expr.Ok, fnToken] at he
      | cons => simp
    simp [toksE, Expr.compile]; omega
  | .udf p i as, he =>
    have := toksP_le p he.1; have := toksA_le as he.2.1; simp [toksE, Expr.compile]; omega
theorem toksA_le (as : Args) (ha : as.Ok fnToken fmt names) : toksA as ≤ as.compile.length := by
  match as, ha with
  | .nil, _ => simp [toksA]
  | .cons e as, ha =>
    have := toksE_le e ha.1; have := toksA_le as ha.2; simp [toksA, Args.compile]; omega
theorem toksP_le (p : Prefix) (hp : p.Ok fnToken fmt names) : toksP p ≤ p.compile.length := by
  match p, hp with
  | .none, _ => simp [toksP]
  | .name p i, hp => have := toksP_le p hp.1; simp [toksP, Prefix.compile]; omega
  | .call p i as, hp =>
    have := toksP_le p hp.1; have := toksA_le as hp.2.1; simp [toksP, Prefix.compile]; omega
end

theorem readExpr_compile (e : Expr) (he : e.Ok fnToken fmt names) (r : Rest) (fuel : Nat)
    (hf : e.compile.length + 2 ≤ fuel) :
    readExpr fmt names fuel (e.compile ++ 0xFD :: r) [] = .ok (.name (e.text names), r) := by
  have hl := toksE_le e he
  obtain ⟨k, hk⟩ : ∃ k, fuel = toksE e + (k + 2) := ⟨fuel - toksE e - 2, by omega⟩
  rw [hk, runE e he k _ [] (by intro o h; simp at h), readExpr, readNext_end]
  simp [endExpr]

theorem decodeExpr_compile (e : Expr) (he : e.Ok fnToken fmt names) (r : Rest) :
    decodeExpr fmt names (e.compile ++ 0xFD :: r) = .ok (.name (e.text names), r) :=
  readExpr_compile e he r _ (by simp [enough]; omega)

end Model.Fxp
