import Verif.Model.Encodings
/-!
# C153: programs in all code pages
-/
namespace Props

namespace EncodingsSpec

/-- The characters of Windows-1252. -/
def Western (c : Char) : Prop :=
  c.toNat < 128 ∨ (160 ≤ c.toNat ∧ c.toNat < 256) ∨ c ∈ "€‚ƒ„…†‡ˆ‰Š‹ŒŽ‘’“”•–—˜™š›œžŸ".toList

instance (c : Char) : Decidable (Western c) := by unfold Western; exact inferInstance

/-- The bytes 128 to 159 of Windows-1252. -/
def middle : List (Nat × Char) :=
  [(128, '€'), (130, '‚'), (131, 'ƒ'), (132, '„'), (133, '…'), (134, '†'), (135, '‡'), (136, 'ˆ'), (137, '‰'),
    (138, 'Š'), (139, '‹'), (140, 'Œ'), (142, 'Ž'), (145, '‘'), (146, '’'), (147, '“'), (148, '”'), (149, '•'), (150, '–'),
    (151, '—'), (152, '˜'), (153, '™'), (154, 'š'), (155, '›'), (156, 'œ'), (158, 'ž'), (159, 'Ÿ')]

/-- The bytes of Windows-1252. -/
def Page1252 (b : Nat) (c : Char) : Prop := ((b < 128 ∨ (160 ≤ b ∧ b < 256)) ∧ c.toNat = b) ∨ (b, c) ∈ middle

/-- A file is read in a code page byte by byte. -/
inductive Reads (page : Nat → Char → Prop) : List Nat → List Char → Prop
  | nil : Reads page [] []
  | cons {b c bs cs} : page b c → Reads page bs cs → Reads page (b :: bs) (c :: cs)

/-- A byte that continues a character. -/
def cont (b : Nat) : Prop := 128 ≤ b ∧ b < 192

/-- The bytes of a number in UTF-8 as the standard describes them: the fewest bytes that have room for it. -/
inductive Utf8 : Nat → List Nat → Prop
  | one (a : Nat) : a < 128 → Utf8 a [a]
  | two (a b n : Nat) : 192 ≤ a → a < 224 → cont b → n = (a - 192) * 64 + (b - 128) → 128 ≤ n → Utf8 n [a, b]
  | three (a b c n : Nat) : 224 ≤ a → a < 240 → cont b → cont c →
      n = ((a - 224) * 64 + (b - 128)) * 64 + (c - 128) → 2048 ≤ n → Utf8 n [a, b, c]
  | four (a b c d n : Nat) : 240 ≤ a → a < 248 → cont b → cont c → cont d →
      n = (((a - 240) * 64 + (b - 128)) * 64 + (c - 128)) * 64 + (d - 128) → 65536 ≤ n → Utf8 n [a, b, c, d]

/-- A text in UTF-8. -/
inductive Utf8Text : List Char → List Nat → Prop
  | nil : Utf8Text [] []
  | cons (c : Char) (bs : List Nat) (cs : List Char) (rest : List Nat) :
      Utf8 c.toNat bs → Utf8Text cs rest → Utf8Text (c :: cs) (bs ++ rest)

/-- The program that is translated: a header, and the text without carriage returns. -/
def program (text : List Char) : List Char := "procedure _program_main\n".toList ++ text.filter (· ≠ '\r')

/-- The output file for a program: the translation in UTF-8 after a line that says so. -/
def Converts (translate : List Char → Option (List Char)) (text : List Char) (out : List Nat) : Prop :=
  ∃ py, translate (program text) = some py ∧ Utf8Text ("# coding=utf-8\n".toList ++ py) out

end EncodingsSpec

namespace EncodingsAux
open Model.Encodings EncodingsSpec

theorem utf8Char_spec (c : Char) : Utf8 c.toNat (utf8Char c) := by
  have hv : c.toNat < 0x110000 := by
    have := c.valid
    simp only [UInt32.isValidChar, Nat.isValidChar] at this
    show c.val.toNat < _
    omega
  unfold utf8Char
  simp only
  split
  · exact .one _ (by omega)
  · split
    · exact .two _ _ _ (by omega) (by omega) ⟨by omega, by omega⟩ (by omega) (by omega)
    · split
      · exact .three _ _ _ _ (by omega) (by omega) ⟨by omega, by omega⟩ ⟨by omega, by omega⟩ (by omega) (by omega)
      · exact .four _ _ _ _ _ (by omega) (by omega) ⟨by omega, by omega⟩ ⟨by omega, by omega⟩ ⟨by omega, by omega⟩
          (by omega) (by omega)

theorem utf8_spec (s : List Char) : Utf8Text s (utf8 s) := by
  induction s with
  | nil => exact .nil
  | cons c cs ih => exact .cons _ _ _ _ (utf8Char_spec c) ih

theorem utf8_det {n : Nat} {a : List Nat} (h : Utf8 n a) : ∀ {m : Nat} {b r s : List Nat}, Utf8 m b → a ++ r = b ++ s →
    n = m ∧ a = b ∧ r = s := by
  intro m b r s h' e
  cases h <;> cases h' <;> simp only [cont, List.cons_append, List.nil_append, List.cons.injEq] at * <;>
    first
    | omega
    | (refine ⟨by omega, ?_, ?_⟩ <;> simp_all)

theorem toNat_inj {c d : Char} (h : c.toNat = d.toNat) : c = d := Char.ext (UInt32.toNat_inj.1 h)

theorem utf8Text_inj {s : List Char} {bs : List Nat} (h : Utf8Text s bs) : ∀ {t : List Char}, Utf8Text t bs → s = t := by
  induction h with
  | nil =>
    intro t ht
    generalize hb : ([] : List Nat) = bs at ht
    cases ht with
    | nil => rfl
    | cons c b cs rest hc hr => cases hc <;> simp at hb
  | cons c b cs rest hc hr ih =>
    intro t ht
    generalize hb : b ++ rest = bs at ht
    cases ht with
    | nil => cases hc <;> simp at hb
    | cons c' b' cs' rest' hc' hr' =>
      obtain ⟨h1, _, h3⟩ := utf8_det hc hc' hb
      subst h3
      rw [toNat_inj h1, ih hr']

theorem high_mem : ∀ n ∈ cp1252High, n = 0 ∨ Char.ofNat n ∈ "€‚ƒ„…†‡ˆ‰Š‹ŒŽ‘’“”•–—˜™š›œžŸ".toList := by decide +kernel

theorem mem_high : ∀ c ∈ "€‚ƒ„…†‡ˆ‰Š‹ŒŽ‘’“”•–—˜™š›œžŸ".toList, ∃ b ∈ List.range 256, cp1252 b = some c := by decide +kernel

theorem ofNat_toNat_small {b : Nat} (h : b < 256) : (Char.ofNat b).toNat = b := by
  have : b.isValidChar := by simp [Nat.isValidChar]; omega
  simp only [Char.ofNat, this, dif_pos, Char.toNat]
  show (Char.ofNatAux b this).val.toNat = b
  simp [Char.ofNatAux]

theorem western_of {b : Nat} {c : Char} (h : cp1252 b = some c) : Western c := by
  unfold cp1252 at h
  split at h
  · rename_i hb
    cases h
    rw [Western, ofNat_toNat_small (by omega)]
    omega
  · split at h
    · cases h
    · cases h
    · rename_i n hn0 hn
      cases h
      rcases high_mem n (List.mem_of_getElem? hn) with h0 | h0
      · exact absurd h0 (by intro h; subst h; exact hn0 rfl)
      · exact .inr (.inr h0)

theorem of_western {c : Char} (h : Western c) : ∃ b ∈ List.range 256, cp1252 b = some c := by
  rcases h with h | h | h
  · exact ⟨c.toNat, by simp; omega, by rw [cp1252, if_pos (.inl h), Char.ofNat_toNat]⟩
  · exact ⟨c.toNat, by simp; omega, by rw [cp1252, if_pos (.inr h), Char.ofNat_toNat]⟩
  · exact mem_high c h

theorem decode_reads (cp : CodePage) (bs : List Nat) (s : List Char) :
    decode cp bs = some s ↔ Reads (fun b c => cp b = some c) bs s := by
  induction bs generalizing s with
  | nil =>
    rw [decode]
    constructor
    · intro h; cases h; exact .nil
    · intro h; cases h; rfl
  | cons b bs ih =>
    rw [decode]
    constructor
    · intro h
      cases hc : cp b with
      | none => simp [hc] at h
      | some c =>
        cases hr : decode cp bs with
        | none => simp [hc, hr] at h
        | some cs =>
          simp only [hc, hr, Option.some.injEq] at h
          rw [← h]
          exact .cons hc ((ih cs).mp hr)
    · intro h
      cases h with
      | cons hc hr => rw [hc, (ih _).mpr hr]

theorem page_high : ∀ k, k < 32 → ∀ c, cp1252 (128 + k) = some c ↔ Page1252 (128 + k) c := by
  have h1 : ∀ k, k < 32 → (cp1252 (128 + k)).all (fun c => decide ((128 + k, c) ∈ middle)) = true := by decide +kernel
  have h2 : ∀ q ∈ middle, cp1252 q.1 = some q.2 := by decide +kernel
  intro k hk c
  constructor
  · intro h
    have := h1 k hk
    rw [h] at this
    exact .inr (of_decide_eq_true this)
  · rintro (⟨h, _⟩ | h)
    · omega
    · exact h2 _ h

theorem page_iff (b : Nat) (c : Char) : cp1252 b = some c ↔ Page1252 b c := by
  by_cases h : b < 128 ∨ (160 ≤ b ∧ b < 256)
  · rw [cp1252, if_pos h, Option.some.injEq]
    have hb : b < 256 := by omega
    constructor
    · rintro rfl; exact .inl ⟨h, ofNat_toNat_small hb⟩
    · rintro (⟨_, hc⟩ | hm)
      · rw [← hc, Char.ofNat_toNat]
      · exfalso
        simp only [middle, List.mem_cons, Prod.mk.injEq, List.not_mem_nil, or_false] at hm
        omega
  · by_cases hk : b < 256
    · obtain ⟨k, rfl⟩ : ∃ k, b = 128 + k := ⟨b - 128, by omega⟩
      exact page_high k (by omega) c
    · constructor
      · intro hc
        rw [cp1252, if_neg h, List.getElem?_eq_none (by simp [cp1252High]; omega)] at hc
        cases hc
      · rintro (⟨h', _⟩ | hm)
        · exact absurd h' h
        · exfalso
          simp only [middle, List.mem_cons, Prod.mk.injEq, List.not_mem_nil, or_false] at hm
          omega

theorem decode_1252 (bs : List Nat) (s : List Char) : decode cp1252 bs = some s ↔ Reads Page1252 bs s := by
  have : (fun b c => cp1252 b = some c) = Page1252 := by funext b c; exact propext (page_iff b c)
  rw [decode_reads, this]

theorem byteOf_iff (c : Char) : (byteOf cp1252 c).isSome ↔ Western c := by
  rw [byteOf, List.find?_isSome]
  constructor
  · rintro ⟨b, _, hb⟩; exact western_of (eq_of_beq hb)
  · intro h
    obtain ⟨b, hb, e⟩ := of_western h
    exact ⟨b, hb, by rw [e]; exact beq_self_eq_true _⟩

theorem encode_iff (s : List Char) : (encode cp1252 s).isSome ↔ ∀ c ∈ s, Western c := by
  induction s with
  | nil => simp [encode]
  | cons c cs ih =>
    rw [List.forall_mem_cons, ← ih, ← byteOf_iff, encode]
    cases byteOf cp1252 c <;> cases encode cp1252 cs <;> simp

theorem decode_western {bs : List Nat} {s : List Char} (h : decode cp1252 bs = some s) : ∀ c ∈ s, Western c := by
  induction bs generalizing s with
  | nil => cases h; simp
  | cons b bs ih =>
    simp only [decode] at h
    cases hc : cp1252 b with
    | none => rw [hc] at h; cases h
    | some c =>
      cases hr : decode cp1252 bs with
      | none => rw [hc, hr] at h; cases h
      | some cs =>
        rw [hc, hr] at h
        cases h
        intro x hx
        rcases List.mem_cons.1 hx with rfl | hx
        · exact western_of hc
        · exact ih hr x hx

theorem decode_none {cp : CodePage} {bs : List Nat} {b : Nat} (hb : b ∈ bs) (h : cp b = none) : decode cp bs = none := by
  induction bs with
  | nil => cases hb
  | cons a as ih =>
    simp only [decode]
    rcases List.mem_cons.1 hb with rfl | hb
    · rw [h]
    · rw [ih hb]
      cases cp a <;> rfl

theorem header_western : ∀ c ∈ "procedure _program_main\n".toList, Western c := by decide +kernel

theorem append_western {hdr : List Char} (hh : ∀ c ∈ hdr, Western c) (s : List Char) :
    (∀ c ∈ hdr ++ s.filter (· ≠ '\r'), Western c) ↔ ∀ c ∈ s, Western c := by
  constructor
  · intro h c hc
    by_cases hr : c = '\r'
    · subst hr; exact .inl (by decide)
    · exact h c (by simp [hc, hr])
  · intro h c hc
    simp only [List.mem_append, List.mem_filter] at hc
    rcases hc with hc | hc
    · exact hh c hc
    · exact h c hc.1

theorem program_western (s : List Char) : (∀ c ∈ program s, Western c) ↔ ∀ c ∈ s, Western c :=
  append_western header_western s

theorem convertText_eq (t : Translator) (cp : CodePage) (text : List Char) (out : List Nat) :
    convertText t cp text = some out ↔
      ∃ tokens, t.preprocess cp text = some tokens ∧ (∀ c ∈ tokens, Western c) ∧
        ∃ py, t.translate (program tokens) = some py ∧ out = utf8 ("# coding=utf-8\n".toList ++ py) := by
  unfold convertText
  cases hp : t.preprocess cp text with
  | none => simp
  | some tokens =>
    have hx := (program_western tokens).symm.trans (encode_iff (program tokens)).symm
    have hy : "procedure _program_main\n".toList ++ tokens.filter (fun x => decide (x ≠ '\r')) = program tokens := by
      unfold program; rfl
    simp only [hy, Option.some.injEq, exists_eq_left', hx]
    generalize program tokens = d
    generalize "# coding=utf-8\n".toList = hdr
    cases encode cp1252 d with
    | none => simp
    | some bs =>
      cases t.translate d with
      | none => simp
      | some py => simp [eq_comm]

end EncodingsAux

open Model.Encodings EncodingsSpec EncodingsAux

/-- **C153.** A program in a code page is converted exactly if its characters after preprocessing are all in
Windows-1252 (and the preprocessor and the translation accept it). -/
theorem C153_iff (t : Translator) (cp : CodePage) (file : List Nat) :
    (∃ out, convertFile t cp file = some out) ↔
      ∃ text tokens py, Reads (fun b c => cp b = some c) file text ∧ t.preprocess cp text = some tokens ∧
        t.translate (program tokens) = some py ∧ ∀ c ∈ tokens, Western c := by
  simp only [← decode_reads]
  unfold convertFile
  cases hd : decode cp file with
  | none => simp
  | some text =>
    simp only [Option.bind_some, convertText_eq, Option.some.injEq]
    constructor
    · rintro ⟨out, tokens, h1, h2, py, h3, _⟩
      exact ⟨text, tokens, py, rfl, h1, h3, h2⟩
    · rintro ⟨_, tokens, py, rfl, h1, h3, h2⟩
      exact ⟨_, tokens, h1, h2, py, h3, rfl⟩

/-- If a program is converted, then to its translation in UTF-8, with all characters; and a file is the UTF-8
form of one text only, so that Python reads what was written. -/
theorem C153_output (t : Translator) (cp : CodePage) (file out : List Nat) (h : convertFile t cp file = some out) :
    ∃ text tokens, Reads (fun b c => cp b = some c) file text ∧ t.preprocess cp text = some tokens ∧ Converts t.translate tokens out ∧
      ∀ s s', Utf8Text s out → Utf8Text s' out → s = s' := by
  simp only [← decode_reads]
  unfold convertFile at h
  cases hd : decode cp file with
  | none => rw [hd] at h; cases h
  | some text =>
    rw [hd] at h
    obtain ⟨tokens, h1, _, py, h3, rfl⟩ := (convertText_eq ..).1 h
    exact ⟨text, tokens, rfl, h1, ⟨py, h3, utf8_spec _⟩, fun s s' hs hs' => utf8Text_inj hs hs'⟩

/-- Programs in Windows-1252, the default, are converted, if preprocessing adds no other characters. -/
theorem C153_western_partial (t : Translator) (file : List Nat) (text tokens py : List Char)
    (hd : Reads Page1252 file text) (hp : t.preprocess cp1252 text = some tokens)
    (hi : ∀ c ∈ tokens, c ∈ text ∨ Western c) (ht : t.translate (program tokens) = some py) :
    ∃ out, convertFile t cp1252 file = some out ∧ Converts t.translate tokens out := by
  rw [← decode_1252] at hd
  have hw : ∀ c ∈ tokens, Western c := fun c hc => (hi c hc).elim (decode_western hd c) id
  refine ⟨utf8 ("# coding=utf-8\n".toList ++ py), ?_, py, ht, utf8_spec _⟩
  rw [convertFile, hd]
  exact (convertText_eq ..).2 ⟨tokens, hp, hw, py, ht, rfl⟩

/-- A preprocessor and a translation that change nothing. -/
def EncodingsDemo.same : Translator := ⟨fun _ s => some s, some⟩
/-- The Cyrillic code page 1251, in part. -/
def EncodingsDemo.cyrillic : CodePage := fun b =>
  if b < 128 then some (Char.ofNat b) else if 192 ≤ b ∧ b < 256 then some (Char.ofNat (b + 848)) else none

/-- `? '€'` -/
example : Reads Page1252 [63, 32, 39, 0x80, 39] "? '€'".toList := (decode_1252 _ _).mp (by decide +kernel)
example : convertFile EncodingsDemo.same cp1252 [0x80] = some (utf8 "# coding=utf-8\nprocedure _program_main\n€".toList) := by
  decide +kernel
example : utf8 "€".toList = [0xE2, 0x82, 0xAC] := by decide +kernel

/-- A program with a character that Windows-1252 does not have is not converted, whatever code page is given
for it: the option is of no use for such programs. -/
theorem C153_other_fails (t : Translator) (cp : CodePage) (file : List Nat) (text tokens : List Char) (c : Char)
    (hd : Reads (fun b c => cp b = some c) file text) (hp : t.preprocess cp text = some tokens) (hc : c ∈ tokens) (hw : ¬ Western c) :
    convertFile t cp file = none := by
  cases h : convertFile t cp file with
  | none => rfl
  | some out =>
    obtain ⟨text', tokens', _, h1, h2, _, h3⟩ := (C153_iff t cp file).1 ⟨out, h⟩
    rw [← decode_reads] at hd h1
    rw [hd] at h1; cases h1
    rw [hp] at h2; cases h2
    exact absurd (h3 c hc) hw

example : decode EncodingsDemo.cyrillic [63, 32, 39, 0xC4, 0xE0, 39] = some "? 'Да'".toList ∧ ¬ Western 'Д' := by
  decide +kernel

/-- With the default code page, a file with one of the bytes 129, 141, 143, 144 or 157, which FoxPro takes for
characters, is not converted, even if they are in a comment. -/
theorem C153_bytes_fails (t : Translator) (file : List Nat) (b : Nat) (hb : b ∈ [129, 141, 143, 144, 157]) (hm : b ∈ file) :
    convertFile t cp1252 file = none := by
  have : cp1252 b = none := by
    have : ∀ b ∈ [129, 141, 143, 144, 157], cp1252 b = none := by decide +kernel
    exact this b hb
  rw [convertFile, decode_none hm this]; rfl

example : (129 : Nat) ∈ [42, 32, 129, 13, 10] := by decide

/-- The option `--profile` makes every conversion fail. -/
theorem C153_profile_fails (t : Translator) (a : Args) (out : List Nat) (hp : a.profile = true)
    (_ : main t { a with profile := false } = some out) : main t a = none := by
  rw [main, if_pos hp]

example : main EncodingsDemo.same ⟨false, cp1252, [0x3f]⟩ = some (utf8 "# coding=utf-8\nprocedure _program_main\n?".toList) := by
  decide +kernel

/-- Without it the code page given is the one used. -/
theorem C153_main (t : Translator) (a : Args) (text tokens py : List Char) (hp : a.profile = false)
    (hd : Reads (fun b c => a.encoding b = some c) a.infile text) (hpre : t.preprocess a.encoding text = some tokens)
    (hw : ∀ c ∈ tokens, Western c) (ht : t.translate (program tokens) = some py) :
    ∃ out, main t a = some out ∧ Converts t.translate tokens out := by
  rw [← decode_reads] at hd
  refine ⟨utf8 ("# coding=utf-8\n".toList ++ py), ?_, py, ht, utf8_spec _⟩
  rw [main, if_neg (by simp [hp]), convertFile, hd]
  exact (convertText_eq ..).2 ⟨tokens, hpre, hw, py, ht, rfl⟩

example : decode EncodingsDemo.cyrillic [63, 32, 49] = some "? 1".toList ∧ ∀ c ∈ "? 1".toList, Western c := by decide +kernel

end Props
