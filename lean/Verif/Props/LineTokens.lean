import Verif.Model.LineTokens
/-!
# C137: `&&` in texts

FoxPro: a comment begins at the first `&&` that is not in a string constant.
-/
namespace Props
open Model.LineTokens

namespace LineTokensSpec

/-- A line is made of string constants and other text. -/
inductive Piece where
  | text (s : Str)
  | str (q : Char) (content : Str)

def Piece.Ok : Piece → Prop
  | .text s => '&' ∉ s ∧ '"' ∉ s ∧ '\'' ∉ s
  | .str q s => (q = '"' ∨ q = '\'') ∧ q ∉ s

def Piece.render : Piece → Str
  | .text s => s
  | .str q s => q :: s ++ [q]

def render (ps : List Piece) : Str := ps.flatMap Piece.render

/-- Two `&` in a row. -/
def Double (s : Str) : Prop := ∃ a b, s = a ++ '&' :: '&' :: b

/-- A comment at the end of a line, or none. -/
def behind : Option Str → Str
  | none => []
  | some c => '&' :: '&' :: c

/-- A string constant in which there is `&&`. -/
def Piece.Cut : Piece → Prop
  | .text _ => False
  | .str _ s => Double s

end LineTokensSpec
open LineTokensSpec

namespace LineTokensAux

theorem split_skip (c : Char) (s : Str) (h : c ≠ '&') : split (c :: s) = (c :: (split s).1, (split s).2) := by
  rw [split]
  rintro s' h1 _
  exact absurd h1 h

theorem split_amp (c : Char) (s : Str) (h : c ≠ '&') :
    split ('&' :: c :: s) = ('&' :: c :: (split s).1, (split s).2) := by
  rw [split, split_skip c s h]
  rintro s' _ h2
  cases h2
  exact absurd rfl h

/-- No `&` at all in front. -/
theorem split_plain (s t : Str) (h : '&' ∉ s) : split (s ++ t) = (s ++ (split t).1, (split t).2) := by
  induction s with
  | nil => simp
  | cons c s ih =>
    simp only [List.mem_cons, not_or] at h
    rw [List.cons_append, split_skip c _ (fun e => h.1 e.symm), ih h.2]
    rfl

/-- No `&&` in a text in front of a character that is no `&`. -/
theorem split_single (q : Char) (hq : q ≠ '&') : ∀ (n : Nat) (s t : Str), s.length ≤ n → ¬Double s →
    split (s ++ q :: t) = (s ++ q :: (split t).1, (split t).2) := by
  intro n
  induction n with
  | zero =>
    intro s t hn _
    cases s with
    | nil => rw [List.nil_append, split_skip q t hq]; rfl
    | cons c s => simp at hn
  | succ n ih =>
    intro s t hn hd
    cases s with
    | nil => rw [List.nil_append, split_skip q t hq]; rfl
    | cons c s =>
      have hn' : s.length ≤ n := by simpa using hn
      have hd' : ¬Double s := fun ⟨a, b, h⟩ => hd ⟨c :: a, b, by rw [h]; rfl⟩
      by_cases hc : c = '&'
      · subst hc
        cases s with
        | nil =>
          rw [List.cons_append, List.nil_append, split_amp q t hq]; rfl
        | cons d s =>
          have hdd : d ≠ '&' := fun e => hd ⟨[], s, by rw [e]; rfl⟩
          have hd2 : ¬Double s := fun ⟨a, b, h⟩ => hd' ⟨d :: a, b, by rw [h]; rfl⟩
          have hn2 : s.length ≤ n := by simp only [List.length_cons] at hn'; omega
          rw [List.cons_append, List.cons_append, split_amp d _ hdd, ih s t hn2 hd2]
          rfl
      · rw [List.cons_append, split_skip c _ hc, ih s t hn' hd']
        rfl

/-- The statement ends at the first `&&` at the latest. -/
theorem split_double (a b : Str) : (split (a ++ '&' :: '&' :: b)).1.length ≤ a.length := by
  suffices ∀ (n : Nat) (a : Str), a.length ≤ n → (split (a ++ '&' :: '&' :: b)).1.length ≤ a.length from this _ a (Nat.le_refl _)
  intro n
  induction n with
  | zero =>
    intro a ha
    cases a with
    | nil => simp [split]
    | cons c a => simp at ha
  | succ n ih =>
    intro a ha
    cases a with
    | nil => simp [split]
    | cons c a =>
      have ha' : a.length ≤ n := by simpa using ha
      rw [List.cons_append]
      unfold split
      split
      · rename_i h; cases h
      · simp
      · rename_i h
        cases h
        simpa using ih a ha'

end LineTokensAux
open LineTokensAux

namespace LineTokensDemo
/-- `x = "a" && note` -/
def good : List Piece := [.text "x = ".toList, .str '"' "a & b".toList, .text " ".toList]
/-- `x = "a && b"` -/
def cut : List Piece := [.text "x = ".toList, .str '"' "a && b".toList]
end LineTokensDemo
open LineTokensDemo

/-- **C137**: the parser gets the statement of a line, with or without a comment behind it, exactly if there is no `&&` in a string
constant. -/
theorem C137_statement_iff (ps : List Piece) (hps : ∀ p ∈ ps, p.Ok) (comment : Option Str) :
    statement (render ps ++ behind comment) = render ps ↔ ∀ p ∈ ps, ¬p.Cut := by
  generalize hr : behind comment = r
  have hr1 : statement r = [] := by
    cases comment with
    | none => rw [← hr]; rfl
    | some c => rw [← hr]; rfl
  unfold statement at *
  induction ps with
  | nil => simp [render, hr1]
  | cons p ps ih =>
    have ih' : (split (render ps ++ r)).1 = render ps ↔ ∀ p ∈ ps, ¬p.Cut := ih (fun q hq => hps q (List.mem_cons_of_mem _ hq))
    have hp := hps p List.mem_cons_self
    have happ : render (p :: ps) ++ r = p.render ++ (render ps ++ r) := by simp [render]
    have hren : render (p :: ps) = p.render ++ render ps := by simp [render]
    rw [happ, hren]
    cases p with
    | text s =>
      change (split (s ++ _)).1 = s ++ _ ↔ _
      rw [split_plain s _ hp.1, List.append_cancel_left_eq, ih']
      simp [Piece.Cut]
    | str q s =>
      have hq : q ≠ '&' := by
        rcases hp.1 with h | h <;> (rw [h]; decide)
      have hcons : (Piece.str q s).render ++ (render ps ++ r) = q :: (s ++ q :: (render ps ++ r)) := by simp [Piece.render]
      rw [hcons, split_skip q _ hq]
      by_cases hd : Double s
      · refine ⟨fun h => ?_, fun h => absurd hd (h _ List.mem_cons_self)⟩
        obtain ⟨a, b, rfl⟩ := hd
        have hle := split_double a (b ++ q :: (render ps ++ r))
        have hlen := congrArg List.length h
        simp only [List.append_assoc, List.cons_append, Piece.render, List.length_cons, List.length_append, List.length_nil] at hlen hle
        omega
      · rw [split_single q hq s.length s _ (Nat.le_refl _) hd]
        have : (Piece.str q s).render ++ render ps = q :: (s ++ q :: render ps) := by simp [Piece.render]
        rw [this]
        simp only [List.cons.injEq, true_and, List.append_cancel_left_eq]
        rw [ih']
        simp [Piece.Cut, hd]

example : (∀ p ∈ good, p.Ok) ∧ (∀ p ∈ good, ¬p.Cut) := by
  constructor
  · intro p hp
    simp only [good, List.mem_cons, List.not_mem_nil, or_false] at hp
    rcases hp with rfl | rfl | rfl
    · exact ⟨by decide, by decide, by decide⟩
    · exact ⟨.inl rfl, by decide⟩
    · exact ⟨by decide, by decide, by decide⟩
  · intro p hp hc
    have := (C137_statement_iff good (by
      intro p hp
      simp only [good, List.mem_cons, List.not_mem_nil, or_false] at hp
      rcases hp with rfl | rfl | rfl
      · exact ⟨by decide, by decide, by decide⟩
      · exact ⟨.inl rfl, by decide⟩
      · exact ⟨by decide, by decide, by decide⟩) (some "note".toList)).mp (by decide +kernel) p hp
    exact this hc

example : statement "x = \"a && b\"".toList = "x = \"a ".toList := by decide +kernel

/-- **C137 fails**: of a string constant with `&&` the closing delimiter is lost, whatever comes before it in the line. -/
theorem C137_cut_fails (before after : List Piece) (q : Char) (s : Str) (hs : Double s) :
    ∀ r, ¬(render (before ++ [.str q s]) <+: statement (render (before ++ .str q s :: after) ++ r)) := by
  obtain ⟨a, b, rfl⟩ := hs
  intro r h
  have hle := split_double (render before ++ q :: a) (b ++ [q] ++ render after ++ r)
  have e : render (before ++ .str q (a ++ '&' :: '&' :: b) :: after) ++ r =
      (render before ++ q :: a) ++ '&' :: '&' :: (b ++ [q] ++ render after ++ r) := by simp [render, Piece.render]
  rw [e] at h
  have hlen := h.length_le
  unfold statement at hlen
  simp only [render, Piece.render, List.flatMap_append, List.flatMap_cons, List.flatMap_nil, List.length_append, List.length_cons,
    List.length_nil] at hlen hle
  omega

example : Double "a && b".toList :=
  ⟨"a ".toList, " b".toList, rfl⟩

end Props
