import Verif.Model.MessageBox
/-!
# C130: message boxes

A message box has the buttons, icon, default button and title asked for, and MESSAGEBOX has the number of the button as its value.
-/
namespace Props
open Model.MessageBox

namespace MessageBoxSpec

/-- The buttons by their numbers: 1 OK, 2 Cancel, 3 Abort, 4 Retry, 5 Ignore, 6 Yes, 7 No. -/
def numbers : Nat → List Int
  | 0 => [1]
  | 1 => [1, 2]
  | 2 => [3, 4, 5]
  | 3 => [6, 7, 2]
  | 4 => [6, 7]
  | _ => [4, 2]

def icons : List Icon := [.noIcon, .critical, .question, .warning, .information]

/-- The button that the Escape key stands for: Cancel, or OK where it is alone; otherwise Escape does nothing. -/
def escape (b : Nat) : Option Int :=
  if 2 ∈ numbers b then some 2 else if numbers b = [1] then some 1 else none

/-- The type of a box: buttons, icon and default button; higher digits have no meaning. -/
def type (b i d : Nat) (k : Int) : Int := b + 16 * i + 256 * d + 1024 * k

/-- What a user sees of a box. -/
structure Shown where
  message : Str
  title : Str
  numbers : List Int
  icon : Option Icon
  default : Option Int
  deriving DecidableEq

def seen (x : Box) : Shown := ⟨x.message, x.title, x.buttons.map (fun b => result (some b)), some x.icon, x.default.map fun b => result (some b)⟩

end MessageBoxSpec
open MessageBoxSpec

namespace MessageBoxAux

theorem flags_eq (b i d : Nat) (hb : b < 6) (hi : i < 5) (hd : d < 3) (k : Int) : (type b i d k % 1024).toNat = b + 16 * i + 256 * d := by
  simp only [type]; omega

theorem masks : ∀ n : Fin 1024, n.1 &&& 15 = n.1 % 16 ∧ n.1 &&& (15 <<< 4) = 16 * (n.1 / 16 % 16) ∧ n.1 >>> 8 = n.1 / 256 := by decide +kernel

theorem low (n : Int) : (n % 1024).toNat < 1024 := by omega

theorem buttons_some : ∀ k, k < 6 ↔ (buttonsOf k).isSome = true
  | 0 | 1 | 2 | 3 | 4 | 5 => by simp [buttonsOf]
  | k + 6 => by simp [buttonsOf]

theorem icon_some (k : Nat) : (iconOf (16 * k)).isSome = true ↔ k < 5 := by
  simp only [iconOf]
  have : (16 * k = 0 ∨ 16 * k = 16 ∨ 16 * k = 32 ∨ 16 * k = 48 ∨ 16 * k = 64) ↔ k < 5 := by omega
  rw [← this]
  by_cases h0 : 16 * k = 0
  · simp [h0]
  · by_cases h1 : 16 * k = 16
    · simp [h1]
    · by_cases h2 : 16 * k = 32
      · simp [h2]
      · by_cases h3 : 16 * k = 48
        · simp [h3]
        · by_cases h4 : 16 * k = 64 <;> simp [h0, h1, h2, h3, h4]

theorem table : ∀ (b : Fin 6) (i : Fin 5) (d : Fin 3), d.1 < (MessageBoxSpec.numbers b).length →
    ∃ bs esc icon, buttonsOf b = some (bs, esc) ∧ iconOf (16 * i) = some icon ∧ some icon = icons[i.1]? ∧
      bs.map (fun x => result (some x)) = MessageBoxSpec.numbers b ∧
      (bs[Nat.min (bs.length - 1) d.1]?).map (fun x => result (some x)) = (MessageBoxSpec.numbers b)[d.1]? ∧
      ((b.1 ≠ 2 ∧ b.1 ≠ 4 ↔ some (result (some esc)) = escape b) ∧ (b.1 = 2 → result (some esc) = 5) ∧ (b.1 = 4 → result (some esc) = 7)) := by
  have h : ∀ (b : Fin 6) (i : Fin 5) (d : Fin 3), d.1 < (MessageBoxSpec.numbers b).length →
      ((buttonsOf b).bind fun p => (iconOf (16 * i)).map fun icon => decide (some icon = icons[i.1]? ∧
      p.1.map (fun x => result (some x)) = MessageBoxSpec.numbers b ∧
      (p.1[Nat.min (p.1.length - 1) d.1]?).map (fun x => result (some x)) = (MessageBoxSpec.numbers b)[d.1]? ∧
      ((b.1 ≠ 2 ∧ b.1 ≠ 4 ↔ some (result (some p.2)) = escape b) ∧ (b.1 = 2 → result (some p.2) = 5) ∧ (b.1 = 4 → result (some p.2) = 7)))) = some true := by decide +kernel
  intro b i d hd
  have := h b i d hd
  cases hb : buttonsOf b with
  | none => rw [hb] at this; cases this
  | some p =>
    cases hi : iconOf (16 * i) with
    | none => rw [hb, hi] at this; cases this
    | some icon =>
      rw [hb, hi] at this
      simp only [Option.bind_some, Option.map_some, Option.some.injEq, decide_eq_true_eq] at this
      exact ⟨p.1, p.2, icon, rfl, rfl, this⟩

/-- The box for given arguments. -/
theorem box_eq (m t : Str) (arg1 arg2 : Val) (b i d : Nat) (hb : b < 6) (hi : i < 5) (hd : d < 3) (hn : d < (MessageBoxSpec.numbers b).length) (k : Int)
    (ha : arguments arg1 arg2 = (.num (type b i d k), .text t)) (timeout : Option Int) :
    ∃ x, box true (.text m) arg1 arg2 timeout = .ok x ∧ seen x = ⟨m, t, MessageBoxSpec.numbers b, icons[i]?, (MessageBoxSpec.numbers b)[d]?⟩ ∧
      ((b ≠ 2 ∧ b ≠ 4 ↔ some (result (some x.escape)) = escape b) ∧ (b = 2 → result (some x.escape) = 5) ∧ (b = 4 → result (some x.escape) = 7)) := by
  obtain ⟨bs, esc, icon, h1, h2, h3, h4, h5, h6⟩ := table ⟨b, hb⟩ ⟨i, hi⟩ ⟨d, hd⟩ hn
  simp only at h1 h2 h3 h4 h5 h6
  have hf := flags_eq b i d hb hi hd k
  have hm := masks ⟨b + 16 * i + 256 * d, by omega⟩
  simp only at hm
  have e1 : (b + 16 * i + 256 * d) % 16 = b := by omega
  have e2 : (b + 16 * i + 256 * d) / 16 % 16 = i := by omega
  have e3 : (b + 16 * i + 256 * d) / 256 = d := by omega
  rw [e1, e2, e3] at hm
  refine ⟨⟨m, t, bs, icon, bs[Nat.min (bs.length - 1) d]?, esc, closing timeout⟩, ?_, ?_, h6⟩
  · simp only [box, ha, flagsOf, hf, hm.1, hm.2.1, hm.2.2, h1, h2]
    simp
  · simp only [seen, h4, h5, h3]

end MessageBoxAux
open MessageBoxAux

/-- C130: the box has the message, title, buttons, icon and default button asked for, whichever of type and title comes first. -/
theorem C130_box (m t : Str) (b i d : Nat) (hb : b < 6) (hi : i < 5) (hd : d < 3) (hn : d < (MessageBoxSpec.numbers b).length) (k : Int)
    (timeout : Option Int) :
    ∃ x y, box true (.text m) (.num (type b i d k)) (.text t) timeout = .ok x ∧ box true (.text m) (.text t) (.num (type b i d k)) timeout = .ok y ∧
      seen x = ⟨m, t, MessageBoxSpec.numbers b, icons[i]?, (MessageBoxSpec.numbers b)[d]?⟩ ∧ seen y = seen x := by
  obtain ⟨x, hx, hs, -⟩ := box_eq m t (.num (type b i d k)) (.text t) b i d hb hi hd hn k (by simp [arguments]) timeout
  obtain ⟨y, hy, hs', -⟩ := box_eq m t (.text t) (.num (type b i d k)) b i d hb hi hd hn k (by simp [arguments]) timeout
  exact ⟨x, y, hx, hy, hs, by rw [hs', hs]⟩

example : (box true (.text "Go on?".toList) (.num 292) (.text "T".toList) none |>.toOption) =
    some ⟨"Go on?".toList, "T".toList, [.yes, .no], .question, some .no, .no, none⟩ := by decide +kernel

/-- C130: the value tells which button was pressed, and -1 stands for none. -/
theorem C130_result (x y : Option Button) (h : result x = result y) : x = y := by
  rcases x with - | x <;> rcases y with - | y
  · rfl
  · cases y <;> cases h
  · cases x <;> cases h
  · cases x <;> cases y <;> first | rfl | cases h

example : result (some .no) = 7 ∧ result none = -1 := by decide

/-- C130, exactly: types other than those of the documentation are an error: the digits of the buttons and of the icon have to be among
them. -/
theorem C130_types_iff (m t : Str) (n : Int) (timeout : Option Int) :
    (∃ x, box true (.text m) (.num n) (.text t) timeout = .ok x) ↔ n % 16 < 6 ∧ n / 16 % 16 < 5 := by
  have hm := masks ⟨(n % 1024).toNat, low n⟩
  simp only at hm
  have h1 := buttons_some ((n % 1024).toNat &&& 15)
  have h2 := icon_some ((n % 1024).toNat / 16 % 16)
  rw [← hm.2.1] at h2
  rw [hm.1] at h1
  have e1 : (n % 1024).toNat % 16 < 6 ↔ n % 16 < 6 := by omega
  have e2 : (n % 1024).toNat / 16 % 16 < 5 ↔ n / 16 % 16 < 5 := by omega
  rw [← e1, ← e2, h1, ← h2]
  simp only [box, arguments, flagsOf, hm.1, Bool.true_eq_false, if_false]
  cases buttonsOf ((n % 1024).toNat % 16) with
  | none => simp
  | some p =>
    cases iconOf ((n % 1024).toNat &&& 15 <<< 4) with
    | none => simp
    | some i => simp

example : (box true (.text []) (.num 6) (.text []) none).toOption = none ∧ (box true (.text []) (.num (4096 + 36)) (.text []) none).toOption.isSome := by
  decide +kernel

/-- C130, exactly: Escape does what it does in FoxPro except in boxes with Abort, Retry, Ignore and with Yes, No, which it closes with
Ignore and No. -/
theorem C130_escape_iff (m t : Str) (b i d : Nat) (hb : b < 6) (hi : i < 5) (hd : d < 3) (hn : d < (MessageBoxSpec.numbers b).length) (k : Int)
    (timeout : Option Int) (x : Box) (hx : box true (.text m) (.num (type b i d k)) (.text t) timeout = .ok x) :
    (some (result (some x.escape)) = escape b ↔ b ≠ 2 ∧ b ≠ 4) ∧ (b = 2 → result (some x.escape) = 5) ∧ (b = 4 → result (some x.escape) = 7) := by
  obtain ⟨y, hy, -, he⟩ := box_eq m t (.num (type b i d k)) (.text t) b i d hb hi hd hn k (by simp [arguments]) timeout
  rw [hx] at hy
  cases hy
  exact ⟨he.1.symm, he.2⟩

example : MessageBoxSpec.escape 4 = none ∧ ((box true (.text []) (.num 4) (.text []) none).toOption.map fun x => result (some x.escape)) = some 7 := by decide +kernel

/-- C130: a box with a time limit stays a thousand times as long as asked for. -/
theorem C130_timeout_fails (pyside : Bool) (msg arg1 arg2 : Val) (t : Int) (ht : t ≠ 0) (x : Box) (hx : box pyside msg arg1 arg2 (some t) = .ok x) :
    x.closes = some (1000 * t) ∧ x.closes ≠ some t := by
  have h : x.closes = some (t * 1000) := by
    simp only [box, closing, if_neg ht] at hx
    split at hx
    · cases hx
    · split at hx
      · cases hx
      · split at hx
        · cases hx
        · split at hx
          · cases hx
          · split at hx
            · cases hx; rfl
            · cases hx
  refine ⟨by rw [h, Int.mul_comm], by rw [h]; simp; omega⟩

example : (box true (.text []) (.num 0) (.text []) (some 5000)).toOption.bind (·.closes) = some 5000000 := by decide +kernel

/-- C130: messages that are no texts are an error, and so is every message box without PySide. -/
theorem C130_message_fails (msg arg1 arg2 : Val) (timeout : Option Int) :
    (box false msg arg1 arg2 timeout).toOption = none ∧ ((∀ s, msg ≠ .text s) → (box true msg arg1 arg2 timeout).toOption = none) := by
  refine ⟨rfl, fun h => ?_⟩
  simp only [box, Bool.true_eq_false, if_false]
  split
  · rfl
  · split
    · rfl
    · split
      · rfl
      · split
        · rename_i m t _
          exact absurd rfl (h m)
        · rfl

example : box true (.num 5) .none .none none = .error .typeError := rfl

end Props
