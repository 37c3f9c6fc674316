import Verif.Model.Assert
/-!
# C161: ASSERT
-/
namespace Props

namespace AssertSpec
open Model.Assert (Prog)

variable {σ : Type}

/-- What the user sees of a program in FoxPro up to the first dialog of an ASSERT. -/
inductive Outcome (σ : Type) where
  | done (s : σ)
  | error (e : String) (s : σ)
  /-- The dialog for an assertion that does not hold, with the message of the statement. -/
  | dialog (message : Option String) (s : σ)

/-- FoxPro: ASSERT counts only while SET ASSERTS is ON; otherwise not even its condition is evaluated.  The flag is the
state of SET ASSERTS before and behind. -/
inductive Fox : Prog σ → Bool → σ → Outcome σ → Bool → Prop where
  | stop {a s} : Fox .stop a s (.done s) a
  | step {f rest a s s' o a'} : f s = .ok s' → Fox rest a s' o a' → Fox (.step f rest) a s o a'
  | stepError {f rest a s e} : f s = .error e → Fox (.step f rest) a s (.error e s) a
  | set {on rest a s o a'} : Fox rest on s o a' → Fox (.setAsserts on rest) a s o a'
  | off {c m rest s o a'} : Fox rest false s o a' → Fox (.assert c m rest) false s o a'
  | holds {c m rest s o a'} : c s = .ok true → Fox rest true s o a' → Fox (.assert c m rest) true s o a'
  | condError {c m rest s e} : c s = .error e → Fox (.assert c m rest) true s (.error e s) true
  | plain {c rest s} : c s = .ok false → Fox (.assert c none rest) true s (.dialog none s) true
  | message {c m rest s t} : c s = .ok false → m s = .ok t → Fox (.assert c (some m) rest) true s (.dialog (some t) s) true
  | messageError {c m rest s e} : c s = .ok false → m s = .error e → Fox (.assert c (some m) rest) true s (.error e s) true
  | ifError {c y n rest a s e} : c s = .error e → Fox (.ifThen c y n rest) a s (.error e s) a
  | ifDone {c y n rest a s b s' a' o a''} : c s = .ok b → Fox (if b then y else n) a s (.done s') a' → Fox rest a' s' o a'' →
      Fox (.ifThen c y n rest) a s o a''
  | ifLeft {c y n rest a s b o a'} : c s = .ok b → Fox (if b then y else n) a s o a' → (∀ s', o ≠ .done s') →
      Fox (.ifThen c y n rest) a s o a'

/-- SET ASSERTS OFF is nowhere in the program. -/
def NoOff : Prog σ → Prop
  | .stop => True
  | .step _ rest => NoOff rest
  | .setAsserts on rest => on = true ∧ NoOff rest
  | .assert _ _ rest => NoOff rest
  | .ifThen _ y n rest => NoOff y ∧ NoOff n ∧ NoOff rest

/-- SET ASSERTS ON is nowhere in the program. -/
def NoOn : Prog σ → Prop
  | .stop => True
  | .step _ rest => NoOn rest
  | .setAsserts on rest => on = false ∧ NoOn rest
  | .assert _ _ rest => NoOn rest
  | .ifThen _ y n rest => NoOn y ∧ NoOn n ∧ NoOn rest

/-- The end of the Python program is what the user sees in FoxPro. -/
def Agrees : Model.Assert.End σ → Outcome σ → Prop
  | .done s, .done s' => s = s'
  | .error e s, .error e' s' => e = e' ∧ s = s'
  | .assertion m s, .dialog m' s' => m = m' ∧ s = s'
  | _, _ => False

/-- The program without its SET ASSERTS statements. -/
def without : Prog σ → Prog σ
  | .stop => .stop
  | .step f rest => .step f (without rest)
  | .setAsserts _ rest => without rest
  | .assert c m rest => .assert c m (without rest)
  | .ifThen c y n rest => .ifThen c (without y) (without n) (without rest)

end AssertSpec
open Model.Assert AssertSpec

namespace AssertAux
variable {σ : Type}

/-- How an end of the Python code looks for the user. -/
def seen : End σ → Outcome σ
  | .done s => .done s
  | .error e s => .error e s
  | .assertion m s => .dialog m s

theorem seen_inj {a b : End σ} (h : seen a = seen b) : a = b := by
  cases a <;> cases b <;> simp_all [seen]

theorem fox_on (p : Prog σ) : NoOff p → ∀ s, Fox p true s (seen (run p s)) true := by
  induction p with
  | stop => intro _ s; exact .stop
  | step f rest ih =>
    intro h s
    rw [run]
    cases hf : f s with
    | ok s' => exact .step hf (ih h s')
    | error e => exact .stepError hf
  | setAsserts on rest ih =>
    intro h s
    obtain ⟨rfl, h⟩ := h
    exact .set (ih h s)
  | assert c m rest ih =>
    intro h s
    rw [run.eq_def]
    simp only
    cases hc : c s with
    | error e => exact .condError hc
    | ok b =>
      cases b with
      | true => exact .holds hc (ih h s)
      | false =>
        cases m with
        | none => exact .plain hc
        | some m =>
          cases hm : m s with
          | ok t => simp only; rw [hm]; exact Fox.message hc hm
          | error e => simp only; rw [hm]; exact Fox.messageError hc hm
  | ifThen c y n rest ihy ihn ih =>
    intro h s
    rw [run]
    cases hc : c s with
    | error e => exact .ifError hc
    | ok b =>
      have hb : Fox (if b then y else n) true s (seen (if b then run y s else run n s)) true := by
        cases b
        · exact ihn h.2.1 s
        · exact ihy h.1 s
      have key : ∀ r : End σ, Fox (if b then y else n) true s (seen r) true →
          Fox (.ifThen c y n rest) true s (seen (match r with | .done s' => run rest s' | e => e)) true := by
        intro r hr
        cases r with
        | done s' => exact .ifDone hc hr (ih h.2.2 s')
        | error e s' => exact .ifLeft hc hr (by intro s'; simp [seen])
        | assertion m s' => exact .ifLeft hc hr (by intro s'; simp [seen])
      exact key _ hb

/-- FoxPro does one thing. -/
theorem fox_unique {p : Prog σ} {a : Bool} {s : σ} {o : Outcome σ} {b : Bool} (h : Fox p a s o b) :
    ∀ {o' b'}, Fox p a s o' b' → o' = o ∧ b' = b := by
  induction h with
  | stop => intro o' b' h; cases h; exact ⟨rfl, rfl⟩
  | step hf _ ih =>
    intro o' b' h
    cases h with
    | step hf' h => rw [hf] at hf'; cases hf'; exact ih h
    | stepError hf' => rw [hf] at hf'; cases hf'
  | stepError hf =>
    intro o' b' h
    cases h with
    | step hf' h => rw [hf] at hf'; cases hf'
    | stepError hf' => rw [hf] at hf'; cases hf'; exact ⟨rfl, rfl⟩
  | set _ ih => intro o' b' h; cases h with | set h => exact ih h
  | off _ ih => intro o' b' h; cases h with | off h => exact ih h
  | holds hc _ ih =>
    intro o' b' h
    cases h with
    | holds _ h => exact ih h
    | condError h => rw [hc] at h; cases h
    | plain h => rw [hc] at h; cases h
    | message h _ => rw [hc] at h; cases h
    | messageError h _ => rw [hc] at h; cases h
  | condError hc =>
    intro o' b' h
    cases h with
    | holds h _ => rw [hc] at h; cases h
    | condError h => rw [hc] at h; cases h; exact ⟨rfl, rfl⟩
    | plain h => rw [hc] at h; cases h
    | message h _ => rw [hc] at h; cases h
    | messageError h _ => rw [hc] at h; cases h
  | plain hc =>
    intro o' b' h
    cases h with
    | holds h _ => rw [hc] at h; cases h
    | condError h => rw [hc] at h; cases h
    | plain h => exact ⟨rfl, rfl⟩
  | message hc hm =>
    intro o' b' h
    cases h with
    | holds h _ => rw [hc] at h; cases h
    | condError h => rw [hc] at h; cases h
    | message _ h => rw [hm] at h; cases h; exact ⟨rfl, rfl⟩
    | messageError _ h => rw [hm] at h; cases h
  | messageError hc hm =>
    intro o' b' h
    cases h with
    | holds h _ => rw [hc] at h; cases h
    | condError h => rw [hc] at h; cases h
    | message _ h => rw [hm] at h; cases h
    | messageError _ h => rw [hm] at h; cases h; exact ⟨rfl, rfl⟩
  | ifError hc =>
    intro o' b' h
    cases h with
    | ifError h => rw [hc] at h; cases h; exact ⟨rfl, rfl⟩
    | ifDone h _ _ => rw [hc] at h; cases h
    | ifLeft h _ _ => rw [hc] at h; cases h
  | ifDone hc _ _ ih1 ih2 =>
    intro o' b' h
    cases h with
    | ifError h => rw [hc] at h; cases h
    | ifDone h h1 h2 =>
      rw [hc] at h; cases h
      obtain ⟨e1, e2⟩ := ih1 h1
      cases e1; cases e2
      exact ih2 h2
    | ifLeft h h1 hne => rw [hc] at h; cases h; exact absurd (ih1 h1).1 (hne _)
  | ifLeft hc _ hne ih =>
    intro o' b' h
    cases h with
    | ifError h => rw [hc] at h; cases h
    | ifDone h h1 h2 => rw [hc] at h; cases h; exact absurd (ih h1).1.symm (hne _)
    | ifLeft h h1 _ => rw [hc] at h; cases h; exact ih h1

theorem fox_total (p : Prog σ) : ∀ a s, ∃ o b, Fox p a s o b := by
  induction p with
  | stop => intro a s; exact ⟨_, _, .stop⟩
  | step f rest ih =>
    intro a s
    cases hf : f s with
    | ok s' => obtain ⟨o, b, h⟩ := ih a s'; exact ⟨o, b, .step hf h⟩
    | error e => exact ⟨_, _, .stepError hf⟩
  | setAsserts on rest ih => intro a s; obtain ⟨o, b, h⟩ := ih on s; exact ⟨o, b, .set h⟩
  | assert c m rest ih =>
    intro a s
    cases a with
    | false => obtain ⟨o, b, h⟩ := ih false s; exact ⟨o, b, .off h⟩
    | true =>
      cases hc : c s with
      | error e => exact ⟨_, _, .condError hc⟩
      | ok b =>
        cases b with
        | true => obtain ⟨o, b, h⟩ := ih true s; exact ⟨o, b, .holds hc h⟩
        | false =>
          cases m with
          | none => exact ⟨_, _, .plain hc⟩
          | some m =>
            cases hm : m s with
            | ok t => exact ⟨_, _, .message hc hm⟩
            | error e => exact ⟨_, _, .messageError hc hm⟩
  | ifThen c y n rest ihy ihn ih =>
    intro a s
    cases hc : c s with
    | error e => exact ⟨_, _, .ifError hc⟩
    | ok b =>
      have hb : ∃ o a', Fox (if b then y else n) a s o a' := by cases b; exact ihn a s; exact ihy a s
      obtain ⟨o, a', h⟩ := hb
      cases o with
      | done s' => obtain ⟨o, b', h'⟩ := ih a' s'; exact ⟨o, b', .ifDone hc h h'⟩
      | error e s' => exact ⟨_, _, .ifLeft hc h (by simp)⟩
      | dialog m s' => exact ⟨_, _, .ifLeft hc h (by simp)⟩

theorem no_dialog {p : Prog σ} {a : Bool} {s : σ} {o : Outcome σ} {b : Bool} (h : Fox p a s o b) :
    NoOn p → a = false → b = false ∧ ∀ m s', o ≠ .dialog m s' := by
  induction h with
  | stop => intro _ ha; exact ⟨ha, by simp⟩
  | step _ _ ih => exact ih
  | stepError => intro _ ha; exact ⟨ha, by simp⟩
  | set _ ih => intro h _; exact ih h.2 h.1
  | off _ ih => intro h _; exact ih h rfl
  | holds | condError | plain | message | messageError => intro _ ha; cases ha
  | ifError => intro _ ha; exact ⟨ha, by simp⟩
  | @ifDone c y n rest a s b s' a' o a'' _ _ _ ih1 ih2 =>
    intro h ha
    have hb : NoOn (if b then y else n) := by cases b; exact h.2.1; exact h.1
    exact ih2 h.2.2 (ih1 hb ha).1
  | @ifLeft c y n rest a s b o a' _ _ _ ih =>
    intro h ha
    have hb : NoOn (if b then y else n) := by cases b; exact h.2.1; exact h.1
    exact ih hb ha

end AssertAux
open AssertAux

/-- C161 for a program in which SET ASSERTS is ON from the beginning: the Python program stops with the exception of an
assertion exactly where FoxPro shows its dialog, with the same message, and otherwise ends as in FoxPro.  Missing:
programs in which SET ASSERTS is OFF (`C161_off_fails`). -/
theorem C161_on_partial {σ : Type} (p : Prog σ) (hp : NoOff p) (s : σ) :
    (∀ s', run p s = .done s' ↔ ∃ b, Fox p true s (.done s') b) ∧
    (∀ e s', run p s = .error e s' ↔ ∃ b, Fox p true s (.error e s') b) ∧
    (∀ m s', run p s = .assertion m s' ↔ ∃ b, Fox p true s (.dialog m s') b) := by
  have key := fox_on p hp s
  have gen : ∀ e : End σ, run p s = e ↔ ∃ b, Fox p true s (seen e) b := by
    intro e
    constructor
    · rintro rfl; exact ⟨true, key⟩
    · rintro ⟨b, h⟩
      exact seen_inj (fox_unique h key).1
  exact ⟨fun s' => gen (.done s'), fun e s' => gen (.error e s'), fun m s' => gen (.assertion m s')⟩

namespace AssertDemo

/-- `x = x - 1`, then `ASSERT x > 0 MESSAGE "x"`, then `x = 10` -/
def body : Prog Int :=
  .step (fun x => .ok (x - 1)) (.assert (fun x => .ok (decide (x > 0))) (some fun _ => .ok "x") (.step (fun _ => .ok 10) .stop))

end AssertDemo

/-- SET ASSERTS ON, then an assertion that holds for 5 and not for 1. -/
example : NoOff (.setAsserts true AssertDemo.body) ∧ run (.setAsserts true AssertDemo.body) 5 = .done 10 ∧
    run (.setAsserts true AssertDemo.body) 1 = .assertion (some "x") 0 := ⟨⟨rfl, trivial⟩, rfl, rfl⟩

/-- C161 fails while SET ASSERTS is OFF, as it is unless the program says otherwise: a program that comes to an assertion
that does not hold is stopped with an exception, but in FoxPro it goes on to its end or another error and never shows a
dialog. -/
theorem C161_off_fails {σ : Type} (p : Prog σ) (hp : NoOn p) {s s' : σ} {m : Option String} (h : run p s = .assertion m s') :
    ∃ o b, Fox p false s o b ∧ (∀ m' s'', o ≠ .dialog m' s'') ∧ ¬ Agrees (run p s) o := by
  obtain ⟨o, b, ho⟩ := fox_total p false s
  have hn := (no_dialog ho hp rfl).2
  refine ⟨o, b, ho, hn, ?_⟩
  rw [h]
  cases o with
  | done s'' => exact id
  | error e s'' => exact id
  | dialog m s'' => exact absurd rfl (hn m s'')

/-- In FoxPro the program runs to its end. -/
example : run AssertDemo.body 1 = .assertion (some "x") 0 ∧ Fox AssertDemo.body false 1 (.done 10) false :=
  ⟨rfl, .step (s' := (0 : Int)) rfl (.off (.step rfl .stop))⟩

/-- C161 for all programs: one that runs to its end in Python does so in FoxPro, with the same result, whether ASSERTS is ON
or OFF at any time. -/
theorem C161_end_partial {σ : Type} (p : Prog σ) (a : Bool) {s s' : σ} (h : run p s = .done s') : ∃ b, Fox p a s (.done s') b := by
  induction p generalizing a s s' with
  | stop => cases h; exact ⟨a, .stop⟩
  | step f rest ih =>
    rw [run] at h
    cases hf : f s with
    | ok s'' => rw [hf] at h; obtain ⟨b, hb⟩ := ih a h; exact ⟨b, .step hf hb⟩
    | error e => rw [hf] at h; cases h
  | setAsserts on rest ih => obtain ⟨b, hb⟩ := ih on h; exact ⟨b, .set hb⟩
  | assert c m rest ih =>
    rw [run.eq_def] at h
    simp only at h
    cases hc : c s with
    | error e => rw [hc] at h; cases h
    | ok b =>
      rw [hc] at h
      cases b with
      | false =>
        cases m with
        | none => cases h
        | some m => revert h; simp only; cases m s <;> intro h <;> cases h
      | true =>
        obtain ⟨b, hb⟩ := ih a h
        cases a with
        | false => exact ⟨b, .off hb⟩
        | true => exact ⟨b, .holds hc hb⟩
  | ifThen c y n rest ihy ihn ih =>
    rw [run] at h
    cases hc : c s with
    | error e => rw [hc] at h; cases h
    | ok b =>
      rw [hc] at h
      cases b with
      | false =>
        cases hr : run n s with
        | done s'' =>
          simp only [Bool.false_eq_true, if_false, hr] at h
          obtain ⟨a', h1⟩ := ihn a hr
          obtain ⟨b, h2⟩ := ih a' h
          exact ⟨b, .ifDone hc h1 h2⟩
        | error e s'' => simp [hr] at h
        | assertion m s'' => simp [hr] at h
      | true =>
        cases hr : run y s with
        | done s'' =>
          simp only [if_true, hr] at h
          obtain ⟨a', h1⟩ := ihy a hr
          obtain ⟨b, h2⟩ := ih a' h
          exact ⟨b, .ifDone hc h1 h2⟩
        | error e s'' => simp [hr] at h
        | assertion m s'' => simp [hr] at h

/-- The program above for 5, with ASSERTS OFF. -/
example : run AssertDemo.body 5 = .done 10 ∧ ∃ b, Fox AssertDemo.body false 5 (.done 10) b :=
  ⟨rfl, C161_end_partial AssertDemo.body false rfl⟩

/-- C161: SET ASSERTS has no effect: wherever it stands, a program does the same without it. -/
theorem C161_set_fails {σ : Type} (p : Prog σ) (s : σ) : run (without p) s = run p s := by
  induction p generalizing s with
  | stop => rfl
  | step f rest ih => simp only [without, run, ih]
  | setAsserts on rest ih => simp only [without, run, ih]
  | assert c m rest ih => rw [without, run.eq_def, run.eq_def (.assert c m rest)]; simp only [ih]
  | ifThen c y n rest ihy ihn ih => simp only [without, run, ihy, ihn, ih]

/-- SET ASSERTS OFF in a program that would be stopped. -/
example : run (.setAsserts false AssertDemo.body) 1 = .assertion (some "x") 0 := rfl

end Props
