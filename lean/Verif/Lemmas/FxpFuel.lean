import Verif.Model.FxpCode
/-! The decoder never runs out of fuel, so the fuel is only a termination argument. -/
namespace Model.Fxp

variable {fmt : Nat → List Nat → Option String} {names : List String}

/-- No fuel error, and at most the bytes at hand are consumed. -/
def Fine {α : Type} (r : Rest) (x : Except DErr (α × Rest)) : Prop :=
  match x with
  | .error e => e ≠ .fuel
  | .ok (_, r') => r'.length ≤ r.length

/-- No fuel error, and at least one byte is consumed. -/
def Fine1 (r : Rest) (x : Except DErr (Obj × List Obj × Rest)) : Prop :=
  match x with
  | .error e => e ≠ .fuel
  | .ok (_, _, r') => r'.length < r.length

def Fine2 {α : Type} (r : Rest) (x : Except DErr (α × Rest)) : Prop :=
  match x with
  | .error e => e ≠ .fuel
  | .ok (_, r') => r'.length < r.length

theorem fine_readUInt (k : Nat) (r : Rest) : Fine r (readUInt k r) := by
  unfold readUInt; split <;> simp [Fine]

theorem fine_readSInt (k : Nat) (r : Rest) : Fine r (readSInt k r) := by
  unfold readSInt; split <;> simp [Fine]

theorem fine_read1 (r : Rest) : Fine2 r (read1 r) := by
  unfold read1; split <;> simp [Fine2]

theorem fine_readString (r : Rest) : Fine r (readString r) := by
  have := fine_readUInt 2 r
  unfold readString
  split <;> rename_i h <;> rw [h] at this <;> simp [Fine] at *
  · exact this
  · omega

theorem fine_readName (r : Rest) : Fine r (readName names r) := by
  have := fine_readUInt 2 r
  unfold readName
  split <;> rename_i h <;> rw [h] at this <;> simp [Fine] at *
  · exact this
  · rename_i i r'
    unfold nameAt
    cases hh : names[i]? <;> simp [Fine, this]

theorem fine_readKeyed (t : List (Nat × String)) (r : Rest) : Fine r (readKeyed t r) := by
  have := fine_read1 r
  unfold readKeyed
  split <;> rename_i h <;> rw [h] at this <;> simp [Fine, Fine2] at *
  · exact this
  · unfold tableGet
    cases List.lookup _ t <;> simp_all
    omega

theorem fine_readDigits (k : Nat) (s : Bool) (r : Rest) : Fine r (readDigits k s r) := by
  have h1 := fine_read1 r
  unfold readDigits
  split <;> rename_i h <;> rw [h] at h1 <;> simp only [Fine2] at h1
  · exact h1
  · rename_i d r'
    split
    · have := fine_readSInt k r'
      split <;> rename_i h' <;> rw [h'] at this <;> simp [Fine] at *
      · exact this
      · omega
    · have := fine_readUInt k r'
      split <;> rename_i h' <;> rw [h'] at this <;> simp [Fine] at *
      omega

theorem fine_readCurrency (r : Rest) : Fine r (readCurrency r) := by
  unfold readCurrency
  split
  · rename_i d r'
    have := fine_readSInt 8 r'
    split <;> rename_i h' <;> rw [h'] at this <;> simp [Fine] at *
    · exact this
    · omega
  · simp [Fine]

theorem fine_ite {α : Type} {c : Prop} [Decidable c] {r : Rest} {a x : Except DErr (α × Rest)}
    {b : Option (Except DErr (α × Rest))} (h : (if c then some a else b) = some x)
    (ha : Fine r a) (hb : b = some x → Fine r x) : Fine r x := by
  split at h
  · cases h; exact ha
  · exact hb h

theorem fine_readSimple (code : Nat) (r : Rest) :
    ∀ x, readSimple fmt names code r = some x → Fine r x := by
  intro x h
  unfold readSimple at h
  split at h
  · cases h; simp [Fine]
  · split at h
    · cases h
      split
      · simp [Fine]
      · split <;> simp [Fine]
    · have hS := fine_readString r
      have hN := fine_readName (names := names) r
      have hU := fine_readUInt 2 r
      have hK := fun t => fine_readKeyed t r
      repeat (refine fine_ite h ?_ ?_
              · first
                  | exact fine_readCurrency r
                  | exact fine_readDigits _ _ r
                  | (split <;> rename_i h' <;> rw [h'] at hS <;> exact hS)
                  | (split <;> rename_i h' <;> rw [h'] at hN <;> exact hN)
                  | (split <;> rename_i h' <;> rw [h'] at hU <;> exact hU)
                  | (split <;> rename_i h' <;> have hK := hK systemNames <;> rw [h'] at hK <;> exact hK)
                  | (split <;> rename_i h' <;> have hK := hK specialNames <;> rw [h'] at hK <;> exact hK)
                  | (split <;> rename_i h' <;> have hK := hK menuSystemNames <;> rw [h'] at hK <;> exact hK)
                  | simp [Fine]
              clear h
              intro h)
      cases h

theorem fine_readFunction (code : Nat) (r : Rest) :
    ∀ x, readFunction code r = some x → Fine r x := by
  intro x h
  unfold readFunction at h
  split at h
  · cases h; simp [Fine]
  · repeat' split at h
    all_goals first
      | (cases h; exact fine_readKeyed _ r)
      | cases h

theorem fine_mono {α : Type} {r s : Rest} {x : Except DErr (α × Rest)} (h : Fine r x)
    (hl : r.length ≤ s.length) : Fine s x := by
  unfold Fine at *
  cases x with
  | error e => exact h
  | ok p => exact Nat.le_trans h hl

theorem fuel_all (n : Nat) :
    (∀ r st, 3 * r.length + 1 ≤ n → Fine1 r (readNext fmt names n r st)) ∧
    (∀ code r, 3 * r.length + 3 ≤ n → Fine r (readValue fmt names n code r)) ∧
    (∀ r st, 3 * r.length + 2 ≤ n → Fine2 r (readExpr fmt names n r st)) ∧
    (∀ start len r line stale, 3 * r.length + 1 ≤ n →
      subline fmt names n start len r line stale ≠ .error .fuel) := by
  induction n with
  | zero =>
    refine ⟨?_, ?_, ?_, ?_⟩ <;> intros <;> omega
  | succ n ih =>
    obtain ⟨ihN, ihV, ihE, ihS⟩ := ih
    refine ⟨?_, ?_, ?_, ?_⟩
    · intro r st hn
      rw [readNext]
      cases r with
      | nil => simp [read1, Fine1]
      | cons code r =>
        simp only [List.length_cons] at hn
        simp only [read1]
        split
        · simp [Fine1]
        · split
          · simp [Fine1]
          · split
            · have hu := fine_readUInt 2 r
              split <;> rename_i h <;> rw [h] at hu <;> simp only [Fine] at hu
              · exact hu
              · rename_i len r'
                have hs := ihS r' len (r'.drop 1) [] none (by simp; omega)
                split <;> rename_i h2
                · rw [h2] at hs; simp only [Fine1]; intro he; exact hs (by rw [he])
                · simp [Fine1]; omega
            · split
              · have hu := fine_readName (names := names) r
                split <;> rename_i h <;> rw [h] at hu <;> simp only [Fine] at hu
                · exact hu
                · simp [Fine1]; omega
              · split
                · rename_i e h
                  exact fine_readFunction code r _ h
                · rename_i s r' h
                  have := fine_readFunction code r _ h
                  simp only [Fine] at this
                  simp [Fine1]; omega
                · split
                  · rename_i op k h
                    split
                    · have := ihN r st (by omega)
                      unfold Fine1 at *
                      cases hr : readNext fmt names n r st with
                      | error e => rw [hr] at this; exact this
                      | ok p => rw [hr] at this; simp at this ⊢; omega
                    · split
                      · have ha : applyOp op k st ≠ .error .fuel := by
                          unfold applyOp; split <;> split <;> simp
                        split <;> rename_i h3
                        · rw [h3] at ha; simp only [Fine1]; intro he; exact ha (by rw [he])
                        · simp [Fine1]
                      · simp [Fine1]
                  · have hv := ihV code r (by omega)
                    split <;> rename_i h3 <;> rw [h3] at hv <;> simp only [Fine] at hv
                    · exact hv
                    · rename_i o r'
                      split
                      · have := ihN r' st (by omega)
                        unfold Fine1 at *
                        cases hr : readNext fmt names n r' st with
                        | error e => rw [hr] at this; exact this
                        | ok p => rw [hr] at this; simp at this ⊢; omega
                      · simp [Fine1]; omega
    · intro code r hn
      rw [readValue]
      split
      · rename_i x h; exact fine_readSimple code r _ h
      · split
        · have := ihN r [] (by omega)
          split <;> rename_i h <;> rw [h] at this <;> simp only [Fine1, Fine] at *
          · exact this
          · omega
        · split
          · have := ihE r [] (by omega)
            unfold Fine2 at this
            unfold Fine
            cases hr : readExpr fmt names n r [] with
            | error e => rw [hr] at this; exact this
            | ok p => rw [hr] at this; simp at this ⊢; omega
          · simp [Fine]
    · intro r st hn
      rw [readExpr]
      have := ihN r st (by omega)
      split <;> rename_i h <;> rw [h] at this <;> simp only [Fine1] at this
      · exact this
      · rename_i o st' r'
        split
        · split <;> simpa [Fine2] using this
        · have h2 := ihE r' (o :: st') (by omega)
          unfold Fine2 at *
          cases hr : readExpr fmt names n r' (o :: st') with
          | error e => rw [hr] at h2; exact h2
          | ok p => rw [hr] at h2; simp at h2 ⊢; omega
    · intro start len r line stale hn
      rw [subline]
      split
      · cases r with
        | nil => simp [read1]
        | cons code r =>
          simp only [List.length_cons] at hn
          simp only [read1]
          repeat' split
          all_goals first
            | exact ihS _ _ _ _ _ (by omega)
            | (rename_i h
               have hu := fine_readName (names := names) r
               rw [h] at hu; simp only [Fine] at hu
               first
                 | (intro he; injection he with he; exact hu he)
                 | exact ihS _ _ _ _ _ (by omega))
            | (rename_i h
               have hv := ihV code r (by omega)
               rw [h] at hv; simp only [Fine] at hv
               first
                 | (intro he; injection he with he; exact hv he)
                 | exact ihS _ _ _ _ _ (by omega))
            | simp
      · simp

theorem decodeExpr_fine (r : Rest) : Fine2 r (decodeExpr fmt names r) :=
  (fuel_all _).2.2.1 r [] (by simp [enough])

theorem fine_readN (r : Rest) (k : Int) : Fine r (readN r k) := by
  unfold readN
  split
  · simp [Fine]
  · split <;> simp [Fine]

theorem fine_readCommand (r : Rest) (len : Int) : Fine2 r (readCommand r len) := by
  unfold readCommand
  cases r with
  | nil => simp [read1, Fine2]
  | cons code r =>
    simp only [read1]
    have hN := fine_readN r len
    have hK := fine_readKeyed setCodes r
    have hS := fine_readString r
    repeat' split
    all_goals first
      | (rename_i h _; rw [h] at hN; simp only [Fine, Fine2, List.length_cons] at *; omega)
      | (rename_i h; rw [h] at hN; simp only [Fine, Fine2, List.length_cons] at *; first | exact hN | omega)
      | (rename_i h; rw [h] at hK; simp only [Fine, Fine2, List.length_cons] at *; first | exact hK | omega)
      | (rename_i h; rw [h] at hS; simp only [Fine, Fine2, List.length_cons] at *; first | exact hS | omega)
      | (rename_i h; unfold tableGet at h; split at h <;> first | (injection h with h; subst h; simp [Fine2]) | cases h)
      | simp [Fine2]

theorem parseLine_fine (start : Rest) (len : Int) :
    Fine start (parseLine fmt names start len) := by
  have h1 := fine_readCommand start (len - 1)
  unfold parseLine
  split <;> rename_i h <;> rw [h] at h1 <;> simp only [Fine2] at h1
  · exact h1
  · rename_i line r
    have h2 := (fuel_all (fmt := fmt) (names := names) (enough r)).2.2.2 start len.toNat r line none
      (by simp [enough])
    split <;> rename_i h3
    · rw [h3] at h2; simp only [Fine]; intro he; exact h2 (by rw [he])
    · have h4 := fine_readN start len
      split <;> rename_i h5 <;> rw [h5] at h4 <;> simp only [Fine] at *
      · exact h4
      · exact h4

/-- A decoded line ends where its length says. -/
theorem parseLine_rest {start rest : Rest} {len : Nat} {s : String}
    (h : parseLine fmt names start (len : Int) = .ok (s, rest)) : rest = start.drop len := by
  unfold parseLine at h
  split at h
  · cases h
  · split at h
    · cases h
    · have a : ¬ ((len : Int) < -1) := by omega
      have b : ¬ ((len : Int) = -1) := by omega
      simp [readN, a, b] at h
      exact h.2.symm

/-- Every turn of the loop over the lines ends and consumes at least the two bytes of the length,
or raises. -/
theorem codeLine_fine (r : Rest) : Fine2 r (codeLine (parseLine fmt names) r) := by
  have hu : ∀ n r', readUInt 2 r = .ok (n, r') → r'.length + 2 = r.length := by
    intro n r' h
    unfold readUInt at h
    split at h
    · cases h
    · cases h; simp; omega
  have hd : Fine2 r (dumpLine r) := by
    unfold dumpLine
    have h1 := fine_readUInt 2 r
    split <;> rename_i h
    · rw [h] at h1; exact h1
    · rename_i n r'
      have h2 := hu _ _ h
      have h3 := fine_readN r' ((n : Int) - 2)
      split <;> rename_i h4 <;> rw [h4] at h3 <;> simp only [Fine, Fine2] at *
      · exact h3
      · omega
  unfold codeLine
  split
  · exact hd
  · rename_i n r' h
    have h2 := hu _ _ h
    have h3 := parseLine_fine (fmt := fmt) (names := names) r' ((n : Int) - 2)
    split <;> rename_i h4
    · exact hd
    · rename_i x
      rw [h4] at h3
      simp only [Fine, Fine2] at *
      omega

theorem codeLines_fuel (n : Nat) (r : Rest) (b : Nat) (h : r.length < n) :
    codeLines (parseLine fmt names) n r b ≠ .error .fuel := by
  induction n generalizing r b with
  | zero => omega
  | succ n ih =>
    rw [codeLines]
    split
    · simp
    · have h1 := codeLine_fine (fmt := fmt) (names := names) r
      split <;> rename_i h2 <;> rw [h2] at h1 <;> simp only [Fine2] at h1
      · intro he; injection he with he; exact h1 he
      · rename_i s r'
        have h3 := ih r' (b - (r.length - r'.length)) (by omega)
        split <;> rename_i h4
        · rw [h4] at h3; exact h3
        · simp

end Model.Fxp
