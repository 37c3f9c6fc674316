import Verif.Model.Abbrev
/-!
# Abbreviated function names (C46)
-/
namespace Props
open Model.Abbrev
open Py (Dict)

/-- Specification: `name` abbreviates the function `keyword`, whose name may be cut behind
`cut` letters. -/
def Abbreviates (cut : Nat) (keyword name : Str) : Prop := name <+: keyword ∧ cut ≤ name.length

/-- The functions with an abbreviation: the shortest accepted length and the name. The table marks
the end of the shortest abbreviation in the name with a bar. -/
def functions : List (Nat × Str) :=
  table.map fun s => ((s.toList.takeWhile (· ≠ '|')).length, (s.toList.filter (· ≠ '|')).map Char.toLower)

namespace AbbrevAux

theorem functions_eq : functions = table.map fun s => (cutOf s.toList, keywordOf s.toList) := by decide +kernel

theorem mem_prefixes {cut : Nat} {kw n k : Str} : (n, k) ∈ prefixes cut kw ↔ k = kw ∧ Abbreviates cut kw n := by
  unfold prefixes Abbreviates
  rw [List.mem_map]
  constructor
  · rintro ⟨i, hi, h⟩
    rw [List.mem_range'_1] at hi
    rw [Prod.mk.injEq] at h
    obtain ⟨rfl, rfl⟩ := h
    refine ⟨rfl, List.take_prefix _ _, ?_⟩
    rw [List.length_take]; omega
  · rintro ⟨rfl, hp, hl⟩
    refine ⟨n.length, ?_, ?_⟩
    · have := hp.length_le
      rw [List.mem_range'_1]; omega
    · rw [← List.prefix_iff_eq_take.mp hp]

/-- Writing pairs into a dictionary. -/
theorem get_foldl (l : List (Str × Str)) : ∀ (d : Dict Str Str) (n : Str),
    (∀ k, (l.foldl (fun d p => d.set p.1 p.2) d).get n = some k → d.get n = some k ∨ (n, k) ∈ l) ∧
    (∀ k, (∀ k', (n, k') ∈ l → k' = k) → (d.get n = some k ∨ (n, k) ∈ l) →
      (l.foldl (fun d p => d.set p.1 p.2) d).get n = some k) := by
  induction l with
  | nil => intro d n; exact ⟨fun k h => .inl h, fun k _ h => h.elim id (by simp)⟩
  | cons p l ih =>
    intro d n
    obtain ⟨h1, h2⟩ := ih (d.set p.1 p.2) n
    refine ⟨fun k h => ?_, fun k hu h => ?_⟩
    · rcases h1 k h with h | h
      · rw [Dict.get_set] at h
        split at h
        · rename_i e
          right
          have : k = p.2 := (Option.some.inj h).symm
          rw [this, e]; simp
        · exact .inl h
      · exact .inr (List.mem_cons_of_mem _ h)
    · apply h2 k (fun k' hk' => hu k' (List.mem_cons_of_mem _ hk'))
      by_cases e : n = p.1
      · left
        rw [Dict.get_set, if_pos e]
        exact congrArg some (hu p.2 (by rw [e]; simp))
      · rcases h with h | h
        · left; rw [Dict.get_set, if_neg e]; exact h
        · right
          rcases List.mem_cons.mp h with h | h
          · exact absurd (congrArg Prod.fst h) e
          · exact h

theorem foldl_foldl {α β γ : Type} (f : β → List α) (g : γ → α → γ) : ∀ (l : List β) (d : γ),
    l.foldl (fun d b => (f b).foldl g d) d = (l.flatMap f).foldl g d
  | [], _ => rfl
  | b :: l, d => by rw [List.foldl_cons, foldl_foldl f g l, List.flatMap_cons, List.foldl_append]

/-- Length of the common beginning of two names. -/
def common : Str → Str → Nat
  | a :: s, b :: t => if a = b then common s t + 1 else 0
  | _, _ => 0

theorem le_common : ∀ {n s t : Str}, n <+: s → n <+: t → n.length ≤ common s t
  | [], _, _, _, _ => Nat.zero_le _
  | a :: n, s, t, ⟨u, hu⟩, ⟨v, hv⟩ => by
    subst hu hv
    simp only [List.cons_append, common, if_pos, List.length_cons]
    exact Nat.succ_le_succ (le_common ⟨u, rfl⟩ ⟨v, rfl⟩)

/-- No name abbreviates two functions. -/
def noClash (l : List (Nat × Str)) : Bool :=
  match l with
  | [] => true
  | (c, k) :: l => l.all (fun e => decide (common k e.2 < max c e.1)) && noClash l

theorem noClash_spec : ∀ {l : List (Nat × Str)}, noClash l = true → ∀ {c k c' k' n}, (c, k) ∈ l → (c', k') ∈ l →
    Abbreviates c k n → Abbreviates c' k' n → k = k'
  | (c0, k0) :: l, h, c, k, c', k', n, h1, h2, a1, a2 => by
    rw [noClash, Bool.and_eq_true] at h
    have hall := List.all_eq_true.mp h.1
    have bad : ∀ {c' k'}, (c', k') ∈ l → Abbreviates c0 k0 n → Abbreviates c' k' n → False := by
      intro c' k' hm a1 a2
      have := of_decide_eq_true (hall _ hm)
      have hc := le_common a1.1 a2.1
      have := a1.2
      have := a2.2
      simp only at *
      omega
    rcases List.mem_cons.mp h1 with g1 | g1 <;> rcases List.mem_cons.mp h2 with g2 | g2
    · rw [Prod.mk.injEq] at g1 g2; rw [g1.2, g2.2]
    · rw [Prod.mk.injEq] at g1; rw [g1.1, g1.2] at a1; exact (bad g2 a1 a2).elim
    · rw [Prod.mk.injEq] at g2; rw [g2.1, g2.2] at a2; exact (bad g1 a2 a1).elim
    · exact noClash_spec h.2 g1 g2 a1 a2

theorem functions_noClash : noClash functions = true := by decide +kernel

theorem get_initial (name : Str) : initial.get name = if name = "msgb".toList then some "messagebox".toList
    else if name = "trim".toList then some "rtrim".toList else none := by
  by_cases h1 : name = "msgb".toList
  · subst h1; rfl
  · by_cases h2 : name = "trim".toList
    · subst h2; rfl
    · rw [if_neg h1, if_neg h2, initial, Dict.get, if_neg (fun e => h1 (Eq.symm e)), Dict.get, if_neg (fun e => h2 (Eq.symm e))]; rfl

end AbbrevAux
open AbbrevAux

/-- C46: the name under which a function is looked up. It is a function of the table that
the written name abbreviates; for `MSGB` and `TRIM`, which abbreviate none, the functions
`MESSAGEBOX` and `RTRIM`; and any other name is left alone. -/
theorem C46_expand (name : Str) :
    (∀ e ∈ functions, Abbreviates e.1 e.2 name → expand name = e.2) ∧
    ((∀ e ∈ functions, ¬ Abbreviates e.1 e.2 name) →
      expand name = if name = "msgb".toList then "messagebox".toList else if name = "trim".toList then "rtrim".toList else name) := by
  have hmem : ∀ n k, (n, k) ∈ (table.map String.toList).flatMap (fun a => prefixes (cutOf a) (keywordOf a)) ↔
      ∃ e ∈ functions, k = e.2 ∧ Abbreviates e.1 e.2 n := by
    intro n k
    rw [List.mem_flatMap, functions_eq]
    constructor
    · rintro ⟨a, ha, h⟩
      obtain ⟨s, hs, rfl⟩ := List.mem_map.mp ha
      exact ⟨_, List.mem_map.mpr ⟨s, hs, rfl⟩, mem_prefixes.mp h⟩
    · rintro ⟨e, he, h⟩
      obtain ⟨s, hs, rfl⟩ := List.mem_map.mp he
      exact ⟨s.toList, List.mem_map.mpr ⟨s, hs, rfl⟩, mem_prefixes.mpr h⟩
  obtain ⟨h1, h2⟩ := get_foldl ((table.map String.toList).flatMap (fun a => prefixes (cutOf a) (keywordOf a))) initial name
  rw [← foldl_foldl] at h1 h2
  change (∀ k, expander.get name = some k → _) at h1
  change (∀ k, _ → _ → expander.get name = some k) at h2
  constructor
  · intro e he ha
    rw [expand, h2 e.2 ?_ (.inr ((hmem _ _).mpr ⟨e, he, rfl, ha⟩))]
    · rfl
    · intro k' hk'
      obtain ⟨f, hf, rfl, hfa⟩ := (hmem _ _).mp hk'
      exact noClash_spec functions_noClash hf he hfa ha
  · intro hno
    have hnone : ∀ k, (name, k) ∉ (table.map String.toList).flatMap (fun a => prefixes (cutOf a) (keywordOf a)) := by
      intro k hk
      obtain ⟨f, hf, rfl, hfa⟩ := (hmem _ _).mp hk
      exact hno f hf hfa
    have heq : expander.get name = initial.get name := by
      cases hi : initial.get name with
      | some k => exact h2 k (fun k' hk' => absurd hk' (hnone k')) (.inl hi)
      | none =>
        cases hg : expander.get name with
        | none => rfl
        | some k =>
          rcases h1 k hg with h | h
          · rw [hi] at h; cases h
          · exact absurd h (hnone k)
    rw [expand, heq, get_initial]
    split
    · rfl
    · split <;> rfl

example : expand "messageb".toList = "messagebox".toList :=
  (C46_expand _).1 (8, "messagebox".toList) (by decide +kernel) ⟨⟨"ox".toList, by decide⟩, by decide⟩

/-- C46: the full name of a function stands for itself. -/
theorem C46_full (e : Nat × Str) (he : e ∈ functions) : expand e.2 = e.2 := by
  refine (C46_expand e.2).1 e he ⟨List.prefix_refl _, ?_⟩
  rw [functions_eq] at he
  obtain ⟨s, _, rfl⟩ := List.mem_map.mp he
  have h1 : (s.toList.takeWhile (· ≠ '|')).length ≤ s.toList.length := (List.takeWhile_prefix _).length_le
  simp only [cutOf, keywordOf, List.length_map, List.length_append, List.length_take]
  omega

example : (8, "messagebox".toList) ∈ functions ∧ Abbreviates 8 "messagebox".toList "messageb".toList :=
  ⟨by decide +kernel, ⟨"ox".toList, by decide⟩, by decide⟩
example : ∀ e ∈ functions, ¬ Abbreviates e.1 e.2 "mes".toList := by
  intro e he ⟨hp, hl⟩
  have : ∀ e ∈ functions, ¬ (("mes".toList.isPrefixOf e.2) = true ∧ e.1 ≤ 3) := by decide +kernel
  exact this e he ⟨List.isPrefixOf_iff_prefix.mpr hp, hl⟩

/-- C46: no name abbreviates two functions. -/
theorem C46_unambiguous (name : Str) (e f : Nat × Str) (he : e ∈ functions) (hf : f ∈ functions)
    (h1 : Abbreviates e.1 e.2 name) (h2 : Abbreviates f.1 f.2 name) : e.2 = f.2 :=
  noClash_spec functions_noClash he hf h1 h2

example : (8, "messagebox".toList) ∈ functions ∧ Abbreviates 8 "messagebox".toList "messagebo".toList :=
  ⟨by decide +kernel, ⟨"x".toList, by decide⟩, by decide⟩

end Props
