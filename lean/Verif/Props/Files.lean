import Verif.Model.Files
/-!
# Files of a conversion

C51 (output files), C56 (lookup), C57 (property values), C72 (projects).
-/
namespace Props
open Model.Files Spec.Files

/-! ## C51 -/

namespace FilesAux

theorem toLower_low {c d : Char} (h : c.toLower = d) (hd : d.toNat < 97) : c = d := by
  unfold Char.toLower at h
  split at h
  · rename_i hc
    have h1 : (65 : Nat) ≤ c.toNat := hc.1
    have h2 : c.toNat ≤ 90 := hc.2
    have h5 : UInt32.toNat (c.val + 32) = d.toNat := congrArg Char.toNat h
    rw [UInt32.toNat_add] at h5
    have h6 : c.val.toNat = c.toNat := rfl
    have h7 : (32 : UInt32).toNat = 32 := rfl
    rw [h6, h7] at h5
    omega
  · exact h

theorem not_mem_lower {d : Char} {s : Str} (hd : d.toNat < 97) (h : d ∉ s) : d ∉ lower s := by
  intro hm
  obtain ⟨c, hc, e⟩ := List.mem_map.mp hm
  exact h (toLower_low e hd ▸ hc)

theorem lower_basename (p : Str) : lower (basename p) = basename (lower p) := by
  unfold lower basename
  rw [List.map_reverse, ← List.map_reverse]
  have key : ∀ l : Str, (l.takeWhile (· ≠ '/')).map Char.toLower = (l.map Char.toLower).takeWhile (· ≠ '/') := by
    intro l
    induction l with
    | nil => rfl
    | cons c l ih =>
      have hc : (c.toLower = '/') ↔ c = '/' := by
        constructor
        · intro h
          unfold Char.toLower at h
          split at h
          · rename_i hc
            have h1 : (65 : Nat) ≤ c.toNat := hc.1
            have h2 : c.toNat ≤ 90 := hc.2
            have h3 := congrArg Char.toNat h
            have h4 : ('/').toNat = 47 := rfl
            have h5 : UInt32.toNat (c.val + 32) = 47 := h3
            rw [UInt32.toNat_add] at h5
            have h6 : c.val.toNat = c.toNat := rfl
            have h7 : (32 : UInt32).toNat = 32 := rfl
            rw [h6, h7] at h5
            omega
          · exact h
        · rintro rfl; rfl
      by_cases h : c = '/'
      · subst h; rfl
      · rw [List.map_cons, List.takeWhile_cons_of_pos (by simpa using h), List.takeWhile_cons_of_pos (by simpa [hc] using h),
          List.map_cons, ih]
  rw [List.map_reverse, key, List.map_reverse]

theorem takeWhile_all {α : Type} {p : α → Bool} {l : List α} (h : ∀ a ∈ l, p a = true) (r : List α) (x : α) (hx : p x = false) :
    (l ++ x :: r).takeWhile p = l ∧ (l ++ x :: r).dropWhile p = x :: r := by
  induction l with
  | nil => simp [hx]
  | cons a l ih =>
    have ha := h a (List.mem_cons_self ..)
    obtain ⟨h1, h2⟩ := ih (fun b hb => h b (List.mem_cons_of_mem _ hb))
    simp [ha, h1, h2]

theorem takeWhile_none {α : Type} {p : α → Bool} {l : List α} (h : ∀ a ∈ l, p a = true) : l.takeWhile p = l := by
  induction l with
  | nil => rfl
  | cons a l ih =>
    rw [List.takeWhile_cons_of_pos (h a (List.mem_cons_self ..)), ih (fun b hb => h b (List.mem_cons_of_mem _ hb))]

theorem basename_path {path dir stem ext : Str} (h : IsPath path dir stem ext) : basename path = stem ++ '.' :: ext := by
  have hno : ∀ c ∈ (stem ++ '.' :: ext).reverse, decide (c ≠ '/') = true := by
    intro c hc
    rw [List.mem_reverse, List.mem_append, List.mem_cons] at hc
    rw [decide_eq_true_eq]
    rintro rfl
    rcases hc with hc | hc | hc
    · exact h.stem.1 hc
    · revert hc; decide
    · exact h.ext.2 hc
  unfold basename
  rw [h.parts, List.reverse_append]
  rcases h.dir with hd | hd
  · rw [hd, List.reverse_nil, List.append_nil, takeWhile_none hno, List.reverse_reverse]
  · obtain ⟨d, rfl⟩ := List.getLast?_eq_some_iff.mp hd
    have hr : (d ++ ['/']).reverse = '/' :: d.reverse := by simp
    rw [hr, (takeWhile_all hno _ _ (by decide)).1, List.reverse_reverse]

theorem splitext_path {stem ext : Str} (hs : ∃ c ∈ stem, c ≠ '.') (he : '.' ∉ ext) : splitext (stem ++ '.' :: ext) = (stem, '.' :: ext) := by
  have hno : ∀ c ∈ ext.reverse, decide (c ≠ '.') = true := by
    intro c hc
    rw [decide_eq_true_eq]
    rintro rfl
    exact he (List.mem_reverse.mp hc)
  obtain ⟨h1, h2⟩ := takeWhile_all hno stem.reverse '.' (by decide)
  have hr : (stem ++ '.' :: ext).reverse = ext.reverse ++ '.' :: stem.reverse := by simp
  unfold splitext
  simp only [hr, h1, h2, List.reverse_reverse]
  obtain ⟨c, hc, hne⟩ := hs
  rw [if_neg]
  intro hall
  rw [List.all_eq_true] at hall
  have := hall c (List.mem_reverse.mpr hc)
  exact hne (by simpa using this)

theorem lower_path {path dir stem ext : Str} (h : IsPath path dir stem ext) : IsPath (lower path) (lower dir) (lower stem) (lower ext) where
  parts := by
    rw [h.parts]
    simp [lower]
  dir := by
    rcases h.dir with hd | hd
    · left; rw [hd]; rfl
    · right
      obtain ⟨d, rfl⟩ := List.getLast?_eq_some_iff.mp hd
      simp [lower]
  stem := by
    refine ⟨not_mem_lower (by decide) h.stem.1, ?_⟩
    obtain ⟨c, hc, hne⟩ := h.stem.2
    exact ⟨c.toLower, List.mem_map.mpr ⟨c, hc, rfl⟩, fun e => hne (toLower_low e (by decide))⟩
  ext := ⟨not_mem_lower (by decide) h.ext.1, not_mem_lower (by decide) h.ext.2⟩

theorem fileExt_path {path dir stem ext : Str} (h : IsPath path dir stem ext) : fileExt path = '.' :: lower ext := by
  unfold fileExt
  rw [basename_path (lower_path h), splitext_path (lower_path h).stem.2 (lower_path h).ext.1]

theorem outName_path {path dir stem ext : Str} (h : IsPath path dir stem ext) : outName path = outputName stem ext := by
  have hmap : ∀ l : Str, '.' ∉ l → l.map (fun c => if c = '.' then '_' else c) = l := by
    intro l hl
    induction l with
    | nil => rfl
    | cons c l ih =>
      rw [List.map_cons, ih (fun hm => hl (List.mem_cons_of_mem _ hm)), if_neg (fun e => hl (by rw [e]; exact List.mem_cons_self ..))]
  unfold outName outputName
  simp only
  rw [lower_basename, basename_path (lower_path h), splitext_path (lower_path h).stem.2 (lower_path h).ext.1, fileExt_path h]
  by_cases hp : lower ext = "prg".toList
  · rw [if_pos hp, hp, if_pos (by decide), List.append_assoc]
  · rw [if_neg hp, if_neg (show '.' :: lower ext ≠ ".prg".toList from fun e => hp (List.cons.inj e).2), List.append_assoc, List.map_cons, hmap _ (lower_path h).ext.1, if_pos rfl]

theorem ext_source {e : Str} (h : e ∈ sources) : '.' :: e ∈ converted ∧ '.' :: e ≠ ".pjx".toList := by
  revert e
  decide

theorem ext_leftOut {e : Str} (h : e ∈ leftOut) : ('.' :: e ∈ unsupported ∨ '.' :: e ∈ ignored) ∧ '.' :: e ∉ converted ∧ '.' :: e ≠ ".pjx".toList := by
  revert e
  decide

end FilesAux
open FilesAux

/-- C51: conversion of a program, form or class library into a directory changes no
existing file. -/
theorem C51_kept_partial (path dir stem ext : Str) (hp : IsPath path dir stem ext) (hext : lower ext ∈ sources)
    (files : Str → Option Str) (result : Option Str) (content : Str) (name old : Str) (hold : files name = some old) :
    after files (convertFile path true files result content) name = some old := by
  obtain ⟨h1, h2⟩ := ext_source hext
  unfold convertFile
  rw [fileExt_path hp, if_neg h2, if_pos h1, Bool.true_and]
  split
  · exact hold
  · rename_i hno
    cases result with
    | none => exact hold
    | some text =>
      simp only [if_true, after]
      rw [if_neg]
      · exact hold
      · rintro rfl; rw [hold] at hno; exact hno rfl

theorem FilesAux.demo_path : IsPath "Src/Main.PRG".toList "Src/".toList "Main".toList "PRG".toList :=
  ⟨rfl, Or.inr (by decide), ⟨by decide, 'M', by decide, by decide⟩, by decide, by decide⟩

example : lower "PRG".toList ∈ sources ∧
    after (fun n => if n = "main.py".toList then some "old".toList else none)
      (convertFile "Src/Main.PRG".toList true (fun n => if n = "main.py".toList then some "old".toList else none) (some "new".toList) [])
      "main.py".toList = some "old".toList := by decide +kernel

/-- C51: otherwise exactly the output is written. -/
theorem C51_written (path dir stem ext : Str) (hp : IsPath path dir stem ext) (hext : lower ext ∈ sources)
    (files : Str → Option Str) (text content : Str) (hnew : files (outputName stem ext) = none) (name : Str) :
    after files (convertFile path true files (some text) content) name = if name = outputName stem ext then some text else files name := by
  obtain ⟨h1, h2⟩ := ext_source hext
  unfold convertFile
  rw [fileExt_path hp, if_neg h2, if_pos h1, outName_path hp, hnew]
  rfl

example : lower "PRG".toList ∈ sources ∧ outputName "Main".toList "PRG".toList = "main.py".toList := by decide +kernel
example : outputName "Main.v2".toList "Scx".toList = "main.v2_scx.py".toList := by decide +kernel

/-- C51: unsupported kinds of files and headers produce nothing. -/
theorem C51_unsupported (path dir stem ext : Str) (hp : IsPath path dir stem ext) (hext : lower ext ∈ leftOut) (isDir : Bool)
    (files : Str → Option Str) (result : Option Str) (content : Str) : convertFile path isDir files result content = .nothing := by
  obtain ⟨h1, h2, h3⟩ := ext_leftOut hext
  unfold convertFile
  rw [fileExt_path hp, if_neg h3, if_neg h2, if_pos h1]

example : IsPath "a/foxpro.H".toList "a/".toList "foxpro".toList "H".toList ∧ lower "H".toList ∈ leftOut :=
  ⟨⟨rfl, Or.inr (by decide), ⟨by decide, 'f', by decide, by decide⟩, by decide, by decide⟩, by decide⟩

/-- C51: sources of different kinds with the same name get different outputs. -/
theorem C51_distinct (f g dir dir' stem ext ext' : Str) (hf : IsPath f dir stem ext) (hg : IsPath g dir' stem ext')
    (hne : lower ext ≠ lower ext') : outName f ≠ outName g := by
  rw [outName_path hf, outName_path hg]
  intro h
  have h2 := List.append_cancel_right (List.append_cancel_left h)
  split at h2 <;> split at h2
  · rename_i a b; exact hne (a.trans b.symm)
  · cases h2
  · cases h2
  · exact hne (List.cons.inj h2).2

example : lower "vcx".toList ≠ lower "scx".toList ∧ outName "A.vcx".toList = "a_vcx.py".toList ∧ outName "a.scx".toList = "a_scx.py".toList := by
  decide +kernel

/-- C51: the name of the output does not depend on upper and lower case. -/
theorem C51_case (f g : Str) (h : lower f = lower g) : outName f = outName g := by
  unfold outName fileExt
  rw [lower_basename, lower_basename, h]

example : lower "Src/MAIN.Prg".toList = lower "src/main.PRG".toList ∧ outName "Src/MAIN.Prg".toList = "main.py".toList := by decide +kernel

/-- C51 does not hold for other files, which are copied over an existing one. -/
theorem C51_copy_fails (path dir stem ext : Str) (hp : IsPath path dir stem ext) (h1 : lower ext ∉ sources) (h2 : lower ext ∉ leftOut)
    (h3 : lower ext ≠ "pjx".toList) (files : Str → Option Str) (result : Option Str) (content : Str) :
    after files (convertFile path true files result content) (lower (stem ++ '.' :: ext)) = some content := by
  have k1 : '.' :: lower ext ∉ converted := by simpa [converted, sources] using h1
  have k2 : ¬ ('.' :: lower ext ∈ unsupported ∨ '.' :: lower ext ∈ ignored) := by
    simp [leftOut] at h2
    simp [unsupported, ignored, h2]
  have k3 : '.' :: lower ext ≠ ".pjx".toList := by simpa using h3
  unfold convertFile
  rw [fileExt_path hp, if_neg k3, if_neg k1, if_neg k2, if_pos rfl, basename_path hp]
  simp [after]

example : IsPath "src/data.dbf".toList "src/".toList "data".toList "dbf".toList ∧ lower "dbf".toList ∉ sources ∧
    lower "dbf".toList ∉ leftOut :=
  ⟨⟨rfl, Or.inr (by decide), ⟨by decide, 'd', by decide, by decide⟩, by decide, by decide⟩, by decide, by decide⟩

/-- C51: different sources can have the same output, as `main_scx.prg` and `main.scx`; the second one
is not converted. -/
theorem C51_collision_fails (f g dir dir' stem ext : Str) (hg : IsPath g dir' stem ext) (he : lower ext ≠ "prg".toList)
    (hf : IsPath f dir (stem ++ '_' :: ext) "prg".toList) : outName f = outName g := by
  rw [outName_path hf, outName_path hg]
  unfold outputName
  rw [if_pos (by decide), if_neg he]
  simp [lower]

example : outName "main_scx.prg".toList = outName "main.scx".toList :=
  C51_collision_fails _ _ [] [] "main".toList "scx".toList
    ⟨rfl, Or.inl rfl, ⟨by decide, 'm', by decide, by decide⟩, by decide, by decide⟩ (by decide)
    ⟨by decide, Or.inl rfl, ⟨by decide, 'm', by decide, by decide⟩, by decide, by decide⟩

/-! ## C56 -/

namespace FilesAux

/-- Every result of the loop. -/
theorem walk_spec (t : Tree) (parts : List Str) : ∀ (cs path q : List Str) (b : Bool), walk t parts path cs = some (q, b) →
    (b = false → Walks t path cs q) ∧
    (b = true → ∃ pre c post p es, cs = pre ++ c :: post ∧ Walks t path pre p ∧ t p = some es ∧ (∀ e ∈ es, lower e ≠ lower c) ∧
      c ≠ ['.', '.'] ∧ c ≠ ['.'] ∧ c ≠ [] ∧ q = p ++ parts.drop (indexOf c parts))
  | [], path, q, b, h => by
    rw [walk, Option.some.injEq, Prod.mk.injEq] at h
    obtain ⟨rfl, rfl⟩ := h
    exact ⟨fun _ => .nil, nofun⟩
  | c :: cs, path, q, b, h => by
    rw [walk] at h
    split at h
    · rename_i hc
      subst hc
      obtain ⟨h1, h2⟩ := walk_spec t parts cs _ q b h
      refine ⟨fun hb => .up (h1 hb), fun hb => ?_⟩
      obtain ⟨pre, c, post, p, es, e1, e2, e3⟩ := h2 hb
      exact ⟨_ :: pre, c, post, p, es, by rw [e1]; rfl, .up e2, e3⟩
    · rename_i hdots
      split at h
      · rename_i hc
        obtain ⟨h1, h2⟩ := walk_spec t parts cs _ q b h
        refine ⟨fun hb => .stay hc (h1 hb), fun hb => ?_⟩
        obtain ⟨pre, c', post, p, es, e1, e2, e3⟩ := h2 hb
        exact ⟨_ :: pre, c', post, p, es, by rw [e1]; rfl, .stay hc e2, e3⟩
      · rename_i hstay
        split at h
        · cases h
        · rename_i es hes
          split at h
          · rename_i e he
            have hm := List.mem_of_find?_eq_some he
            have hl : lower e = lower c := by simpa using List.find?_some he
            obtain ⟨h1, h2⟩ := walk_spec t parts cs _ q b h
            refine ⟨fun hb => .entry hes hm hl (h1 hb), fun hb => ?_⟩
            obtain ⟨pre, c', post, p, es', e1, e2, e3⟩ := h2 hb
            exact ⟨_ :: pre, c', post, p, es', by rw [e1]; rfl, .entry hes hm hl e2, e3⟩
          · rename_i hnone
            rw [Option.some.injEq, Prod.mk.injEq] at h
            obtain ⟨rfl, rfl⟩ := h
            refine ⟨nofun, fun _ => ⟨[], c, cs, path, es, rfl, .nil, hes, ?_, hdots, fun e => hstay (.inl e), fun e => hstay (.inr e), rfl⟩⟩
            intro e he hl
            have := List.find?_eq_none.mp hnone e he
            exact this (decide_eq_true hl)

theorem drop_indexOf {c : Str} {pre post : List Str} (h : c ∉ pre) : (pre ++ c :: post).drop (indexOf c (pre ++ c :: post)) = c :: post := by
  induction pre with
  | nil => simp [indexOf]
  | cons x pre ih =>
    rw [List.mem_cons, not_or] at h
    rw [List.cons_append, indexOf, if_neg (fun e => h.1 e.symm), List.drop_succ_cons, ih h.2]

theorem indexOf_drop {c : Str} : ∀ {l : List Str}, c ∈ l → ∃ first rest, l = first ++ c :: rest ∧ c ∉ first ∧ l.drop (indexOf c l) = c :: rest
  | x :: l, h => by
    by_cases hx : x = c
    · subst hx; exact ⟨[], l, rfl, by simp, by simp [indexOf]⟩
    · have hl : c ∈ l := (List.mem_cons.mp h).resolve_left (fun e => hx e.symm)
      obtain ⟨first, rest, h1, h2, h3⟩ := indexOf_drop hl
      refine ⟨x :: first, rest, by rw [h1]; rfl, by simp [h2]; exact fun e => hx e.symm, ?_⟩
      rw [indexOf, if_neg hx, List.drop_succ_cons, h3]

end FilesAux

/-- C56: a path that is reported as found leads there component by component. -/
theorem C56_found (t : Tree) (start parts q : List Str) (h : findFullPath t start parts = some (q, false)) : Walks t start parts q :=
  (walk_spec t parts parts start q false h).1 rfl

/-- C56: if a path is reported as not found, it leads to a directory in which a
component is missing, and the components from there on are appended. Missing: paths in
which the missing component has occurred before. -/
theorem C56_not_found_partial (t : Tree) (start parts q : List Str) (h : findFullPath t start parts = some (q, true)) (hnd : parts.Nodup) :
    ∃ pre c post p es, parts = pre ++ c :: post ∧ Walks t start pre p ∧ t p = some es ∧ (∀ e ∈ es, lower e ≠ lower c) ∧
      q = p ++ c :: post := by
  obtain ⟨pre, c, post, p, es, e1, e2, e3, e4, _, _, _, e5⟩ := (walk_spec t parts parts start q true h).2 rfl
  refine ⟨pre, c, post, p, es, e1, e2, e3, e4, ?_⟩
  rw [e5, e1, drop_indexOf]
  rw [e1] at hnd
  intro hc
  exact (List.nodup_append.mp hnd).2.2 c hc c (by simp) rfl

/-- C56: a path that leads somewhere is found, and leads there only, if no directory has
two entries that differ in upper and lower case only. -/
theorem C56_complete (t : Tree) (start parts q : List Str) (hw : Walks t start parts q)
    (hcase : ∀ p es, t p = some es → ∀ e ∈ es, ∀ f ∈ es, lower e = lower f → e = f)
    (hdots : ∀ p es, t p = some es → ∀ e ∈ es, e ≠ ['.', '.'] ∧ e ≠ ['.'] ∧ e ≠ []) :
    findFullPath t start parts = some (q, false) := by
  have lower_dots : ∀ e c : Str, lower e = lower c → (c = ['.', '.'] ∨ c = ['.'] ∨ c = []) → e = c := by
    have one : ∀ a : Char, a.toLower = '.' → a = '.' := by
      intro c h
      unfold Char.toLower at h
      split at h
      · rename_i hc
        have h1 : (65 : Nat) ≤ c.toNat := hc.1
        have h2 : c.toNat ≤ 90 := hc.2
        have h5 : UInt32.toNat (c.val + 32) = 46 := congrArg Char.toNat h
        rw [UInt32.toNat_add] at h5
        have h6 : c.val.toNat = c.toNat := rfl
        have h7 : (32 : UInt32).toNat = 32 := rfl
        rw [h6, h7] at h5
        omega
      · exact h
    intro e c h hc
    rcases hc with rfl | rfl | rfl
    · match e, h with
      | [a, b], h => simp [lower] at h; rw [one a h.1, one b h.2]
      | [], h => simp [lower] at h
      | [_], h => simp [lower] at h
      | _ :: _ :: _ :: _, h => simp [lower] at h
    · match e, h with
      | [a], h => simp [lower] at h; rw [one a h]
      | [], h => simp [lower] at h
      | _ :: _ :: _, h => simp [lower] at h
    · match e, h with
      | [], _ => rfl
      | _ :: _, h => simp [lower] at h
  unfold findFullPath
  suffices ∀ all, walk t all start parts = some (q, false) from this parts
  intro all
  induction hw with
  | nil => rfl
  | up _ ih => rw [walk, if_pos rfl]; exact ih
  | @stay p c cs q hc _ ih =>
    have hd : c ≠ ['.', '.'] := by rcases hc with rfl | rfl <;> decide
    rw [walk, if_neg hd, if_pos hc]
    exact ih
  | @entry p c cs q es e hes he hl _ ih =>
    have hd := hdots p es hes e he
    have hc : ¬ (c = ['.', '.'] ∨ c = ['.'] ∨ c = []) := by
      intro hc
      have := lower_dots e c hl hc
      subst this
      rcases hc with h | h | h
      · exact hd.1 h
      · exact hd.2.1 h
      · exact hd.2.2 h
    rw [not_or] at hc
    rw [walk, if_neg hc.1, if_neg hc.2, hes]
    have hf : findIgnoreCase c es = some e := by
      cases hx : findIgnoreCase c es with
      | none => exact absurd (decide_eq_true hl) (List.find?_eq_none.mp hx e he)
      | some f =>
        have hm := List.mem_of_find?_eq_some hx
        have hl' : lower f = lower c := by simpa using List.find?_some hx
        rw [hcase p es hes f hm e he (hl'.trans hl.symm)]
    simp only [hf]
    exact ih

/-- A directory `/w` with a directory `A`, which is empty. -/
def tree : Tree
  | [['w']] => some [['A']]
  | [['w'], ['A']] => some []
  | _ => none
example : findFullPath tree [['w']] [[], ['a']] = some ([['w'], ['A']], false) := by decide +kernel
example : findFullPath tree [['w']] [[], ['a'], ['b']] = some ([['w'], ['A'], ['b']], true) := by decide +kernel

/-- C56 does not hold for a missing component that has occurred before: the components are appended
from its first occurrence on, so that for `a/a` in a directory with an empty directory `A` the result
is `A/a/a`. -/
theorem C56_not_found_exact (t : Tree) (start parts q : List Str) (h : findFullPath t start parts = some (q, true)) :
    ∃ pre c post p es first rest, parts = pre ++ c :: post ∧ Walks t start pre p ∧ t p = some es ∧ (∀ e ∈ es, lower e ≠ lower c) ∧
      parts = first ++ c :: rest ∧ c ∉ first ∧ q = p ++ c :: rest ∧ (q = p ++ c :: post ↔ c ∉ pre) := by
  obtain ⟨pre, c, post, p, es, e1, e2, e3, e4, _, _, _, e5⟩ := (walk_spec t parts parts start q true h).2 rfl
  obtain ⟨first, rest, h1, h2, h3⟩ := indexOf_drop (c := c) (l := parts) (by rw [e1]; simp)
  refine ⟨pre, c, post, p, es, first, rest, e1, e2, e3, e4, h1, h2, by rw [e5, h3], ?_⟩
  constructor
  · intro hq hc
    rw [e5, h3, List.append_cancel_left_eq] at hq
    have hpost : rest = post := (List.cons.inj hq).2
    subst hpost
    have : first = pre := List.append_cancel_right (h1.symm.trans e1)
    exact h2 (this ▸ hc)
  · intro hc
    rw [e5, e1, drop_indexOf hc]

example : findFullPath tree [['w']] [[], ['a'], ['a']] = some ([['w'], ['A'], ['a'], ['a']], true) := by
  decide +kernel

/-! ## C57 -/

namespace FilesAux

theorem digits_dropWhile {a : Str} (ha : ∀ x ∈ a, '0' ≤ x ∧ x ≤ '9') (r : Str) :
    (a ++ ',' :: r).dropWhile (fun c => decide ('0' ≤ c ∧ c ≤ '9')) = ',' :: r :=
  (takeWhile_all (fun x hx => decide_eq_true (ha x hx)) r ',' (by decide)).2

theorem dropWhile_inv (p : Char → Bool) (v : Str) : ∃ a, (∀ x ∈ a, p x = true) ∧ v = a ++ v.dropWhile p := by
  refine ⟨v.takeWhile p, ?_, (List.takeWhile_append_dropWhile).symm⟩
  induction v with
  | nil => intro x hx; cases hx
  | cons c v ih =>
    intro x hx
    cases hc : p c with
    | true =>
      rw [List.takeWhile_cons_of_pos hc] at hx
      rcases List.mem_cons.mp hx with rfl | hx
      · exact hc
      · exact ih x hx
    | false =>
      rw [List.takeWhile_cons_of_neg (by simp [hc])] at hx
      cases hx

theorem dropWhile_all {p : Char → Bool} {l : Str} (h : ∀ a ∈ l, p a = true) : l.dropWhile p = [] := by
  induction l with
  | nil => rfl
  | cons a l ih =>
    rw [List.dropWhile_cons_of_pos (h a (List.mem_cons_self ..)), ih (fun b hb => h b (List.mem_cons_of_mem _ hb))]

theorem isColor_iff (v : Str) : isColor v = true ↔ IsColor v := by
  constructor
  · intro h
    obtain ⟨a, ha, ea⟩ := dropWhile_inv (fun c => decide ('0' ≤ c ∧ c ≤ '9')) v
    unfold isColor at h
    simp only at h
    split at h
    · rename_i r hr
      obtain ⟨b, hb, eb⟩ := dropWhile_inv (fun c => decide ('0' ≤ c ∧ c ≤ '9')) r
      split at h
      · rename_i t ht
        obtain ⟨c, hc, ec⟩ := dropWhile_inv (fun c => decide ('0' ≤ c ∧ c ≤ '9')) t
        rw [List.isEmpty_iff.mp h, List.append_nil] at ec
        refine ⟨a, b, c, ?_, by rw [ea, hr, eb, ht, ec]⟩
        intro x hx
        rw [List.mem_append, List.mem_append] at hx
        rcases hx with (hx | hx) | hx
        · exact of_decide_eq_true (ha x hx)
        · exact of_decide_eq_true (hb x hx)
        · exact of_decide_eq_true (hc x hx)
      · cases h
    · cases h
  · rintro ⟨a, b, c, hd, rfl⟩
    have ha : ∀ x ∈ a, '0' ≤ x ∧ x ≤ '9' := fun x hx => hd x (by simp [hx])
    have hb : ∀ x ∈ b, '0' ≤ x ∧ x ≤ '9' := fun x hx => hd x (by simp [hx])
    have hc : ∀ x ∈ c, '0' ≤ x ∧ x ≤ '9' := fun x hx => hd x (by simp [hx])
    unfold isColor
    simp only [digits_dropWhile ha, digits_dropWhile hb]
    rw [List.isEmpty_iff]
    exact dropWhile_all (fun x hx => decide_eq_true (hc x hx))

theorem inParens_iff (v : Str) : inParens v = true ↔ ∃ m, v = '(' :: (m ++ [')']) := by
  unfold inParens
  split
  · rename_i r
    rw [decide_eq_true_eq, List.getLast?_eq_some_iff]
    constructor
    · rintro ⟨m, rfl⟩; exact ⟨m, rfl⟩
    · rintro ⟨m, h⟩; exact ⟨m, (List.cons.inj h).2⟩
  · rename_i hno
    constructor
    · intro h; cases h
    · rintro ⟨m, rfl⟩; exact absurd rfl (hno _)

theorem unsigned_spec {accepts : Str → Bool} {v : Str} (h1 : ∀ r, v = '-' :: r → accepts r = false)
    (h2 : v.head? ≠ some '-' → accepts v = false) : accepts (unsigned v) = false := by
  unfold unsigned
  split
  · exact h1 _ rfl
  · rename_i hno
    refine h2 (fun h => ?_)
    cases v with
    | nil => cases h
    | cons c r => cases h; exact hno r rfl

end FilesAux

/-- C57: a property value that is no constant (with or without a minus sign), no colour and not in
parentheses is written as a string literal of its text. Missing: texts with all kinds of delimiters. -/
theorem C57_quoted_partial (accepts : Str → Bool) (value : Str) (hne : value ≠ []) (hcolor : ¬ IsColor value)
    (hparens : ∀ m, value ≠ '(' :: (m ++ [')'])) (hneg : ∀ r, value = '-' :: r → accepts r = false)
    (hconst : value.head? ≠ some '-' → accepts value = false)
    (hfree : '"' ∉ value ∨ '\'' ∉ value ∨ ('[' ∉ value ∧ ']' ∉ value)) : IsLiteral (propertyValue accepts value) value := by
  have hc : isColor value = false := by
    cases h : isColor value with
    | false => rfl
    | true => exact absurd ((isColor_iff value).mp h) hcolor
  have hq : inParens value = false := by
    cases h : inParens value with
    | false => rfl
    | true => obtain ⟨m, hm⟩ := (inParens_iff value).mp h; exact absurd hm (hparens m)
  unfold propertyValue
  rw [if_neg hne, hc, if_neg (by decide), hq, if_neg (by decide), unsigned_spec hneg hconst, if_neg (by decide)]
  unfold quote
  split
  · rename_i h; exact ⟨('"', '"'), by decide, rfl, h⟩
  · rename_i h1
    split
    · rename_i h; exact ⟨('\'', '\''), by decide, rfl, h⟩
    · rename_i h2
      split
      · rename_i h; exact ⟨('[', ']'), by decide, rfl, h.2⟩
      · rename_i h3
        rcases hfree with h | h | h
        · exact absurd h h1
        · exact absurd h h2
        · exact absurd h h3

example : propertyValue (fun _ => false) "say \"hi\"".toList = "'say \"hi\"'".toList := by decide +kernel

/-- C57: three numbers are a colour, a text in parentheses and a constant are themselves, the
constant with its minus sign. -/
theorem C57_kept (accepts : Str → Bool) (value : Str) :
    (IsColor value → propertyValue accepts value = "RGB(".toList ++ value ++ [')']) ∧
    ((∃ m, value = '(' :: (m ++ [')'])) → propertyValue accepts value = value) ∧
    (value.head? ≠ some '-' → value ≠ [] → ¬ IsColor value → accepts value = true → propertyValue accepts value = value) ∧
    (accepts value = true → propertyValue accepts ('-' :: value) = '-' :: value) := by
  refine ⟨fun h => ?_, ?_, fun h1 h2 h3 h4 => ?_, fun h => ?_⟩
  · unfold propertyValue
    rw [if_neg, if_pos ((isColor_iff value).mpr h)]
    rintro rfl
    obtain ⟨a, b, c, _, e⟩ := h
    cases a <;> cases e
  · rintro ⟨m, rfl⟩
    unfold propertyValue
    rw [if_neg (by simp), if_neg, if_pos ((inParens_iff _).mpr ⟨m, rfl⟩)]
    intro h
    obtain ⟨a, b, c, hd, e⟩ := (isColor_iff _).mp h
    cases a with
    | nil => cases e
    | cons x a =>
      have hx := hd x (by simp)
      rw [← (List.cons.inj e).1] at hx
      exact absurd hx (by decide)
  · unfold propertyValue
    rw [if_neg h2, if_neg (fun h => h3 ((isColor_iff _).mp h))]
    split
    · rfl
    · rw [if_pos]
      have : unsigned value = value := by
        unfold unsigned
        split
        · exact absurd rfl h1
        · rfl
      rw [this, h4]
  · unfold propertyValue
    rw [if_neg (by simp), if_neg, if_neg, if_pos (show accepts (unsigned ('-' :: value)) = true from h)]
    · intro hq
      obtain ⟨m, hm⟩ := (inParens_iff _).mp hq
      cases hm
    · intro hc
      obtain ⟨a, b, c, hd, e⟩ := (isColor_iff _).mp hc
      cases a with
      | nil => cases e
      | cons x a =>
        have hx := hd x (by simp)
        rw [← (List.cons.inj e).1] at hx
        exact absurd hx (by decide)

example : IsColor "255,0,128".toList ∧ propertyValue (fun _ => false) "255,0,128".toList = "RGB(255,0,128)".toList :=
  ⟨⟨"255".toList, "0".toList, "128".toList, by decide, rfl⟩, by decide +kernel⟩

/-- C57: an empty value is the empty string. -/
theorem C57_empty (accepts : Str → Bool) : IsLiteral (propertyValue accepts []) [] := ⟨('"', '"'), by decide, rfl, by decide⟩

example : propertyValue (fun _ => false) [] = ['"', '"'] := by decide +kernel

/-- C57 does not hold if the text contains all kinds of delimiters: it is written
without any. -/
theorem C57_delimiters_fails (accepts : Str → Bool) (h : accepts "a\"'[b".toList = false) :
    propertyValue accepts "a\"'[b".toList = "a\"'[b".toList ∧ ¬ IsLiteral "a\"'[b".toList "a\"'[b".toList := by
  constructor
  · have h1 : isColor "a\"'[b".toList = false := by decide +kernel
    have h2 : inParens "a\"'[b".toList = false := by decide +kernel
    have h3 : quote "a\"'[b".toList = "a\"'[b".toList := by decide +kernel
    unfold propertyValue
    rw [if_neg (by decide), h1, if_neg (by decide), h2, if_neg (by decide), if_neg (by simpa [unsigned] using h), h3]
  · rintro ⟨d, hd, he, _⟩
    have := congrArg List.length he
    simp at this

/-- C57 does not hold for a text that begins with a constant, such as the caption
`5 items`: the parser is content with the constant, and the text is written as it is.
-/
theorem C57_prefix_fails (accepts : Str → Bool) (h : accepts "5 items".toList = true) :
    propertyValue accepts "5 items".toList = "5 items".toList ∧ ¬ IsLiteral "5 items".toList "5 items".toList := by
  constructor
  · have h1 : isColor "5 items".toList = false := by decide +kernel
    have h2 : inParens "5 items".toList = false := by decide +kernel
    unfold propertyValue
    rw [if_neg (by decide), h1, if_neg (by decide), h2, if_neg (by decide), if_pos (by simpa [unsigned] using h)]
  · rintro ⟨d, hd, he, _⟩
    have := congrArg List.length he
    simp at this

/-! ## C72 -/

namespace FilesAux

theorem takeWhile_self {q : Char → Bool} : ∀ {l : Str}, (∀ x ∈ l, q x = true) → l.takeWhile q = l
  | [], _ => rfl
  | c :: l, h => by
    rw [List.takeWhile_cons, if_pos (h c (by simp)), takeWhile_self fun x hx => h x (by simp [hx])]

theorem basename_eq (p : Str) : basename p = fileName p := by
  induction p with
  | nil => rfl
  | cons c p ih =>
    unfold basename at *
    rw [fileName, List.reverse_cons]
    by_cases h : '/' ∈ p
    · rw [if_pos h, ← ih, List.takeWhile_append, if_neg]
      intro hl
      have hp := (List.takeWhile_prefix (l := p.reverse) (· ≠ '/')).eq_of_length hl
      have : ∀ x ∈ p.reverse, x ≠ '/' := by
        intro x hx
        rw [← hp] at hx
        simpa using List.all_eq_true.mp (List.all_takeWhile (p := (· ≠ '/')) (l := p.reverse)) x hx
      exact this '/' (by simpa using h) rfl
    · have hp : p.reverse.takeWhile (fun x => decide (x ≠ '/')) = p.reverse := by
        refine takeWhile_self fun x hx => ?_
        simp only [decide_eq_true_eq]
        rintro rfl
        exact h (by simpa using hx)
      rw [if_neg h, List.takeWhile_append, if_pos (by rw [hp])]
      by_cases hc : c = '/'
      · simp [hc]
      · simp [hc]

def keyOf (r : Record) : Str := if r.failed then r.path else lower (basename r.path)

theorem get_read (n : Str) : ∀ (rs : List Record) (d : Py.Dict Str (Option Str)),
    (rs.foldl (fun files r =>
      if r.skipped then files
      else if r.failed then files.set r.path none
      else files.set (lower (basename r.path)) (some r.path)) d).get n =
    match (rs.filter fun r => !r.skipped && decide (keyOf r = n)).getLast? with
    | some r => some (if r.failed then none else some r.path)
    | none => d.get n
  | [], d => rfl
  | r :: rs, d => by
    rw [List.foldl_cons, get_read n rs, List.filter_cons]
    cases hs : r.skipped
    · by_cases hk : keyOf r = n
      · simp only [Bool.not_false, Bool.true_and, hk, decide_true, if_true]
        cases hl : (rs.filter fun r => !r.skipped && decide (keyOf r = n)).getLast? with
        | some x => rw [List.getLast?_cons, hl]; rfl
        | none =>
          rw [List.getLast?_cons, hl, Option.getD_none]
          cases hf : r.failed
          · simp only [Bool.false_eq_true, if_false]
            simp only [keyOf, hf, Bool.false_eq_true, if_false] at hk
            simp [hk, hf, Py.Dict.get_set_self]
          · simp only [Bool.false_eq_true, if_false, if_true]
            simp only [keyOf, hf, if_true] at hk
            simp [hk, hf, Py.Dict.get_set_self]
      · simp only [Bool.not_false, Bool.true_and, hk, decide_false, Bool.false_eq_true, if_false]
        cases hl : (rs.filter fun r => !r.skipped && decide (keyOf r = n)).getLast? with
        | some x => rfl
        | none =>
          cases hf : r.failed
          · simp only [keyOf, hf, Bool.false_eq_true, if_false] at hk
            simp only [Bool.false_eq_true, if_false]
            rw [Py.Dict.get_set_ne _ _ (fun e => hk e.symm)]
          · simp only [keyOf, hf, if_true] at hk
            simp only [if_true]
            rw [Py.Dict.get_set_ne _ _ (fun e => hk e.symm)]
    · simp

theorem mem_of_get {α β : Type} [DecidableEq α] : ∀ {d : Py.Dict α β} {k : α} {v : β}, d.get k = some v → (k, v) ∈ d
  | (k', v') :: d, k, v, h => by
    rw [Py.Dict.get] at h
    split at h
    · rename_i e; rw [Option.some.injEq] at h; rw [e, h]; simp
    · exact List.mem_cons_of_mem _ (mem_of_get h)

theorem mem_set_nodup {α β : Type} [DecidableEq α] (k : α) (v : β) : ∀ d : Py.Dict α β, (d.map Prod.fst).Nodup → ((d.set k v).map Prod.fst).Nodup ∧
    ∀ x, x ∈ (d.set k v).map Prod.fst → x = k ∨ x ∈ d.map Prod.fst
  | [], _ => by simp [Py.Dict.set]
  | (k', v') :: d, h => by
    rw [Py.Dict.set]
    rw [List.map_cons, List.nodup_cons] at h
    split
    · rename_i e
      refine ⟨by simpa [e] using h, ?_⟩
      intro x hx
      simp at hx ⊢
      rcases hx with hx | hx
      · exact .inl hx
      · exact .inr (.inr hx)
    · rename_i e
      obtain ⟨i1, i2⟩ := mem_set_nodup k v d h.2
      refine ⟨?_, ?_⟩
      · rw [List.map_cons, List.nodup_cons]
        refine ⟨fun hm => ?_, i1⟩
        rcases i2 _ hm with hx | hx
        · exact e hx
        · exact h.1 hx
      · intro x hx
        rw [List.map_cons, List.mem_cons] at hx
        rcases hx with hx | hx
        · exact .inr (by simp [hx])
        · rcases i2 _ hx with hx | hx
          · exact .inl hx
          · exact .inr (List.mem_cons_of_mem _ hx)

theorem get_of_mem {α β : Type} [DecidableEq α] : ∀ {d : Py.Dict α β} {k : α} {v : β}, (d.map Prod.fst).Nodup → (k, v) ∈ d → d.get k = some v
  | (k', v') :: d, k, v, hd, h => by
    rw [List.map_cons, List.nodup_cons] at hd
    rw [Py.Dict.get]
    rcases List.mem_cons.mp h with h | h
    · cases h; rw [if_pos rfl]
    · rw [if_neg, get_of_mem hd.2 h]
      intro e
      exact hd.1 (List.mem_map.mpr ⟨(k, v), h, e.symm⟩)

end FilesAux

/-- C72: every file of a project that was found is converted. Missing: files of the same
name in several directories. -/
theorem C72_project_partial (records : List Record) (r : Record) (hr : r ∈ records) (hs : r.skipped = false) (hf : r.failed = false)
    (huniq : ∀ r' ∈ records, r'.skipped = false → (if r'.failed then r'.path else lower (fileName r'.path)) = lower (fileName r.path) → r'.path = r.path ∧ r'.failed = false) :
    r.path ∈ convertedFiles records := by
  simp only [← basename_eq] at huniq
  have hg := get_read (lower (basename r.path)) records []
  have hk : keyOf r = lower (basename r.path) := by simp [keyOf, hf]
  have hmem : r ∈ records.filter fun r' => !r'.skipped && decide (keyOf r' = lower (basename r.path)) := by
    simp [List.mem_filter, hr, hs, hk]
  cases hl : (records.filter fun r' => !r'.skipped && decide (keyOf r' = lower (basename r.path))).getLast? with
  | none => rw [List.getLast?_eq_none_iff] at hl; rw [hl] at hmem; cases hmem
  | some x =>
    have hx := List.mem_of_getLast? hl
    rw [List.mem_filter, Bool.and_eq_true, Bool.not_eq_true', decide_eq_true_eq] at hx
    obtain ⟨h1, h2⟩ := huniq x hx.1 hx.2.1 hx.2.2
    rw [hl] at hg
    simp only [h2, h1, Bool.false_eq_true, if_false] at hg
    exact List.mem_map.mpr ⟨_, mem_of_get hg, rfl⟩

example : convertedFiles [⟨"a/Main.prg".toList, false, false, true⟩, ⟨"b/skip.prg".toList, false, true, false⟩, ⟨"b/Util.prg".toList, false, false, false⟩] =
    ["a/Main.prg".toList, "b/Util.prg".toList] := by decide +kernel

/-- C72: nothing else is converted: every argument is a file of the project that is not
excluded. -/
theorem C72_only (records : List Record) (f : Str) (h : f ∈ convertedFiles records) : ∃ r ∈ records, r.skipped = false ∧ r.path = f := by
  have inv : ∀ (rs : List Record) (d : Py.Dict Str (Option Str)),
      (∀ p ∈ d, ∃ r ∈ records, r.skipped = false ∧ r.path = (match p.2 with | some path => path | none => p.1)) → (∀ r ∈ rs, r ∈ records) →
      ∀ p ∈ rs.foldl (fun files r =>
        if r.skipped then files
        else if r.failed then files.set r.path none
        else files.set (lower (basename r.path)) (some r.path)) d,
        ∃ r ∈ records, r.skipped = false ∧ r.path = (match p.2 with | some path => path | none => p.1) := by
    have mem_set : ∀ (d : Py.Dict Str (Option Str)) (k : Str) (v : Option Str) (p), p ∈ d.set k v → p = (k, v) ∨ p ∈ d := by
      intro d k v
      induction d with
      | nil => intro p hp; left; simpa [Py.Dict.set] using hp
      | cons q d ih =>
        intro p hp
        obtain ⟨a, b⟩ := q
        rw [Py.Dict.set] at hp
        split at hp
        · rename_i e
          rcases List.mem_cons.mp hp with h | h
          · exact .inl h
          · exact .inr (List.mem_cons_of_mem _ h)
        · rcases List.mem_cons.mp hp with h | h
          · right; rw [h]; simp
          · rcases ih p h with h | h
            · exact .inl h
            · exact .inr (List.mem_cons_of_mem _ h)
    intro rs
    induction rs with
    | nil => intro d hd _; exact hd
    | cons r rs ih =>
      intro d hd hrs
      rw [List.foldl_cons]
      apply ih
      · intro p hp
        split at hp
        · exact hd p hp
        · rename_i hs
          have hs' : r.skipped = false := by simpa using hs
          split at hp
          · rcases mem_set _ _ _ _ hp with rfl | hp
            · exact ⟨r, hrs r (by simp), hs', rfl⟩
            · exact hd p hp
          · rcases mem_set _ _ _ _ hp with rfl | hp
            · exact ⟨r, hrs r (by simp), hs', rfl⟩
            · exact hd p hp
      · intro x hx; exact hrs x (List.mem_cons_of_mem _ hx)
  obtain ⟨p, hp, rfl⟩ := List.mem_map.mp h
  exact inv records [] (by simp) (fun _ h => h) p hp

def found (path : String) : Record := ⟨path.toList, false, false, false⟩
example : "a/Main.prg".toList ∈ convertedFiles [found "a/Main.prg", found "a/Util.prg"] := by decide +kernel

/-- C72 does not hold for two files of the same name: a file is converted exactly if no later file
that is not excluded has the same name. -/
theorem C72_project_iff (records : List Record) (f : Str) : f ∈ convertedFiles records ↔
    ∃ before r later, records = before ++ r :: later ∧ r.skipped = false ∧ r.path = f ∧
      ∀ r' ∈ later, r'.skipped = false →
        (if r'.failed then r'.path else lower (fileName r'.path)) ≠ (if r.failed then r.path else lower (fileName r.path)) := by
  simp only [← basename_eq]
  have last : ∀ (p : Record → Bool) (l : List Record) (r : Record), (l.filter p).getLast? = some r ↔
      ∃ before later, l = before ++ r :: later ∧ p r = true ∧ ∀ r' ∈ later, p r' = false := by
    intro p l r
    constructor
    · intro h
      induction l with
      | nil => simp at h
      | cons x l ih =>
        rw [List.filter_cons] at h
        cases hl : (l.filter p).getLast? with
        | some y =>
          have hy : y = r := by
            split at h
            · rw [List.getLast?_cons, hl] at h; simpa using h
            · rw [hl] at h; simpa using h
          obtain ⟨b, later, e1, e2, e3⟩ := ih (by rw [hl, hy])
          exact ⟨x :: b, later, by rw [e1]; rfl, e2, e3⟩
        | none =>
          split at h
          · rename_i hp
            rw [List.getLast?_cons, hl] at h
            have hx : x = r := by simpa using h
            subst hx
            refine ⟨[], l, rfl, hp, fun r' hr' => ?_⟩
            rw [List.getLast?_eq_none_iff, List.filter_eq_nil_iff] at hl
            simpa using hl r' hr'
          · rw [hl] at h; cases h
    · rintro ⟨b, later, rfl, hr, hl⟩
      have h0 : later.filter p = [] := List.filter_eq_nil_iff.mpr (by simpa using hl)
      rw [List.filter_append, List.filter_cons, if_pos hr, h0]
      simp
  have nodup : ((readProject records).map Prod.fst).Nodup := by
    unfold readProject
    suffices ∀ (d : Py.Dict Str (Option Str)), (d.map Prod.fst).Nodup → ((records.foldl (fun files r =>
      if r.skipped then files
      else if r.failed then files.set r.path none
      else files.set (lower (basename r.path)) (some r.path)) d).map Prod.fst).Nodup from this [] (by simp)
    induction records with
    | nil => intro d hd; exact hd
    | cons r rs ih =>
      intro d hd
      rw [List.foldl_cons]
      apply ih
      split
      · exact hd
      · split
        · exact (mem_set_nodup _ _ _ hd).1
        · exact (mem_set_nodup _ _ _ hd).1
  have hg : ∀ k v, (readProject records).get k = some v ↔ ∃ r before later, records = before ++ r :: later ∧ r.skipped = false ∧ keyOf r = k ∧
      (∀ r' ∈ later, r'.skipped = false → keyOf r' ≠ k) ∧ v = if r.failed then none else some r.path := by
    intro k v
    have := get_read k records []
    unfold readProject
    rw [this]
    cases hl : (records.filter fun r => !r.skipped && decide (keyOf r = k)).getLast? with
    | none =>
      constructor
      · intro h; simp at h
      · rintro ⟨r, b, later, rfl, h1, h2, _⟩
        rw [List.getLast?_eq_none_iff, List.filter_eq_nil_iff] at hl
        exact absurd (by simp [h1, h2]) (hl r (by simp))
    | some r =>
      constructor
      · intro h
        obtain ⟨b, later, e1, e2, e3⟩ := (last _ _ _).mp hl
        rw [Bool.and_eq_true, Bool.not_eq_true', decide_eq_true_eq] at e2
        refine ⟨r, b, later, e1, e2.1, e2.2, fun r' hr' hs hk => ?_, by simpa using h.symm⟩
        have := e3 r' hr'
        simp [hs, hk] at this
      · rintro ⟨r', b, later, e1, e2, e3, e4, e5⟩
        have : (records.filter fun r => !r.skipped && decide (keyOf r = k)).getLast? = some r' := by
          refine (last _ _ _).mpr ⟨b, later, e1, by simp [e2, e3], fun x hx => ?_⟩
          cases hs : x.skipped
          · simp [e4 x hx hs]
          · simp
        rw [hl] at this
        cases this
        rw [e5]
  unfold convertedFiles
  rw [List.mem_map]
  constructor
  · rintro ⟨⟨k, v⟩, hm, rfl⟩
    obtain ⟨r, b, later, e1, e2, e3, e4, e5⟩ := (hg k v).mp (get_of_mem nodup hm)
    refine ⟨b, r, later, e1, e2, ?_, fun r' hr' hs => ?_⟩
    · subst e5
      cases hf : r.failed
      · simp
      · simp only [keyOf, hf, if_true] at e3
        simp [e3]
    · have := e4 r' hr' hs
      rw [← e3] at this
      exact this
  · rintro ⟨b, r, later, e1, e2, e3, e4⟩
    refine ⟨(keyOf r, if r.failed then none else some r.path), mem_of_get ((hg _ _).mpr ⟨r, b, later, e1, e2, rfl, e4, rfl⟩), ?_⟩
    cases hf : r.failed
    · simpa using e3
    · simp [keyOf, hf, e3]

example : "a/util.prg".toList ∉ convertedFiles [found "a/util.prg", found "b/Util.prg"] := by decide +kernel

end Props
