import Verif.Model.Dll
import Verif.Model.Procs
/-!
# C133: DECLARE ... IN library

FoxPro: the command makes the function of the library, by exactly the name given, callable under its alias or
its name; capitals do not matter in the calls; the last declaration of a name counts; CLEAR DLLS takes the
declarations of the names given back; nothing else becomes callable.
-/
namespace Props
open Model.Dll

namespace DllSpec

/-- The library as written in the program or as the value of an expression. -/
def text : Arg → Str
  | .literal s => s
  | .value s => s

/-- The name for calls. -/
def written (d : Decl) : Str := d.alias.getD d.function

/-- Names are compared without regard to case. -/
def fold (s : Str) : Str := s.map Char.toLower

/-- The functions declared after one more command; `libs` finds libraries. -/
def step (libs : Str → Option Lib) (m : Str → Option Sym) (c : Cmd) : Str → Option Sym := fun k =>
  match c with
  | .declare d =>
    match libs (text d.library) with
    | some l => if d.function ∈ l.exports ∧ k = fold (written d) then some ⟨l.name, d.function⟩ else m k
    | none => m k
  | .clear ns => if k ∈ ns.map fold then none else m k

def declared (libs : Str → Option Lib) (h : List Cmd) : Str → Option Sym := h.foldl (step libs) fun _ => none

/-- A declaration that the conversion keeps: of an existing function, its name and the name of the library
without capitals, and an alias that is not another function of the library. -/
structure Plain (libs : Str → Option Lib) (d : Decl) : Prop where
  function : fold d.function = d.function ∧ d.function ≠ "class".toList
  library : ∀ s, d.library = .literal s → fold s = s
  alias : d.alias ≠ some [] ∧ fold (written d) ≠ "class".toList
  exists_ : ∃ l, libs (text d.library) = some l ∧ d.function ∈ l.exports ∧
    (fold (written d) ≠ d.function → fold (written d) ∉ l.exports)

/-- No library has a function with the name of a declaration in another library, and no name is declared in
two libraries. -/
def Apart (libs : Str → Option Lib) (h : List Cmd) : Prop :=
  ∀ d d' l l', .declare d ∈ h → .declare d' ∈ h → libs (text d.library) = some l → libs (text d'.library) = some l' →
    l.name ≠ l'.name → fold (written d) ∉ l'.exports ∧ fold (written d) ≠ fold (written d')

end DllSpec

open DllSpec

namespace DllAux

theorem lower_eq (s : Str) : lower s = fold s := rfl

theorem load_name {w : World} {n n' : Str} {l l' : Lib} (h : load w n = some l) (h' : load w n' = some l')
    (e : l.name = l'.name) : l = l' := by
  have key : ∀ m k, load w m = some k →
      (∃ p, k.name = some p ∧ w.dlopen p = some k.exports) ∨ (k.name = none ∧ w.main = some k.exports) := by
    intro m k hk
    unfold load at hk
    split at hk
    · next e he => cases hk; exact .inl ⟨m, rfl, he⟩
    · split at hk
      · next p hp =>
        cases hd : w.dlopen p with
        | none => simp [hd] at hk
        | some e => simp [hd] at hk; subst hk; exact .inl ⟨p, rfl, hd⟩
      · cases hm : w.main with
        | none => simp [hm] at hk
        | some e => simp [hm] at hk; subst hk; exact .inr ⟨rfl, rfl⟩
  obtain ⟨a, b⟩ := l
  obtain ⟨a', b'⟩ := l'
  simp only at e
  subst e
  rcases key _ _ h with ⟨p, hp, hq⟩ | ⟨hp, hq⟩ <;> rcases key _ _ h' with ⟨p', hp', hq'⟩ | ⟨hp', hq'⟩
  · simp only at hp hp' hq hq'
    rw [hp] at hp'
    cases hp'
    rw [hq] at hq'
    cases hq'
    rfl
  · simp only at hp hp'; rw [hp] at hp'; cases hp'
  · simp only at hp hp'; rw [hp] at hp'; cases hp'
  · simp only at hq hq'; rw [hq] at hq'; cases hq'; rfl

/-- What is true of the libraries after a plain history. -/
structure Inv (w : World) (h : List Cmd) (s : List Loaded) : Prop where
  nodup : (s.map (·.lib.name)).Nodup
  own : ∀ d ∈ s, ∀ k v, Py.Dict.get d.attrs k = some v → k ∈ d.lib.exports → v = ⟨d.lib.name, k⟩
  source : ∀ d ∈ s, ∃ c, .declare c ∈ h ∧ load w (text c.library) = some d.lib
  attr : ∀ d ∈ s, ∀ k v, Py.Dict.get d.attrs k = some v → k ∈ d.lib.exports ∨
    ∃ c, .declare c ∈ h ∧ load w (text c.library) = some d.lib ∧ k = fold (written c)
  spec : ∀ k v, declared (load w) h k = some v → ∃ d ∈ s, ∃ c, .declare c ∈ h ∧
    load w (text c.library) = some d.lib ∧ k = fold (written c) ∧ Py.Dict.get d.attrs k = some v

theorem get_own {d : Loaded} {f : Str} (hf : f ∈ d.lib.exports)
    (own : ∀ k v, Py.Dict.get d.attrs k = some v → k ∈ d.lib.exports → v = ⟨d.lib.name, k⟩) :
    d.get f = some ⟨d.lib.name, f⟩ := by
  unfold Loaded.get
  split
  · next s hs => rw [own _ _ hs hf]
  · simp [hf]

/-- A library after one more function has been declared. -/
def after (d : Loaded) (f a : Str) : Loaded := (d.put f ⟨d.lib.name, f⟩).put a ⟨d.lib.name, f⟩

theorem after_attrs (d : Loaded) (f a k : Str) : Py.Dict.get (after d f a).attrs k =
    if k = a then some ⟨d.lib.name, f⟩ else if k = f then some ⟨d.lib.name, f⟩ else Py.Dict.get d.attrs k := by
  simp only [after, Loaded.put, Py.Dict.get_set]

theorem declare_own {d : Loaded} {f a : Str} (hf : f ∈ d.lib.exports)
    (own : ∀ k v, Py.Dict.get d.attrs k = some v → k ∈ d.lib.exports → v = ⟨d.lib.name, k⟩) :
    d.declare f a = some (after d f a) := by
  unfold Loaded.declare
  rw [get_own hf own]
  rfl

theorem library_get {libs : Str → Option Lib} {d : Decl} (h : Plain libs d) : d.library.get = text d.library := by
  cases e : d.library with
  | literal s => exact h.library s e
  | value s => rfl

theorem identifier_eq {x : Str} (h : fold x ≠ "class".toList) : identifier x = fold x := by
  unfold identifier; rw [lower_eq, if_neg h]

theorem identifier_function {libs : Str → Option Lib} {d : Decl} (h : Plain libs d) : identifier d.function = d.function := by
  rw [identifier_eq (by rw [h.function.1]; exact h.function.2), h.function.1]

/-- The alias as `dll_declare` takes it. -/
def aliasOf (func : Str) (alias : Option Str) : Str :=
  match alias with
  | none => func
  | some a => if a = [] then func else a

theorem aliasOf_eq {libs : Str → Option Lib} {d : Decl} (h : Plain libs d) :
    aliasOf (identifier d.function) (d.alias.map identifier) = fold (written d) := by
  have h1 := h.alias
  unfold written at h1 ⊢
  cases e : d.alias with
  | none => simp only [e, Option.map_none, aliasOf, Option.getD_none]; rw [identifier_function h, h.function.1]
  | some a =>
    simp only [e, Option.getD_some] at h1
    simp only [Option.map_some, aliasOf, Option.getD_some]
    rw [identifier_eq h1.2, if_neg]
    intro h2
    apply h1.1
    cases a with
    | nil => rfl
    | cons c t => simp [fold] at h2

theorem dllDeclare_eq (w : World) (s : List Loaded) (n f : Str) (alias : Option Str) {l : Lib} (hl : load w n = some l) :
    dllDeclare w s n f alias =
      match s.findIdx? (fun d => d.lib.name = l.name) with
      | some i =>
        match s[i]?.bind (·.declare f (aliasOf f alias)) with
        | some d => (s.set i d, none)
        | none => (s, some .attributeError)
      | none =>
        match (Loaded.mk l []).declare f (aliasOf f alias) with
        | some d => (s ++ [d], none)
        | none => (s, some .attributeError) := by
  unfold dllDeclare
  rw [hl]
  rfl

theorem declared_snoc (libs : Str → Option Lib) (h : List Cmd) (c : Cmd) :
    declared libs (h ++ [c]) = step libs (declared libs h) c := by
  unfold declared; rw [List.foldl_append]; rfl

theorem run_snoc (w : World) (h : List Cmd) (c : Cmd) : run w (h ++ [c]) = (exec w (run w h) c).1 := by
  unfold run; rw [List.foldl_append]; rfl

/-- A declaration leads to one of two states. -/
theorem declare_cases {w : World} {h : List Cmd} {s : List Loaded} (I : Inv w h s) {d : Decl} (p : Plain (load w) d)
    {l : Lib} (hl : load w (text d.library) = some l) (hf : d.function ∈ l.exports) :
    (∃ i x, s[i]? = some x ∧ x.lib = l ∧
      (exec w s (.declare d)).1 = s.set i (after x d.function (fold (written d)))) ∨
    ((∀ x ∈ s, x.lib.name ≠ l.name) ∧
      (exec w s (.declare d)).1 = s ++ [after ⟨l, []⟩ d.function (fold (written d))]) := by
  simp only [exec]
  rw [library_get p, dllDeclare_eq w s _ _ _ hl, aliasOf_eq p, identifier_function p]
  cases hi : s.findIdx? (fun d => d.lib.name = l.name) with
  | some i =>
    left
    obtain ⟨hlt, hx, _⟩ := List.findIdx?_eq_some_iff_getElem.mp hi
    simp only [decide_eq_true_eq] at hx
    have hmem : s[i] ∈ s := List.getElem_mem hlt
    obtain ⟨c, _, hc⟩ := I.source _ hmem
    have hlib : s[i].lib = l := load_name hc hl hx
    refine ⟨i, s[i], List.getElem?_eq_getElem hlt, hlib, ?_⟩
    simp only [List.getElem?_eq_getElem hlt, Option.bind_some]
    rw [declare_own (by rw [hlib]; exact hf) (I.own _ hmem)]
  | none =>
    right
    have hn := List.findIdx?_eq_none_iff.mp hi
    refine ⟨fun x hx => by simpa using hn x hx, ?_⟩
    simp only
    rw [declare_own (d := ⟨l, []⟩) hf (by intro k v hk; simp at hk)]

/-- What holds of each library holds again after the declaration. -/
theorem after_own {x : Loaded} {f a : Str} (hf : f ∈ x.lib.exports) (ha : a ≠ f → a ∉ x.lib.exports)
    (own : ∀ k v, Py.Dict.get x.attrs k = some v → k ∈ x.lib.exports → v = ⟨x.lib.name, k⟩) :
    ∀ k v, Py.Dict.get (after x f a).attrs k = some v → k ∈ (after x f a).lib.exports → v = ⟨(after x f a).lib.name, k⟩ := by
  intro k v hk he
  rw [after_attrs] at hk
  have he : k ∈ x.lib.exports := he
  change v = ⟨x.lib.name, k⟩
  by_cases h1 : k = a
  · simp only [h1, if_true] at hk
    cases hk
    by_cases h2 : a = f
    · rw [h1, h2]
    · exact absurd (h1 ▸ he) (ha h2)
  · by_cases h2 : k = f
    · simp only [h1, if_false, h2, if_true] at hk
      rw [if_neg (fun h => h1 (h2.trans h))] at hk
      cases hk; rw [h2]
    · simp only [h1, h2, if_false] at hk; exact own k v hk he

theorem mem_snoc {c x : Cmd} {h : List Cmd} (m : c ∈ h) : c ∈ h ++ [x] := List.mem_append_left _ m

theorem names_set {s : List Loaded} {i : Nat} {x y : Loaded} (hx : s[i]? = some x) (hy : y.lib = x.lib) :
    (s.set i y).map (·.lib.name) = s.map (·.lib.name) := by
  rw [List.map_set, hy]
  obtain ⟨hi, hxi⟩ := List.getElem?_eq_some_iff.mp hx
  subst hxi
  have := List.set_getElem_self (as := s.map (·.lib.name)) (i := i) (by simpa using hi)
  rw [List.getElem_map] at this
  exact this

theorem inv_declare {w : World} {h : List Cmd} {s : List Loaded} (I : Inv w h s) {d : Decl} (p : Plain (load w) d) :
    Inv w (h ++ [.declare d]) (exec w s (.declare d)).1 := by
  obtain ⟨l, hl, hf, ha⟩ := p.exists_
  have new : Cmd.declare d ∈ h ++ [Cmd.declare d] := List.mem_append_right _ (List.mem_singleton.mpr rfl)
  have spec' : ∀ k v, declared (load w) (h ++ [.declare d]) k = some v →
      (k = fold (written d) ∧ v = ⟨l.name, d.function⟩) ∨ (k ≠ fold (written d) ∧ declared (load w) h k = some v) := by
    intro k v hk
    rw [declared_snoc] at hk
    simp only [step, hl] at hk
    by_cases hk' : k = fold (written d)
    · rw [if_pos ⟨hf, hk'⟩] at hk; cases hk; exact .inl ⟨hk', rfl⟩
    · rw [if_neg (fun x => hk' x.2)] at hk; exact .inr ⟨hk', hk⟩
  have attr' : ∀ x : Loaded, x.lib = l →
      (∀ k v, Py.Dict.get x.attrs k = some v → k ∈ x.lib.exports ∨
        ∃ c, Cmd.declare c ∈ h ∧ load w (text c.library) = some x.lib ∧ k = fold (written c)) →
      ∀ k v, Py.Dict.get (after x d.function (fold (written d))).attrs k = some v → k ∈ x.lib.exports ∨
        ∃ c, Cmd.declare c ∈ h ++ [Cmd.declare d] ∧ load w (text c.library) = some x.lib ∧ k = fold (written c) := by
    intro x hx old k v hk
    rw [after_attrs] at hk
    by_cases h1 : k = fold (written d)
    · exact .inr ⟨d, new, by rw [hx]; exact hl, h1⟩
    · by_cases h2 : k = d.function
      · left; rw [h2, hx]; exact hf
      · simp only [h1, h2, if_false] at hk
        rcases old k v hk with h3 | ⟨c, hc, h4⟩
        · exact .inl h3
        · exact .inr ⟨c, mem_snoc hc, h4⟩
  rcases declare_cases I p hl hf with ⟨i, x, hx, hlib, hs⟩ | ⟨hfresh, hs⟩
  · rw [hs]
    obtain ⟨hi, hxi⟩ := List.getElem?_eq_some_iff.mp hx
    have hmem : x ∈ s := hxi ▸ List.getElem_mem hi
    have hnew : after x d.function (fold (written d)) ∈ s.set i (after x d.function (fold (written d))) :=
      List.mem_set hi _
    refine ⟨?_, ?_, ?_, ?_, ?_⟩
    · rw [names_set (y := after x d.function (fold (written d))) hx rfl]; exact I.nodup
    · intro y hy
      rcases List.mem_or_eq_of_mem_set hy with hy | hy
      · exact I.own y hy
      · subst hy
        exact after_own (by rw [hlib]; exact hf) (by rw [hlib]; exact ha) (I.own x hmem)
    · intro y hy
      rcases List.mem_or_eq_of_mem_set hy with hy | hy
      · obtain ⟨c, hc, h1⟩ := I.source y hy; exact ⟨c, mem_snoc hc, h1⟩
      · subst hy; exact ⟨d, new, hl.trans (congrArg some hlib.symm)⟩
    · intro y hy
      rcases List.mem_or_eq_of_mem_set hy with hy | hy
      · intro k v hk
        rcases I.attr y hy k v hk with h1 | ⟨c, hc, h1⟩
        · exact .inl h1
        · exact .inr ⟨c, mem_snoc hc, h1⟩
      · subst hy; exact attr' x hlib (I.attr x hmem)
    · intro k v hk
      rcases spec' k v hk with ⟨h1, h2⟩ | ⟨h1, h2⟩
      · refine ⟨_, hnew, d, new, hl.trans (congrArg some hlib.symm), h1, ?_⟩
        rw [after_attrs, if_pos h1, h2, ← hlib]
      · obtain ⟨y, hy, c, hc, h3, h4, h5⟩ := I.spec k v h2
        by_cases hyx : y = x
        · subst hyx
          refine ⟨_, hnew, c, mem_snoc hc, h3, h4, ?_⟩
          rw [after_attrs, if_neg h1]
          by_cases h6 : k = d.function
          · rw [if_pos h6]
            have := I.own y hy k v h5 (by rw [h6, hlib]; exact hf)
            rw [this, h6]
          · rw [if_neg h6]; exact h5
        · refine ⟨y, ?_, c, mem_snoc hc, h3, h4, h5⟩
          obtain ⟨j, hj, hyj⟩ := List.mem_iff_getElem.mp hy
          refine List.mem_iff_getElem.mpr ⟨j, by simpa using hj, ?_⟩
          rw [List.getElem_set_ne]
          · exact hyj
          · intro hij; subst hij; exact hyx (hyj.symm.trans hxi)
  · rw [hs]
    have hnew : after ⟨l, []⟩ d.function (fold (written d)) ∈ s ++ [after ⟨l, []⟩ d.function (fold (written d))] :=
      List.mem_append_right _ (List.mem_singleton.mpr rfl)
    refine ⟨?_, ?_, ?_, ?_, ?_⟩
    · rw [List.map_append, List.nodup_append]
      refine ⟨I.nodup, by simp, ?_⟩
      intro a ha b hb
      obtain ⟨x, hx, hxa⟩ := List.mem_map.mp ha
      simp only [List.map_cons, List.map_nil, List.mem_singleton] at hb
      subst hxa hb
      exact hfresh x hx
    · intro y hy
      rcases List.mem_append.mp hy with hy | hy
      · exact I.own y hy
      · rw [List.mem_singleton] at hy
        subst hy
        exact after_own (x := ⟨l, []⟩) hf ha (by intro k v hk; simp at hk)
    · intro y hy
      rcases List.mem_append.mp hy with hy | hy
      · obtain ⟨c, hc, h1⟩ := I.source y hy; exact ⟨c, mem_snoc hc, h1⟩
      · rw [List.mem_singleton] at hy; subst hy; exact ⟨d, new, hl⟩
    · intro y hy
      rcases List.mem_append.mp hy with hy | hy
      · intro k v hk
        rcases I.attr y hy k v hk with h1 | ⟨c, hc, h1⟩
        · exact .inl h1
        · exact .inr ⟨c, mem_snoc hc, h1⟩
      · rw [List.mem_singleton] at hy
        subst hy
        exact attr' ⟨l, []⟩ rfl (by intro k v hk; simp at hk)
    · intro k v hk
      rcases spec' k v hk with ⟨h1, h2⟩ | ⟨h1, h2⟩
      · refine ⟨_, hnew, d, new, hl, h1, ?_⟩
        rw [after_attrs, if_pos h1, h2]
      · obtain ⟨y, hy, c, hc, h3, h4, h5⟩ := I.spec k v h2
        exact ⟨y, List.mem_append_left _ hy, c, mem_snoc hc, h3, h4, h5⟩

theorem foldl_del_lib (ns : List Str) (d : Loaded) : (ns.foldl Loaded.del d).lib = d.lib := by
  induction ns generalizing d with
  | nil => rfl
  | cons n t ih => rw [List.foldl_cons, ih]; rfl

theorem foldl_del_attrs (ns : List Str) (d : Loaded) (k : Str) :
    Py.Dict.get (ns.foldl Loaded.del d).attrs k = if k ∈ ns then none else Py.Dict.get d.attrs k := by
  induction ns generalizing d with
  | nil => simp
  | cons n t ih =>
    rw [List.foldl_cons, ih]
    by_cases h1 : k ∈ t
    · simp [h1]
    · by_cases h2 : k = n
      · subst h2; simp [Loaded.del, Py.Dict.get_del_self]
      · simp [h1, h2, Loaded.del, Py.Dict.get_del_ne _ h2]

theorem clear_attrs {ns : List Str} {d : Loaded} {k : Str} {v : Sym}
    (h : Py.Dict.get (ns.foldl Loaded.del d).attrs k = some v) : k ∉ ns ∧ Py.Dict.get d.attrs k = some v := by
  rw [foldl_del_attrs] at h
  by_cases h1 : k ∈ ns
  · rw [if_pos h1] at h; exact absurd h (by simp)
  · rw [if_neg h1] at h; exact ⟨h1, h⟩

theorem inv_clear {w : World} {h : List Cmd} {s : List Loaded} (I : Inv w h s) (ns : List Str) :
    Inv w (h ++ [.clear ns]) (exec w s (.clear ns)).1 := by
  simp only [exec, dllClear]
  refine ⟨?_, ?_, ?_, ?_, ?_⟩
  · rw [List.map_map]
    have : ((fun d : Loaded => d.lib.name) ∘ fun d => (ns.map lower).foldl Loaded.del d) = fun d => d.lib.name := by
      funext d; simp only [Function.comp]; rw [foldl_del_lib]
    rw [this]; exact I.nodup
  · intro y hy k v hk he
    obtain ⟨x, hx, rfl⟩ := List.mem_map.mp hy
    rw [foldl_del_lib] at he ⊢
    exact I.own x hx k v (clear_attrs hk).2 he
  · intro y hy
    obtain ⟨x, hx, rfl⟩ := List.mem_map.mp hy
    rw [foldl_del_lib]
    obtain ⟨c, hc, h1⟩ := I.source x hx
    exact ⟨c, mem_snoc hc, h1⟩
  · intro y hy k v hk
    obtain ⟨x, hx, rfl⟩ := List.mem_map.mp hy
    rw [foldl_del_lib]
    rcases I.attr x hx k v (clear_attrs hk).2 with h1 | ⟨c, hc, h1⟩
    · exact .inl h1
    · exact .inr ⟨c, mem_snoc hc, h1⟩
  · intro k v hk
    rw [declared_snoc] at hk
    simp only [step] at hk
    by_cases h1 : k ∈ ns.map fold
    · rw [if_pos h1] at hk; cases hk
    · rw [if_neg h1] at hk
      obtain ⟨y, hy, c, hc, h3, h4, h5⟩ := I.spec k v hk
      refine ⟨_, List.mem_map.mpr ⟨y, hy, rfl⟩, c, mem_snoc hc, ?_, h4, ?_⟩
      · rw [foldl_del_lib]; exact h3
      · rw [foldl_del_attrs, if_neg (show k ∉ ns.map lower from h1)]; exact h5

theorem inv_reverse (w : World) : ∀ r : List Cmd, (∀ d, .declare d ∈ r → Plain (load w) d) →
    Inv w r.reverse (run w r.reverse) := by
  intro r
  induction r with
  | nil =>
    intro _
    refine ⟨List.nodup_nil, ?_, ?_, ?_, ?_⟩
    · intro d hd; cases hd
    · intro d hd; cases hd
    · intro d hd; cases hd
    · intro k v hk; cases hk
  | cons c t ih =>
    intro p
    have I := ih fun d hd => p d (List.mem_cons_of_mem _ hd)
    rw [List.reverse_cons, run_snoc]
    cases c with
    | declare d => exact inv_declare I (p d List.mem_cons_self)
    | clear ns => exact inv_clear I ns

theorem inv_run (w : World) (h : List Cmd) (p : ∀ d, .declare d ∈ h → Plain (load w) d) : Inv w h (run w h) := by
  have := inv_reverse w h.reverse fun d hd => p d (List.mem_reverse.mp hd)
  rwa [List.reverse_reverse] at this

theorem same_of_name {s : List Loaded} (nd : (s.map (·.lib.name)).Nodup) {x y : Loaded} (hx : x ∈ s) (hy : y ∈ s)
    (e : x.lib.name = y.lib.name) : x = y := by
  induction s with
  | nil => cases hx
  | cons a t ih =>
    rw [List.map_cons, List.nodup_cons] at nd
    rcases List.mem_cons.mp hx with h1 | h1 <;> rcases List.mem_cons.mp hy with h2 | h2
    · rw [h1, h2]
    · subst h1; exact absurd (List.mem_map.mpr ⟨y, h2, e.symm⟩) nd.1
    · subst h2; exact absurd (List.mem_map.mpr ⟨x, h1, e⟩) nd.1
    · exact ih nd.2 h1 h2

theorem toLower_table : ∀ n : Fin 128, (Char.ofNat n).toLower.toLower = (Char.ofNat n).toLower := by decide

theorem toLower_toLower (c : Char) : c.toLower.toLower = c.toLower := by
  by_cases h : c.toNat < 128
  · have := toLower_table ⟨c.toNat, h⟩
    simpa using this
  · have h1 : c.toLower = c := by
      unfold Char.toLower
      rw [dif_neg]
      intro h2
      have h3 : c.val ≤ 'Z'.val := h2.2
      have : c.toNat ≤ 90 := h3
      omega
    rw [h1, h1]

theorem fold_fold (s : Str) : fold (fold s) = fold s := by
  unfold fold
  rw [List.map_map]
  exact List.map_congr_left fun c _ => toLower_toLower c

theorem fold_identifier (s : Str) : fold (identifier s) = identifier s := by
  unfold identifier
  split
  · decide
  · exact fold_fold s

theorem findSome_unique {α β : Type} {f : α → Option β} {l : List α} {a : α} {b : β} (ha : a ∈ l) (hb : f a = some b)
    (u : ∀ x ∈ l, (f x).isSome → f x = some b) : l.findSome? f = some b := by
  induction l with
  | nil => cases ha
  | cons x t ih =>
    rw [List.findSome?_cons]
    cases hx : f x with
    | some v =>
      have := u x List.mem_cons_self (by rw [hx]; rfl)
      rw [← this, hx]
    | none =>
      rcases List.mem_cons.mp ha with h | h
      · subst h; rw [hx] at hb; cases hb
      · exact ih h fun y hy => u y (List.mem_cons_of_mem _ hy)

end DllAux

open DllAux

namespace DllDemo

def s (x : String) : Str := x.toList

/-- A Linux system with the C library and a library of the user. -/
def w : World where
  dlopen n := if n = s "libc.so.6" then some [s "abs", s "getpid", s "time"]
    else if n = s "./my.so" then some [s "area", s "time", s "Volume"]
    else none
  find n := if n = s "c" then some (s "libc.so.6") else none
  main := none

def decl (f lib : String) (alias : Option String) : Decl := ⟨some (s "integer"), s f, .literal (s lib), alias.map s, []⟩

end DllDemo

/-- **C133 (partial)**: after any commands DECLARE and CLEAR DLLS, a declared name calls the function that was
declared last under it, capitals or not, if the functions and libraries have names without capitals, and the
names and aliases declared for one library are names of no function of the others and of no other
function of this one. -/
theorem C133_declared_partial (w : World) (h : List Cmd) (plain : ∀ d, .declare d ∈ h → Plain (load w) d)
    (apart : Apart (load w) h) (name : Str) (f : Sym) (hf : declared (load w) h (fold name) = some f) :
    call (run w h) name = some f := by
  have I := inv_run w h plain
  obtain ⟨d, hd, c, hc, h1, h2, h3⟩ := I.spec _ _ hf
  have hn : fold name ≠ "class".toList := by rw [h2]; exact (plain c hc).alias.2
  unfold call lookup
  rw [identifier_eq hn]
  have hget : ∀ x : Loaded, Py.Dict.get x.attrs (fold name) = some f → x.get (fold name) = some f := by
    intro x hx; unfold Loaded.get; rw [hx]
  refine findSome_unique hd (hget d h3) ?_
  intro x hx hs
  obtain ⟨c', hc', h1'⟩ := I.source x hx
  have same : x.lib.name = d.lib.name := by
    refine Classical.byContradiction fun hne => ?_
    have hap := (apart c c' d.lib x.lib hc hc' h1 h1' (Ne.symm hne)).1
    rw [← h2] at hap
    unfold Loaded.get at hs
    split at hs
    · next v hv =>
      rcases I.attr x hx _ v hv with h4 | ⟨c2, hc2, h5, h6⟩
      · exact hap h4
      · exact (apart c c2 d.lib x.lib hc hc2 h1 h5 (Ne.symm hne)).2 (h2.symm.trans h6)
    · rw [if_neg hap] at hs; cases hs
  have hxd : x = d := same_of_name I.nodup hx hd same
  rw [hxd]
  exact hget d h3

example : call (run DllDemo.w [.declare (DllDemo.decl "getpid" "c" (some "pid")), .declare (DllDemo.decl "area" "./my.so" none)])
    (DllDemo.s "AREA") = some ⟨some (DllDemo.s "./my.so"), DllDemo.s "area"⟩ := by decide +kernel

/-- **C133 fails** for functions whose names have capitals, as those of Windows: every declaration raises, so
that nothing can be called. -/
theorem C133_capitals_fails (w : World) (h : List Cmd)
    (capitals : ∀ d, .declare d ∈ h → ∀ l, load w d.library.get = some l → ∀ e ∈ l.exports, fold e ≠ e) :
    run w h = [] ∧ ∀ d, .declare d ∈ h → (exec w [] (.declare d)).2 ≠ none := by
  have one : ∀ d, .declare d ∈ h → (exec w [] (.declare d)).1 = [] ∧ (exec w [] (.declare d)).2 ≠ none := by
    intro d hd
    simp only [exec]
    cases hl : load w d.library.get with
    | none => unfold dllDeclare; rw [hl]; exact ⟨rfl, by simp⟩
    | some l =>
      rw [dllDeclare_eq w [] _ _ _ hl]
      have hno : identifier d.function ∉ l.exports := by
        intro hm
        exact capitals d hd l hl _ hm (fold_identifier _)
      have hn : (Loaded.mk l []).get (identifier d.function) = none := by
        unfold Loaded.get; simp [hno]
      simp [Loaded.declare, hn]
  refine ⟨?_, fun d hd => (one d hd).2⟩
  have all : ∀ g : List Cmd, (∀ c ∈ g, c ∈ h) → g.foldl (fun s c => (exec w s c).1) [] = [] := by
    intro g
    induction g with
    | nil => intro _; rfl
    | cons c t ih =>
      intro hg
      rw [List.foldl_cons]
      have : (exec w [] c).1 = [] := by
        cases c with
        | declare d => exact (one d (hg _ List.mem_cons_self)).1
        | clear ns => rfl
      rw [this]
      exact ih fun c hc => hg c (List.mem_cons_of_mem _ hc)
  exact all h fun c hc => hc

example : run DllDemo.w [.declare (DllDemo.decl "Volume" "./my.so" none)] = [] ∧
    (exec DllDemo.w [] (.declare (DllDemo.decl "Volume" "./my.so" none))).2 = some .attributeError := by decide +kernel

namespace DllAux

/-- The first declaration of a program. -/
theorem exec_first {w : World} {d : Decl} (p : Plain (load w) d) {l : Lib} (hl : load w (text d.library) = some l)
    (hf : d.function ∈ l.exports) : (exec w [] (.declare d)).1 = [after ⟨l, []⟩ d.function (fold (written d))] := by
  have I : Inv w [] [] := inv_run w [] fun d hd => by cases hd
  rcases declare_cases I p hl hf with ⟨i, x, hx, _⟩ | ⟨_, h⟩
  · cases hx
  · exact h

/-- Another library of the same program. -/
theorem exec_second {w : World} {d c : Decl} (p : Plain (load w) d) {l m : Lib} (hl : load w (text d.library) = some l)
    (hf : d.function ∈ l.exports) (hm : load w (text c.library) = some m) (hc : c.function ∈ m.exports)
    (pc : Plain (load w) c) (hne : m.name ≠ l.name) :
    run w [.declare c, .declare d] =
      [after ⟨m, []⟩ c.function (fold (written c)), after ⟨l, []⟩ d.function (fold (written d))] := by
  have I : Inv w [.declare c] (run w [.declare c]) := inv_run w [.declare c] fun x hx => by
    simp only [List.mem_singleton, Cmd.declare.injEq] at hx; subst hx; exact pc
  have h1 : run w [.declare c] = [after ⟨m, []⟩ c.function (fold (written c))] := exec_first pc hm hc
  change (exec w (run w [.declare c]) (.declare d)).1 = _
  rcases declare_cases I p hl hf with ⟨i, x, hx, hlib, _⟩ | ⟨_, h⟩
  · exfalso
    rw [h1] at hx
    have : x ∈ [after ⟨m, []⟩ c.function (fold (written c))] := List.mem_of_getElem? hx
    rw [List.mem_singleton] at this
    subst this
    exact hne (congrArg Lib.name hlib)
  · rw [h, h1]; rfl

end DllAux

/-- **C133 fails** for a name that another library, declared from before, has too: the function of the
library that was loaded first is called, though it was never declared. -/
theorem C133_order_fails (w : World) (c d : Decl) (m l : Lib) (pc : Plain (load w) c) (pd : Plain (load w) d)
    (hm : load w (text c.library) = some m) (hl : load w (text d.library) = some l) (hne : m.name ≠ l.name)
    (hd : d.alias = none) (other : d.function ∈ m.exports) (hc : fold (written c) ≠ d.function) :
    declared (load w) [.declare c, .declare d] d.function = some ⟨l.name, d.function⟩ ∧
    call (run w [.declare c, .declare d]) d.function = some ⟨m.name, d.function⟩ := by
  obtain ⟨l', hl', hf, _⟩ := pd.exists_
  rw [hl] at hl'; cases hl'
  obtain ⟨m', hm', hcf, _⟩ := pc.exists_
  rw [hm] at hm'; cases hm'
  constructor
  · simp only [declared, List.foldl_cons, List.foldl_nil, step, hl, hm]
    rw [if_pos ⟨hf, by simp only [written, hd, Option.getD_none]; exact pd.function.1.symm⟩]
  · rw [exec_second pd hl hf hm hcf pc hne]
    unfold call lookup
    rw [identifier_function pd, List.findSome?_cons]
    have : (after ⟨m, []⟩ c.function (fold (written c))).get d.function = some ⟨m.name, d.function⟩ := by
      unfold Loaded.get
      rw [after_attrs, if_neg (Ne.symm hc)]
      by_cases h1 : d.function = c.function
      · rw [if_pos h1, h1]
      · rw [if_neg h1]
        simp only [Py.Dict.get_nil]
        exact if_pos other
    rw [this]

example : call (run DllDemo.w [.declare (DllDemo.decl "abs" "c" none), .declare (DllDemo.decl "time" "./my.so" none)])
    (DllDemo.s "time") = some ⟨some (DllDemo.s "libc.so.6"), DllDemo.s "time"⟩ := by decide +kernel

/-- **C133 fails** for an alias that is another function of the library: a later declaration of that function gives
the one that has the alias. -/
theorem C133_alias_fails (w : World) (lib : Str) (l : Lib) (f g a : Str) (result : Option Str) (params : List (Str × Bool))
    (hl : load w lib = some l) (hg : g ∈ l.exports) (hf : f ∈ l.exports) (hfg : f ≠ g) (haf : a ≠ f)
    (lowf : fold f = f ∧ f ≠ "class".toList ∧ f ≠ []) (lowg : fold g = g ∧ g ≠ "class".toList)
    (lowa : fold a = a ∧ a ≠ "class".toList ∧ a ≠ []) :
    let h : List Cmd := [.declare ⟨result, g, .value lib, some f, params⟩, .declare ⟨result, f, .value lib, some a, params⟩]
    declared (load w) h a = some ⟨l.name, f⟩ ∧ call (run w h) a = some ⟨l.name, g⟩ := by
  have idf : identifier f = f := by rw [identifier_eq (by rw [lowf.1]; exact lowf.2.1), lowf.1]
  have idg : identifier g = g := by rw [identifier_eq (by rw [lowg.1]; exact lowg.2), lowg.1]
  have ida : identifier a = a := by rw [identifier_eq (by rw [lowa.1]; exact lowa.2.1), lowa.1]
  constructor
  · simp only [declared, List.foldl_cons, List.foldl_nil, step, text, hl, written, Option.getD_some, lowa.1]
    rw [if_pos ⟨hf, trivial⟩]
  · have h1 : (exec w [] (.declare ⟨result, g, .value lib, some f, params⟩)).1 = [after ⟨l, []⟩ g f] := by
      simp only [exec, Arg.get, Option.map_some, idf, idg]
      rw [dllDeclare_eq w [] _ _ _ hl]
      simp only [aliasOf, if_neg lowf.2.2, List.findIdx?_nil]
      rw [declare_own (d := ⟨l, []⟩) hg (by intro k v hk; simp at hk)]
      rfl
    have h2 : run w [.declare ⟨result, g, .value lib, some f, params⟩, .declare ⟨result, f, .value lib, some a, params⟩] =
        [((after ⟨l, []⟩ g f).put f ⟨l.name, g⟩).put a ⟨l.name, g⟩] := by
      unfold run
      simp only [List.foldl_cons, List.foldl_nil]
      rw [h1]
      simp only [exec, Arg.get, Option.map_some, idf, ida]
      rw [dllDeclare_eq w _ _ _ _ hl]
      have hi : [after ⟨l, []⟩ g f].findIdx? (fun d => d.lib.name = l.name) = some 0 := by
        rw [List.findIdx?_cons]; simp [after, Loaded.put]
      have hget : (after ⟨l, []⟩ g f).get f = some ⟨l.name, g⟩ := by
        unfold Loaded.get; rw [after_attrs, if_pos rfl]
      rw [hi]
      simp only [aliasOf, if_neg lowa.2.2, List.getElem?_cons_zero, Option.bind_some, Loaded.declare, hget, Option.map_some,
        List.set_cons_zero]
    rw [h2]
    unfold call lookup
    rw [ida, List.findSome?_cons]
    have : (((after ⟨l, []⟩ g f).put f ⟨l.name, g⟩).put a ⟨l.name, g⟩).get a = some ⟨l.name, g⟩ := by
      unfold Loaded.get Loaded.put; rw [Py.Dict.get_set_self]
    rw [this]

example : call (run DllDemo.w [.declare (DllDemo.decl "getpid" "c" (some "time")), .declare (DllDemo.decl "time" "c" (some "now"))])
    (DllDemo.s "now") = some ⟨some (DllDemo.s "libc.so.6"), DllDemo.s "getpid"⟩ := by decide +kernel

/-- **C133 fails** for what is not declared: once a library has been loaded, all its functions come before the
procedures of the program, whatever these are. -/
theorem C133_undeclared_fails {M V : Type} [DecidableEq M] (w : World) (h : List Cmd) (x : Loaded) (hx : x ∈ run w h)
    (k : Str) (hk : k ∈ x.lib.exports) (env : Model.Procs.Env M Str (Sym ⊕ V)) (array : Str → Option (Sym ⊕ V)) (modules : List M) :
    ∃ f, Model.Procs.getFunction env (fun k => (lookup (run w h) k).map .inl) array modules k = some (.inl f) := by
  have hs : (lookup (run w h) k).isSome := by
    unfold lookup
    rw [List.findSome?_isSome_iff]
    refine ⟨x, hx, ?_⟩
    unfold Loaded.get
    split
    · rfl
    · rw [if_pos hk]; rfl
  obtain ⟨f, hf⟩ := Option.isSome_iff_exists.mp hs
  exact ⟨f, by simp only [Model.Procs.getFunction, hf, Option.map_some]⟩

example : lookup (run DllDemo.w [.declare (DllDemo.decl "abs" "c" none)]) (DllDemo.s "time") =
    some ⟨some (DllDemo.s "libc.so.6"), DllDemo.s "time"⟩ := by decide +kernel

/-- **C133**: CLEAR DLLS takes a name back exactly if no loaded library has a function of that name: an alias, but
not a function under its own name. -/
theorem C133_clear_iff (w : World) (s : List Loaded) (names : List Str) (k : Str) (hk : fold k ∈ names.map fold)
    (hc : fold k ≠ "class".toList) :
    call (exec w s (.clear names)).1 k = none ↔ ∀ x ∈ s, fold k ∉ x.lib.exports := by
  simp only [call, lookup, exec, dllClear, identifier_eq hc, List.findSome?_eq_none_iff]
  have key : ∀ x : Loaded, ((names.map lower).foldl Loaded.del x).get (fold k) = none ↔ fold k ∉ x.lib.exports := by
    intro x
    unfold Loaded.get
    rw [foldl_del_attrs, if_pos (show fold k ∈ names.map lower from hk), foldl_del_lib]
    by_cases h : fold k ∈ x.lib.exports <;> simp [h]
  constructor
  · intro h x hx
    exact (key x).mp (h _ (List.mem_map.mpr ⟨x, hx, rfl⟩))
  · intro h y hy
    obtain ⟨x, hx, rfl⟩ := List.mem_map.mp hy
    exact (key x).mpr (h x hx)

example : call (run DllDemo.w [.declare (DllDemo.decl "getpid" "c" (some "pid")), .clear [DllDemo.s "PID"]]) (DllDemo.s "pid") = none ∧
    call (run DllDemo.w [.declare (DllDemo.decl "getpid" "c" none), .clear [DllDemo.s "getpid"]]) (DllDemo.s "getpid") ≠ none := by
  decide +kernel

/-- **C133 fails** for the types: what is left of a declaration does not tell the types of the result and of the
parameters. -/
theorem C133_types_fails : ¬∃ g : List Loaded → Option Str × List (Str × Bool), ∀ (w : World) (d : Decl),
    (exec w [] (.declare d)).2 = none → g (exec w [] (.declare d)).1 = (d.result, d.params) := by
  rintro ⟨g, hg⟩
  have h1 := hg DllDemo.w ⟨some (DllDemo.s "integer"), DllDemo.s "abs", .literal (DllDemo.s "c"), none, []⟩ (by decide +kernel)
  have h2 := hg DllDemo.w ⟨some (DllDemo.s "double"), DllDemo.s "abs", .literal (DllDemo.s "c"), none, []⟩ (by decide +kernel)
  have h3 := h1.symm.trans h2
  revert h3
  simp only [Prod.mk.injEq]
  decide +kernel

end Props
