import Verif.Spec.Preproc
/-! Lemmas on the preprocessor: dictionaries without repeated keys, token
replacement, and the correspondence between the tree and the line machine. -/
namespace Props.PreprocAux
open Preproc PreprocSpec Py

/-! ### Dictionaries -/

def WF {α : Type} (m : Dict Str α) : Prop := (m.map Prod.fst).Nodup

theorem mem_set_keys {α : Type} (m : Dict Str α) (k : Str) (v : α) (x : Str)
    (h : x ∈ (Dict.set m k v).map Prod.fst) : x = k ∨ x ∈ m.map Prod.fst := by
  induction m with
  | nil => simp [Dict.set] at h; exact .inl h
  | cons p t ih =>
    obtain ⟨k', v'⟩ := p
    by_cases hk : k' = k
    · simp [Dict.set, hk] at h
      rcases h with h | h
      · exact .inl h
      · right; simp; right; exact h
    · simp only [Dict.set, hk, if_false, List.map_cons, List.mem_cons] at h ⊢
      rcases h with h | h
      · exact .inr (.inl h)
      · rcases ih h with h | h
        · exact .inl h
        · exact .inr (.inr h)

theorem wf_set {α : Type} (m : Dict Str α) (k : Str) (v : α) (h : WF m) : WF (Dict.set m k v) := by
  induction m with
  | nil => simp [Dict.set, WF]
  | cons p t ih =>
    obtain ⟨k', v'⟩ := p
    simp only [WF, List.map_cons, List.nodup_cons] at h
    by_cases hk : k' = k
    · simp only [Dict.set, hk, if_true, WF, List.map_cons, List.nodup_cons]
      rw [hk] at h; exact h
    · simp only [Dict.set, hk, if_false, WF, List.map_cons, List.nodup_cons]
      refine ⟨fun hm => ?_, ih h.2⟩
      rcases mem_set_keys t k v k' hm with he | hm'
      · exact hk he
      · exact h.1 hm'

theorem wf_del {α : Type} (m : Dict Str α) (k : Str) (h : WF m) : WF (Dict.del m k) := by
  unfold WF Dict.del
  exact List.Nodup.sublist (List.Sublist.map _ (List.filter_sublist)) h

theorem wf_update {α : Type} (m e : Dict Str α) (h : WF m) : WF (Dict.update m e) := by
  unfold Dict.update
  induction e generalizing m with
  | nil => exact h
  | cons p t ih => exact ih _ (wf_set m p.1 p.2 h)

theorem get_none_of_not_mem' {α : Type} (m : Dict Str α) (k : Str) (h : k ∉ m.map Prod.fst) :
    Dict.get m k = none := by
  induction m with
  | nil => rfl
  | cons p t ih =>
    obtain ⟨k', v'⟩ := p
    simp only [List.map_cons, List.mem_cons, not_or] at h
    rw [Dict.get, if_neg (Ne.symm h.1), ih h.2]

theorem get_update {α : Type} (m e : Dict Str α) (he : WF e) (x : Str) :
    Dict.get (Dict.update m e) x = (Dict.get e x).or (Dict.get m x) := by
  unfold Dict.update
  induction e generalizing m with
  | nil => simp [Dict.get]
  | cons p t ih =>
    obtain ⟨k, v⟩ := p
    simp only [WF, List.map_cons, List.nodup_cons] at he
    rw [List.foldl_cons, ih _ he.2, Dict.get]
    by_cases hk : k = x
    · subst hk
      rw [if_pos rfl, get_none_of_not_mem' t k he.1, Dict.get_set_self]; rfl
    · rw [if_neg hk, Dict.get_set_ne m v (Ne.symm hk)]

/-! ### Token replacement -/

theorem replaceLoop_eq (low : Str → Str) (mem : Mem) (cur : Str → Option (List Tok)) (ts : List Tok)
    (h : ∀ t ∈ ts, Dict.get mem (low t.text) = cur (low t.text)) (acc : List Tok × List Tok) :
    replaceLoop low mem ts acc =
      (acc.1 ++ (ts.filter (fun t => t.kind == .comment && (cur (low t.text)).isNone)).map commentLine,
       acc.2 ++ ts.flatMap (fun t =>
          match cur (low t.text) with
          | some b => b
          | none => if t.kind == .comment then [] else [t])) := by
  induction ts generalizing acc with
  | nil => simp [replaceLoop]
  | cons t ts ih =>
    obtain ⟨hid, ret⟩ := acc
    have ht := h t (List.mem_cons_self)
    have ih := fun acc => ih (fun t' ht' => h t' (List.mem_cons_of_mem _ ht')) acc
    rw [replaceLoop, ht]
    cases hc : cur (low t.text) with
    | some b =>
      simp only []
      rw [ih]
      simp [hc, List.flatMap_cons]
    | none =>
      simp only []
      by_cases hk : t.kind = .comment
      · rw [if_pos hk, ih]
        simp [hc, hk, List.flatMap_cons, starComment, commentLine]
      · rw [if_neg hk, ih]
        simp [hc, hk, List.flatMap_cons]

theorem replaceTokens_eq (low : Str → Str) (mem : Mem) (cur : Str → Option (List Tok)) (ts : List Tok)
    (h : ∀ t ∈ ts, Dict.get mem (low t.text) = cur (low t.text)) :
    replaceTokens low mem ts = expand low cur ts := by
  rw [replaceTokens, replaceLoop_eq low mem cur ts h]
  rfl

theorem isBody_trim (toks : List Tok) : IsBody toks (trimDefine toks) := by
  have key : ∀ (p : Tok → Bool) (l : List Tok), (∀ t ∈ l.takeWhile p, p t = true) := by
    intro p l t ht
    have := List.all_takeWhile (p := p) (l := l)
    exact (List.all_eq_true.mp this) t ht
  have hhead : ∀ (p : Tok → Bool) (l : List Tok) t, (l.dropWhile p).head? = some t → p t = false := by
    intro p l t ht
    induction l with
    | nil => simp at ht
    | cons a l ih =>
      rw [List.dropWhile_cons] at ht
      by_cases ha : p a = true
      · rw [if_pos ha] at ht; exact ih ht
      · rw [if_neg ha] at ht; simp at ht; rw [← ht]; simpa using ha
  unfold IsBody trimDefine
  generalize hf : toks.dropWhile (fun t => decide (t.kind = .ws)) = front
  refine ⟨toks.takeWhile (fun t => decide (t.kind = .ws)),
    (front.reverse.takeWhile (fun t => decide (t.kind = .ws) || decide (t.kind = .comment))).reverse, ?_, ?_, ?_, ?_, ?_⟩
  · rw [List.append_assoc, ← List.reverse_append, List.takeWhile_append_dropWhile,
      List.reverse_reverse, ← hf, List.takeWhile_append_dropWhile]
  · intro t ht
    simpa using key _ _ t ht
  · intro t ht
    rw [List.mem_reverse] at ht
    simpa using key _ _ t ht
  · intro t ht
    rw [List.head?_reverse] at ht
    -- the last element of a suffix of `front.reverse` is the first of `front`
    have hsuf : (front.reverse.dropWhile (fun t => decide (t.kind = .ws) || decide (t.kind = .comment))) <:+ front.reverse :=
      List.dropWhile_suffix _
    obtain ⟨pre, hpre⟩ := hsuf
    have hl : front.reverse.getLast? = some t := by
      rw [← hpre, List.getLast?_append, ht]; rfl
    rw [List.getLast?_reverse] at hl
    rw [← hf] at hl
    simpa using hhead _ _ t hl
  · intro t ht
    rw [List.getLast?_reverse] at ht
    have := hhead _ _ t ht
    simp at this
    cases hk : t.kind with
    | ws => exact absurd hk this.1
    | comment => exact absurd hk this.2
    | other => rfl

theorem dropWhile_append_all (p : Tok → Bool) (a b : List Tok) (ha : ∀ t ∈ a, p t = true)
    (hb : ∀ t, b.head? = some t → p t = false) : (a ++ b).dropWhile p = b := by
  induction a with
  | nil =>
    cases b with
    | nil => rfl
    | cons x b => simp [List.dropWhile_cons, hb x rfl]
  | cons x a ih =>
    rw [List.cons_append, List.dropWhile_cons, if_pos (ha x (List.mem_cons_self))]
    exact ih (fun t ht => ha t (List.mem_cons_of_mem _ ht))

/-- The replacement of a `#DEFINE` is determined by its line. -/
theorem isBody_unique {toks b : List Tok} (h : IsBody toks b) : b = trimDefine toks := by
  obtain ⟨pre, post, he, hpre, hpost, hhd, htl⟩ := h
  unfold trimDefine
  by_cases hb : b = []
  · subst hb
    have h1 : ∀ t ∈ ((toks.dropWhile (fun t => decide (t.kind = .ws)))).reverse,
        (decide (t.kind = .ws) || decide (t.kind = .comment)) = true := by
      intro t ht
      rw [List.mem_reverse] at ht
      have ht := (List.dropWhile_suffix _).subset ht
      rw [he] at ht
      simp only [List.append_nil, List.mem_append] at ht
      rcases ht with ht | ht
      · simp [hpre t ht]
      · rcases hpost t ht with h | h <;> simp [h]
    have := dropWhile_append_all _ _ [] h1 (by simp)
    rw [List.append_nil] at this
    simp only [this, List.reverse_nil]
  · have h1 : toks.dropWhile (fun t => decide (t.kind = .ws)) = b ++ post := by
      rw [he, List.append_assoc]
      apply dropWhile_append_all
      · intro t ht; simp [hpre t ht]
      · intro t ht
        have : b.head? = some t := by
          cases b with
          | nil => exact absurd rfl hb
          | cons x b => simpa using ht
        simp [hhd t this]
    simp only [h1, List.reverse_append]
    rw [dropWhile_append_all]
    · simp
    · intro t ht
      rw [List.mem_reverse] at ht
      rcases hpost t ht with h | h <;> simp [h]
    · intro t ht
      rw [List.head?_reverse] at ht
      simp [htl t ht]

/-! ### Skipped lines -/

mutual
theorem skipLine {E : Env} (l : Line) (st : List Frame) (hl : live st = false) (ds : List Dir) (h h' : List Event)
    (o : List Tok) (hr : Runs E ds st h h' o) : Runs E (flat l ++ ds) st h h' o := by
  match l with
  | .text t => exact .skip hl (.inl ⟨t, rfl⟩) hr
  | .define n t => exact .skip hl (.inr (.inl ⟨n, t, rfl⟩)) hr
  | .undefine n => exact .skip hl (.inr (.inr (.inl ⟨n, rfl⟩))) hr
  | .incl f => exact .skip hl (.inr (.inr (.inr ⟨f, rfl⟩))) hr
  | .junk => exact hr
  | .ifExpr c body els =>
    have h1 : Runs E (.endif :: ds) (⟨false, false⟩ :: st) h h' o := .endif hr
    have h2 := skipOpt els ⟨false, false⟩ st rfl (.endif :: ds) h h' o h1 (fun _ => h1)
    have h3 := skipLines body (⟨false, false⟩ :: st) rfl _ h h' o h2
    have h4 : Runs E (.ifExpr c :: (flats body ++ (flatOpt els ++ .endif :: ds))) st h h' o :=
      .ifDead hl (.inl ⟨c, rfl⟩) h3
    simpa [flat] using h4
  | .ifDef n body els =>
    have h1 : Runs E (.endif :: ds) (⟨false, false⟩ :: st) h h' o := .endif hr
    have h2 := skipOpt els ⟨false, false⟩ st rfl (.endif :: ds) h h' o h1 (fun _ => h1)
    have h3 := skipLines body (⟨false, false⟩ :: st) rfl _ h h' o h2
    have h4 : Runs E (.ifDef n :: (flats body ++ (flatOpt els ++ .endif :: ds))) st h h' o :=
      .ifDead hl (.inr ⟨n, rfl⟩) h3
    simpa [flat] using h4
theorem skipOpt {E : Env} (els : Option (List Line)) (fr : Frame) (st : List Frame) 
    (hke : fr.keepElse = false) (ds : List Dir) (h h' : List Event) (o : List Tok)
    (hr : Runs E ds (fr :: st) h h' o) (hr' : els ≠ none → Runs E ds (⟨false, false⟩ :: st) h h' o) :
    Runs E (flatOpt els ++ ds) (fr :: st) h h' o := by
  match els with
  | none => exact hr
  | some ls =>
    have := skipLines ls (⟨false, false⟩ :: st) rfl ds h h' o (hr' (by simp))
    refine .els ?_
    rw [hke]; exact this
theorem skipLines {E : Env} (ls : List Line) (st : List Frame) (hl : live st = false) (ds : List Dir) (h h' : List Event)
    (o : List Tok) (hr : Runs E ds st h h' o) : Runs E (flats ls ++ ds) st h h' o := by
  match ls with
  | [] => exact hr
  | l :: ls =>
    have := skipLine l st hl _ h h' o (skipLines ls st hl ds h h' o hr)
    simpa [flats] using this
end

/-! ### Memories are dictionaries -/

mutual
theorem wfLine {E : Env} {inc : Str → Except Err (Mem × List Tok)} (l : Line) (m m1 : Mem) (o : List Tok)
    (h : freshLine E inc l m = .ok (m1, o)) (hm : WF m) : WF m1 := by
  match l with
  | .text t => simp [freshLine] at h; rw [← h.1]; exact hm
  | .define n t => simp [freshLine] at h; rw [← h.1]; exact wf_set _ _ _ hm
  | .undefine n =>
    rw [freshLine] at h
    by_cases hn : Dict.has m (E.low n) = true
    · rw [if_pos hn] at h; simp at h; rw [← h.1]; exact wf_del _ _ hm
    · rw [if_neg hn] at h; cases h
  | .junk => simp [freshLine] at h
  | .incl f =>
    rw [freshLine] at h
    cases hi : inc f with
    | error e => rw [hi] at h; cases h
    | ok r => rw [hi] at h; simp [Except.map] at h; rw [← h.1]; exact wf_update _ _ hm
  | .ifExpr c body els =>
    rw [freshLine] at h
    cases he : E.evalIf (joinText (replaceTokens E.low m c)) with
    | error e => rw [he] at h; cases h
    | ok b =>
      rw [he] at h
      cases b with
      | true => exact wfLines body m m1 o h hm
      | false => exact wfElse els m m1 o h hm
  | .ifDef n body els =>
    rw [freshLine] at h
    by_cases hn : Dict.has m (E.low n) = true
    · rw [if_pos hn] at h; exact wfLines body m m1 o h hm
    · rw [if_neg hn] at h; exact wfElse els m m1 o h hm
theorem wfElse {E : Env} {inc : Str → Except Err (Mem × List Tok)} (els : Option (List Line)) (m m1 : Mem)
    (o : List Tok) (h : freshElse E inc els m = .ok (m1, o)) (hm : WF m) : WF m1 := by
  match els with
  | none => simp [freshElse] at h; rw [← h.1]; exact hm
  | some ls => rw [freshElse] at h; exact wfLines ls m m1 o h hm
theorem wfLines {E : Env} {inc : Str → Except Err (Mem × List Tok)} (ls : List Line) (m m1 : Mem)
    (o : List Tok) (h : freshLines E inc ls m = .ok (m1, o)) (hm : WF m) : WF m1 := by
  match ls with
  | [] => simp [freshLines] at h; rw [← h.1]; exact hm
  | l :: ls =>
    rw [freshLines] at h
    cases h1 : freshLine E inc l m with
    | error e => rw [h1] at h; cases h
    | ok r =>
      obtain ⟨ma, oa⟩ := r
      rw [h1] at h
      cases h2 : freshLines E inc ls ma with
      | error e => simp [h2] at h
      | ok r2 =>
        obtain ⟨mb, ob⟩ := r2
        simp [h2] at h
        rw [← h.1]
        exact wfLines ls ma mb ob h2 (wfLine l m ma oa h1 hm)
end

theorem wfFile {E : Env} (n : Nat) (f : Str) (m : Mem) (o : List Tok) (h : freshFile E n f = .ok (m, o)) : WF m := by
  cases n with
  | zero => cases h
  | succ n =>
    rw [freshFile] at h
    cases hf : E.file f with
    | none => rw [hf] at h; cases h
    | some ls =>
      rw [hf] at h
      exact wfLines ls [] m o h (by simp [WF])

/-! ### The tree visitor runs the line machine -/

/-- `h` holds what the file defined (`m`) on top of what was defined outside (`h0`). -/
def Agree (h0 : Str → Option (List Tok)) (m : Mem) (h : List Event) : Prop :=
  ∀ x, current h x = (Dict.get m x).or (h0 x)

/-- What is needed of the handling of `#INCLUDE`. -/
def IncOK (E : Env) (inc : Str → Except Err (Mem × List Tok)) (si : (Str → Bool) → Str → Prop) : Prop :=
  ∀ f m' o' (h0 : Str → Option (List Tok)) h out, inc f = .ok (m', o') →
    (∀ x, out x = (h0 x).isSome) → si out f → (∀ x, current h x = h0 x) →
    WF m' ∧ ∃ ls h1, E.file f = some ls ∧ Agree h0 m' h1 ∧
      ∀ st, live st = true → ∀ ds h' o, Runs E ds st h1 h' o → Runs E (flats ls ++ ds) st h h' (o' ++ o)

theorem agree_lookup {h0 : Str → Option (List Tok)} {m : Mem} {h : List Event} {out : Str → Bool}
    (hag : Agree h0 m h) (hout : ∀ x, out x = (h0 x).isSome) {x : Str}
    (hx : Dict.has m x = false → out x = false) : Dict.get m x = current h x := by
  rw [hag x]
  cases hg : Dict.get m x with
  | some b => rfl
  | none =>
    have : out x = false := hx (by simp [Dict.has, hg])
    rw [hout x] at this
    cases h0x : h0 x with
    | none => rfl
    | some b => rw [h0x] at this; cases this

mutual
theorem runLine {E : Env} {inc : Str → Except Err (Mem × List Tok)} {si : (Str → Bool) → Str → Prop}
    (hinc : IncOK E inc si) (h0 : Str → Option (List Tok)) (out : Str → Bool)
    (hout : ∀ x, out x = (h0 x).isSome) (l : Line) (m m1 : Mem) (o1 : List Tok) (h : List Event)
    (hrun : freshLine E inc l m = .ok (m1, o1)) (hag : Agree h0 m h)
    (hself : selfLine E inc si out l m) :
    ∃ h1, Agree h0 m1 h1 ∧ ∀ st, live st = true → ∀ ds h' o, Runs E ds st h1 h' o →
      Runs E (flat l ++ ds) st h h' (o1 ++ o) := by
  match l with
  | .text t =>
    simp only [freshLine, Except.ok.injEq, Prod.mk.injEq] at hrun
    obtain ⟨rfl, rfl⟩ := hrun
    refine ⟨h, hag, fun st hl ds h' o hr => ?_⟩
    rw [replaceTokens_eq E.low m (current h) t
      (fun tk ht => agree_lookup hag hout (hself tk ht))]
    exact .text hl hr
  | .define n t =>
    simp only [freshLine, Except.ok.injEq, Prod.mk.injEq] at hrun
    obtain ⟨rfl, rfl⟩ := hrun
    refine ⟨.def_ (E.low n) (trimDefine t) :: h, fun x => ?_, fun st hl ds h' o hr => ?_⟩
    · rw [Dict.get_set]
      by_cases hx : E.low n = x
      · simp [current, hx]
      · simp [current, hx, Ne.symm hx, hag x]
    · exact .define hl (isBody_trim t) hr
  | .undefine n =>
    rw [freshLine] at hrun
    by_cases hn : Dict.has m (E.low n) = true
    · rw [if_pos hn] at hrun
      simp only [Except.ok.injEq, Prod.mk.injEq] at hrun
      obtain ⟨rfl, rfl⟩ := hrun
      refine ⟨.undef (E.low n) :: h, fun x => ?_, fun st hl ds h' o hr => .undefine hl hr⟩
      rw [Dict.get_del]
      by_cases hx : E.low n = x
      · have hs : out (E.low n) = false := hself
        rw [hout] at hs
        subst hx
        cases hh : h0 (E.low n) with
        | none => simp [current]
        | some b => rw [hh] at hs; cases hs
      · simp [current, hx, Ne.symm hx, hag x]
    · rw [if_neg hn] at hrun; cases hrun
  | .junk => simp [freshLine] at hrun
  | .incl f =>
    rw [freshLine] at hrun
    cases hi : inc f with
    | error e => rw [hi] at hrun; cases hrun
    | ok r =>
      obtain ⟨m', o'⟩ := r
      rw [hi] at hrun
      simp only [Except.map, Except.ok.injEq, Prod.mk.injEq] at hrun
      obtain ⟨rfl, rfl⟩ := hrun
      obtain ⟨hwf, ls, h1, hf, hag1, hr1⟩ := hinc f m' o' (current h) h _ hi (fun x => by
        rw [hag x, hout x]
        cases hg : Dict.get m x <;> simp [Dict.has, hg]) hself (fun _ => rfl)
      refine ⟨h1, fun x => ?_, fun st hl ds h' o hr => ?_⟩
      · rw [hag1 x, get_update m m' hwf, hag x]
        cases Dict.get m' x <;> simp
      · exact .incl hl hf (hr1 st hl ds h' o hr)
  | .ifExpr c body els =>
    rw [freshLine] at hrun
    obtain ⟨hs1, hs2, hs3⟩ := hself
    have hrep : ((expand E.low (current h) c).map Tok.text).flatten = joinText (replaceTokens E.low m c) := by
      rw [replaceTokens_eq E.low m (current h) c
        (fun tk ht => agree_lookup hag hout (hs1 tk ht))]; rfl
    cases he : E.evalIf (joinText (replaceTokens E.low m c)) with
    | error e => rw [he] at hrun; cases hrun
    | ok b =>
      rw [he] at hrun
      cases b with
      | true =>
        obtain ⟨h1, hag1, hr1⟩ := runLines hinc h0 out hout body m m1 o1 h hrun hag (hs2 he)
        refine ⟨h1, hag1, fun st hl ds h' o hr => ?_⟩
        have ha : Runs E (.endif :: ds) (⟨true, false⟩ :: st) h1 h' o := .endif hr
        have hb := skipOpt els ⟨true, false⟩ st rfl (.endif :: ds) h1 h' o ha (fun _ => .endif hr)
        have hc := hr1 (⟨true, false⟩ :: st) (by simpa [live] using hl) _ h' o hb
        have hd : Runs E (.ifExpr c :: (flats body ++ (flatOpt els ++ .endif :: ds))) st h h' (o1 ++ o) :=
          .ifLive hl (by rw [hrep]; exact he) hc
        simpa [flat] using hd
      | false =>
        obtain ⟨h1, hag1, hr1⟩ := runElse hinc h0 out hout els m m1 o1 h hrun hag (hs3 he)
        refine ⟨h1, hag1, fun st hl ds h' o hr => ?_⟩
        have hb := hr1 st hl (.endif :: ds) h' o (fun fr => .endif hr)
        have hc := skipLines body (⟨false, true⟩ :: st) rfl _ h h' (o1 ++ o) hb
        have hd : Runs E (.ifExpr c :: (flats body ++ (flatOpt els ++ .endif :: ds))) st h h' (o1 ++ o) :=
          .ifLive hl (by rw [hrep]; exact he) hc
        simpa [flat] using hd
  | .ifDef n body els =>
    rw [freshLine] at hrun
    obtain ⟨hs1, hs2, hs3⟩ := hself
    have hlook := agree_lookup hag hout hs1
    by_cases hn : Dict.has m (E.low n) = true
    · rw [if_pos hn] at hrun
      have hcur : (current h (E.low n)).isSome = true := by rw [← hlook]; exact hn
      obtain ⟨h1, hag1, hr1⟩ := runLines hinc h0 out hout body m m1 o1 h hrun hag (hs2 hn)
      refine ⟨h1, hag1, fun st hl ds h' o hr => ?_⟩
      have ha : Runs E (.endif :: ds) (⟨true, false⟩ :: st) h1 h' o := .endif hr
      have hb := skipOpt els ⟨true, false⟩ st rfl (.endif :: ds) h1 h' o ha (fun _ => .endif hr)
      have hc := hr1 (⟨true, false⟩ :: st) (by simpa [live] using hl) _ h' o hb
      have hd : Runs E (.ifDef n :: (flats body ++ (flatOpt els ++ .endif :: ds))) st h h' (o1 ++ o) :=
        .ifdefLive hl (by rw [hcur]; exact hc)
      simpa [flat] using hd
    · have hnf : Dict.has m (E.low n) = false := by simpa using hn
      rw [if_neg hn] at hrun
      have hcur : (current h (E.low n)).isSome = false := by rw [← hlook]; exact hnf
      obtain ⟨h1, hag1, hr1⟩ := runElse hinc h0 out hout els m m1 o1 h hrun hag (hs3 hnf)
      refine ⟨h1, hag1, fun st hl ds h' o hr => ?_⟩
      have hb := hr1 st hl (.endif :: ds) h' o (fun fr => .endif hr)
      have hc := skipLines body (⟨false, true⟩ :: st) rfl _ h h' (o1 ++ o) hb
      have hd : Runs E (.ifDef n :: (flats body ++ (flatOpt els ++ .endif :: ds))) st h h' (o1 ++ o) :=
        .ifdefLive hl (by rw [hcur]; exact hc)
      simpa [flat] using hd
theorem runElse {E : Env} {inc : Str → Except Err (Mem × List Tok)} {si : (Str → Bool) → Str → Prop}
    (hinc : IncOK E inc si) (h0 : Str → Option (List Tok)) (out : Str → Bool)
    (hout : ∀ x, out x = (h0 x).isSome) (els : Option (List Line)) (m m1 : Mem) (o1 : List Tok) (h : List Event)
    (hrun : freshElse E inc els m = .ok (m1, o1)) (hag : Agree h0 m h)
    (hself : selfElse E inc si out els m) :
    ∃ h1, Agree h0 m1 h1 ∧ ∀ st, live st = true → ∀ ds h' o,
      (∀ fr, Runs E ds (fr :: st) h1 h' o) →
      Runs E (flatOpt els ++ ds) (⟨false, true⟩ :: st) h h' (o1 ++ o) := by
  match els with
  | none =>
    simp only [freshElse, Except.ok.injEq, Prod.mk.injEq] at hrun
    obtain ⟨rfl, rfl⟩ := hrun
    exact ⟨h, hag, fun st hl ds h' o hr => hr _⟩
  | some ls =>
    rw [freshElse] at hrun
    obtain ⟨h1, hag1, hr1⟩ := runLines hinc h0 out hout ls m m1 o1 h hrun hag hself
    refine ⟨h1, hag1, fun st hl ds h' o hr => ?_⟩
    exact .els (hr1 (⟨true, false⟩ :: st) (by simpa [live] using hl) ds h' o (hr _))
theorem runLines {E : Env} {inc : Str → Except Err (Mem × List Tok)} {si : (Str → Bool) → Str → Prop}
    (hinc : IncOK E inc si) (h0 : Str → Option (List Tok)) (out : Str → Bool)
    (hout : ∀ x, out x = (h0 x).isSome) (ls : List Line) (m m1 : Mem) (o1 : List Tok) (h : List Event)
    (hrun : freshLines E inc ls m = .ok (m1, o1)) (hag : Agree h0 m h)
    (hself : selfLines E inc si out ls m) :
    ∃ h1, Agree h0 m1 h1 ∧ ∀ st, live st = true → ∀ ds h' o, Runs E ds st h1 h' o →
      Runs E (flats ls ++ ds) st h h' (o1 ++ o) := by
  match ls with
  | [] =>
    simp only [freshLines, Except.ok.injEq, Prod.mk.injEq] at hrun
    obtain ⟨rfl, rfl⟩ := hrun
    exact ⟨h, hag, fun st hl ds h' o hr => hr⟩
  | l :: ls =>
    rw [freshLines] at hrun
    cases e1 : freshLine E inc l m with
    | error e => rw [e1] at hrun; cases hrun
    | ok r =>
      obtain ⟨ma, oa⟩ := r
      rw [e1] at hrun
      cases e2 : freshLines E inc ls ma with
      | error e => simp [e2] at hrun
      | ok r2 =>
        obtain ⟨mb, ob⟩ := r2
        simp only [e2, Except.ok.injEq, Prod.mk.injEq] at hrun
        obtain ⟨rfl, rfl⟩ := hrun
        obtain ⟨ha, haga, hra⟩ := runLine hinc h0 out hout l m ma oa h e1 hag hself.1
        obtain ⟨hb, hagb, hrb⟩ := runLines hinc h0 out hout ls ma mb ob ha e2 haga (hself.2 ma oa e1)
        refine ⟨hb, hagb, fun st hl ds h' o hr => ?_⟩
        have := hra st hl _ h' _ (hrb st hl ds h' o hr)
        simpa [flats] using this
end

theorem incOK_file {E : Env} (n : Nat) : IncOK E (freshFile E n) (selfFile E n) := by
  induction n with
  | zero => intro f m' o' h0 h out hi; cases hi
  | succ n ih =>
    intro f m' o' h0 h out hi hout hself hcur
    refine ⟨wfFile (n + 1) f m' o' hi, ?_⟩
    rw [freshFile] at hi
    cases hf : E.file f with
    | none => rw [hf] at hi; cases hi
    | some ls =>
      rw [hf] at hi
      obtain ⟨h1, hag, hr⟩ := runLines ih h0 out hout ls [] m' o' h hi (fun x => by simp [hcur x]) (hself ls hf)
      exact ⟨ls, h1, rfl, hag, hr⟩

end Props.PreprocAux

namespace Props.PreprocAux
open Preproc PreprocSpec Py

/-! ### Deeper header nesting changes nothing -/

mutual
theorem monoLine {E : Env} {inc inc' : Str → Except Err (Mem × List Tok)}
    (hi : ∀ f r, inc f = .ok r → inc' f = .ok r) (l : Line) (m : Mem) (r : Mem × List Tok)
    (h : freshLine E inc l m = .ok r) : freshLine E inc' l m = .ok r := by
  match l with
  | .text t => simpa [freshLine] using h
  | .define n t => simpa [freshLine] using h
  | .undefine n => rw [freshLine] at h ⊢; exact h
  | .junk => simp [freshLine] at h
  | .incl f =>
    rw [freshLine] at h ⊢
    cases hf : inc f with
    | error e => rw [hf] at h; cases h
    | ok x => rw [hi f x hf]; rw [hf] at h; exact h
  | .ifExpr c body els =>
    rw [freshLine] at h ⊢
    cases he : E.evalIf (joinText (replaceTokens E.low m c)) with
    | error e => rw [he] at h; cases h
    | ok b =>
      rw [he] at h
      cases b with
      | true => exact monoLines hi body m r h
      | false => exact monoElse hi els m r h
  | .ifDef n body els =>
    rw [freshLine] at h ⊢
    by_cases hn : Dict.has m (E.low n) = true
    · rw [if_pos hn] at h ⊢; exact monoLines hi body m r h
    · rw [if_neg hn] at h ⊢; exact monoElse hi els m r h
theorem monoElse {E : Env} {inc inc' : Str → Except Err (Mem × List Tok)}
    (hi : ∀ f r, inc f = .ok r → inc' f = .ok r) (els : Option (List Line)) (m : Mem) (r : Mem × List Tok)
    (h : freshElse E inc els m = .ok r) : freshElse E inc' els m = .ok r := by
  match els with
  | none => simpa [freshElse] using h
  | some ls => rw [freshElse] at h ⊢; exact monoLines hi ls m r h
theorem monoLines {E : Env} {inc inc' : Str → Except Err (Mem × List Tok)}
    (hi : ∀ f r, inc f = .ok r → inc' f = .ok r) (ls : List Line) (m : Mem) (r : Mem × List Tok)
    (h : freshLines E inc ls m = .ok r) : freshLines E inc' ls m = .ok r := by
  match ls with
  | [] => simpa [freshLines] using h
  | l :: ls =>
    rw [freshLines] at h ⊢
    cases h1 : freshLine E inc l m with
    | error e => rw [h1] at h; cases h
    | ok x =>
      obtain ⟨ma, oa⟩ := x
      rw [monoLine hi l m _ h1]
      rw [h1] at h
      cases h2 : freshLines E inc ls ma with
      | error e => simp [h2] at h
      | ok y =>
        simp only [h2] at h
        simp only [monoLines hi ls ma _ h2]
        exact h
end

theorem monoFile {E : Env} (n : Nat) : ∀ f r, freshFile E n f = .ok r → freshFile E (n + 1) f = .ok r := by
  induction n with
  | zero => intro f r h; cases h
  | succ n ih =>
    intro f r h
    rw [freshFile] at h
    rw [freshFile]
    cases hf : E.file f with
    | none => rw [hf] at h; cases h
    | some ls =>
      rw [hf] at h
      exact monoLines ih ls [] r h

theorem monoFile' {E : Env} {n k : Nat} (hnk : n ≤ k) (f : Str) (r : Mem × List Tok)
    (h : freshFile E n f = .ok r) : freshFile E k f = .ok r := by
  induction hnk with
  | refl => exact h
  | step _ ih => exact monoFile _ f r ih

/-! ### The include cache -/

/-- Every cached header is what preprocessing the header on its own gives. -/
def Coherent (E : Env) (c : Cache) : Prop :=
  ∀ f r, Dict.get c f = some r → ∃ k, freshFile E k f = .ok r

def IncFwd (E : Env) (inc : Cache → Str → Except Err (Cache × Mem × List Tok)) : Prop :=
  ∀ c f c' r, Coherent E c → inc c f = .ok (c', r) → Coherent E c' ∧ ∃ k, freshFile E k f = .ok r

mutual
theorem fwdLine {E : Env} {inc : Cache → Str → Except Err (Cache × Mem × List Tok)} (hi : IncFwd E inc)
    (l : Line) (c c' : Cache) (m : Mem) (r : Mem × List Tok) (hc : Coherent E c)
    (h : visitLine E inc l c m = .ok (c', r)) :
    Coherent E c' ∧ ∃ k, freshLine E (freshFile E k) l m = .ok r := by
  match l with
  | .text t => simp only [visitLine, Except.ok.injEq, Prod.mk.injEq] at h; obtain ⟨rfl, rfl⟩ := h; exact ⟨hc, 0, rfl⟩
  | .define n t => simp only [visitLine, Except.ok.injEq, Prod.mk.injEq] at h; obtain ⟨rfl, rfl⟩ := h; exact ⟨hc, 0, rfl⟩
  | .undefine n =>
    rw [visitLine] at h
    by_cases hn : Dict.has m (E.low n) = true
    · rw [if_pos hn] at h; simp only [Except.ok.injEq, Prod.mk.injEq] at h; obtain ⟨rfl, rfl⟩ := h
      exact ⟨hc, 0, by rw [freshLine, if_pos hn]⟩
    · rw [if_neg hn] at h; cases h
  | .junk => simp [visitLine] at h
  | .incl f =>
    rw [visitLine] at h
    cases hg : Dict.get c f with
    | some x =>
      obtain ⟨m', t'⟩ := x
      rw [hg] at h
      simp only [Except.ok.injEq, Prod.mk.injEq] at h; obtain ⟨rfl, rfl⟩ := h
      obtain ⟨k, hk⟩ := hc f _ hg
      exact ⟨hc, k, by rw [freshLine, hk]; rfl⟩
    | none =>
      rw [hg] at h
      cases hx : inc c f with
      | error e => simp [hx] at h
      | ok x =>
        obtain ⟨c1, m', t'⟩ := x
        simp only [hx, Except.ok.injEq, Prod.mk.injEq] at h
        obtain ⟨rfl, rfl⟩ := h
        obtain ⟨hc1, k, hk⟩ := hi c f c1 (m', t') hc hx
        refine ⟨fun g r hr => ?_, k, by rw [freshLine, hk]; rfl⟩
        rw [Dict.get_set] at hr
        by_cases hgf : g = f
        · rw [if_pos hgf] at hr; cases hr; rw [hgf]; exact ⟨k, hk⟩
        · rw [if_neg hgf] at hr; exact hc1 g r hr
  | .ifExpr cnd body els =>
    rw [visitLine] at h
    cases he : E.evalIf (joinText (replaceTokens E.low m cnd)) with
    | error e => rw [he] at h; cases h
    | ok b =>
      rw [he] at h
      cases b with
      | true =>
        obtain ⟨h1, k, hk⟩ := fwdLines hi body c c' m r hc h
        exact ⟨h1, k, by rw [freshLine, he]; exact hk⟩
      | false =>
        obtain ⟨h1, k, hk⟩ := fwdElse hi els c c' m r hc h
        exact ⟨h1, k, by rw [freshLine, he]; exact hk⟩
  | .ifDef n body els =>
    rw [visitLine] at h
    by_cases hn : Dict.has m (E.low n) = true
    · rw [if_pos hn] at h
      obtain ⟨h1, k, hk⟩ := fwdLines hi body c c' m r hc h
      exact ⟨h1, k, by rw [freshLine, if_pos hn]; exact hk⟩
    · rw [if_neg hn] at h
      obtain ⟨h1, k, hk⟩ := fwdElse hi els c c' m r hc h
      exact ⟨h1, k, by rw [freshLine, if_neg hn]; exact hk⟩
theorem fwdElse {E : Env} {inc : Cache → Str → Except Err (Cache × Mem × List Tok)} (hi : IncFwd E inc)
    (els : Option (List Line)) (c c' : Cache) (m : Mem) (r : Mem × List Tok) (hc : Coherent E c)
    (h : visitElse E inc els c m = .ok (c', r)) :
    Coherent E c' ∧ ∃ k, freshElse E (freshFile E k) els m = .ok r := by
  match els with
  | none => simp only [visitElse, Except.ok.injEq, Prod.mk.injEq] at h; obtain ⟨rfl, rfl⟩ := h; exact ⟨hc, 0, rfl⟩
  | some ls =>
    rw [visitElse] at h
    obtain ⟨h1, k, hk⟩ := fwdLines hi ls c c' m r hc h
    exact ⟨h1, k, by rw [freshElse]; exact hk⟩
theorem fwdLines {E : Env} {inc : Cache → Str → Except Err (Cache × Mem × List Tok)} (hi : IncFwd E inc)
    (ls : List Line) (c c' : Cache) (m : Mem) (r : Mem × List Tok) (hc : Coherent E c)
    (h : visitLines E inc ls c m = .ok (c', r)) :
    Coherent E c' ∧ ∃ k, freshLines E (freshFile E k) ls m = .ok r := by
  match ls with
  | [] => simp only [visitLines, Except.ok.injEq, Prod.mk.injEq] at h; obtain ⟨rfl, rfl⟩ := h; exact ⟨hc, 0, rfl⟩
  | l :: ls =>
    rw [visitLines] at h
    cases h1 : visitLine E inc l c m with
    | error e => rw [h1] at h; cases h
    | ok x =>
      obtain ⟨c1, m1, t1⟩ := x
      rw [h1] at h
      cases h2 : visitLines E inc ls c1 m1 with
      | error e => simp [h2] at h
      | ok y =>
        obtain ⟨c2, m2, t2⟩ := y
        simp only [h2, Except.ok.injEq, Prod.mk.injEq] at h
        obtain ⟨rfl, rfl⟩ := h
        obtain ⟨hc1, k1, hk1⟩ := fwdLine hi l c c1 m (m1, t1) hc h1
        obtain ⟨hc2, k2, hk2⟩ := fwdLines hi ls c1 c2 m1 (m2, t2) hc1 h2
        refine ⟨hc2, max k1 k2, ?_⟩
        rw [freshLines, monoLine (fun f r h => monoFile' (Nat.le_max_left k1 k2) f r h) l m _ hk1]
        simp only [monoLines (fun f r h => monoFile' (Nat.le_max_right k1 k2) f r h) ls m1 _ hk2]
end

theorem incFwd_file {E : Env} (n : Nat) : IncFwd E (preprocessFile E n) := by
  induction n with
  | zero => intro c f c' r _ h; cases h
  | succ n ih =>
    intro c f c' r hc h
    rw [preprocessFile] at h
    cases hf : E.file f with
    | none => rw [hf] at h; cases h
    | some ls =>
      rw [hf] at h
      obtain ⟨hc', k, hk⟩ := fwdLines ih ls c c' [] r hc h
      exact ⟨hc', k + 1, by rw [freshFile, hf]; exact hk⟩

def IncBwd (E : Env) (n : Nat) (inc : Cache → Str → Except Err (Cache × Mem × List Tok)) : Prop :=
  ∀ c f r, Coherent E c → freshFile E n f = .ok r → ∃ c', inc c f = .ok (c', r) ∧ Coherent E c'

mutual
theorem bwdLine {E : Env} {n : Nat} {inc : Cache → Str → Except Err (Cache × Mem × List Tok)} (hi : IncBwd E n inc)
    (l : Line) (c : Cache) (m : Mem) (r : Mem × List Tok) (hc : Coherent E c)
    (h : freshLine E (freshFile E n) l m = .ok r) :
    ∃ c', visitLine E inc l c m = .ok (c', r) ∧ Coherent E c' := by
  match l with
  | .text t => simp only [freshLine, Except.ok.injEq] at h; subst h; exact ⟨c, rfl, hc⟩
  | .define nm t => simp only [freshLine, Except.ok.injEq] at h; subst h; exact ⟨c, rfl, hc⟩
  | .undefine nm =>
    rw [freshLine] at h
    by_cases hn : Dict.has m (E.low nm) = true
    · rw [if_pos hn] at h; simp only [Except.ok.injEq] at h; subst h
      exact ⟨c, by rw [visitLine, if_pos hn], hc⟩
    · rw [if_neg hn] at h; cases h
  | .junk => simp [freshLine] at h
  | .incl f =>
    rw [freshLine] at h
    cases hx : freshFile E n f with
    | error e => rw [hx] at h; cases h
    | ok x =>
      obtain ⟨m', t'⟩ := x
      rw [hx] at h
      simp only [Except.map, Except.ok.injEq] at h
      subst h
      cases hg : Dict.get c f with
      | some y =>
        obtain ⟨k, hk⟩ := hc f y hg
        have e1 := monoFile' (Nat.le_max_left n k) f _ hx
        have e2 := monoFile' (Nat.le_max_right n k) f _ hk
        rw [e1] at e2
        cases e2
        exact ⟨c, by rw [visitLine, hg], hc⟩
      | none =>
        obtain ⟨c1, hc1, hco⟩ := hi c f (m', t') hc hx
        refine ⟨Dict.set c1 f (m', t'), by rw [visitLine, hg]; simp only [hc1], fun g r hr => ?_⟩
        rw [Dict.get_set] at hr
        by_cases hgf : g = f
        · rw [if_pos hgf] at hr; cases hr; rw [hgf]; exact ⟨n, hx⟩
        · rw [if_neg hgf] at hr; exact hco g r hr
  | .ifExpr cnd body els =>
    rw [freshLine] at h
    cases he : E.evalIf (joinText (replaceTokens E.low m cnd)) with
    | error e => rw [he] at h; cases h
    | ok b =>
      rw [he] at h
      cases b with
      | true =>
        obtain ⟨c', h1, h2⟩ := bwdLines hi body c m r hc h
        exact ⟨c', by rw [visitLine, he]; exact h1, h2⟩
      | false =>
        obtain ⟨c', h1, h2⟩ := bwdElse hi els c m r hc h
        exact ⟨c', by rw [visitLine, he]; exact h1, h2⟩
  | .ifDef nm body els =>
    rw [freshLine] at h
    by_cases hn : Dict.has m (E.low nm) = true
    · rw [if_pos hn] at h
      obtain ⟨c', h1, h2⟩ := bwdLines hi body c m r hc h
      exact ⟨c', by rw [visitLine, if_pos hn]; exact h1, h2⟩
    · rw [if_neg hn] at h
      obtain ⟨c', h1, h2⟩ := bwdElse hi els c m r hc h
      exact ⟨c', by rw [visitLine, if_neg hn]; exact h1, h2⟩
theorem bwdElse {E : Env} {n : Nat} {inc : Cache → Str → Except Err (Cache × Mem × List Tok)} (hi : IncBwd E n inc)
    (els : Option (List Line)) (c : Cache) (m : Mem) (r : Mem × List Tok) (hc : Coherent E c)
    (h : freshElse E (freshFile E n) els m = .ok r) :
    ∃ c', visitElse E inc els c m = .ok (c', r) ∧ Coherent E c' := by
  match els with
  | none => simp only [freshElse, Except.ok.injEq] at h; subst h; exact ⟨c, rfl, hc⟩
  | some ls =>
    rw [freshElse] at h
    obtain ⟨c', h1, h2⟩ := bwdLines hi ls c m r hc h
    exact ⟨c', by rw [visitElse]; exact h1, h2⟩
theorem bwdLines {E : Env} {n : Nat} {inc : Cache → Str → Except Err (Cache × Mem × List Tok)} (hi : IncBwd E n inc)
    (ls : List Line) (c : Cache) (m : Mem) (r : Mem × List Tok) (hc : Coherent E c)
    (h : freshLines E (freshFile E n) ls m = .ok r) :
    ∃ c', visitLines E inc ls c m = .ok (c', r) ∧ Coherent E c' := by
  match ls with
  | [] => simp only [freshLines, Except.ok.injEq] at h; subst h; exact ⟨c, rfl, hc⟩
  | l :: ls =>
    rw [freshLines] at h
    cases h1 : freshLine E (freshFile E n) l m with
    | error e => rw [h1] at h; cases h
    | ok x =>
      obtain ⟨m1, t1⟩ := x
      rw [h1] at h
      cases h2 : freshLines E (freshFile E n) ls m1 with
      | error e => simp [h2] at h
      | ok y =>
        obtain ⟨m2, t2⟩ := y
        simp only [h2, Except.ok.injEq] at h
        subst h
        obtain ⟨c1, e1, hc1⟩ := bwdLine hi l c m (m1, t1) hc h1
        obtain ⟨c2, e2, hc2⟩ := bwdLines hi ls c1 m1 (m2, t2) hc1 h2
        exact ⟨c2, by rw [visitLines, e1]; simp only [e2], hc2⟩
end

theorem incBwd_file {E : Env} (n : Nat) : IncBwd E n (preprocessFile E n) := by
  induction n with
  | zero => intro c f r _ h; cases h
  | succ n ih =>
    intro c f r hc h
    rw [freshFile] at h
    rw [preprocessFile]
    cases hf : E.file f with
    | none => rw [hf] at h; cases h
    | some ls =>
      rw [hf] at h
      exact bwdLines ih ls c [] r hc h

/-! ### The line machine is deterministic -/

theorem runs_det {E : Env} {ds : List Dir} {st : List Frame} {h h1 h2 : List Event} {o1 o2 : List Tok}
    (r1 : Runs E ds st h h1 o1) (r2 : Runs E ds st h h2 o2) : h1 = h2 ∧ o1 = o2 := by
  induction r1 generalizing h2 o2 with
  | nil => cases r2; exact ⟨rfl, rfl⟩
  | skip hl hd _ ih =>
    rcases hd with ⟨t, rfl⟩ | ⟨n, t, rfl⟩ | ⟨n, rfl⟩ | ⟨f, rfl⟩ <;> cases r2 <;>
      first
      | (rename_i hl' _ hr; exact ih hr)
      | (rename_i hd' _ _; rcases hd' with ⟨_, h⟩ | ⟨_, h⟩ <;> cases h; done)
      | (rename_i hl' hr; rw [hl] at hl'; cases hl'; done)
      | (rename_i hl' _ hr; rw [hl] at hl'; cases hl'; done)
  | text hl _ ih =>
    cases r2 with
    | skip hl' _ _ => rw [hl] at hl'; cases hl'
    | text _ hr => obtain ⟨rfl, rfl⟩ := ih hr; exact ⟨rfl, rfl⟩
    | ifDead hl' _ _ => rw [hl] at hl'; cases hl'
  | define hl hb _ ih =>
    cases r2 with
    | skip hl' _ _ => rw [hl] at hl'; cases hl'
    | define _ hb' hr =>
      rw [isBody_unique hb'] at hr
      rw [isBody_unique hb] at ih
      exact ih hr
    | ifDead hl' _ _ => rw [hl] at hl'; cases hl'
  | undefine hl _ ih =>
    cases r2 with
    | skip hl' _ _ => rw [hl] at hl'; cases hl'
    | undefine _ hr => exact ih hr
    | ifDead hl' _ _ => rw [hl] at hl'; cases hl'
  | incl hl hf _ ih =>
    cases r2 with
    | skip hl' _ _ => rw [hl] at hl'; cases hl'
    | incl _ hf' hr => rw [hf] at hf'; cases hf'; exact ih hr
    | ifDead hl' _ _ => rw [hl] at hl'; cases hl'
  | ifLive hl hc _ ih =>
    cases r2 with
    | skip hl' _ _ => rw [hl] at hl'; cases hl'
    | ifLive _ hc' hr => rw [hc] at hc'; cases hc'; exact ih hr
    | ifDead hl' _ _ => rw [hl] at hl'; cases hl'
  | ifdefLive hl _ ih =>
    cases r2 with
    | skip hl' _ _ => rw [hl] at hl'; cases hl'
    | ifdefLive _ hr => exact ih hr
    | ifDead hl' _ _ => rw [hl] at hl'; cases hl'
  | ifDead hl hd _ ih =>
    rcases hd with ⟨c, rfl⟩ | ⟨n, rfl⟩
    · cases r2 with
      | skip _ hd' _ => rcases hd' with ⟨_, h⟩ | ⟨_, _, h⟩ | ⟨_, h⟩ | ⟨_, h⟩ <;> cases h
      | ifLive hl' _ _ => rw [hl] at hl'; cases hl'
      | ifDead _ _ hr => exact ih hr
    · cases r2 with
      | skip _ hd' _ => rcases hd' with ⟨_, h⟩ | ⟨_, _, h⟩ | ⟨_, h⟩ | ⟨_, h⟩ <;> cases h
      | ifdefLive hl' _ => rw [hl] at hl'; cases hl'
      | ifDead _ _ hr => exact ih hr
  | els _ ih =>
    cases r2 with
    | skip _ hd' _ => rcases hd' with ⟨_, h⟩ | ⟨_, _, h⟩ | ⟨_, h⟩ | ⟨_, h⟩ <;> cases h
    | ifDead _ hd' _ => rcases hd' with ⟨_, h⟩ | ⟨_, h⟩ <;> cases h
    | els hr => exact ih hr
  | endif _ ih =>
    cases r2 with
    | skip _ hd' _ => rcases hd' with ⟨_, h⟩ | ⟨_, _, h⟩ | ⟨_, h⟩ | ⟨_, h⟩ <;> cases h
    | ifDead _ hd' _ => rcases hd' with ⟨_, h⟩ | ⟨_, h⟩ <;> cases h
    | endif hr => exact ih hr

end Props.PreprocAux
