import Verif.Props.Fxp
import Verif.Spec.FxpLines
/-!
# C143: the directory of a compiled file
-/
namespace Props
open Model.Fxp Spec.FxpLines

namespace DirectorySpec

/-- A file in a container: its kind (0 for a program), its directory, its name, its bytes, and
where these are kept. -/
structure Item where
  kind : Nat
  dir : List Nat
  name : List Nat
  bytes : List Nat
  start : Nat
  dirAt : Nat
  nameAt : Nat
  reserved : List Nat

/-- The 25 bytes for a file in the directory. -/
def Item.record (t : Item) : List Nat :=
  [t.kind] ++ le4 t.start ++ le4 (t.start + t.bytes.length) ++ le4 t.dirAt ++ le4 t.nameAt ++ t.reserved

structure Layout where
  head : List Nat
  main : Nat
  footerPos : Nat
  namePos : Nat
  nameLen : Nat
  reserved : List Nat
  pad : List Nat
  items : List Item

/-- The bytes of the header that the checksum covers, but for the first two. -/
def Layout.data (L : Layout) : List Nat :=
  [0xff] ++ L.head ++ le2 L.items.length ++ le2 L.main ++ le4 L.footerPos ++ le4 L.namePos ++ le4 L.nameLen ++ L.reserved

def Layout.header (L : Layout) : List Nat := [0xfe, 0xf2] ++ L.data ++ L.pad ++ le2 (Spec.crc16 L.data)

/-- The bytes at a position of a file. -/
def Holds (file : List Nat) (pos : Nat) (bytes : List Nat) : Prop := ∃ rest, file.drop pos = bytes ++ rest

structure Item.Stored (file : List Nat) (namePos : Nat) (t : Item) : Prop where
  kind : t.kind < 256
  small : t.start + t.bytes.length < 4294967296 ∧ t.dirAt < 4294967296 ∧ t.nameAt < 4294967296
  reserved : t.reserved.length = 8
  bytes : Holds file t.start t.bytes
  dir : Holds file (namePos + t.dirAt) (t.dir ++ [0]) ∧ 0 ∉ t.dir
  name : Holds file (namePos + t.nameAt) (t.name ++ [0]) ∧ 0 ∉ t.name

/-- A file of bytes that is a container with this layout.  Nothing is said about the order in
which names, files and directory follow each other. -/
structure Layout.Stored (file : List Nat) (L : Layout) : Prop where
  bytes : ∀ x ∈ file, x < 256
  sizes : L.head.length = 2 ∧ L.reserved.length = 16 ∧ L.pad.length = 2
  small : L.items.length < 65536 ∧ L.main < 65536 ∧ L.footerPos < 4294967296 ∧ L.namePos < 4294967296 ∧ L.nameLen < 4294967296
  header : Holds file 0 L.header
  footer : Holds file L.footerPos (L.items.flatMap Item.record)
  items : ∀ t ∈ L.items, t.Stored file L.namePos

/-- What the reader is to find. -/
def Item.entry (t : Item) : Entry :=
  { fileType := t.kind, dirname := t.dir, filename := t.name, size := t.bytes.length, block := t.bytes }

/-- What a path holds after some files are written one after the other. -/
def fileAfter (ws : List (List Nat × List Nat)) (p : List Nat) : Option (List Nat) :=
  (ws.reverse.find? fun w => w.1 = p).map Prod.snd

end DirectorySpec

namespace DirectoryAux
open DirectorySpec

theorem le2_length (n : Nat) : (le2 n).length = 2 := rfl
theorem le4_length (n : Nat) : (le4 n).length = 4 := rfl

theorem decode_le2 (n : Nat) : leDecode (le2 n) = n := by
  simp only [le2, leDecode]
  omega

theorem decode_le4 (n : Nat) : leDecode (le4 n) = n := by
  simp only [le4, leDecode]
  omega

theorem readAt_prefix {l rest : List Nat} {p n : Nat} (h : p + n ≤ l.length) : readAt (l ++ rest) p n = readAt l p n := by
  unfold readAt
  rw [List.drop_append_of_le_length (by omega), List.take_append_of_le_length (by simp; omega)]

theorem readAt_drop (f : List Nat) (a p n : Nat) : readAt (f.drop a) p n = readAt f (a + p) n := by
  simp [readAt]

theorem unpack_record (t : Item) (hr : t.reserved.length = 8) :
    unpackFooter t.record = .ok { fileType := t.kind, start := t.start, stop := t.start + t.bytes.length,
                                  dirnameStart := t.dirAt, filenameStart := t.nameAt } := by
  have hl : t.record.length = 25 := by simp [Item.record, hr, le4_length]
  have h0 : readAt t.record 0 1 = [t.kind] := rfl
  have h1 : readAt t.record 1 4 = le4 t.start := rfl
  have h2 : readAt t.record 5 4 = le4 (t.start + t.bytes.length) := rfl
  have h3 : readAt t.record 9 4 = le4 t.dirAt := rfl
  have h4 : readAt t.record 13 4 = le4 t.nameAt := rfl
  unfold unpackFooter
  rw [hl, if_neg (by decide), h0, h1, h2, h3, h4]
  simp only [decode_le4]
  simp [leDecode]

theorem footers (file : List Nat) : ∀ (items : List Item) (pos : Nat), (∀ t ∈ items, t.reserved.length = 8) →
    Holds file pos (items.flatMap Item.record) →
    readFooters file pos items.length = .ok (items.map fun t =>
      { fileType := t.kind, start := t.start, stop := t.start + t.bytes.length, dirnameStart := t.dirAt, filenameStart := t.nameAt }) := by
  intro items
  induction items with
  | nil => intro pos _ _; rfl
  | cons t items ih =>
    intro pos hr ⟨rest, hd⟩
    have hl : t.record.length = 25 := by simp [Item.record, hr t (List.mem_cons_self ..), le4_length]
    rw [List.flatMap_cons, List.append_assoc] at hd
    have h1 : readAt file pos footerEntrySize = t.record := by
      unfold readAt
      rw [hd]
      have : footerEntrySize = t.record.length := by rw [hl]; rfl
      rw [this, List.take_left]
    have h2 : Holds file (pos + footerEntrySize) (items.flatMap Item.record) := by
      refine ⟨rest, ?_⟩
      rw [← List.drop_drop, hd]
      have : footerEntrySize = t.record.length := by rw [hl]; rfl
      rw [this, List.drop_left]
    simp only [List.length_cons, readFooters, h1, unpack_record t (hr t (List.mem_cons_self ..)),
      ih _ (fun t ht => hr t (List.mem_cons_of_mem _ ht)) h2, List.map_cons]

theorem name_at {file : List Nat} {pos : Nat} {s : List Nat} (h : Holds file pos (s ++ [0])) (hs : 0 ∉ s) :
    readUntilNull file pos = .ok s := by
  obtain ⟨rest, hd⟩ := h
  unfold readUntilNull
  rw [hd]
  have hu := untilNull_append (fun x hx h0 => hs (h0 ▸ hx)) rest (l := s)
  have he : s ++ [0] ++ rest = s ++ 0 :: rest := by simp
  rw [he]
  cases hl : s ++ 0 :: rest with
  | nil => simp at hl
  | cons x t => rw [hl] at hu; exact hu

theorem entries (file : List Nat) (namePos : Nat) (items : List Item) (h : ∀ t ∈ items, t.Stored file namePos) :
    readEntries file namePos (items.map fun t =>
      { fileType := t.kind, start := t.start, stop := t.start + t.bytes.length, dirnameStart := t.dirAt, filenameStart := t.nameAt })
      = .ok (items.map Item.entry) := by
  induction items with
  | nil => rfl
  | cons t items ih =>
    have ht := h t (List.mem_cons_self ..)
    have hb : readBlock file t.start (((t.start + t.bytes.length : Nat) : Int) - t.start) = .ok t.bytes := by
      obtain ⟨rest, hd⟩ := ht.bytes
      have e : ((t.start + t.bytes.length : Nat) : Int) - t.start = (t.bytes.length : Nat) := by omega
      rw [e]
      unfold readBlock
      rw [if_neg (by omega), if_neg (by omega)]
      simp only [Int.toNat_natCast, readAt, hd, List.take_left]
    have e : ((t.start + t.bytes.length : Nat) : Int) - t.start = (t.bytes.length : Nat) := by omega
    simp only [List.map_cons, readEntries, readEntry, name_at ht.dir.1 ht.dir.2, name_at ht.name.1 ht.name.2, hb,
      ih (fun t h' => h t (List.mem_cons_of_mem _ h'))]
    simp only [e, Item.entry]

theorem header_length {file : List Nat} {L : Layout} (h : L.Stored file) : L.header.length = 41 := by
  simp [Layout.header, Layout.data, h.sizes.1, h.sizes.2.1, h.sizes.2.2, le2_length, le4_length]

theorem header_fields (v : Nat) (head pad reserved : List Nat) (n main fp np nl : Nat) (h1 : head.length = 2) (h2 : reserved.length = 16)
    (h3 : pad.length = 2) :
    let l := [0xfe, 0xf2] ++ ([0xff] ++ head ++ le2 n ++ le2 main ++ le4 fp ++ le4 np ++ le4 nl ++ reserved) ++ pad ++ le2 v
    l.take 3 = identifier ∧ readAt l 39 2 = le2 v ∧ (l.take 37).drop 2 = [0xff] ++ head ++ le2 n ++ le2 main ++ le4 fp ++ le4 np ++ le4 nl ++ reserved ∧
    readAt l 5 2 = le2 n ∧ readAt l 7 2 = le2 main ∧ readAt l 9 4 = le4 fp ∧ readAt l 13 4 = le4 np ∧ readAt l 17 4 = le4 nl := by
  match head, h1, pad, h3, reserved, h2 with
  | [a, b], _, [c, d], _, [r1, r2, r3, r4, r5, r6, r7, r8, r9, r10, r11, r12, r13, r14, r15, r16], _ =>
    exact ⟨rfl, rfl, rfl, rfl, rfl, rfl, rfl, rfl⟩

theorem container (file : List Nat) (L : Layout) (h : L.Stored file) : readContainer file = .ok (L.items.map Item.entry) := by
  obtain ⟨rest, hh⟩ := h.header
  rw [List.drop_zero] at hh
  have hl := header_length h
  obtain ⟨f1, f2, f3, f4, f5, f6, f7, f8⟩ := header_fields (Spec.crc16 L.data) L.head L.pad L.reserved L.items.length L.main
    L.footerPos L.namePos L.nameLen h.sizes.1 h.sizes.2.1 h.sizes.2.2
  have hr : ∀ p n, p + n ≤ 41 → readAt file p n = readAt L.header p n := by
    intro p n hp
    rw [hh]
    exact readAt_prefix (by omega)
  have ht : ∀ n, n ≤ 41 → file.take n = L.header.take n := by
    intro n hn
    rw [hh, List.take_append_of_le_length (by omega)]
  have hread : readHeader file = .ok { numFiles := L.items.length, mainFile := L.main, footerPos := L.footerPos, namePos := L.namePos, nameLen := L.nameLen } := by
    rw [readHeader_ok h.bytes]
    refine ⟨by rw [hh]; simp; omega, ?_, ?_, ?_⟩
    · rw [ht 3 (by omega)]; exact f1
    · rw [hr 39 2 (by omega), ht 37 (by omega)]
      have e1 : readAt L.header 39 2 = le2 (Spec.crc16 L.data) := f2
      have e2 : (L.header.take 37).drop 2 = L.data := f3
      rw [e1, e2, decode_le2]
    · have e4 : readAt L.header 5 2 = le2 L.items.length := f4
      have e5 : readAt L.header 7 2 = le2 L.main := f5
      have e6 : readAt L.header 9 4 = le4 L.footerPos := f6
      have e7 : readAt L.header 13 4 = le4 L.namePos := f7
      have e8 : readAt L.header 17 4 = le4 L.nameLen := f8
      rw [hr 5 2 (by omega), hr 7 2 (by omega), hr 9 4 (by omega), hr 13 4 (by omega), hr 17 4 (by omega), e4, e5, e6, e7, e8]
      simp only [decode_le2, decode_le4]
  simp only [readContainer, hread, footers file L.items L.footerPos (fun t ht => (h.items t ht).reserved) h.footer,
    entries file L.namePos L.items h.items]

theorem join_plain {dir name : List Nat} (hd : dir ≠ []) (hs : dir.getLast? ≠ some 47) (hn : 47 ∉ name) :
    pathJoin dir name = dir ++ 47 :: name := by
  unfold pathJoin
  split
  · exact absurd (List.mem_cons_self ..) hn
  · rw [if_neg (by simp [hd, hs])]

theorem entry_readable {file : List Nat} {namePos : Nat} {t : Item} (hb : ∀ x ∈ file, x < 256) (ht : t.Stored file namePos) (hk : t.kind = 0)
    (hbig : 44 + t.bytes.length + t.dir.length + t.name.length < 4294967296) :
    ∃ g, writeEntry t.entry = some g ∧ readContainer g = .ok [t.entry] := by
  have hmem : ∀ {p l}, Holds file p l → ∀ x ∈ l, x < 256 := by
    rintro p l ⟨rest, hr⟩ x hx
    exact hb x (List.mem_of_mem_drop (hr ▸ List.mem_append_left _ hx))
  refine ⟨programBytes t.entry, ?_, ?_⟩
  · have hk' : t.entry.fileType = 0 := hk
    rw [writeEntry, if_pos hk', emitProgram_eq (e := t.entry) rfl hbig]
  refine readContainer_programBytes rfl (by show t.kind < 256; exact ht.kind) hbig (hmem ht.bytes) ?_ ?_ ?_ ?_
  · exact fun x hx => hmem ht.dir.1 x (List.mem_append_left _ hx)
  · exact fun x hx => hmem ht.name.1 x (List.mem_append_left _ hx)
  · exact fun x hx h0 => ht.dir.2 (h0 ▸ hx)
  · exact fun x hx h0 => ht.name.2 (h0 ▸ hx)

/-- What is written for an item. -/
def Written (dir : List Nat) (t : Item) (w : List Nat × List Nat) : Prop :=
  w.1 = dir ++ 47 :: t.name ∧ (t.kind ≠ 0 → w.2 = t.bytes) ∧ (t.kind = 0 → readContainer w.2 = .ok [t.entry])

theorem extract_all {file dir : List Nat} {namePos : Nat} (hb : ∀ x ∈ file, x < 256) (hd : dir ≠ []) (hs : dir.getLast? ≠ some 47) :
    ∀ items : List Item, (∀ t ∈ items, t.Stored file namePos) → (∀ t ∈ items, 47 ∉ t.name) →
    (∀ t ∈ items, 44 + t.bytes.length + t.dir.length + t.name.length < 4294967296) →
    ∃ ws, (items.map Item.entry).mapM (fun e => (writeEntry e).map (fun b => (pathJoin dir e.filename, b))) = some ws ∧
      ws.length = items.length ∧ ∀ (i : Nat) t, items[i]? = some t → ∃ w, ws[i]? = some w ∧ Written dir t w := by
  intro items
  induction items with
  | nil => intro _ _ _; exact ⟨[], rfl, rfl, by simp⟩
  | cons t items ih =>
    intro h1 h2 h3
    obtain ⟨ws, e1, e2, e3⟩ := ih (fun x hx => h1 x (List.mem_cons_of_mem _ hx)) (fun x hx => h2 x (List.mem_cons_of_mem _ hx))
      (fun x hx => h3 x (List.mem_cons_of_mem _ hx))
    have ht := h1 t (List.mem_cons_self ..)
    have hj := join_plain hd hs (h2 t (List.mem_cons_self ..))
    obtain ⟨w, hw1, hw2⟩ : ∃ w, (writeEntry t.entry).map (fun b => (pathJoin dir t.entry.filename, b)) = some w ∧ Written dir t w := by
      by_cases hk : t.kind = 0
      · obtain ⟨g, hg1, hg2⟩ := entry_readable hb ht hk (h3 t (List.mem_cons_self ..))
        exact ⟨_, by rw [hg1]; rfl, hj, fun h => absurd hk h, fun _ => hg2⟩
      · exact ⟨_, by rw [C31_other_entries_copied t.entry hk]; rfl, hj, fun _ => rfl, fun h => absurd h hk⟩
    refine ⟨w :: ws, ?_, by simp [e2], ?_⟩
    · rw [List.map_cons, List.mapM_cons, hw1, e1]
      rfl
    · intro i x hx
      cases i with
      | zero => cases hx; exact ⟨w, rfl, hw2⟩
      | succ i => exact e3 i x hx

end DirectoryAux

namespace DirectoryDemo
open DirectorySpec

/-- Two files called `a` in the directories `d` and `e`. -/
def demo : Layout :=
  { head := [0, 0], main := 0, footerPos := 49, namePos := 43, nameLen := 6, reserved := List.replicate 16 0, pad := [0, 0],
    items := [{ kind := 1, dir := [100], name := [97], bytes := [7], start := 41, dirAt := 0, nameAt := 2, reserved := List.replicate 8 0 },
              { kind := 1, dir := [101], name := [97], bytes := [8], start := 42, dirAt := 4, nameAt := 2, reserved := List.replicate 8 0 }] }

def file : List Nat := demo.header ++ [7, 8] ++ [100, 0, 97, 0, 101, 0] ++ demo.items.flatMap Item.record

theorem stored : demo.Stored file where
  bytes := by decide +kernel
  sizes := by decide
  small := by decide
  header := ⟨_, by rw [List.drop_zero, file, List.append_assoc, List.append_assoc]⟩
  footer := ⟨[], by decide +kernel⟩
  items := by
    intro t ht
    rcases List.mem_cons.mp ht with rfl | ht
    · exact ⟨by decide, by decide, by decide, ⟨file.drop 42, by decide +kernel⟩, ⟨⟨file.drop 45, by decide +kernel⟩, by decide⟩,
        ⟨file.drop 47, by decide +kernel⟩, by decide⟩
    · rcases List.mem_cons.mp ht with rfl | ht
      · exact ⟨by decide, by decide, by decide, ⟨file.drop 43, by decide +kernel⟩, ⟨⟨file.drop 49, by decide +kernel⟩, by decide⟩,
          ⟨file.drop 47, by decide +kernel⟩, by decide⟩
      · cases ht

end DirectoryDemo

open DirectorySpec DirectoryAux

/-- C143: of every container the reader finds all files, in the order of the directory, each with
its own directory name, file name and bytes, wherever these are kept. -/
theorem C143_directory (file : List Nat) (L : Layout) (h : L.Stored file) : readContainer file = .ok (L.items.map Item.entry) :=
  container file L h

example : ∃ L : Layout, L.Stored DirectoryDemo.file ∧ L.items.length = 2 := ⟨_, DirectoryDemo.stored, rfl⟩

/-- C143: extraction writes every file, in order, into the output directory: the bytes of a file
that is not a program, a container with just this program otherwise. -/
theorem C143_extracted (file : List Nat) (L : Layout) (h : L.Stored file) (dir : List Nat) (hd : dir ≠ []) (hs : dir.getLast? ≠ some 47)
    (hn : ∀ t ∈ L.items, 47 ∉ t.name) (hbig : ∀ t ∈ L.items, 44 + t.bytes.length + t.dir.length + t.name.length < 4294967296) :
    ∃ ws, extract file dir = .ok ws ∧ ws.length = L.items.length ∧
      ∀ (i : Nat) t, L.items[i]? = some t → ∃ w, ws[i]? = some w ∧ w.1 = dir ++ 47 :: t.name ∧
        (t.kind ≠ 0 → w.2 = t.bytes) ∧ (t.kind = 0 → readContainer w.2 = .ok [t.entry]) := by
  obtain ⟨ws, e1, e2, e3⟩ := extract_all h.bytes hd hs L.items h.items hn hbig
  exact ⟨ws, by simp only [extract, container file L h, e1], e2, e3⟩

example : (∀ t ∈ DirectoryDemo.demo.items, 47 ∉ t.name) ∧
    extract DirectoryDemo.file [111] = .ok [([111, 47, 97], [7]), ([111, 47, 97], [8])] := by decide +kernel

/-- C143 does not hold for files of the same name in different directories: after the extraction
the output directory has only the last one, whatever the others are. -/
theorem C143_same_name_fails (file : List Nat) (L : Layout) (h : L.Stored file) (dir : List Nat) (hd : dir ≠ []) (hs : dir.getLast? ≠ some 47)
    (hn : ∀ t ∈ L.items, 47 ∉ t.name) (hbig : ∀ t ∈ L.items, 44 + t.bytes.length + t.dir.length + t.name.length < 4294967296)
    (before after : List Item) (t u : Item) (hsplit : L.items = before ++ u :: after) (ht : t ∈ before) (hname : t.name = u.name)
    (hlast : ∀ v ∈ after, v.name ≠ u.name) (hku : u.kind ≠ 0) :
    ∃ ws, extract file dir = .ok ws ∧ fileAfter ws (dir ++ 47 :: t.name) = some u.bytes := by
  obtain ⟨ws, e1, e2, e3⟩ := C143_extracted file L h dir hd hs hn hbig
  refine ⟨ws, e1, ?_⟩
  have hu : L.items[before.length]? = some u := by simp [hsplit]
  obtain ⟨w, hw, hw1, hw2, _⟩ := e3 _ _ hu
  have hlt : before.length < ws.length := (List.getElem?_eq_some_iff.mp hw).1
  have hws : ws = ws.take before.length ++ w :: ws.drop (before.length + 1) := by
    rw [← (List.getElem?_eq_some_iff.mp hw).2, ← List.drop_eq_getElem_cons, List.take_append_drop]
  have hno : ∀ x ∈ ws.drop (before.length + 1), x.1 ≠ dir ++ 47 :: t.name := by
    intro x hx
    obtain ⟨i, hi⟩ := List.mem_iff_getElem?.mp hx
    rw [List.getElem?_drop] at hi
    have hlen : before.length + 1 + i < L.items.length := by rw [← e2]; exact (List.getElem?_eq_some_iff.mp hi).1
    obtain ⟨y, hy, hy1, _⟩ := e3 _ _ (List.getElem?_eq_getElem hlen)
    rw [hi] at hy
    cases hy
    rw [hy1, hname]
    intro hc
    have hc' := (List.cons.inj (List.append_cancel_left hc)).2
    refine hlast _ ?_ hc'
    have : L.items[before.length + 1 + i]? = after[i]? := by
      rw [hsplit, List.getElem?_append_right (by omega)]
      rw [show before.length + 1 + i - before.length = i + 1 by omega]
      rfl
    rw [List.getElem?_eq_getElem hlen] at this
    exact List.mem_of_getElem? this.symm
  have hrev : (ws.drop (before.length + 1)).reverse.find? (fun x => decide (x.1 = dir ++ 47 :: t.name)) = none := by
    rw [List.find?_eq_none]
    intro x hx
    simpa using hno x (List.mem_reverse.mp hx)
  unfold fileAfter
  rw [hws, List.reverse_append, List.reverse_cons, List.append_assoc, List.find?_append, hrev, Option.none_or]
  rw [List.singleton_append, List.find?_cons_of_pos (by simp [hw1, hname])]
  simp [hw2 hku]

example : fileAfter [([111, 47, 97], [7]), ([111, 47, 97], [8])] [111, 47, 97] = some [8] := by decide

end Props
