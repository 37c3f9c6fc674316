import Verif.Lemmas.Fxp
import Verif.Spec.Path
/-!
# Properties of the FXP container reader (C29-C32, C59, C60)
-/
namespace Props
open Model.Fxp Spec

/-- A valid 41-byte header of a file with no entries. -/
def sampleHeader : List Nat :=
  [0xfe, 0xf2, 0xff, 0, 0, 0, 0, 0, 0, 41, 0, 0, 0, 41, 0, 0, 0] ++ List.replicate 20 0 ++ [0, 0] ++
    leEncode 2 (crc16 ([0xff, 0, 0, 0, 0, 0, 0, 41, 0, 0, 0, 41, 0, 0, 0] ++ List.replicate 20 0))

/-- A program of five bytes called `a.fxp` in directory `d`. -/
def sampleEntry : Entry :=
  { fileType := 0, dirname := [100], filename := [97, 46, 102, 120, 112], size := 5,
    block := [1, 2, 0, 255, 4] }

/-! ## C30: the checksum is a CRC-16 -/

/-- The checksum of at least two bytes is the bitwise CRC-16 (polynomial 0x1021, start value 0)
of the bytes from the third on, and fits into 16 bits. -/
theorem C30_checksum_is_crc (bytes : List Nat) (hlen : 2 ≤ bytes.length) (hb : ∀ x ∈ bytes, x < 256) :
    checksumCalc bytes = some (crc16 (bytes.drop 2)) ∧ crc16 (bytes.drop 2) < 65536 :=
  ⟨checksum_crc hlen hb, crc16_lt (fun x hx => hb x (List.mem_of_mem_drop hx))⟩

example : checksumCalc [1, 2, 0x80, 0x05] = some (crc16 [0x80, 0x05]) ∧ crc16 [0x80, 0x05] ≠ crc16 [0x05, 0x80] := by decide

/-- Hence the first two bytes never influence the checksum. -/
theorem C30_first_two_bytes_ignored (x y x' y' : Nat) (rest : List Nat) (hb : ∀ z ∈ rest, z < 256)
    (hx : x < 256) (hy : y < 256) (hx' : x' < 256) (hy' : y' < 256) :
    checksumCalc (x :: y :: rest) = checksumCalc (x' :: y' :: rest) := by
  rw [checksum_crc (by simp) (by simp_all), checksum_crc (by simp) (by simp_all)]
  rfl

/-- The checksum of "123456789" preceded by two arbitrary bytes is the check value of
CRC-16/XMODEM, 0x31C3. -/
example : checksumCalc ([0xfe, 0xf2] ++ [49, 50, 51, 52, 53, 54, 55, 56, 57]) = some 0x31C3 := by decide

/-! ## C29: corruption of the header is detected -/

/-- If a header is accepted, changing any one of its first 37 bytes, or one byte of the stored
checksum (offsets 39 and 40), makes the reader fail. -/
theorem C29_single_byte_detected (f : List Nat) (hb : ∀ x ∈ f, x < 256) (es : List Entry)
    (hok : readContainer f = .ok es) (p b : Nat) (hp : p < 37 ∨ p = 39 ∨ p = 40) (hb' : b < 256)
    (hne : f[p]? ≠ some b) : ∃ e, readContainer (f.set p b) = .error e := by
  have hh : ∃ h, readHeader f = .ok h := by
    unfold readContainer at hok
    split at hok
    · cases hok
    · exact ⟨_, by assumption⟩
  obtain ⟨h, hh⟩ := hh
  obtain ⟨hl, hid, hck, _⟩ := (readHeader_ok hb).mp hh
  have hpl : p < f.length := by omega
  have hne' : b ≠ f[p] := by
    intro h; apply hne; rw [List.getElem?_eq_getElem hpl, h]
  have hbs : ∀ x ∈ f.set p b, x < 256 := by
    intro x hx
    rcases List.mem_or_eq_of_mem_set hx with h | h
    · exact hb x h
    · omega
  have : ∃ e, readHeader (f.set p b) = .error e := by
    apply readHeader_err hbs
    rintro ⟨_, hid', hck'⟩
    by_cases h3 : p < 3
    · have e1 : (f.set p b).take 3 = (f.take 3).set p b := List.take_set
      rw [e1, hid, ← hid] at hid'
      have := congrArg (fun l => l[p]?) hid'
      simp only [List.getElem?_set_self' , List.getElem?_take_of_lt h3, List.getElem?_eq_getElem hpl] at this
      simp at this
      exact hne' this
    · have hd37 : ((f.set p b).take 37).drop 2 = ((f.take 37).drop 2).set (p - 2) b := by
        rw [List.take_set, List.drop_set, if_neg (by omega)]
      by_cases h37 : p < 37
      · have hra : readAt (f.set p b) 39 2 = readAt f 39 2 := by
          simp only [readAt]
          rw [List.drop_set, if_pos (by omega)]
        rw [hra, hd37, hck] at hck'
        have hidx : p - 2 < ((f.take 37).drop 2).length := by simp; omega
        refine crc16_set (l := (f.take 37).drop 2) (i := p - 2) (b := b) hidx ?_ hck'.symm
        have e2 : 2 + (p - 2) = p := by omega
        simpa [e2] using hne'
      · have hd37' : ((f.take 37).drop 2).set (p - 2) b = (f.take 37).drop 2 := by
          apply List.set_eq_of_length_le; simp; omega
        rw [hd37, hd37', ← hck, readAt_two (by simp; omega), readAt_two (by omega)] at hck'
        simp only [leDecode] at hck'
        have hp' : p = 39 ∨ p = 40 := by omega
        rcases hp' with rfl | rfl
        · simp at hck'; omega
        · simp at hck'; omega
  obtain ⟨e, he⟩ := this
  exact ⟨e, by simp [readContainer, he]⟩

example : (∀ x ∈ sampleHeader, x < 256) ∧ readContainer sampleHeader = .ok [] ∧
    sampleHeader[10]? ≠ some 7 ∧ readContainer (sampleHeader.set 10 7) = .error .badChecksum := by decide +kernel

/-- Any change confined to two neighbouring bytes of the checksummed fields (offsets 3 to 36) is
detected as well. -/
theorem C29_two_neighbours_detected (f : List Nat) (hb : ∀ x ∈ f, x < 256) (es : List Entry)
    (hok : readContainer f = .ok es) (p b c : Nat) (hp : 3 ≤ p) (hp' : p < 36)
    (hb' : b < 256) (hc' : c < 256) (hne : f[p]? ≠ some b ∨ f[p + 1]? ≠ some c) :
    ∃ e, readContainer ((f.set p b).set (p + 1) c) = .error e := by
  have hh : ∃ h, readHeader f = .ok h := by
    unfold readContainer at hok
    split at hok
    · cases hok
    · exact ⟨_, by assumption⟩
  obtain ⟨h, hh⟩ := hh
  obtain ⟨hl, hid, hck, _⟩ := (readHeader_ok hb).mp hh
  have hbs : ∀ x ∈ (f.set p b).set (p + 1) c, x < 256 := by
    intro x hx
    rcases List.mem_or_eq_of_mem_set hx with h | h
    · rcases List.mem_or_eq_of_mem_set h with h | h
      · exact hb x h
      · omega
    · omega
  have : ∃ e, readHeader ((f.set p b).set (p + 1) c) = .error e := by
    apply readHeader_err hbs
    rintro ⟨_, _, hck'⟩
    have hra : readAt ((f.set p b).set (p + 1) c) 39 2 = readAt f 39 2 := by
      simp only [readAt]
      rw [List.drop_set, if_pos (by omega), List.drop_set, if_pos (by omega)]
    have hd37 : (((f.set p b).set (p + 1) c).take 37).drop 2 =
        (((f.take 37).drop 2).set (p - 2) b).set (p - 2 + 1) c := by
      rw [List.take_set, List.drop_set, if_neg (by omega), List.take_set, List.drop_set, if_neg (by omega)]
      congr 1
      omega
    rw [hra, hd37, hck] at hck'
    have hx : f[p]? = some f[p] := List.getElem?_eq_getElem (by omega)
    have hy : f[p + 1]? = some f[p + 1] := List.getElem?_eq_getElem (by omega)
    generalize hl' : (f.take 37).drop 2 = l at hck'
    have hll : l.length = 35 := by rw [← hl']; simp; omega
    have hlx : l[p - 2]'(by omega) = f[p] := by
      subst hl'
      have e2 : 2 + (p - 2) = p := by omega
      simp [e2]
    have hly : l[p - 2 + 1]'(by omega) = f[p + 1] := by
      subst hl'
      have e2 : 2 + (p - 2 + 1) = p + 1 := by omega
      simp [e2]
    have e1 : l = l.take (p - 2) ++ f[p] :: f[p + 1] :: l.drop (p - 2 + 2) := by
      rw [← hlx, ← hly]
      rw [← List.drop_eq_getElem_cons, ← List.drop_eq_getElem_cons, List.take_append_drop]
    have e2 : (l.set (p - 2) b).set (p - 2 + 1) c =
        l.take (p - 2) ++ b :: c :: l.drop (p - 2 + 2) := by
      have hlen : (l.take (p - 2)).length = p - 2 := by simp; omega
      conv => lhs; rw [e1]
      generalize l.take (p - 2) = u at hlen
      generalize l.drop (p - 2 + 2) = v
      rw [List.set_append_right _ _ (by omega), List.set_append_right _ _ (by omega), hlen]
      simp
    rw [e2] at hck'
    have hck2 := (congrArg crc16 e1).symm.trans hck'
    rw [crc16_append, crc16_append] at hck2
    simp only [List.foldl_cons] at hck2
    have hbx : f[p + 1] < 256 := hb _ (List.getElem_mem _)
    have := crc_two hbx hc' (crcFold_inj_state _ hck2)
    rcases hne with h | h
    · apply h; rw [hx, this.1]
    · apply h; rw [hy, this.2]
  obtain ⟨e, he⟩ := this
  exact ⟨e, by simp [readContainer, he]⟩

example : readContainer ((sampleHeader.set 10 7).set 11 9) = .error .badChecksum := by decide +kernel

/-- Offsets 37 and 38 are covered neither by the checksum nor by anything else: whatever they
hold, the header is read in the same way. -/
theorem C29_uncovered_bytes (f : List Nat) (hb : ∀ x ∈ f, x < 256) (p b : Nat) (hp : p = 37 ∨ p = 38)
    (hb' : b < 256) (h : Header) : readHeader f = .ok h → readHeader (f.set p b) = .ok h := by
  intro hh
  obtain ⟨hl, hid, hck, heq⟩ := (readHeader_ok hb).mp hh
  have hbs : ∀ x ∈ f.set p b, x < 256 := by
    intro x hx
    rcases List.mem_or_eq_of_mem_set hx with h | h
    · exact hb x h
    · omega
  have hlow : ∀ q n, q + n ≤ 37 → readAt (f.set p b) q n = readAt f q n := by
    intro q n hq
    simp only [readAt]
    rw [List.drop_set, if_neg (by omega), List.take_set]
    apply List.set_eq_of_length_le; simp; omega
  have h39 : readAt (f.set p b) 39 2 = readAt f 39 2 := by
    simp only [readAt]
    rw [List.drop_set, if_pos (by omega)]
  have ht : ∀ n, n ≤ 37 → (f.set p b).take n = f.take n := by
    intro n hn
    have := hlow 0 n (by omega)
    simpa [readAt] using this
  rw [readHeader_ok hbs]
  refine ⟨by simpa using hl, by rw [ht 3 (by omega)]; exact hid, ?_, ?_⟩
  · rw [h39, ht 37 (by omega)]; exact hck
  · rw [hlow 5 2 (by omega), hlow 7 2 (by omega), hlow 9 4 (by omega), hlow 13 4 (by omega),
      hlow 17 4 (by omega)]
    exact heq

example : sampleHeader.set 37 99 ≠ sampleHeader ∧ readContainer (sampleHeader.set 37 99) = .ok [] := by
  decide +kernel

/-- A file shorter than a header is always refused. -/
theorem C29_truncated_header (f : List Nat) (h : f.length < 41) :
    readContainer f = .error .headerTooShort := by
  have : (readAt f 0 headerSize).length < headerSize := by simp [readAt, headerSize]; omega
  simp [readContainer, readHeader, this]

example : readContainer (sampleHeader.take 40) = .error .headerTooShort := by decide

/-! ## C31: an extracted program is a valid container -/

/-- Every program listed in a readable container, whose bytes are all present, is written as a
file that the reader accepts and in which it finds exactly that one entry: same type, directory
name, file name and bytes.  (The size bound is the 4-byte range of the format.) -/
theorem C31_extracted_program_readable_partial (f : List Nat) (hb : ∀ x ∈ f, x < 256) (es : List Entry)
    (hok : readContainer f = .ok es) (e : Entry) (he : e ∈ es) (ht : e.fileType = 0)
    (hall : e.size = e.block.length)
    (hbig : 44 + e.block.length + e.dirname.length + e.filename.length < 4294967296) :
    ∃ g, writeEntry e = some g ∧ readContainer g = .ok [e] := by
  have hent : ∃ np ft, readEntry f np ft = .ok e := by
    unfold readContainer at hok
    split at hok
    · cases hok
    · split at hok
      · cases hok
      · obtain ⟨ft, _, h⟩ := readEntries_inv hok he
        exact ⟨_, ft, h⟩
  obtain ⟨np, ft, h⟩ := hent
  obtain ⟨a, b, c, d, g⟩ := readEntry_inv h
  refine ⟨programBytes e, by simp [writeEntry, ht, emitProgram_eq hall hbig], ?_⟩
  exact readContainer_programBytes hall (by omega) hbig (fun x hx => hb x (g x hx))
    (fun x hx => hb x (c x hx)) (fun x hx => hb x (d x hx)) a b

/-- Extracting the extracted program again writes the very same file. -/
theorem C31_extraction_idempotent_partial (f : List Nat) (hb : ∀ x ∈ f, x < 256) (es : List Entry)
    (hok : readContainer f = .ok es) (e : Entry) (he : e ∈ es) (ht : e.fileType = 0)
    (hall : e.size = e.block.length)
    (hbig : 44 + e.block.length + e.dirname.length + e.filename.length < 4294967296)
    (dir : List Nat) :
    ∃ g, writeEntry e = some g ∧ extract g dir = .ok [(pathJoin dir e.filename, g)] := by
  obtain ⟨g, h1, h2⟩ := C31_extracted_program_readable_partial f hb es hok e he ht hall hbig
  exact ⟨g, h1, by simp [extract, h2, h1]⟩

/-- Entries that are not programs are copied byte for byte. -/
theorem C31_other_entries_copied (e : Entry) (h : e.fileType ≠ 0) : writeEntry e = some e.block := by
  simp [writeEntry, h]

example : ∃ g, writeEntry sampleEntry = some g ∧ readContainer g = .ok [sampleEntry] ∧ g.length = 80 := by
  decide +kernel

/-- A program entry that claims more bytes than the file holds is still written, but the result
is never a readable container: the new header counts the missing bytes. -/
theorem C31_truncated_program_fails (f : List Nat) (hb : ∀ x ∈ f, x < 256) (es : List Entry)
    (hok : readContainer f = .ok es) (e : Entry) (he : e ∈ es) (ht : e.fileType = 0)
    (hless : (e.block.length : Int) < e.size)
    (hbig : 44 + e.size + e.dirname.length + e.filename.length < 4294967296) :
    ∃ g, writeEntry e = some g ∧ readContainer g = .error .structError := by
  have hent : ∃ np ft, readEntry f np ft = .ok e := by
    unfold readContainer at hok
    split at hok
    · cases hok
    · split at hok
      · cases hok
      · obtain ⟨ft, _, h⟩ := readEntries_inv hok he
        exact ⟨_, ft, h⟩
  obtain ⟨np, ft0, h0⟩ := hent
  obtain ⟨-, -, hc, hd, hblk⟩ := readEntry_inv h0
  obtain ⟨z, hz⟩ : ∃ z : Nat, e.size = z := ⟨e.size.toNat, by omega⟩
  rw [hz] at hless hbig
  generalize hm : e.dirname.length + e.filename.length + 3 = m
  have p1 : packUInt ((headerSize : Int) + e.size + (e.dirname.length + e.filename.length + 3)) =
      some (leEncode 4 (41 + z + m)) := by
    have h := packUInt_nat (n := 41 + z + m) (by omega)
    rw [hz, ← h, ← hm]
    simp [headerSize]
  have p2 : packUInt ((headerSize : Int) + e.size) = some (leEncode 4 (41 + z)) := by
    have h := packUInt_nat (n := 41 + z) (by omega)
    rw [hz, ← h]
    simp [headerSize]
  have p3 : packUInt ((e.dirname.length : Int) + e.filename.length + 3) = some (leEncode 4 m) := by
    have h := packUInt_nat (n := m) (by omega)
    rw [← h, ← hm]; simp
  have p4 : packUInt (1 : Int) = some (leEncode 4 1) := by decide
  have p5 : packUInt (1 + (e.dirname.length : Int) + 1) = some (leEncode 4 (1 + e.dirname.length + 1)) := by
    have h := packUInt_nat (n := 1 + e.dirname.length + 1) (by omega)
    rw [← h]; simp
  have p6 : packUInt ((41 : Nat) : Int) = some (leEncode 4 41) := by decide
  have p7 : packUInt ((41 + e.block.length : Nat) : Int) = some (leEncode 4 (41 + e.block.length)) :=
    packUInt_nat (by omega)
  have hhd : emitHeaderData e = some (identifier ++ [0, 0] ++ leEncode 2 1 ++ leEncode 2 0 ++
      leEncode 4 (41 + z + m) ++ leEncode 4 (41 + z) ++ leEncode 4 m ++ List.replicate 16 0) := by
    simp only [emitHeaderData, p1, p2, p3]
  have hft : emitFooter e 41 (41 + e.block.length) = some (leEncode 1 e.fileType ++ leEncode 4 41 ++
      leEncode 4 (41 + e.block.length) ++ leEncode 4 1 ++
      leEncode 4 (1 + e.dirname.length + 1) ++ List.replicate 8 0) := by
    simp only [emitFooter, p4, p5, p6, p7]
  have hg := emitProgram_of hhd (by simp [leEncode_length, identifier]) (hd_bytes _ _ _) hft
  have hhb := hd_bytes (41 + z + m) (41 + z) m
  generalize hH : identifier ++ [0, 0] ++ leEncode 2 1 ++ leEncode 2 0 ++
      leEncode 4 (41 + z + m) ++ leEncode 4 (41 + z) ++ leEncode 4 m ++ List.replicate 16 0 = H at hg hhb
  have hHl : H.length = 37 := by rw [← hH]; simp [leEncode_length, identifier]
  generalize hF : leEncode 1 e.fileType ++ leEncode 4 41 ++ leEncode 4 (41 + e.block.length) ++ leEncode 4 1 ++
      leEncode 4 (1 + e.dirname.length + 1) ++ List.replicate 8 0 = F at hg
  have hFl : F.length = 25 := by rw [← hF]; simp [leEncode_length]
  have hFb : ∀ x ∈ F, x < 256 := by
    rw [← hF]
    intro x hx
    simp only [List.mem_append] at hx
    rcases hx with ((((hx | hx) | hx) | hx) | hx) | hx
    all_goals first
      | exact leEncode_lt _ _ x hx
      | (rw [List.mem_replicate] at hx; omega)
  have hcr : crc16 (H.drop 2) < 65536 := crc16_lt (fun x hx => hhb x (List.mem_of_mem_drop hx))
  refine ⟨_, by simp only [writeEntry, ht, if_true]; exact hg, ?_⟩
  generalize hG : H ++ [0, 0] ++ leEncode 2 (crc16 (H.drop 2)) ++ e.block ++ [0] ++ (e.dirname ++ [0]) ++ (e.filename ++ [0]) ++ F = g
  have hlen : g.length = 41 + e.block.length + m + 25 := by
    rw [← hG]; simp [leEncode_length, hHl, hFl]; omega
  have hlt : ∀ x ∈ g, x < 256 := by
    rw [← hG]
    intro x hx
    simp only [List.mem_append, List.mem_cons, List.not_mem_nil, or_false] at hx
    rcases hx with ((((((hx | hx) | hx) | hx) | hx) | hx) | hx) | hx
    · exact hhb x hx
    · omega
    · exact leEncode_lt _ _ x hx
    · exact hb x (hblk x hx)
    · omega
    · rcases hx with hx | hx
      · exact hb x (hc x hx)
      · omega
    · rcases hx with hx | hx
      · exact hb x (hd x hx)
      · omega
    · exact hFb x hx
  have t37 : g.take 37 = H := by
    rw [← hG]; simp only [List.append_assoc]; rw [← hHl, List.take_left]
  have sub : ∀ p n, p + n ≤ 37 → readAt g p n = readAt H p n := by
    intro p n hpn
    rw [← t37, readAt_take hpn]
  have r3 : g.take 3 = identifier := by
    have : g.take 3 = (g.take 37).take 3 := by rw [List.take_take]; rfl
    rw [this, t37, ← hH]; simp [identifier]
  have r5 : readAt g 5 2 = leEncode 2 1 := by
    rw [sub 5 2 (by omega)]
    exact readAt_eq (pre := identifier ++ [0, 0])
      (by rw [← hH]; simp only [List.append_assoc]; rfl) (by simp [identifier]) (by simp [leEncode_length])
  have r9 : readAt g 9 4 = leEncode 4 (41 + z + m) := by
    rw [sub 9 4 (by omega)]
    exact readAt_eq (pre := identifier ++ [0, 0] ++ leEncode 2 1 ++ leEncode 2 0)
      (by rw [← hH]; simp only [List.append_assoc]; rfl) (by simp [identifier, leEncode_length]) (by simp [leEncode_length])
  have r39 : readAt g 39 2 = leEncode 2 (crc16 (H.drop 2)) :=
    readAt_eq (pre := H ++ [0, 0]) (by rw [← hG]; simp only [List.append_assoc]; rfl) (by simp [hHl]) (by simp [leEncode_length])
  have hh : readHeader g = .ok
      { numFiles := 1, mainFile := leDecode (readAt g 7 2), footerPos := 41 + z + m,
        namePos := leDecode (readAt g 13 4), nameLen := leDecode (readAt g 17 4) } := by
    rw [readHeader_ok hlt]
    refine ⟨by omega, r3, ?_, ?_⟩
    · rw [r39, t37, leDecode_leEncode 2 _ (by omega)]
    · rw [r5, r9, leDecode_leEncode 2 1 (by omega), leDecode_leEncode 4 _ (by omega)]
  have hshort : (readAt g (41 + z + m) footerEntrySize).length < footerEntrySize := by
    simp only [readAt, footerEntrySize, List.length_take, List.length_drop, hlen]
    omega
  simp only [readContainer, hh, readFooters, unpackFooter, hshort, if_true]

example : ∃ f es e g, readContainer f = .ok es ∧ e ∈ es ∧ e.fileType = 0 ∧ (e.block.length : Int) < e.size ∧
    writeEntry e = some g ∧ readContainer g = .error .structError := by
  refine ⟨(programBytes sampleEntry).set 60 200, [{ sampleEntry with size := 159, block := ((programBytes sampleEntry).set 60 200).drop 41 }],
    { sampleEntry with size := 159, block := ((programBytes sampleEntry).set 60 200).drop 41 }, _, ?_, by simp, rfl, ?_, rfl, ?_⟩
  · decide +kernel
  · decide +kernel
  · decide +kernel

/-! ## C32: timestamps -/

/-- Packing a timestamp as DOS does (two-second resolution). -/
def dosPack (year month day hour minute second : Nat) : Nat :=
  (year - 1980) * 2 ^ 25 + month * 2 ^ 21 + day * 2 ^ 16 + hour * 2 ^ 11 + minute * 2 ^ 5 + second / 2

theorem mask_shift (x k n : Nat) : (x &&& ((2 ^ k - 1) <<< n)) >>> n = x / 2 ^ n % 2 ^ k := by
  rw [Nat.shiftRight_and_distrib, Nat.shiftLeft_shiftRight, Nat.and_two_pow_sub_one_eq_mod,
    Nat.shiftRight_eq_div_pow]

/-- Every field of a packed timestamp is decoded, seconds rounded down to even. -/
theorem C32_date_round_trip (year month day hour minute second : Nat)
    (hy : 1980 ≤ year) (hy' : year ≤ 2107) (hm : month ≤ 12) (hd : day ≤ 31) (hh : hour < 24)
    (hmi : minute < 60) (hs : second < 60) :
    convertDate (dosPack year month day hour minute second) =
      { year := year, month := month, day := day, hour := hour, minute := minute,
        second := second / 2 * 2 } := by
  have e1 := mask_shift (dosPack year month day hour minute second) 7 25
  have e2 := mask_shift (dosPack year month day hour minute second) 4 21
  have e3 := mask_shift (dosPack year month day hour minute second) 5 16
  have e4 := mask_shift (dosPack year month day hour minute second) 5 11
  have e5 := mask_shift (dosPack year month day hour minute second) 6 5
  have e6 := mask_shift (dosPack year month day hour minute second) 5 0
  simp only [show ((2 : Nat) ^ 7 - 1) <<< 25 = 0xfe000000 from rfl] at e1
  simp only [show ((2 : Nat) ^ 4 - 1) <<< 21 = 0x1e00000 from rfl] at e2
  simp only [show ((2 : Nat) ^ 5 - 1) <<< 16 = 0x1f0000 from rfl] at e3
  simp only [show ((2 : Nat) ^ 5 - 1) <<< 11 = 0xf800 from rfl] at e4
  simp only [show ((2 : Nat) ^ 6 - 1) <<< 5 = 0x7e0 from rfl] at e5
  simp only [show ((2 : Nat) ^ 5 - 1) <<< 0 = 0x1f from rfl, Nat.shiftRight_zero] at e6
  simp only [convertDate, e1, e2, e3, e4, e5, e6, Nat.shiftLeft_eq]
  simp only [dosPack]
  congr 1 <;> omega

example : convertDate (dosPack 2107 12 31 23 59 59) = ⟨2107, 12, 31, 23, 59, 58⟩ := by decide

/-! ## C59: reading terminates -/

/-- One entry whose names start at the last two bytes, `ab`. -/
def sampleUnterminated : List Nat :=
  let hd := [0xfe, 0xf2, 0xff, 0, 0, 1, 0, 0, 0, 41, 0, 0, 0, 66, 0, 0, 0] ++ List.replicate 20 0
  hd ++ [0, 0] ++ leEncode 2 (crc16 (hd.drop 2)) ++ List.replicate 25 0 ++ [97, 98]

/-- A container whose last name is not terminated makes the reader loop forever. -/
theorem C59_unterminated_name_fails :
    ∃ f, (∀ x ∈ f, x < 256) ∧ readContainer f = .error .hang :=
  ⟨sampleUnterminated, by decide +kernel, by decide +kernel⟩

/-- Reading a name never ends exactly if it begins within the file and no null byte follows. -/
theorem C59_unterminated_name_iff (f : List Nat) (pos : Nat) :
    readUntilNull f pos = .error .hang ↔ pos < f.length ∧ 0 ∉ f.drop pos := by
  have key : ∀ l : List Nat, untilNull l = .error .hang ↔ 0 ∉ l := by
    intro l
    induction l with
    | nil => simp [untilNull]
    | cons x t ih =>
      by_cases hx : x = 0
      · simp [untilNull, hx]
      · rw [untilNull, if_neg hx]
        simp only [List.mem_cons, not_or, ← ih]
        cases h : untilNull t with
        | ok s => simp
        | error e => simp [Ne.symm hx]
  unfold readUntilNull
  split
  · rename_i hd
    rw [List.drop_eq_nil_iff] at hd
    simp; omega
  · rename_i hd
    have : pos < f.length := by
      rcases Nat.lt_or_ge pos f.length with h | h
      · exact h
      · exact absurd (List.drop_eq_nil_iff.mpr h) hd
    rw [key]; simp [this]

example : readUntilNull [1, 97, 98, 5] 1 = .error .hang ∧ (1 : Nat) < [1, 97, 98, 5].length ∧ 0 ∉ [1, 97, 98, 5].drop 1 := by decide

/-- Names are found, and reading them stops, whenever a null byte follows the position where
they start. -/
theorem C59_terminated_name_partial (f : List Nat) (pos : Nat) (h : 0 ∈ f.drop pos) :
    ∃ s, readUntilNull f pos = .ok s ∧ (∀ x ∈ s, x ≠ 0) ∧ ∃ rest, f.drop pos = s ++ 0 :: rest := by
  have key : ∀ l : List Nat, 0 ∈ l → ∃ s, untilNull l = .ok s ∧ (∀ x ∈ s, x ≠ 0) ∧
      ∃ rest, l = s ++ 0 :: rest := by
    intro l
    induction l with
    | nil => simp
    | cons x t ih =>
      intro hm
      by_cases hx : x = 0
      · exact ⟨[], by simp [untilNull, hx], by simp, t, by simp [hx]⟩
      · obtain ⟨s, h1, h2, rest, h3⟩ := ih (by
          rcases List.mem_cons.mp hm with h | h
          · exact absurd h.symm hx
          · exact h)
        exact ⟨x :: s, by simp [untilNull, hx, h1], by simpa [hx] using h2, rest, by simp [h3]⟩
  obtain ⟨s, h1, h2, h3⟩ := key _ h
  refine ⟨s, ?_, h2, h3⟩
  unfold readUntilNull
  split
  · rename_i hd; rw [hd] at h; simp at h
  · exact h1

example : readUntilNull [1, 97, 98, 0, 5] 1 = .ok [97, 98] := by decide

/-! ## C60: extraction stays in the output directory -/

theorem splitSlash_single {n : List Nat} (h : 47 ∉ n) : splitSlash n = [n] := by
  induction n with
  | nil => rfl
  | cons x t ih =>
    have hx : x ≠ 47 := by intro h'; apply h; simp [h']
    have ht : 47 ∉ t := by intro h'; apply h; simp [h']
    simp [splitSlash, hx, ih ht]

theorem splitSlash_ne (n : List Nat) : splitSlash n ≠ [] := by
  induction n with
  | nil => simp [splitSlash]
  | cons x t ih =>
    simp only [splitSlash]
    split
    · simp
    · split <;> simp

theorem splitSlash_append (d n : List Nat) :
    splitSlash (d ++ 47 :: n) = splitSlash d ++ splitSlash n := by
  induction d with
  | nil => simp [splitSlash]
  | cons x t ih =>
    by_cases hx : x = 47
    · simp [splitSlash, hx, ih]
    · simp only [List.cons_append, splitSlash, hx, if_false, ih]
      cases h : splitSlash t with
      | nil => exact absurd h (splitSlash_ne t)
      | cons y ys => simp

theorem splitSlash_trailing (d : List Nat) : splitSlash (d ++ [47]) = splitSlash d ++ [[]] :=
  splitSlash_append d []

theorem splitSlash_head {n : List Nat} (h : n.head? = some 47) :
    ∃ t, n = 47 :: t ∧ splitSlash n = [] :: splitSlash t := by
  cases n with
  | nil => simp at h
  | cons x t => simp at h; subst h; exact ⟨t, rfl, by simp [splitSlash]⟩

theorem resolve_join (cwd : List (List Nat)) (dir name : List Nat) :
    resolve cwd (pathJoin dir name) = resolve (resolve cwd dir) name := by
  by_cases hn : name.head? = some 47
  · obtain ⟨t, rfl, _⟩ := splitSlash_head hn
    simp [pathJoin, resolve]
  · have hname : pathJoin dir name =
        if dir = [] ∨ dir.getLast? = some 47 then dir ++ name else dir ++ 47 :: name := by
      unfold pathJoin
      split
      · simp at hn
      · rfl
    have hr : resolve (resolve cwd dir) name = (splitSlash name).foldl walk (resolve cwd dir) := by
      simp [resolve, hn]
    rw [hname, hr]
    by_cases h0 : dir = []
    · subst h0; simp [resolve, hn, splitSlash, walk]
    · have hd1 : ∀ r, (dir ++ r).head? = dir.head? := by
        intro r; cases dir with
        | nil => exact absurd rfl h0
        | cons x t => simp
      split
      · rename_i hd
        have hd := hd.resolve_left h0
        obtain ⟨d, rfl⟩ : ∃ d, dir = d ++ [47] := by
          rw [List.getLast?_eq_some_iff] at hd
          exact hd
        simp only [resolve, hd1]
        rw [List.append_assoc, List.singleton_append, splitSlash_append, splitSlash_trailing]
        simp [walk]
      · simp only [resolve, hd1]
        rw [splitSlash_append]
        simp

theorem mapM_place {es : List Entry} {dir : List Nat} : ∀ {ws},
    es.mapM (fun e => (writeEntry e).map (fun b => (pathJoin dir e.filename, b))) = some ws →
    ws.map (·.1) = es.map (fun e => pathJoin dir e.filename) := by
  induction es with
  | nil => intro ws h; simp at h; subst h; rfl
  | cons e es ih =>
    intro ws h
    rw [List.mapM_cons] at h
    cases hw : writeEntry e with
    | none => simp [hw] at h
    | some b =>
      cases hm : es.mapM (fun e => (writeEntry e).map (fun b => (pathJoin dir e.filename, b))) with
      | none => rw [hm] at h; simp [hw] at h
      | some t =>
        rw [hm] at h; simp [hw] at h; subst h
        simp [ih hm]

/-- Every file written lies where its stored name leads from the output directory, whatever that
name is. -/
theorem C60_place (cwd : List (List Nat)) (f dir : List Nat) (es : List Entry) (ws : List (List Nat × List Nat))
    (hr : readContainer f = .ok es) (hw : extract f dir = .ok ws) :
    ws.map (fun w => resolve cwd w.1) = es.map (fun e => resolve (resolve cwd dir) e.filename) := by
  unfold extract at hw
  rw [hr] at hw
  simp only at hw
  cases hm : es.mapM (fun e => (writeEntry e).map (fun b => (pathJoin dir e.filename, b))) with
  | none => rw [hm] at hw; simp at hw
  | some t =>
    rw [hm] at hw; simp at hw; subst hw
    have := congrArg (List.map (resolve cwd)) (mapM_place hm)
    simpa [List.map_map, Function.comp_def, resolve_join] using this

/-- A stored name may begin with `../`, and a stored name may be an absolute path.  Whatever the
output directory, the file is then written beside that directory, or at the absolute path. -/
theorem C60_extraction_confined_fails (cwd : List (List Nat)) (f dir : List Nat) (es : List Entry)
    (ws : List (List Nat × List Nat)) (e : Entry) (name : List Nat)
    (hr : readContainer f = .ok es) (hw : extract f dir = .ok ws) (he : e ∈ es)
    (hs : 47 ∉ name) (h0 : name ≠ []) (h1 : name ≠ [46]) (h2 : name ≠ [46, 46]) :
    (e.filename = [46, 46, 47] ++ name → ∃ w ∈ ws, resolve cwd w.1 = name :: (resolve cwd dir).tail) ∧
    (e.filename = 47 :: name → ∃ w ∈ ws, resolve cwd w.1 = [name]) := by
  have hp := C60_place cwd f dir es ws hr hw
  have hm : resolve (resolve cwd dir) e.filename ∈ ws.map (fun w => resolve cwd w.1) := by
    rw [hp]; exact List.mem_map.mpr ⟨e, he, rfl⟩
  obtain ⟨w, hwm, hweq⟩ := List.mem_map.mp hm
  refine ⟨fun hf => ⟨w, hwm, ?_⟩, fun hf => ⟨w, hwm, ?_⟩⟩
  · rw [hweq, hf]
    simp [resolve, splitSlash, splitSlash_single hs, walk, h0, h1, h2]
  · rw [hweq, hf]
    simp [resolve, splitSlash, splitSlash_single hs, walk, h0, h1, h2]

example : ∃ f e ws, readContainer f = .ok [e] ∧ extract f [111] = .ok ws ∧
    e.filename = [46, 46, 47] ++ [120] ∧ ws.map (fun w => resolve [[104]] w.1) = [[[120], [104]]] := by
  refine ⟨programBytes { sampleEntry with filename := [46, 46, 47, 120] },
    { sampleEntry with filename := [46, 46, 47, 120] },
    [(pathJoin [111] [46, 46, 47, 120], programBytes { sampleEntry with filename := [46, 46, 47, 120] })], ?_, ?_, rfl, ?_⟩
  · decide +kernel
  · decide +kernel
  · decide +kernel

/-- A stored name without a slash that is not empty, `.` or `..` is written directly inside the
output directory, under that name. -/
theorem C60_extraction_confined_partial (cwd : List (List Nat)) (dir name : List Nat)
    (hs : 47 ∉ name) (h0 : name ≠ []) (h1 : name ≠ [46]) (h2 : name ≠ [46, 46]) :
    resolve cwd (pathJoin dir name) = name :: resolve cwd dir := by
  rw [resolve_join]
  have hh : name.head? ≠ some 47 := by
    cases name with
    | nil => simp
    | cons x t => simp at hs ⊢; intro h; exact hs.1 h.symm
  simp [resolve, splitSlash_single hs, hh, walk, h0, h1, h2]

example : resolve [[104]] (pathJoin [111, 47, 112] [97, 46, 98]) = [[97, 46, 98], [112], [111], [104]] := by
  decide

end Props
