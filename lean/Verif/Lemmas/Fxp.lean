import Verif.Lemmas.Crc
/-! Lemmas about the container header, names and directory. -/
namespace Model.Fxp
open Py Spec

theorem checksum_crc {l : List Nat} (hl : 2 ≤ l.length) (hb : ∀ x ∈ l, x < 256) :
    checksumCalc l = some (crc16 (l.drop 2)) := by
  match l, hl, hb with
  | x :: y :: t, _, hb =>
    simp only [checksumCalc, List.foldl_cons, checksum_start, List.drop_succ_cons, List.drop_zero]
    have h := ckFold (bytes := t) (fun z hz => hb z (by simp [hz])) (s := ⟨0, 0, 0, 0⟩)
      ⟨by decide, by decide, by decide, by decide⟩
    rw [h.2]; rfl

theorem crc16_lt {l : List Nat} (hb : ∀ x ∈ l, x < 256) : crc16 l < 65536 := by
  have h := ckFold (bytes := l) hb (s := ⟨0, 0, 0, 0⟩)
      ⟨by decide, by decide, by decide, by decide⟩
  have e : ckPack ⟨0, 0, 0, 0⟩ = 0 := rfl
  rw [e] at h
  unfold crc16
  rw [← h.2]; exact ckPack_lt h.1

theorem crc16_append (l m : List Nat) : crc16 (l ++ m) = m.foldl crcByte (crc16 l) := by
  simp [crc16]

/-- A change of one byte changes the CRC. -/
theorem crc16_set {l : List Nat} {i b : Nat} (hi : i < l.length) (hb : b ≠ l[i]) :
    crc16 (l.set i b) ≠ crc16 l := by
  have e1 : l = l.take i ++ l[i] :: l.drop (i + 1) := by simp
  have e2 : l.set i b = l.take i ++ b :: l.drop (i + 1) := by
    rw [List.set_eq_take_append_cons_drop, if_pos hi]
  intro h
  rw [e2] at h
  have h' : crc16 (l.take i ++ b :: l.drop (i + 1)) = crc16 (l.take i ++ l[i] :: l.drop (i + 1)) :=
    h.trans (congrArg crc16 e1)
  rw [crc16_append, crc16_append, List.foldl_cons, List.foldl_cons] at h'
  exact hb (crcByte_inj_byte (crcFold_inj_state _ h'))

/-- A change inside two neighbouring bytes changes the CRC. -/
theorem crc_two {s x y x' y' : Nat} (hy : y < 256) (hy' : y' < 256)
    (h : crcByte (crcByte s x) y = crcByte (crcByte s x') y') : x = x' ∧ y = y' := by
  unfold crcByte at h
  have h1 := crcBits_inj 8 h
  have h2 : crcBits 8 (x <<< 8) ^^^ crcBits 8 y = crcBits 8 (x' <<< 8) ^^^ crcBits 8 y' := by
    have a := crcBits_low ⟨y, hy⟩
    have b := crcBits_low ⟨y', hy'⟩
    simp only at a b
    rw [a, b]
    rw [crcBits_xor, crcBits_xor, Nat.xor_assoc, Nat.xor_assoc] at h1
    exact xor_left_cancel' h1
  rw [← crcBits_xor, ← crcBits_xor] at h2
  have h3 := crcBits_inj 8 h2
  rw [Nat.shiftLeft_eq, Nat.shiftLeft_eq] at h3
  rw [show (2 : Nat) ^ 8 = 256 from rfl, xor_low _ _ hy, xor_low _ _ hy'] at h3
  omega

theorem mem_take_lt {f : List Nat} {n : Nat} (hb : ∀ x ∈ f, x < 256) : ∀ x ∈ f.take n, x < 256 :=
  fun x hx => hb x (List.mem_of_mem_take hx)

theorem readAt_take {f : List Nat} {k p n : Nat} (h : p + n ≤ k) :
    readAt (f.take k) p n = readAt f p n := by
  simp only [readAt, List.drop_take, List.take_take]
  congr 1; omega

/-- When a header is accepted. -/
theorem readHeader_ok {f : List Nat} (hb : ∀ x ∈ f, x < 256) {h : Header} :
    readHeader f = .ok h ↔ 41 ≤ f.length ∧ f.take 3 = identifier ∧
      leDecode (readAt f 39 2) = crc16 ((f.take 37).drop 2) ∧
      h = { numFiles := leDecode (readAt f 5 2), mainFile := leDecode (readAt f 7 2),
            footerPos := leDecode (readAt f 9 4), namePos := leDecode (readAt f 13 4),
            nameLen := leDecode (readAt f 17 4) } := by
  have hid : readAt (readAt f 0 headerSize) 0 3 = f.take 3 := by
    simp [readAt, headerSize, List.take_take]
  have htk : (readAt f 0 headerSize).take (headerSize - 4) = f.take 37 := by
    simp [readAt, headerSize, List.take_take]
  have hra : ∀ p n, p + n ≤ 41 → readAt (readAt f 0 headerSize) p n = readAt f p n := by
    intro p n hpn
    have : readAt f 0 headerSize = f.take 41 := by simp [readAt, headerSize]
    rw [this, readAt_take hpn]
  have hlen : (readAt f 0 headerSize).length = min 41 f.length := by
    simp [readAt, headerSize]
  simp only [readHeader, hid, htk, hlen, hra 39 2 (by omega), hra 5 2 (by omega),
    hra 7 2 (by omega), hra 9 4 (by omega), hra 13 4 (by omega), hra 17 4 (by omega)]
  by_cases hl : 41 ≤ f.length
  · have hck : checksumCalc (f.take 37) = some (crc16 ((f.take 37).drop 2)) :=
      checksum_crc (by simp; omega) (mem_take_lt hb)
    have : ¬ (min 41 f.length < headerSize) := by simp [headerSize]; omega
    simp only [this, if_false, hck]
    by_cases he : f.take 3 = encryptedIdentifier
    · simp [he, encryptedIdentifier, identifier]
    · by_cases hi : f.take 3 = identifier
      · have : identifier ≠ encryptedIdentifier := by decide
        by_cases hc : leDecode (readAt f 39 2) = crc16 ((f.take 37).drop 2)
        · simp [hi, hc, hl, this, eq_comm]
        · simp only [hi, this, if_false, ne_eq, not_true, hc, not_false_eq_true, if_true]
          simp
      · simp [he, hi]
  · have : min 41 f.length < headerSize := by simp [headerSize]; omega
    simp [this, hl]

theorem readHeader_err {f : List Nat} (hb : ∀ x ∈ f, x < 256)
    (h : ¬ (41 ≤ f.length ∧ f.take 3 = identifier ∧
      leDecode (readAt f 39 2) = crc16 ((f.take 37).drop 2))) :
    ∃ e, readHeader f = .error e := by
  cases hr : readHeader f with
  | error e => exact ⟨e, rfl⟩
  | ok x =>
    have := (readHeader_ok hb).mp hr
    exact absurd ⟨this.1, this.2.1, this.2.2.1⟩ h

theorem readAt_two {f : List Nat} {p : Nat} (h : p + 2 ≤ f.length) :
    readAt f p 2 = [f[p], f[p + 1]] := by
  have e1 : f.drop p = f[p] :: f.drop (p + 1) := List.drop_eq_getElem_cons (by omega)
  have e2 : f.drop (p + 1) = f[p + 1] :: f.drop (p + 1 + 1) := List.drop_eq_getElem_cons (by omega)
  simp only [readAt, e1, e2, List.take_succ_cons, List.take_zero]

theorem leEncode_length (k n : Nat) : (leEncode k n).length = k := by
  induction k generalizing n with
  | zero => rfl
  | succ k ih => simp [leEncode, ih]

theorem leEncode_lt (k n : Nat) : ∀ x ∈ leEncode k n, x < 256 := by
  induction k generalizing n with
  | zero => simp [leEncode]
  | succ k ih =>
    intro x hx
    simp only [leEncode, List.mem_cons] at hx
    rcases hx with rfl | hx
    · omega
    · exact ih _ x hx

theorem leDecode_leEncode (k n : Nat) (h : n < 256 ^ k) : leDecode (leEncode k n) = n := by
  induction k generalizing n with
  | zero => simp [leEncode, leDecode] at *; omega
  | succ k ih =>
    simp only [leEncode, leDecode]
    rw [ih (n / 256) (by rw [Nat.pow_succ] at h; omega)]
    omega

theorem untilNull_append {l : List Nat} (h : ∀ x ∈ l, x ≠ 0) (rest : List Nat) :
    untilNull (l ++ 0 :: rest) = .ok l := by
  induction l with
  | nil => simp [untilNull]
  | cons x t ih =>
    have hx : x ≠ 0 := h x (by simp)
    simp [untilNull, hx, ih (fun y hy => h y (by simp [hy]))]

theorem untilNull_nonzero {l s : List Nat} (h : untilNull l = .ok s) : ∀ x ∈ s, x ≠ 0 := by
  induction l generalizing s with
  | nil => simp [untilNull] at h
  | cons x t ih =>
    simp only [untilNull] at h
    split at h
    · cases h; simp
    · rename_i hx
      split at h
      · rename_i s' hs
        cases h
        intro y hy
        rcases List.mem_cons.mp hy with rfl | hy
        · exact hx
        · exact ih hs y hy
      · cases h

theorem untilNull_mem {l s : List Nat} (h : untilNull l = .ok s) : ∀ x ∈ s, x ∈ l := by
  induction l generalizing s with
  | nil => simp [untilNull] at h
  | cons x t ih =>
    simp only [untilNull] at h
    split at h
    · cases h; simp
    · split at h
      · rename_i s' hs
        cases h
        intro y hy
        rcases List.mem_cons.mp hy with rfl | hy
        · simp
        · simp [ih hs y hy]
      · cases h

theorem readUntilNull_inv {f s : List Nat} {pos : Nat} (h : readUntilNull f pos = .ok s) :
    (∀ x ∈ s, x ≠ 0) ∧ ∀ x ∈ s, x ∈ f := by
  unfold readUntilNull at h
  split at h
  · cases h
  · refine ⟨untilNull_nonzero h, fun x hx => ?_⟩
    exact List.mem_of_mem_drop (untilNull_mem h x hx)

theorem readUntilNull_at {g pre l rest : List Nat} {p : Nat} (hg : g = pre ++ (l ++ 0 :: rest))
    (hp : pre.length = p) (h : ∀ x ∈ l, x ≠ 0) : readUntilNull g p = .ok l := by
  subst hg hp
  unfold readUntilNull
  rw [List.drop_left]
  cases hl : l ++ 0 :: rest with
  | nil => simp at hl
  | cons x t =>
    simp only
    rw [← hl]; exact untilNull_append h rest

theorem readAt_at (pre mid rest : List Nat) : readAt (pre ++ (mid ++ rest)) pre.length mid.length = mid := by
  simp [readAt]

theorem readEntry_inv {f : List Nat} {np : Nat} {e : Footer} {r : Entry} (h : readEntry f np e = .ok r) :
    (∀ x ∈ r.dirname, x ≠ 0) ∧ (∀ x ∈ r.filename, x ≠ 0) ∧
    (∀ x ∈ r.dirname, x ∈ f) ∧ (∀ x ∈ r.filename, x ∈ f) ∧ (∀ x ∈ r.block, x ∈ f) := by
  unfold readEntry at h
  split at h
  · cases h
  · rename_i d hd
    split at h
    · cases h
    · rename_i n hn
      split at h
      · cases h
      · rename_i b hb
        cases h
        have h1 := readUntilNull_inv hd
        have h2 := readUntilNull_inv hn
        refine ⟨h1.1, h2.1, h1.2, h2.2, fun x hx => ?_⟩
        unfold readBlock at hb
        split at hb
        · cases hb
        · split at hb
          · cases hb; exact List.mem_of_mem_drop hx
          · cases hb
            exact List.mem_of_mem_drop (List.mem_of_mem_take hx)

theorem readEntries_inv {f : List Nat} {np : Nat} {fs : List Footer} {rs : List Entry}
    (h : readEntries f np fs = .ok rs) {r : Entry} (hr : r ∈ rs) : ∃ e ∈ fs, readEntry f np e = .ok r := by
  induction fs generalizing rs with
  | nil => simp [readEntries] at h; subst h; simp at hr
  | cons e t ih =>
    simp only [readEntries] at h
    split at h
    · cases h
    · rename_i r0 h0
      split at h
      · cases h
      · rename_i rs0 hrs
        cases h
        rcases List.mem_cons.mp hr with rfl | hr
        · exact ⟨e, by simp, h0⟩
        · obtain ⟨e', he', h'⟩ := ih hrs hr
          exact ⟨e', by simp [he'], h'⟩

theorem packUInt_nat {n : Nat} (h : n < 4294967296) : packUInt (n : Int) = some (leEncode 4 n) := by
  show (if n < 4294967296 then some (leEncode 4 n) else none) = _
  rw [if_pos h]

theorem readAt_eq {g pre mid rest : List Nat} {p n : Nat} (hg : g = pre ++ (mid ++ rest))
    (hp : pre.length = p) (hn : mid.length = n) : readAt g p n = mid := by
  subst hg hp hn; exact readAt_at pre mid rest

/-- What `emitProgram` writes, spelled out. -/
def programBytes (e : Entry) : List Nat :=
  let n := e.block.length
  let m := e.dirname.length + e.filename.length + 3
  let hd := identifier ++ [0, 0] ++ leEncode 2 1 ++ leEncode 2 0 ++ leEncode 4 (41 + n + m) ++
    leEncode 4 (41 + n) ++ leEncode 4 m ++ List.replicate 16 0
  hd ++ [0, 0] ++ leEncode 2 (crc16 (hd.drop 2)) ++ e.block ++ [0] ++ (e.dirname ++ [0]) ++
    (e.filename ++ [0]) ++
    (leEncode 1 e.fileType ++ leEncode 4 41 ++ leEncode 4 (41 + n) ++ leEncode 4 1 ++
      leEncode 4 (1 + e.dirname.length + 1) ++ List.replicate 8 0)

theorem hd_bytes (a b c : Nat) : ∀ x ∈ identifier ++ [0, 0] ++ leEncode 2 1 ++ leEncode 2 0 ++ leEncode 4 a ++
    leEncode 4 b ++ leEncode 4 c ++ List.replicate 16 0, x < 256 := by
  intro x hx
  simp only [List.mem_append] at hx
  rcases hx with ((((((hx | hx) | hx) | hx) | hx) | hx) | hx) | hx
  · revert x; decide
  · revert x; decide
  · exact leEncode_lt _ _ x hx
  · exact leEncode_lt _ _ x hx
  · exact leEncode_lt _ _ x hx
  · exact leEncode_lt _ _ x hx
  · exact leEncode_lt _ _ x hx
  · rw [List.mem_replicate] at hx; omega

theorem emitProgram_of {e : Entry} {hd ft : List Nat} (h1 : emitHeaderData e = some hd)
    (hl : hd.length = 37) (hb : ∀ x ∈ hd, x < 256)
    (h2 : emitFooter e 41 (41 + e.block.length) = some ft) :
    emitProgram e = some (hd ++ [0, 0] ++ leEncode 2 (crc16 (hd.drop 2)) ++ e.block ++ [0] ++
      (e.dirname ++ [0]) ++ (e.filename ++ [0]) ++ ft) := by
  have hlen : (hd ++ [0, 0] ++ leEncode 2 (crc16 (hd.drop 2))).length = 41 := by
    simp [leEncode_length, hl]
  simp only [emitProgram, h1, checksum_crc (by omega : 2 ≤ hd.length) hb]
  unfold emitBody
  rw [hlen, h2]

theorem emitProgram_eq {e : Entry} (hs : e.size = e.block.length)
    (hbig : 44 + e.block.length + e.dirname.length + e.filename.length < 4294967296) :
    emitProgram e = some (programBytes e) := by
  have p1 : packUInt ((headerSize : Int) + e.size + (e.dirname.length + e.filename.length + 3)) =
      some (leEncode 4 (41 + e.block.length + (e.dirname.length + e.filename.length + 3))) := by
    have h := packUInt_nat (n := 41 + e.block.length + (e.dirname.length + e.filename.length + 3)) (by omega)
    rw [hs, ← h]
    simp [headerSize]
  have p2 : packUInt ((headerSize : Int) + e.size) = some (leEncode 4 (41 + e.block.length)) := by
    have h := packUInt_nat (n := 41 + e.block.length) (by omega)
    rw [hs, ← h]
    simp [headerSize]
  have p3 : packUInt ((e.dirname.length : Int) + e.filename.length + 3) =
      some (leEncode 4 (e.dirname.length + e.filename.length + 3)) := by
    have h := packUInt_nat (n := e.dirname.length + e.filename.length + 3) (by omega)
    rw [← h]; simp
  have p4 : packUInt (1 : Int) = some (leEncode 4 1) := by decide
  have p5 : packUInt (1 + (e.dirname.length : Int) + 1) = some (leEncode 4 (1 + e.dirname.length + 1)) := by
    have h := packUInt_nat (n := 1 + e.dirname.length + 1) (by omega)
    rw [← h]; simp
  have p6 : packUInt ((41 : Nat) : Int) = some (leEncode 4 41) := by decide
  have p7 : packUInt ((41 + e.block.length : Nat) : Int) = some (leEncode 4 (41 + e.block.length)) :=
    packUInt_nat (by omega)
  have hhd : emitHeaderData e = some (identifier ++ [0, 0] ++ leEncode 2 1 ++ leEncode 2 0 ++
      leEncode 4 (41 + e.block.length + (e.dirname.length + e.filename.length + 3)) ++
      leEncode 4 (41 + e.block.length) ++ leEncode 4 (e.dirname.length + e.filename.length + 3) ++
      List.replicate 16 0) := by
    simp only [emitHeaderData, p1, p2, p3]
  have hft : emitFooter e 41 (41 + e.block.length) = some (leEncode 1 e.fileType ++ leEncode 4 41 ++
      leEncode 4 (41 + e.block.length) ++ leEncode 4 1 ++
      leEncode 4 (1 + e.dirname.length + 1) ++ List.replicate 8 0) := by
    simp only [emitFooter, p4, p5, p6, p7]
  exact emitProgram_of hhd (by simp [leEncode_length, identifier]) (hd_bytes _ _ _) hft

theorem programBytes_lt {e : Entry} (h1 : ∀ x ∈ e.block, x < 256) (h2 : ∀ x ∈ e.dirname, x < 256)
    (h3 : ∀ x ∈ e.filename, x < 256) : ∀ x ∈ programBytes e, x < 256 := by
  intro x hx
  simp only [programBytes] at hx
  rw [List.mem_append, List.mem_append, List.mem_append, List.mem_append, List.mem_append,
    List.mem_append, List.mem_append] at hx
  rcases hx with ((((((hx | hx) | hx) | hx) | hx) | hx) | hx) | hx
  · exact hd_bytes _ _ _ x hx
  · revert x; decide
  · exact leEncode_lt _ _ x hx
  · exact h1 x hx
  · revert x; decide
  · rcases List.mem_append.mp hx with hx | hx
    · exact h2 x hx
    · simp at hx; omega
  · rcases List.mem_append.mp hx with hx | hx
    · exact h3 x hx
    · simp at hx; omega
  · simp only [List.mem_append] at hx
    rcases hx with ((((hx | hx) | hx) | hx) | hx) | hx
    all_goals first
      | exact leEncode_lt _ _ x hx
      | (rw [List.mem_replicate] at hx; omega)

theorem readContainer_programBytes {e : Entry} (hs : e.size = e.block.length) (ht : e.fileType < 256)
    (hbig : 44 + e.block.length + e.dirname.length + e.filename.length < 4294967296)
    (h1 : ∀ x ∈ e.block, x < 256) (h2 : ∀ x ∈ e.dirname, x < 256)
    (h3 : ∀ x ∈ e.filename, x < 256) (hd0 : ∀ x ∈ e.dirname, x ≠ 0) (hf0 : ∀ x ∈ e.filename, x ≠ 0) :
    readContainer (programBytes e) = .ok [e] := by
  have hlt := programBytes_lt h1 h2 h3
  generalize hn : e.block.length = n at hbig hs
  generalize hm : e.dirname.length + e.filename.length + 3 = m at hbig
  have hp : programBytes e = identifier ++ [0, 0] ++ leEncode 2 1 ++ leEncode 2 0 ++ leEncode 4 (41 + n + m) ++
      leEncode 4 (41 + n) ++ leEncode 4 m ++ List.replicate 16 0 ++ [0, 0] ++
      leEncode 2 (crc16 ((identifier ++ [0, 0] ++ leEncode 2 1 ++ leEncode 2 0 ++ leEncode 4 (41 + n + m) ++
        leEncode 4 (41 + n) ++ leEncode 4 m ++ List.replicate 16 0).drop 2)) ++
      e.block ++ [0] ++ (e.dirname ++ [0]) ++ (e.filename ++ [0]) ++
      (leEncode 1 e.fileType ++ leEncode 4 41 ++ leEncode 4 (41 + n) ++ leEncode 4 1 ++
      leEncode 4 (1 + e.dirname.length + 1) ++ List.replicate 8 0) := by
    simp only [programBytes, hn, hm]
  generalize hg : programBytes e = g at hp hlt ⊢
  have hcr : crc16 ((identifier ++ [0, 0] ++ leEncode 2 1 ++ leEncode 2 0 ++ leEncode 4 (41 + n + m) ++
        leEncode 4 (41 + n) ++ leEncode 4 m ++ List.replicate 16 0).drop 2) < 65536 :=
    crc16_lt (fun x hx => hd_bytes _ _ _ x (List.mem_of_mem_drop hx))
  generalize hck : crc16 ((identifier ++ [0, 0] ++ leEncode 2 1 ++ leEncode 2 0 ++ leEncode 4 (41 + n + m) ++
        leEncode 4 (41 + n) ++ leEncode 4 m ++ List.replicate 16 0).drop 2) = ck at hp hcr
  have hlen : g.length = 41 + n + m + 25 := by
    rw [hp]; simp [leEncode_length, identifier]; omega
  have r3 : g.take 3 = identifier := by
    rw [hp]; simp [identifier]
  have r5 : readAt g 5 2 = leEncode 2 1 := readAt_eq (pre := identifier ++ [0, 0])
    (by rw [hp]; simp only [List.append_assoc]; rfl) (by simp [identifier]) (by simp [leEncode_length])
  have r9 : readAt g 9 4 = leEncode 4 (41 + n + m) :=
    readAt_eq (pre := identifier ++ [0, 0] ++ leEncode 2 1 ++ leEncode 2 0)
    (by rw [hp]; simp only [List.append_assoc]; rfl) (by simp [identifier, leEncode_length]) (by simp [leEncode_length])
  have r13 : readAt g 13 4 = leEncode 4 (41 + n) :=
    readAt_eq (pre := identifier ++ [0, 0] ++ leEncode 2 1 ++ leEncode 2 0 ++ leEncode 4 (41 + n + m))
    (by rw [hp]; simp only [List.append_assoc]; rfl) (by simp [identifier, leEncode_length]) (by simp [leEncode_length])
  have r37 : g.take 37 = identifier ++ [0, 0] ++ leEncode 2 1 ++ leEncode 2 0 ++ leEncode 4 (41 + n + m) ++
        leEncode 4 (41 + n) ++ leEncode 4 m ++ List.replicate 16 0 := by
    have : readAt g 0 37 = identifier ++ [0, 0] ++ leEncode 2 1 ++ leEncode 2 0 ++ leEncode 4 (41 + n + m) ++
        leEncode 4 (41 + n) ++ leEncode 4 m ++ List.replicate 16 0 :=
      readAt_eq (pre := [])
        (by rw [hp]; simp only [List.append_assoc, List.nil_append]; rfl) (by simp) (by simp [identifier, leEncode_length])
    simpa [readAt] using this
  have r39 : readAt g 39 2 = leEncode 2 ck :=
    readAt_eq (pre := identifier ++ [0, 0] ++ leEncode 2 1 ++ leEncode 2 0 ++ leEncode 4 (41 + n + m) ++
        leEncode 4 (41 + n) ++ leEncode 4 m ++ List.replicate 16 0 ++ [0, 0])
    (by rw [hp]; simp only [List.append_assoc]; rfl) (by simp [identifier, leEncode_length]) (by simp [leEncode_length])
  have hh : readHeader g = .ok {
      numFiles := 1, mainFile := leDecode (readAt g 7 2),
      footerPos := 41 + n + m, namePos := 41 + n, nameLen := leDecode (readAt g 17 4) } := by
    rw [readHeader_ok hlt]
    refine ⟨by omega, r3, ?_, ?_⟩
    · rw [r39, r37, hck, leDecode_leEncode 2 ck (by omega)]
    · rw [r5, r9, r13, leDecode_leEncode 2 1 (by omega), leDecode_leEncode 4 _ (by omega),
        leDecode_leEncode 4 _ (by omega)]
  generalize hft : leEncode 1 e.fileType ++ leEncode 4 41 ++ leEncode 4 (41 + n) ++ leEncode 4 1 ++
      leEncode 4 (1 + e.dirname.length + 1) ++ List.replicate 8 0 = ft at hp
  have hftl : ft.length = 25 := by rw [← hft]; simp [leEncode_length]
  have rft : readAt g (41 + n + m) 25 = ft :=
    readAt_eq (rest := []) (by rw [hp, List.append_nil])
      (by simp [identifier, leEncode_length]; omega) hftl
  have f0 : readAt ft 0 1 = leEncode 1 e.fileType :=
    readAt_eq (pre := []) (by rw [← hft]; simp only [List.append_assoc, List.nil_append]; rfl) (by simp) (by simp [leEncode_length])
  have f1 : readAt ft 1 4 = leEncode 4 41 :=
    readAt_eq (pre := leEncode 1 e.fileType) (by rw [← hft]; simp only [List.append_assoc]; rfl) (by simp [leEncode_length]) (by simp [leEncode_length])
  have f5 : readAt ft 5 4 = leEncode 4 (41 + n) :=
    readAt_eq (pre := leEncode 1 e.fileType ++ leEncode 4 41) (by rw [← hft]; simp only [List.append_assoc]; rfl) (by simp [leEncode_length]) (by simp [leEncode_length])
  have f9 : readAt ft 9 4 = leEncode 4 1 :=
    readAt_eq (pre := leEncode 1 e.fileType ++ leEncode 4 41 ++ leEncode 4 (41 + n)) (by rw [← hft]; simp only [List.append_assoc]; rfl) (by simp [leEncode_length]) (by simp [leEncode_length])
  have f13 : readAt ft 13 4 = leEncode 4 (1 + e.dirname.length + 1) :=
    readAt_eq (pre := leEncode 1 e.fileType ++ leEncode 4 41 ++ leEncode 4 (41 + n) ++ leEncode 4 1) (by rw [← hft]; simp only [List.append_assoc]; rfl) (by simp [leEncode_length]) (by simp [leEncode_length])
  have hfoot : unpackFooter ft = .ok {
      fileType := e.fileType, start := 41, stop := 41 + n,
      dirnameStart := 1, filenameStart := 1 + e.dirname.length + 1 } := by
    have hl : ¬ (25 < footerEntrySize) := by simp [footerEntrySize]
    simp only [unpackFooter, hftl, hl, if_false, f0, f1, f5, f9, f13]
    rw [leDecode_leEncode 1 _ (by omega), leDecode_leEncode 4 41 (by omega), leDecode_leEncode 4 _ (by omega),
      leDecode_leEncode 4 1 (by omega), leDecode_leEncode 4 _ (by omega)]
  have hdir : readUntilNull g (41 + n + 1) = .ok e.dirname :=
    readUntilNull_at (pre := identifier ++ [0, 0] ++ leEncode 2 1 ++ leEncode 2 0 ++ leEncode 4 (41 + n + m) ++
      leEncode 4 (41 + n) ++ leEncode 4 m ++ List.replicate 16 0 ++ [0, 0] ++ leEncode 2 ck ++
      e.block ++ [0]) (rest := (e.filename ++ [0]) ++ ft)
      (by rw [hp]; simp only [List.append_assoc, List.cons_append, List.nil_append])
      (by simp [identifier, leEncode_length]; omega) hd0
  have hfil : readUntilNull g (41 + n + (1 + e.dirname.length + 1)) = .ok e.filename :=
    readUntilNull_at (pre := identifier ++ [0, 0] ++ leEncode 2 1 ++ leEncode 2 0 ++ leEncode 4 (41 + n + m) ++
      leEncode 4 (41 + n) ++ leEncode 4 m ++ List.replicate 16 0 ++ [0, 0] ++ leEncode 2 ck ++
      e.block ++ [0] ++ (e.dirname ++ [0])) (rest := ft)
      (by rw [hp]; simp only [List.append_assoc, List.cons_append, List.nil_append])
      (by simp [identifier, leEncode_length]; omega) hf0
  have hblk : readAt g 41 n = e.block :=
    readAt_eq (pre := identifier ++ [0, 0] ++ leEncode 2 1 ++ leEncode 2 0 ++ leEncode 4 (41 + n + m) ++
      leEncode 4 (41 + n) ++ leEncode 4 m ++ List.replicate 16 0 ++ [0, 0] ++ leEncode 2 ck)
      (by rw [hp]; simp only [List.append_assoc]; rfl) (by simp [leEncode_length, identifier]) hn
  have hsz : ((41 + n : Nat) : Int) - ((41 : Nat) : Int) = n := by omega
  have hrb : readBlock g 41 (n : Int) = .ok e.block := by
    have a : ¬ ((n : Int) < -1) := by omega
    have b : ¬ ((n : Int) = -1) := by omega
    simp [readBlock, a, b, hblk]
  simp only [readContainer, hh, readFooters, footerEntrySize, rft, hfoot, readEntries, readEntry,
    hdir, hfil, hsz, hrb]
  rw [← hs]

end Model.Fxp
