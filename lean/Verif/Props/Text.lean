import Verif.Model.Text
import Verif.Model.Mbr
import Verif.Lemmas.Numbers
import Verif.Lemmas.Lists
/-!
# MBR identifier and null-terminated text (C71, C72)
-/
namespace Dparm
open Spec

/-! ## C71 -/

/-- C71: the sectors accepted and the value returned, byte by byte. -/
theorem mbr_accepts_iff (b : Bytes) (v : BitVec 32) :
    mbrFromBytes b = .ok v ↔
      b.length = 512 ∧ b[510]? = some 0x55 ∧ b[511]? = some 0xaa ∧
      v.toNat = (b.getD 440 0).toNat + 256 * (b.getD 441 0).toNat + 65536 * (b.getD 442 0).toNat
        + 16777216 * (b.getD 443 0).toNat := by
  unfold mbrFromBytes
  by_cases hl : b.length = 512
  · rw [if_neg (by simp [hl])]
    have hsig : b.drop 510 = [0x55#8, 0xaa#8] ↔ b[510]? = some 0x55 ∧ b[511]? = some 0xaa := by
      constructor
      · intro h
        have h0 : (b.drop 510)[0]? = b[510]? := by rw [List.getElem?_drop]
        have h1 : (b.drop 510)[1]? = b[511]? := by rw [List.getElem?_drop]
        rw [← h0, ← h1, h]
        exact ⟨rfl, rfl⟩
      · intro ⟨h0, h1⟩
        apply List.ext_getElem?
        intro i
        rw [List.getElem?_drop]
        match i with
        | 0 => exact h0
        | 1 => exact h1
        | i + 2 =>
          rw [List.getElem?_eq_none (by omega)]
          rfl
    have hval : leVal (slice b 440 4) = (b.getD 440 0).toNat + 256 * (b.getD 441 0).toNat
        + 65536 * (b.getD 442 0).toNat + 16777216 * (b.getD 443 0).toNat := by
      have hs : slice b 440 4 = [b.getD 440 0, b.getD 441 0, b.getD 442 0, b.getD 443 0] := by
        apply List.ext_getElem?
        intro i
        rw [getElem?_slice]
        match i with
        | 0 => rw [if_pos (by omega), List.getD_eq_getElem?_getD, List.getElem?_eq_getElem (by omega)]; rfl
        | 1 => rw [if_pos (by omega), List.getD_eq_getElem?_getD, List.getD_eq_getElem?_getD, List.getElem?_eq_getElem (by omega)]; rfl
        | 2 => rw [if_pos (by omega), List.getD_eq_getElem?_getD, List.getD_eq_getElem?_getD, List.getD_eq_getElem?_getD, List.getElem?_eq_getElem (by omega)]; rfl
        | 3 => rw [if_pos (by omega), List.getD_eq_getElem?_getD, List.getD_eq_getElem?_getD, List.getD_eq_getElem?_getD, List.getD_eq_getElem?_getD, List.getElem?_eq_getElem (by omega)]; rfl
        | i + 4 => rw [if_neg (by omega)]; rfl
      rw [hs]
      simp only [leVal]
      omega
    have hlt : leVal (slice b 440 4) < 2 ^ 32 := by
      have := leVal_lt (slice b 440 4)
      rw [slice_length b 440 4 (by omega)] at this
      exact this
    by_cases hd : b.drop 510 = [0x55#8, 0xaa#8]
    · rw [if_neg (by simp [hd])]
      obtain ⟨h0, h1⟩ := hsig.1 hd
      constructor
      · intro h
        have := Res.ok.inj h
        refine ⟨hl, h0, h1, ?_⟩
        rw [← this, BitVec.toNat_ofNat, Nat.mod_eq_of_lt hlt, hval]
      · intro ⟨_, _, _, hv⟩
        congr 1
        apply BitVec.eq_of_toNat_eq
        rw [BitVec.toNat_ofNat, Nat.mod_eq_of_lt hlt, hval, hv]
    · rw [if_pos hd]
      constructor
      · intro h; cases h
      · intro ⟨_, h0, h1, _⟩; exact absurd (hsig.2 ⟨h0, h1⟩) hd
  · rw [if_pos hl]
    constructor
    · intro h; cases h
    · intro h; exact absurd h.1 hl

/-- C71: the reader makes one read of 512 bytes; it returns the identifier exactly if that read delivered 512 bytes without
error and they form such a sector, an error otherwise, and never panics. -/
theorem mbr_read (env : Prog.Env Nat ReadAtRep) (hist : Prog.Trace Nat ReadAtRep) :
    let r := env hist 512
    ∃ o, OutT.run env hist mbrRead = (.ret o, [(512, r)]) ∧ o ≠ .panic ∧
      (∀ v, r.data.length = 512 → (o = .ok v ↔ r.err = none ∧ r.n = 512 ∧ mbrFromBytes r.data = .ok v)) ∧
      (r.err ≠ none ∨ r.n ≠ 512 → ∃ e, o = .err e) := by
  intro r
  have hnp : ∀ b, mbrFromBytes b ≠ .panic := by
    intro b h
    unfold mbrFromBytes at h
    split at h
    · cases h
    · split at h <;> cases h
  have hcopy : r.data.length = 512 → copyAt (zeros 512) 0 (r.data.take 512) = r.data := by
    intro h
    have ht : r.data.take 512 = r.data := List.take_of_length_le (Nat.le_of_eq h)
    unfold copyAt
    rw [ht, List.drop_eq_nil_of_le (by rw [zeros_length, h]; omega)]
    simp
  unfold mbrRead
  rw [OutT.run_ask_bind]
  show ∃ o, ((OutT.run env (hist ++ [(512, r)]) (match r.err with
    | some _ => OutT.ret (.err (.msg "error reading MBR from file: %"))
    | none => _ : OutT Nat ReadAtRep (Res (BitVec 32)))).1, (512, r) :: _) = _ ∧ _
  cases he : r.err with
  | some e =>
    refine ⟨_, rfl, by simp, ?_, fun _ => ⟨_, rfl⟩⟩
    intro v _
    simp
  | none =>
    dsimp only
    by_cases hn : r.n = 512
    · rw [if_neg (fun hx => hx hn)]
      refine ⟨_, rfl, hnp _, ?_, ?_⟩
      · intro v hl
        rw [hcopy hl]
        exact ⟨fun h => ⟨rfl, hn, h⟩, fun h => h.2.2⟩
      · intro h
        rcases h with h | h
        · exact absurd rfl h
        · exact absurd hn h
    · rw [if_pos hn]
      refine ⟨_, rfl, by simp, ?_, fun _ => ⟨_, rfl⟩⟩
      intro v _
      constructor
      · intro h; cases h
      · intro h; exact absurd h.2.1 hn

/-- A sector with identifier 0x04030201. -/
example : mbrFromBytes (zeros 440 ++ [1, 2, 3, 4] ++ zeros 66 ++ [0x55, 0xaa]) = .ok 0x04030201 ∧
    (∃ e, mbrFromBytes (zeros 512) = .err e) := by
  constructor
  · decide +kernel
  · exact ⟨.msg "invalid MBR Signature %", by decide +kernel⟩

/-! ## C72 -/

theorem untilNul_spec (s acc : Bytes) :
    (∀ pre rest, s = pre ++ 0#8 :: rest → (0#8 : Byte) ∉ pre → untilNul s acc = acc ++ pre) ∧
    ((0#8 : Byte) ∉ s → untilNul s acc = []) := by
  induction s generalizing acc with
  | nil =>
    refine ⟨?_, fun _ => rfl⟩
    intro pre rest h
    simp at h
  | cons x xs ih =>
    constructor
    · intro pre rest h hp
      cases pre with
      | nil =>
        simp only [List.nil_append, List.cons.injEq] at h
        rw [untilNul, if_pos h.1, List.append_nil]
      | cons y ys =>
        simp only [List.cons_append, List.cons.injEq] at h
        have hx : ¬ x = 0#8 := by
          rw [h.1]
          intro h0
          exact hp (by rw [h0]; exact List.mem_cons_self)
        rw [untilNul, if_neg hx, (ih (acc ++ [x])).1 ys rest h.2 (fun hm => hp (List.mem_cons_of_mem _ hm)), h.1]
        simp
    · intro h
      have hx : ¬ x = 0#8 := fun h0 => h (by rw [h0]; exact List.mem_cons_self)
      rw [untilNul, if_neg hx]
      exact (ih _).2 (fun hm => h (List.mem_cons_of_mem _ hm))

/-- C72: for a positive offset within the buffer, the text is what stands between the offset and the first NUL after it. -/
theorem nul_text_found (before text rest : Bytes) (hb : before ≠ []) (ht : (0#8 : Byte) ∉ text) :
    readNullTerminatedAscii (before ++ text ++ 0#8 :: rest) before.length = .ret text := by
  unfold readNullTerminatedAscii
  have : 0 < before.length := List.length_pos_iff.2 hb
  rw [if_neg (by omega), if_neg (by simp only [List.length_append]; omega)]
  have hd : (before ++ text ++ 0#8 :: rest).drop (Int.toNat before.length) = text ++ 0#8 :: rest := by
    rw [Int.toNat_natCast, List.append_assoc, List.drop_left]
  rw [hd, (untilNul_spec _ []).1 text rest rfl ht]
  rfl

/-- C72: no text for an offset that is not positive or without a NUL behind it; a panic exactly for an offset beyond the
buffer. -/
theorem nul_text_none (buf : Bytes) (offset : Int) :
    (offset ≤ 0 → readNullTerminatedAscii buf offset = .ret []) ∧
    (0 < offset → offset ≤ buf.length → (0#8 : Byte) ∉ buf.drop offset.toNat →
      readNullTerminatedAscii buf offset = .ret []) ∧
    (readNullTerminatedAscii buf offset = .panic ↔ offset > buf.length) := by
  refine ⟨?_, ?_, ?_⟩
  · intro h; unfold readNullTerminatedAscii; rw [if_pos h]
  · intro h1 h2 h3
    unfold readNullTerminatedAscii
    rw [if_neg (by omega), if_neg (by omega), (untilNul_spec _ []).2 h3]
  · unfold readNullTerminatedAscii
    by_cases h1 : offset ≤ 0
    · rw [if_pos h1]
      constructor
      · intro h; cases h
      · intro h; omega
    · rw [if_neg h1]
      by_cases h2 : offset > buf.length
      · rw [if_pos h2]; exact ⟨fun _ => h2, fun _ => rfl⟩
      · rw [if_neg h2]
        constructor
        · intro h; cases h
        · intro h; exact absurd h h2

example : readNullTerminatedAscii [9, 9, 0x41, 0x42, 0, 7] 2 = .ret [0x41, 0x42] ∧
    readNullTerminatedAscii [9, 9, 0x41, 0x42] 2 = .ret [] ∧ readNullTerminatedAscii [0x41, 0] 0 = .ret [] ∧
    readNullTerminatedAscii [9] 2 = .panic := by decide

theorem wcslen_go (s : List (BitVec 16)) (i : Nat) :
    (∀ pre rest, s = pre ++ 0#16 :: rest → (0#16 : BitVec 16) ∉ pre → wcslen.go s i = i + pre.length) ∧
    ((0#16 : BitVec 16) ∉ s → wcslen.go s i = i + s.length) := by
  induction s generalizing i with
  | nil =>
    refine ⟨?_, fun _ => rfl⟩
    intro pre rest h
    simp at h
  | cons x xs ih =>
    constructor
    · intro pre rest h hp
      cases pre with
      | nil =>
        simp only [List.nil_append, List.cons.injEq] at h
        rw [wcslen.go, if_pos h.1]; rfl
      | cons y ys =>
        simp only [List.cons_append, List.cons.injEq] at h
        have hx : ¬ x = 0#16 := by
          rw [h.1]
          intro h0
          exact hp (by rw [h0]; exact List.mem_cons_self)
        rw [wcslen.go, if_neg hx, (ih (i + 1)).1 ys rest h.2 (fun hm => hp (List.mem_cons_of_mem _ hm)),
          List.length_cons]
        omega
    · intro h
      have hx : ¬ x = 0#16 := fun h0 => h (by rw [h0]; exact List.mem_cons_self)
      rw [wcslen.go, if_neg hx, (ih (i + 1)).2 (fun hm => h (List.mem_cons_of_mem _ hm)), List.length_cons]
      omega

/-- C72: `wcslen` is the index of the first zero, or the length if there is none. -/
theorem wcslen_spec (buf : List (BitVec 16)) :
    (∀ pre rest, buf = pre ++ 0#16 :: rest → (0#16 : BitVec 16) ∉ pre → wcslen buf = pre.length) ∧
    ((0#16 : BitVec 16) ∉ buf → wcslen buf = buf.length) := by
  have h := wcslen_go buf 0
  unfold wcslen
  refine ⟨fun p r h1 h2 => by rw [h.1 p r h1 h2]; omega, fun h1 => by rw [h.2 h1]; omega⟩

example : wcslen [1, 2, 0, 4, 0] = 2 ∧ wcslen [1, 2] = 2 := by decide

end Dparm
