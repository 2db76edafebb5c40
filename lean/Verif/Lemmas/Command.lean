import Verif.Spec.Command
import Verif.Lemmas.Lists
import Verif.Lemmas.Numbers
/-! Lemmas about building commands. -/
namespace Dparm
open Spec

/-- The command window holds exactly `content` (write position at its end), zeros after it, and lies
inside the allocation. -/
structure Win (c : ABuf) (content : Bytes) : Prop where
  limit : c.limit = cmdSize
  fits : c.off + cmdSize ≤ c.mem.length
  wpos : c.wpos = content.length
  le : content.length ≤ cmdSize
  window : c.buf = content ++ zeros (cmdSize - content.length)

/-- Same allocation, nothing changed outside the command window. -/
structure Frame (c c' : ABuf) : Prop where
  base : c'.base = c.base
  off : c'.off = c.off
  len : c'.mem.length = c.mem.length
  outside : ∀ j, (j < c.off ∨ c.off + cmdSize ≤ j) → c'.mem[j]? = c.mem[j]?

theorem Frame.refl (c : ABuf) : Frame c c := ⟨rfl, rfl, rfl, fun _ _ => rfl⟩
theorem Frame.trans {a b c : ABuf} (h : Frame a b) (g : Frame b c) : Frame a c :=
  ⟨by rw [g.base, h.base], by rw [g.off, h.off], by rw [g.len, h.len],
   fun j hj => by rw [g.outside j (by rw [h.off]; exact hj), h.outside j hj]⟩

theorem slice_copyAt_inside (m : Bytes) (o n i : Nat) (p : Bytes) (hi : i + p.length ≤ n)
    (hn : o + n ≤ m.length) :
    slice (copyAt m (o + i) p) o n = copyAt (slice m o n) i p := by
  apply List.ext_getElem?
  intro j
  rw [getElem?_slice, getElem?_copyAt _ _ _ _ (by omega),
    getElem?_copyAt _ _ _ _ (by rw [slice_length _ _ _ hn]; exact hi), getElem?_slice]
  by_cases hj : j < n
  · by_cases h2 : i ≤ j ∧ j < i + p.length
    · rw [if_pos hj, if_pos (by omega), if_pos h2]
      congr 1
      omega
    · rw [if_pos hj, if_neg (by omega), if_neg h2, if_pos hj]
  · rw [if_neg hj, if_neg (by omega), if_neg hj]

theorem copyAt_end (content p : Bytes) (k : Nat) :
    copyAt (content ++ zeros k) content.length p = content ++ p ++ zeros (k - p.length) := by
  unfold copyAt
  rw [List.take_left, List.drop_append, List.drop_of_length_le (by omega), drop_zeros]
  simp

theorem take_take_append (x y : Bytes) (n : Nat) : ((x.take n) ++ y).take n = (x ++ y).take n := by
  by_cases h : x.length ≤ n
  · rw [List.take_of_length_le h]
  · rw [List.take_append_of_le_length (by rw [List.length_take]; omega),
      List.take_append_of_le_length (by omega), List.take_take, Nat.min_self]

/-- Storing `p` (which fits) at the write position. -/
theorem win_store {c : ABuf} {content : Bytes} (h : Win c content) (p : Bytes)
    (hp : content.length + p.length ≤ cmdSize) :
    Win { c with mem := copyAt c.mem (c.off + c.wpos) p, wpos := c.wpos + p.length } (content ++ p) ∧
    Frame c { c with mem := copyAt c.mem (c.off + c.wpos) p, wpos := c.wpos + p.length } := by
  have hw := h.wpos
  have hf := h.fits
  have hl : (copyAt c.mem (c.off + c.wpos) p).length = c.mem.length :=
    copyAt_length _ _ _ (by omega)
  refine ⟨⟨h.limit, by simpa [hl] using hf, by simp [hw], by simpa using hp, ?_⟩, ⟨rfl, rfl, hl, ?_⟩⟩
  · show slice (copyAt c.mem (c.off + c.wpos) p) c.off c.limit = _
    rw [h.limit, slice_copyAt_inside _ _ _ _ _ (by omega) hf]
    have := h.window
    unfold ABuf.buf at this
    rw [h.limit] at this
    rw [this, hw, copyAt_end]
    congr 2
    simp; omega
  · intro j hj
    show (copyAt c.mem (c.off + c.wpos) p)[j]? = _
    rw [getElem?_copyAt _ _ _ _ (by omega), if_neg (by omega)]

theorem write_win {c : ABuf} {content : Bytes} (h : Win c content) (p : Bytes) :
    ∃ c', Cmd.write c p = .ret (c', if p = [] ∨ content.length = cmdSize then some .eof else none) ∧
      Win c' ((content ++ p).take cmdSize) ∧ Frame c c' := by
  have hw := h.wpos
  have hl := h.limit
  have hle := h.le
  unfold Cmd.write ABuf.write
  rw [hw, hl, if_neg (by omega)]
  by_cases h0 : min (cmdSize - content.length) p.length = 0
  · have hp : p = [] ∨ content.length = cmdSize := by
      rcases Nat.min_eq_zero_iff.1 h0 with h | h
      · right; omega
      · left; exact List.length_eq_zero_iff.1 h
    simp only [h0, if_true]
    refine ⟨c, by rw [if_pos hp], ?_, Frame.refl c⟩
    rcases hp with rfl | hp
    · simpa [List.take_of_length_le hle] using h
    · rw [List.take_append_of_le_length (by omega), List.take_of_length_le hle]
      exact h
  · have hp : ¬ (p = [] ∨ content.length = cmdSize) := by
      rintro (rfl | h)
      · simp at h0
      · exact h0 (by rw [Nat.min_eq_zero_iff]; left; omega)
    simp only [h0, if_false]
    have hlen : (p.take (min (cmdSize - content.length) p.length)).length
        = min (cmdSize - content.length) p.length := by rw [List.length_take]; omega
    have := win_store h (p.take (min (cmdSize - content.length) p.length)) (by rw [hlen]; omega)
    simp only [hlen, hw, hl] at this
    refine ⟨_, by rw [if_neg hp], ?_, this.2⟩
    have he : (content ++ p).take cmdSize
        = content ++ p.take (min (cmdSize - content.length) p.length) := by
      rw [List.take_append, List.take_of_length_le hle]
      congr 1
      rw [Nat.min_comm, ← List.take_take]
      exact (List.take_of_length_le (by rw [List.length_take]; omega)).symm
    rw [he]
    exact this.1

theorem writeByte_win {c : ABuf} {content : Bytes} (h : Win c content) (x : Byte) :
    ∃ c', c.writeByte x = (c', if content.length = cmdSize then some .eof else none) ∧
      Win c' ((content ++ [x]).take cmdSize) ∧ Frame c c' := by
  have hw := h.wpos
  have hl := h.limit
  have hle := h.le
  unfold ABuf.writeByte
  rw [hw, hl]
  by_cases h0 : content.length = cmdSize
  · rw [if_pos (by omega), if_pos h0]
    refine ⟨c, rfl, ?_, Frame.refl c⟩
    rw [List.take_append_of_le_length (by omega), List.take_of_length_le hle]
    exact h
  · rw [if_neg (by omega), if_neg h0]
    have := win_store h [x] (by simp; omega)
    simp only [hw, hl, List.length_singleton] at this
    refine ⟨_, rfl, ?_, this.2⟩
    rw [List.take_of_length_le (by simp; omega)]
    exact this.1

/-- A one-byte header written separately from its payload. -/
theorem header_win {c : ABuf} {content : Bytes} (h : Win c content) (x : Byte) (p : Bytes)
    (hp : p ≠ []) :
    ∃ c', (match c.writeByte x with
        | (c1, some e) => P.ret (c1, some e)
        | (c1, none) => Cmd.write c1 p)
        = .ret (c', if cmdSize ≤ content.length + 1 then some .eof else none) ∧
      Win c' ((content ++ x :: p).take cmdSize) ∧ Frame c c' := by
  have hle := h.le
  obtain ⟨c1, e1, w1, f1⟩ := writeByte_win h x
  by_cases h0 : content.length = cmdSize
  · rw [if_pos h0] at e1
    refine ⟨c1, by simp only [e1]; rw [if_pos (by omega)], ?_, f1⟩
    have : (content ++ x :: p).take cmdSize = (content ++ [x]).take cmdSize := by
      rw [List.take_append_of_le_length (by omega), List.take_append_of_le_length (by omega)]
    rw [this]; exact w1
  · rw [if_neg h0] at e1
    obtain ⟨c2, e2, w2, f2⟩ := write_win w1 p
    refine ⟨c2, ?_, ?_, f1.trans f2⟩
    · simp only [e1, e2]
      have hl : ((content ++ [x]).take cmdSize).length = content.length + 1 := by
        rw [List.length_take]; simp; omega
      rw [hl]
      congr 3
      simp only [hp, false_or, eq_iff_iff]
      omega
    · rw [take_take_append, List.append_assoc] at w2
      exact w2

theorem setWidth8_shiftRight (v : BitVec 64) (k : Nat) :
    (v >>> (k * 8)).setWidth 8 = BitVec.ofNat 8 (v.toNat / 256 ^ k) := by
  apply BitVec.eq_of_toNat_eq
  simp only [BitVec.toNat_setWidth, BitVec.toNat_ushiftRight, BitVec.toNat_ofNat,
    Nat.shiftRight_eq_div_pow]
  rw [Nat.mul_comm, Nat.pow_mul]

theorem numberBytes_eq (v : BitVec 64) (k : Nat) :
    Cmd.numberBytes v k = beBytes (k + 1) v.toNat := by
  unfold Cmd.numberBytes
  induction k with
  | zero =>
    have := setWidth8_shiftRight v 0
    simp only [Nat.zero_mul] at this
    simp [beBytes]
  | succ k ih =>
    rw [List.range_succ_eq_map, List.map_cons, List.map_map, beBytes]
    congr 1
    · exact setWidth8_shiftRight v (k + 1)
    · rw [← ih]
      apply List.map_congr_left
      intro j _
      simp

theorem smallHead : ∀ n : Fin 16, BitVec.ofNat 8 (n.val ||| 0xa0) = BitVec.ofNat 8 (0xa0 + n.val) := by
  decide +kernel
theorem medHead8 : ∀ n : Fin 8,
    BitVec.ofNat 8 (0xd0 ||| (n.val &&& 7)) = BitVec.ofNat 8 (0xd0 + n.val) := by
  decide +kernel

theorem medHead (n : Nat) (h : n < 2048) :
    BitVec.ofNat 8 (0xd0 ||| ((n >>> 8) &&& 0x07)) = BitVec.ofNat 8 (0xd0 + n / 256) := by
  have := medHead8 ⟨n / 256, by omega⟩
  rw [Nat.shiftRight_eq_div_pow]
  exact this

theorem ofNat8_mod (n : Nat) : BitVec.ofNat 8 n = BitVec.ofNat 8 (n % 256) := by
  apply BitVec.eq_of_toNat_eq
  simp

/-- `AddStringToken` writes its specified bytes in one buffer write (or none). -/
theorem addString_eq (c : ABuf) (text : Bytes) (length : Option Int) :
    Cmd.addString c text length =
      if encAdd (.str text length) = [] then .ret (c, none)
      else Cmd.write c (encAdd (.str text length)) := by
  have key : ∀ n : Nat, (if n = 0 then Cmd.write c [0xa1, 0x00]
      else if n < 16 then Cmd.write c (BitVec.ofNat 8 (n ||| 0xa0) :: text)
      else if n < 2048 then
        Cmd.write c (BitVec.ofNat 8 (0xd0 ||| ((n >>> 8) &&& 0x07)) :: BitVec.ofNat 8 n :: text)
      else .ret (c, none)) = if encAdd.encStr text n = [] then .ret (c, none)
        else Cmd.write c (encAdd.encStr text n) := by
    intro n
    unfold encAdd.encStr
    by_cases h0 : n = 0
    · simp [h0]
    by_cases h1 : n < 16
    · have := smallHead ⟨n, h1⟩
      simp only at this
      simp [h0, h1, this]
    by_cases h2 : n < 2048
    · simp only [h0, h1, h2, if_true, if_false, medHead n h2, List.cons_ne_nil]
      rw [ofNat8_mod n]
    · simp [h0, h1, h2]
  cases length with
  | none =>
    simp only [Cmd.addString, encAdd]
    have h : ¬ ((text.length : Int) < 0) := by omega
    simp only [h, if_false, Int.toNat_natCast]
    exact key text.length
  | some l =>
    simp only [Cmd.addString, encAdd]
    exact key (if l < 0 then text.length else l.toNat)

theorem encAdd_num_small (v : BitVec 64) (h : v.toNat < 64) :
    encAdd (.num v) = [(v &&& 0x3f).setWidth 8] := by
  simp only [encAdd, Token.uint, h, if_true, Token.encode, Token.flag]
  congr 1
  apply BitVec.eq_of_toNat_eq
  simp only [BitVec.toNat_ofNat, BitVec.toNat_setWidth, BitVec.toNat_and]
  have : (0x3f : BitVec 64).toNat = 2 ^ 6 - 1 := rfl
  rw [this, Nat.and_two_pow_sub_one_eq_mod]
  simp
  omega

/-- Header byte and width class of `AddNumberToken`. -/
theorem encAdd_num_big (v : BitVec 64) (h : ¬ v.toNat < 64) :
    encAdd (.num v) = (if v.toNat < 0x100 then 0x81 :: beBytes 1 v.toNat
      else if v.toNat < 0x10000 then 0x82 :: beBytes 2 v.toNat
      else if v.toNat < 0x100000000 then 0x84 :: beBytes 4 v.toNat
      else 0x88 :: beBytes 8 v.toNat) := by
  simp only [encAdd, Token.uint, h, if_false]
  by_cases h1 : v.toNat < 256
  · simp [h1, Token.encode, Token.flag]
  · by_cases h2 : v.toNat < 65536
    · simp [h1, h2, Token.encode, Token.flag]
    · by_cases h3 : v.toNat < 4294967296
      · simp [h1, h2, h3, Token.encode, Token.flag]
      · simp [h1, h2, h3, Token.encode, Token.flag]

theorem encAdd_uid (u : UID) : encAdd (.tok (.uid u)) = 0xa8 :: u.bytes := by
  simp [encAdd, Token.encode, Token.flag, u.len]

theorem encAdd_method (m : UID) :
    encAdd (.tok (.method m)) = encAdd (.str m.bytes (some (m.bytes.length : Int))) := by
  have h : ¬ ((m.bytes.length : Int) < 0) := by omega
  simp only [encAdd, h, if_false, Int.toNat_natCast]
  simp [encAdd.encStr, m.len, Token.encode, Token.flag]

/-- Every `Add...` call appends its encoding, cut at the window's end. -/
theorem add_win {c : ABuf} {content : Bytes} (h : Win c content) (o : AddOp) :
    ∃ c', Cmd.add c o = .ret (c', addErr content.length o) ∧
      Win c' ((content ++ encAdd o).take cmdSize) ∧ Frame c c' := by
  have hle := h.le
  have hstr : ∀ text l, ∃ c', Cmd.addString c text l
      = .ret (c', addErr content.length (.str text l)) ∧
      Win c' ((content ++ encAdd (.str text l)).take cmdSize) ∧ Frame c c' := by
    intro text l
    rw [addString_eq]
    by_cases he : encAdd (.str text l) = []
    · rw [if_pos he, he]
      refine ⟨c, ?_, by simpa [List.take_of_length_le hle] using h, Frame.refl c⟩
      simp [addErr, he]
    · rw [if_neg he]
      obtain ⟨c', e, w, f⟩ := write_win h (encAdd (.str text l))
      refine ⟨c', ?_, w, f⟩
      rw [e]
      simp only [addErr, he, false_or, reduceCtorEq, ne_eq, not_false_eq_true, true_and, headLen,
        Nat.add_zero]
      congr 3
      rw [eq_iff_iff]
      omega
  cases o with
  | tok a =>
    cases a with
    | uid u =>
      have hne : u.bytes ≠ [] := by
        intro h0; have := u.len; rw [h0] at this; simp at this
      obtain ⟨c', e, w, f⟩ := header_win h 0xa8 u.bytes hne
      refine ⟨c', ?_, by rw [encAdd_uid]; exact w, f⟩
      have : Cmd.add c (.tok (.uid u)) = (match c.writeByte 0xa8 with
        | (c1, some e) => P.ret (c1, some e)
        | (c1, none) => Cmd.write c1 u.bytes) := by
        simp only [Cmd.add, Cmd.addToken, Cmd.addRaw]
        rcases c.writeByte 0xa8 with ⟨c1, _ | e⟩ <;> rfl
      rw [this, e]
      simp [addErr, encAdd_uid, headLen]
    | method m =>
      obtain ⟨c', e, w, f⟩ := hstr m.bytes (some (m.bytes.length : Int))
      refine ⟨c', ?_, by rw [encAdd_method]; exact w, f⟩
      simp only [Cmd.add, Cmd.addToken, e]
      simp only [addErr, encAdd_method, headLen, reduceCtorEq, false_or]
    | int v =>
      obtain ⟨c', e, w, f⟩ := writeByte_win h (BitVec.ofInt 8 v)
      refine ⟨c', ?_, w, f⟩
      simp only [Cmd.add, Cmd.addToken, e, addErr, encAdd, headLen, reduceCtorEq, false_or, ne_eq,
        List.cons_ne_nil, not_false_eq_true, true_and, Nat.add_zero]
      congr 3
      rw [eq_iff_iff]
      omega
  | raw d =>
    obtain ⟨c', e, w, f⟩ := write_win h d
    refine ⟨c', ?_, w, f⟩
    simp only [Cmd.add, Cmd.addRaw, e, addErr, encAdd, headLen, AddOp.raw.injEq]
    congr 3
    rw [eq_iff_iff]
    by_cases hd : d = []
    · simp [hd]
    · simp only [hd, false_or, ne_eq, not_false_eq_true, true_and]; omega
  | str text l => exact hstr text l
  | num v =>
    by_cases h0 : v.toNat < 64
    · obtain ⟨c', e, w, f⟩ := writeByte_win h ((v &&& 0x3f).setWidth 8)
      refine ⟨c', ?_, by rw [encAdd_num_small v h0]; exact w, f⟩
      simp only [Cmd.add, Cmd.addNumber, h0, if_true, e, addErr, encAdd_num_small v h0, headLen,
        reduceCtorEq, false_or, ne_eq, List.cons_ne_nil, not_false_eq_true, true_and, Nat.add_zero]
      congr 3
      rw [eq_iff_iff]
      omega
    · have gen : ∀ (hd : Byte) (k : Nat), encAdd (.num v) = hd :: beBytes (k + 1) v.toNat →
          Cmd.addNumber c v = (match c.writeByte hd with
            | (c1, some e) => P.ret (c1, some e)
            | (c1, none) => Cmd.write c1 (Cmd.numberBytes v k)) →
          ∃ c', Cmd.add c (.num v) = .ret (c', addErr content.length (.num v)) ∧
            Win c' ((content ++ encAdd (.num v)).take cmdSize) ∧ Frame c c' := by
        intro hd k he ha
        obtain ⟨c', e, w, f⟩ := header_win h hd (beBytes (k + 1) v.toNat) (by simp [beBytes])
        refine ⟨c', ?_, by rw [he]; exact w, f⟩
        simp only [Cmd.add]
        rw [ha, numberBytes_eq, e]
        simp [addErr, he, headLen, h0]
      have hb := encAdd_num_big v h0
      by_cases h1 : v.toNat < 0x100
      · exact gen 0x81 0 (by rw [hb, if_pos h1]) (by simp only [Cmd.addNumber, h0, h1, if_true, if_false]; rcases c.writeByte _ with ⟨c1, _ | e⟩ <;> rfl)
      · by_cases h2 : v.toNat < 0x10000
        · exact gen 0x82 1 (by rw [hb, if_neg h1, if_pos h2])
            (by simp only [Cmd.addNumber, h0, h1, h2, if_true, if_false]; rcases c.writeByte _ with ⟨c1, _ | e⟩ <;> rfl)
        · by_cases h3 : v.toNat < 0x100000000
          · exact gen 0x84 3 (by rw [hb, if_neg h1, if_neg h2, if_pos h3])
              (by simp only [Cmd.addNumber, h0, h1, h2, h3, if_true, if_false]; rcases c.writeByte _ with ⟨c1, _ | e⟩ <;> rfl)
          · exact gen 0x88 7 (by rw [hb, if_neg h1, if_neg h2, if_neg h3])
              (by simp only [Cmd.addNumber, h0, h1, h2, h3, if_false]; rcases c.writeByte _ with ⟨c1, _ | e⟩ <;> rfl)

theorem addAll_win {c : ABuf} {content : Bytes} (h : Win c content) (ops : List AddOp) :
    ∃ c', Cmd.addAll c ops = .ret (c', addErrs content.length ops) ∧
      Win c' ((content ++ encAdds ops).take cmdSize) ∧ Frame c c' := by
  induction ops generalizing c content with
  | nil =>
    exact ⟨c, rfl, by simpa [encAdds, List.take_of_length_le h.le] using h, Frame.refl c⟩
  | cons o os ih =>
    obtain ⟨c1, e1, w1, f1⟩ := add_win h o
    obtain ⟨c2, e2, w2, f2⟩ := ih w1
    refine ⟨c2, ?_, ?_, f1.trans f2⟩
    · simp only [Cmd.addAll, e1, e2, addErrs]
      congr 4
      rw [List.length_take]
      simp
    · rw [take_take_append, List.append_assoc] at w2
      exact w2

theorem newTcgCommand_win (base : Nat) : Win (newTcgCommand base) [] := by
  have hm := Nat.mod_lt base (show 0 < 1024 by omega)
  have hoff : (newTcgCommand base).off ≤ 1023 := by
    simp only [newTcgCommand, newAlignedBuffer]
    split <;> omega
  have hlen : (newTcgCommand base).mem.length = 1024 + cmdSize := by
    simp [newTcgCommand, newAlignedBuffer]
  refine ⟨rfl, by omega, rfl, by simp, ?_⟩
  show slice (newTcgCommand base).mem (newTcgCommand base).off cmdSize = _
  have : (newTcgCommand base).mem = zeros (1024 + cmdSize) := rfl
  rw [this]
  unfold slice
  rw [drop_zeros, take_zeros]
  simp only [List.nil_append, List.length_nil, Nat.sub_zero]
  congr 1
  omega

/-- `Reset` on any command buffer with the command geometry. -/
theorem reset_win {c : ABuf} (hl : c.limit = cmdSize) (hf : c.off + cmdSize ≤ c.mem.length) :
    Win (Cmd.reset c) (zeros headerSize) ∧ Frame c (Cmd.reset c) := by
  have hcl : (copyAt c.mem c.off (List.replicate c.limit 0)).length = c.mem.length :=
    copyAt_length _ _ _ (by rw [List.length_replicate]; omega)
  refine ⟨⟨hl, ?_, ?_, by simp [headerSize, cmdSize], ?_⟩, ⟨rfl, rfl, hcl, ?_⟩⟩
  · show c.off + cmdSize ≤ (copyAt c.mem c.off (List.replicate c.limit 0)).length
    omega
  · show headerSize = _
    simp
  · show slice (copyAt c.mem c.off (List.replicate c.limit 0)) c.off c.limit = _
    have hr : (List.replicate c.limit (0 : Byte)).length = c.limit := by rw [List.length_replicate]
    have := slice_copyAt_same c.mem c.off (List.replicate c.limit 0) (by rw [hr]; omega)
    rw [hr] at this
    rw [this, hl, zeros_append]
    simp only [zeros, List.length_replicate]
    congr 1
  · intro j hj
    show (copyAt c.mem c.off (List.replicate c.limit 0))[j]? = _
    rw [getElem?_copyAt _ _ _ _ (by rw [List.length_replicate]; omega),
      if_neg (by rw [List.length_replicate]; omega)]

/-- `Init` leaves the header zero and its own tokens after it (cut at the window's end). -/
theorem init_win {c : ABuf} (hl : c.limit = cmdSize) (hf : c.off + cmdSize ≤ c.mem.length)
    (inv : InvokingArg) (m : MethodArg) (hinv : ∀ x, inv ≠ .method x) :
    ∃ c', Cmd.init c inv m = .ret (c', none) ∧
      Win c' ((zeros headerSize ++ encInit inv m).take cmdSize) ∧ Frame c c' := by
  obtain ⟨w0, f0⟩ := reset_win hl hf
  obtain ⟨c1, e1, w1, f1⟩ := writeByte_win w0 0xf8
  have hne : ¬ (zeros headerSize).length = cmdSize := by simp [headerSize, cmdSize]
  rw [if_neg hne] at e1
  have hmeth : ∀ {c2 : ABuf} {ct : Bytes}, Win c2 ct → ∃ c3, Cmd.init.initMethod c2 m = .ret (c3, none) ∧
      Win c3 ((ct ++ encMethod m).take cmdSize) ∧
      Frame c2 c3 := by
    intro c2 ct w
    cases m with
    | method m =>
      obtain ⟨c3, e3, w3, f3⟩ := writeByte_win w 0xa8
      obtain ⟨c4, e4, w4, f4⟩ := write_win w3 m.bytes
      refine ⟨c4, by simp only [Cmd.init.initMethod, e3, e4], ?_, f3.trans f4⟩
      rw [take_take_append, List.append_assoc] at w4
      exact w4
    | buf d =>
      obtain ⟨c3, e3, w3, f3⟩ := write_win w d
      exact ⟨c3, by simp only [Cmd.init.initMethod, Cmd.addRaw, e3], w3, f3⟩
  cases inv with
  | method x => exact absurd rfl (hinv x)
  | uid u =>
    obtain ⟨c2, e2, w2, f2⟩ := add_win w1 (.tok (.uid u))
    obtain ⟨c3, e3, w3, f3⟩ := hmeth w2
    simp only [Cmd.add] at e2
    refine ⟨c3, by simp only [Cmd.init, e1, e2, e3], ?_, (f0.trans f1).trans (f2.trans f3)⟩
    rw [take_take_append, encAdd_uid, List.append_assoc, take_take_append] at w3
    simpa [encInit, List.append_assoc] using w3
  | buf d =>
    obtain ⟨c2, e2, w2, f2⟩ := write_win w1 d
    obtain ⟨c3, e3, w3, f3⟩ := hmeth w2
    refine ⟨c3, by simp only [Cmd.init, e1, Cmd.addRaw, e2, e3], ?_, (f0.trans f1).trans (f2.trans f3)⟩
    rw [take_take_append, List.append_assoc, take_take_append] at w3
    simpa [encInit, List.append_assoc] using w3

end Dparm
