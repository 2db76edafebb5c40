import Verif.Lemmas.Command
/-! Lemmas about finishing and stamping commands. -/
namespace Dparm
open Spec

theorem beBytes_field (m : Bytes) (i k : Nat) (h : i + k ≤ m.length) :
    beBytes k (OpalHeader.field (8 * k) m i).toNat = slice m i k := by
  have hl := slice_length m i k h
  have hlt := beVal_lt (slice m i k)
  rw [hl] at hlt
  have hk : 8 * k / 8 = k := by omega
  unfold OpalHeader.field
  rw [hk, BitVec.toNat_ofNat, Nat.mod_eq_of_lt]
  · have := beBytes_beVal (slice m i k)
    rwa [hl] at this
  · have : (2 : Nat) ^ (8 * k) = 256 ^ k := by rw [Nat.pow_mul]
    omega

theorem field32 (m : Bytes) (i : Nat) (h : i + 4 ≤ m.length) :
    beBytes 4 (OpalHeader.field 32 m i).toNat = slice m i 4 := beBytes_field m i 4 h
theorem field16 (m : Bytes) (i : Nat) (h : i + 2 ≤ m.length) :
    beBytes 2 (OpalHeader.field 16 m i).toNat = slice m i 2 := beBytes_field m i 2 h

/-- Repacking a header with three new lengths is overwriting three fields. -/
theorem repack (m : Bytes) (h : m.length = 56) (cp pkt sub : BitVec 32) :
    ({ OpalHeader.unpack m with subLength := sub, pktLength := pkt, cpLength := cp } : OpalHeader).pack =
      slice m 0 16 ++ beBytes 4 cp.toNat ++ slice m 20 20 ++ beBytes 4 pkt.toNat ++ slice m 44 8
        ++ beBytes 4 sub.toNat := by
  have s0 : slice m 0 16 = slice m 0 4 ++ slice m 4 4 ++ slice m 8 4 ++ slice m 12 4 := by
    have h1 := slice_append_slice m 0 4 4
    have h2 := slice_append_slice m 0 8 4
    have h3 := slice_append_slice m 0 12 4
    simp only [Nat.zero_add, Nat.reduceAdd] at h1 h2 h3
    rw [h1, h2, h3]
  have s1 : slice m 20 20 = slice m 20 4 ++ slice m 24 4 ++ slice m 28 4 ++ slice m 32 2
      ++ slice m 34 2 ++ slice m 36 4 := by
    have h1 := slice_append_slice m 20 4 4
    have h2 := slice_append_slice m 20 8 4
    have h3 := slice_append_slice m 20 12 2
    have h4 := slice_append_slice m 20 14 2
    have h5 := slice_append_slice m 20 16 4
    simp only [Nat.reduceAdd] at h1 h2 h3 h4 h5
    rw [h1, h2, h3, h4, h5]
  have s2 : slice m 44 8 = slice m 44 6 ++ slice m 50 2 := by
    exact (slice_append_slice m 44 6 2).symm
  simp only [OpalHeader.pack, OpalHeader.unpack]
  rw [field32 m 0 (by omega), field32 m 8 (by omega), field32 m 12 (by omega), field32 m 20 (by omega),
    field32 m 24 (by omega), field32 m 28 (by omega), field16 m 32 (by omega), field16 m 34 (by omega),
    field32 m 36 (by omega), field16 m 50 (by omega), s0, s1, s2]
  simp only [List.append_assoc]

theorem and3 (n : Nat) : n &&& 3 = n % 4 := Nat.and_two_pow_sub_one_eq_mod n 2

theorem pad_win (fuel : Nat) {c : ABuf} {content : Bytes} (h : Win c content)
    (hf : up4 content.length - content.length < fuel) :
    ∃ c', Cmd.pad fuel c = (c', none) ∧
      Win c' (content ++ zeros (up4 content.length - content.length)) ∧ Frame c c' := by
  induction fuel generalizing c content with
  | zero => omega
  | succ fuel ih =>
    have hle := h.le
    have hw := h.wpos
    have h4 : cmdSize % 4 = 0 := rfl
    unfold Cmd.pad
    rw [hw, and3]
    by_cases hz : content.length % 4 = 0
    · have hu : up4 content.length - content.length = 0 := by unfold up4; omega
      rw [hu]
      simp only [hz]
      exact ⟨c, rfl, by simpa [zeros] using h, Frame.refl c⟩
    · have hne : content.length ≠ cmdSize := by omega
      obtain ⟨c1, e1, w1, f1⟩ := writeByte_win h 0
      rw [if_neg hne] at e1
      rw [List.take_of_length_le (by simp; omega)] at w1
      have hl : (content ++ [(0 : Byte)]).length = content.length + 1 := by simp
      have hu : up4 (content.length + 1) = up4 content.length := by unfold up4; omega
      have hu2 : content.length < up4 content.length := by unfold up4; omega
      obtain ⟨c2, e2, w2, f2⟩ := ih w1 (by rw [hl, hu]; omega)
      refine ⟨c2, ?_, ?_, f1.trans f2⟩
      · simp only [e1, e2]
        rw [if_pos (by simpa using hz)]
      · rw [hl, hu, List.append_assoc] at w2
        have : [(0 : Byte)] ++ zeros (up4 content.length - (content.length + 1))
            = zeros (up4 content.length - content.length) := by
          have : [(0 : Byte)] = zeros 1 := rfl
          rw [this, zeros_append]
          congr 1; omega
        rw [this] at w2
        exact w2

/-- Overwriting the first bytes of a window whose write position was reset. -/
theorem write_front {c : ABuf} {content : Bytes} (h : Win c content) (p : Bytes) (h0 : p ≠ [])
    (hp : p.length ≤ content.length) :
    ∃ c', Cmd.write c.resetWrite p = .ret (c', none) ∧ c'.wpos = p.length ∧ c'.limit = cmdSize ∧
      c'.buf = p ++ content.drop p.length ++ zeros (cmdSize - content.length) ∧ Frame c c' := by
  have hle := h.le
  have hf := h.fits
  have hl := h.limit
  have hp1 : 0 < p.length := List.length_pos_iff.2 h0
  have hlen : (copyAt c.mem (c.off + 0) p).length = c.mem.length := copyAt_length _ _ _ (by omega)
  refine ⟨{ c with mem := copyAt c.mem (c.off + 0) p, wpos := p.length }, ?_, rfl, hl, ?_,
    ⟨rfl, rfl, hlen, ?_⟩⟩
  · have hmin : min (c.limit - 0) p.length = p.length := by omega
    simp only [Cmd.write, ABuf.write, ABuf.resetWrite, hmin, List.take_length]
    rw [if_neg (by omega), if_neg (by omega)]
    simp
  · show slice (copyAt c.mem (c.off + 0) p) c.off c.limit = _
    rw [hl, slice_copyAt_inside _ _ _ _ _ (by omega) hf]
    have := h.window
    unfold ABuf.buf at this
    rw [hl] at this
    rw [this]
    unfold copyAt
    simp only [List.take_zero, List.nil_append, Nat.zero_add]
    rw [List.drop_append_of_le_length hp, List.append_assoc]
  · intro j hj
    show (copyAt c.mem (c.off + 0) p)[j]? = _
    rw [getElem?_copyAt _ _ _ _ (by omega), if_neg (by omega)]

/-- `sub`, `packet` and `com-packet` lengths stored by `Complete` for `n` bytes before padding. -/
theorem complete_numbers (n : Nat) (h : 56 ≤ n) (hn : n ≤ cmdSize) :
    (BitVec.ofNat 32 n - 56#32).toNat = n - 56 ∧
    (BitVec.ofNat 32 (up4 n) - 20#32 - 24#32).toNat = up4 n - 44 ∧
    (BitVec.ofNat 32 (up4 n) - 20#32).toNat = up4 n - 20 := by
  have hu : n ≤ up4 n ∧ up4 n ≤ n + 3 := by unfold up4; omega
  have hc : cmdSize = 61440 := rfl
  simp only [BitVec.toNat_sub, BitVec.toNat_ofNat]
  omega

theorem finish_win {c : ABuf} {content : Bytes} (h : Win c content) (h56 : 56 ≤ content.length) :
    ∃ c', Cmd.finish c = .ret (c', none) ∧ c'.wpos = 56 ∧ c'.limit = cmdSize ∧
      c'.buf = slice content 0 16 ++ beBytes 4 (up4 content.length - 20) ++ slice content 20 20
        ++ beBytes 4 (up4 content.length - 44) ++ slice content 44 8
        ++ beBytes 4 (content.length - 56)
        ++ (content.drop 56 ++ zeros (cmdSize - content.length)) ∧ Frame c c' := by
  have hle := h.le
  have hl := h.limit
  have hw := h.wpos
  have hu : content.length ≤ up4 content.length ∧ up4 content.length ≤ content.length + 3 := by
    unfold up4; omega
  have hu4 : up4 content.length ≤ cmdSize := by
    have : cmdSize = 61440 := rfl
    unfold up4; omega
  have h2 : Win { c with rpos := headerSize } content := ⟨hl, h.fits, hw, hle, h.window⟩
  obtain ⟨c1, e1, w1, f1⟩ := pad_win 4 h2 (by omega)
  have hlen1 : (content ++ zeros (up4 content.length - content.length)).length = up4 content.length := by
    simp; omega
  have hhdr : slice c.mem c.off headerSize = content.take 56 := by
    have hb := h.window
    have : slice c.mem c.off headerSize = slice c.buf 0 56 := by
      unfold ABuf.buf
      rw [slice_slice _ _ _ _ _ (by rw [hl]; decide)]
      rfl
    rw [this, hb]
    unfold slice
    rw [List.drop_zero, List.take_append_of_le_length h56]
  have hml : (content.take 56).length = 56 := by rw [List.length_take]; omega
  obtain ⟨n1, n2, n3⟩ := complete_numbers content.length h56 hle
  have hw1 : c1.wpos = up4 content.length := by rw [w1.wpos, hlen1]
  have hpk := repack (content.take 56) hml (BitVec.ofNat 32 (up4 content.length) - 20#32)
    (BitVec.ofNat 32 (up4 content.length) - 20#32 - 24#32) (BitVec.ofNat 32 content.length - 56#32)
  have hsl : ∀ a n, a + n ≤ 56 → slice (content.take 56) a n = slice content a n := by
    intro a n han
    have := slice_slice content 0 56 a n han
    simpa [slice] using this
  rw [n1, n2, n3, hsl 0 16 (by omega), hsl 20 20 (by omega), hsl 44 8 (by omega)] at hpk
  have hpl : (slice content 0 16 ++ beBytes 4 (up4 content.length - 20) ++ slice content 20 20
        ++ beBytes 4 (up4 content.length - 44) ++ slice content 44 8
        ++ beBytes 4 (content.length - 56)).length = 56 := by
    simp only [List.length_append, beBytes_length, slice_length content 0 16 (by omega),
      slice_length content 20 20 (by omega), slice_length content 44 8 (by omega)]
  obtain ⟨c2, e2, p2, l2, b2, f2⟩ := write_front w1
    (slice content 0 16 ++ beBytes 4 (up4 content.length - 20) ++ slice content 20 20
        ++ beBytes 4 (up4 content.length - 44) ++ slice content 44 8
        ++ beBytes 4 (content.length - 56)) (by simp [beBytes]) (by rw [hpl, hlen1]; omega)
  refine ⟨c2, ?_, by rw [p2, hpl], l2, ?_, ?_⟩
  · unfold Cmd.finish
    rw [if_neg (by rw [hl]; decide)]
    simp only [e1, hw1, hhdr]
    rw [hw, hpk, e2]
  · rw [b2, hpl, hlen1, List.drop_append_of_le_length h56, List.append_assoc _ _ (zeros _),
      List.append_assoc _ (zeros _) (zeros _), zeros_append]
    congr 3
    omega
  · have f1' : Frame c c1 := ⟨f1.base, f1.off, f1.len, f1.outside⟩
    exact f1'.trans f2

theorem complete_win {c : ABuf} {content : Bytes} (h : Win c content) (eod : Bool)
    (h56 : 56 ≤ content.length) (hfit : (content ++ trailer eod).length ≤ cmdSize) :
    ∃ c', Cmd.complete c eod = .ret (c', none) ∧ c'.wpos = 56 ∧ c'.limit = cmdSize ∧
      (let t := content ++ trailer eod
       c'.buf = slice t 0 16 ++ beBytes 4 (up4 t.length - 20) ++ slice t 20 20
        ++ beBytes 4 (up4 t.length - 44) ++ slice t 44 8 ++ beBytes 4 (t.length - 56)
        ++ (t.drop 56 ++ zeros (cmdSize - t.length))) ∧ Frame c c' := by
  cases eod with
  | false =>
    simp only [trailer, Bool.false_eq_true, if_false, List.append_nil] at hfit ⊢
    unfold Cmd.complete
    exact finish_win h h56
  | true =>
    simp only [trailer, if_true] at hfit ⊢
    obtain ⟨c1, e1, w1, f1⟩ := write_win h [0xf9, 0xf0, 0x00, 0x00, 0x00, 0xf1]
    rw [if_neg (by simp at hfit ⊢; omega)] at e1
    rw [List.take_of_length_le hfit] at w1
    obtain ⟨c2, e2, p2, l2, b2, f2⟩ := finish_win w1 (by simp; omega)
    refine ⟨c2, ?_, p2, l2, b2, f1.trans f2⟩
    unfold Cmd.complete
    simp only [if_true, e1, e2]

/-- Reading back the pieces of a 56-byte header whose lengths were patched. -/
theorem six_parts (a b c d e f g : Bytes) (ha : a.length = 16) (hb : b.length = 4)
    (hc : c.length = 20) (hd : d.length = 4) (he : e.length = 8) (hf : f.length = 4) :
    let all := a ++ b ++ c ++ d ++ e ++ f ++ g
    slice all 16 4 = b ∧ slice all 40 4 = d ∧ slice all 52 4 = f ∧ all.drop 56 = g ∧
    (∀ i, i < 16 → all[i]? = a[i]?) ∧ (∀ i, 20 ≤ i → i < 40 → all[i]? = c[i - 20]?) ∧
    (∀ i, 44 ≤ i → i < 52 → all[i]? = e[i - 44]?) := by
  intro all
  have e1 : all = a ++ (b ++ (c ++ d ++ e ++ f ++ g)) := by simp [all, List.append_assoc]
  have e2 : all = (a ++ b ++ c) ++ (d ++ (e ++ f ++ g)) := by simp [all, List.append_assoc]
  have e3 : all = (a ++ b ++ c ++ d ++ e) ++ (f ++ g) := by simp [all, List.append_assoc]
  have e4 : all = (a ++ b ++ c ++ d ++ e ++ f) ++ g := rfl
  have e5 : all = (a ++ b) ++ (c ++ (d ++ e ++ f ++ g)) := by simp [all, List.append_assoc]
  have e6 : all = (a ++ b ++ c ++ d) ++ (e ++ (f ++ g)) := by simp [all, List.append_assoc]
  refine ⟨?_, ?_, ?_, ?_, ?_, ?_, ?_⟩
  · rw [e1]; exact slice_mid _ _ _ _ _ (by omega) (by omega)
  · rw [e2]; exact slice_mid _ _ _ _ _ (by simp; omega) (by omega)
  · rw [e3]; exact slice_mid _ _ _ _ _ (by simp; omega) (by omega)
  · rw [e4]; exact drop_left' _ _ _ (by simp; omega)
  · intro i hi
    rw [e1, List.getElem?_append_left (by omega)]
  · intro i h1 h2
    rw [e5, List.getElem?_append_right (by simp; omega), List.getElem?_append_left (by simp; omega)]
    congr 1; simp; omega
  · intro i h1 h2
    rw [e6, List.getElem?_append_right (by simp; omega), List.getElem?_append_left (by simp; omega)]
    congr 1; simp; omega

end Dparm
